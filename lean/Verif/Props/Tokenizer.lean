import Verif.Lemmas.Tokenizer
import Verif.Props.ExprParse
import Verif.Spec.Expand
/-! # Tokens of a text -/
namespace Armips.Props
open Armips.Tokenizer
open Armips.ExprParse (Tok)
open Armips.Spec (Denotes Digits Reading)
open Armips.Spec.Tokenizer

variable (strtod : List Char → Option F64)

private theorem after_after (a b : List Tok) (r : Result) : (r.after b).after a = r.after (a ++ b) := by
  cases r <;> simp [Result.after]
private theorem after_ok (a b : List Tok) : (Result.ok b).after a = .ok (a ++ b) := rfl

private theorem finish_after (again : Bool → List Char → List (List Char) → Result) (equ sep : Bool) (cur : List Char) (rest : List (List Char))
    (a b : List Tok) : finish again equ sep cur rest (a ++ b) = (finish again equ sep cur rest b).after a := by
  unfold finish
  split
  · cases rest <;> cases sep <;> simp [after_after, after_ok]
  · rw [after_after]

private theorem round_nil (again : Bool → List Char → List (List Char) → Result) (rest : List (List Char)) :
    round strtod again false (skip' [] rest) = finish again false true [] rest [] := by
  rw [skip'_nil]; rfl

private theorem loop_line (n : Nat) (equ : Bool) {cur : List Char} {rest : List (List Char)} (h : cur ≠ [] ∨ rest ≠ []) :
    loop strtod (n + 1) equ cur rest = round strtod (loop strtod n) equ (skip' cur rest) := by
  rw [loop, if_neg]
  · rfl
  · simp only [Bool.and_eq_true, List.isEmpty_iff]
    rintro ⟨rfl, rfl⟩
    simp at h

/-- The rest of a round at a token. -/
private theorem round_token (again : Bool → List Char → List (List Char) → Result) (equ equ' : Bool) {cur l : List Char} (rest : List (List Char)) {t : Tok}
    (hs : Solid cur) (hc : ∃ c r, cur = c :: r ∧ c ≠ '\\') (hl : loadToken strtod equ cur = some (t, l, equ')) :
    round strtod again equ (skip' cur rest) = finish again equ' true l rest [t] := by
  rw [skip'_solid rest hs]
  obtain ⟨c, r, rfl, hc⟩ := hc
  unfold round
  simp only [Bool.false_eq_true, if_false]
  split
  · rename_i heq; rw [hl] at heq; cases heq
  · rename_i heq; rw [hl] at heq; cases heq
    rfl

/-- The end of a round that leads on to `l`. -/
private theorem finish_to {l : List Char} {rest : List (List Char)} {ts : List Tok} {n : Nat} (t : Tok) (hn : size l rest < n)
    (h : ∀ n ≥ size l rest, round strtod (loop strtod n) false (skip' l rest) = .ok ts) : finish (loop strtod n) false true l rest [t] = .ok (t :: ts) := by
  have := finish_after (loop strtod n) false true l rest [t] []
  rw [List.append_nil] at this
  rw [this]
  cases l with
  | nil =>
    rw [← round_nil strtod, h n (by omega)]
    rfl
  | cons c l =>
    obtain ⟨m, rfl⟩ : ∃ m, n = m + 1 := ⟨n - 1, by omega⟩
    simp only [finish, List.isEmpty_cons, Bool.false_eq_true, if_false]
    rw [loop_line strtod m false (.inl (by simp)), h m (by omega)]
    rfl

private theorem equText_all {v l : List Char} (h1 : ∀ a b, v = a ++ b → b ≠ [] → ¬ [';'] <+: b ++ l ∧ ¬ ['/', '/'] <+: b ++ l)
    (h2 : l = [] ∨ [';'] <+: l ∨ ['/', '/'] <+: l) : equText (v ++ l) = v := by
  induction v with
  | nil =>
    rcases h2 with rfl | ⟨x, rfl⟩ | ⟨x, rfl⟩ <;> rfl
  | cons c v ih =>
    have h := h1 [] (c :: v) rfl (by simp)
    have hc : isComment (c :: (v ++ l)) = false := by
      rw [isComment.eq_def]
      split
      · rename_i heq; exact absurd ⟨_, heq.symm⟩ h.1
      · rename_i heq; exact absurd ⟨_, heq.symm⟩ h.2
      · rfl
    rw [List.cons_append, equText, hc]
    simp only [Bool.false_eq_true, if_false]
    rw [ih fun a b e hb => h1 (c :: a) b (by rw [e]; rfl) hb]

private theorem skip'_blanks {g : List Char} (l : List Char) (rest : List (List Char)) (h : ∀ c ∈ g, c = ' ' ∨ c = '\t') : skip' (g ++ l) rest = skip' l rest := by
  induction g with
  | nil => rfl
  | cons c g ih =>
    rw [List.cons_append, skip'_blank _ _ (h c (by simp)), ih fun x hx => h x (by simp [hx])]

private theorem equ_name {s : List Char} (h : s.map Char.toLower = ['e', 'q', 'u']) : Name s := by
  have hb : ∀ c x : Char, c.toLower = x → 97 ≤ x.toNat ∧ x.toNat ≤ 122 → Begins c := by
    intro c x hc hx
    rw [begins_iff]
    have := toLower_toNat c
    rw [hc] at this
    split at this <;> omega
  obtain ⟨a, b, c, rfl⟩ : ∃ a b c, s = [a, b, c] := by
    have hlen : s.length = 3 := by simpa using congrArg List.length h
    cases s with
    | nil => simp at hlen
    | cons a s =>
      cases s with
      | nil => simp at hlen
      | cons b s =>
        cases s with
        | nil => simp at hlen
        | cons c s =>
          cases s with
          | nil => exact ⟨a, b, c, rfl⟩
          | cons d s => simp at hlen
  · simp only [List.map_cons, List.map_nil, List.cons.injEq, and_true] at h
    refine ⟨hb a _ h.1 (by decide), ?_⟩
    intro x hx
    simp only [List.mem_cons, List.not_mem_nil, or_false] at hx
    rcases hx with rfl | rfl
    · exact .inl (hb _ _ h.2.1 (by decide))
    · exact .inl (hb _ _ h.2.2 (by decide))

mutual
private theorem reads_round : ∀ {l : List Char} {rest : List (List Char)} {ts : List Tok}, Reads strtod l rest ts → ∀ n ≥ size l rest,
    round strtod (loop strtod n) false (skip' l rest) = .ok ts
  | _, _, _, .last, n, _ => by rw [round_nil]; rfl
  | _, _, _, .next h, n, hn => by
    rw [round_nil]
    simp only [finish, List.isEmpty_nil, if_true, List.nil_append]
    rw [size_next] at hn
    rw [reads_loop h n (by omega)]
    rfl
  | _, _, _, .blank hc h, n, hn => by
    rw [skip'_blank _ _ hc]
    rw [size_cons] at hn
    exact reads_round h n (by omega)
  | _, _, _, .comment (l := l) (rest := rest) hm h, n, hn => by
    rw [skip'_comment _ _ hm, ← skip'_nil]
    refine reads_round h n ?_
    rw [size_append] at hn
    have : size [] rest ≤ size l rest := Nat.add_le_add_right (Nat.zero_le _) _
    omega
  | _, _, _, .block hb h, n, hn => by
    have hs := behind_skipBlock hb
    rw [skip'_block hs]
    have := skipBlock_size hs
    rw [size_cons, size_cons] at hn
    exact reads_round h n (by omega)
  | _, _, _, .token (s := s) (l := l) ht h, n, hn => by
    obtain ⟨h1, ⟨c, r, hc, hc'⟩, h3⟩ := spells_load strtod ht
    rw [round_token strtod _ false false _ h1 ⟨c, r ++ l, by rw [hc]; rfl, hc'⟩ h3]
    refine finish_to strtod _ ?_ (reads_round h)
    rw [size_append, hc, List.length_cons] at hn
    omega
  | _, _, _, .equ (s := s) (g := g) (v := v) (l := l) (rest := rest) (ts := ts) hs hg hv hb hc hl h, n, hn => by
    have hname := equ_name hs
    have hbefore : Before (g ++ v ++ l) GoesOn := by
      intro x hx
      cases g with
      | nil => exact absurd rfl hg.1
      | cons y g =>
        cases hx
        rcases hg.2 x (by simp) with rfl | rfl <;> exact ⟨by decide, by unfold GoesOn Begins; decide⟩
    have hload := load_name strtod hname hbefore
    rw [if_pos hs] at hload
    have hlen : s.length = 3 := by simpa using congrArg List.length hs
    have hsol : Solid (s ++ (g ++ v ++ l)) ∧ ∃ c r, s ++ (g ++ v ++ l) = c :: r ∧ c ≠ '\\' := by
      cases s with
      | nil => simp at hlen
      | cons c s =>
        obtain ⟨_, _, _, h1, h2, h3, h4, _⟩ := begins_facts hname.1
        exact ⟨solid_cons _ h1 h2 h4, c, _, rfl, h3⟩
    have e : s ++ g ++ v ++ l = s ++ (g ++ v ++ l) := by simp
    rw [e] at hn ⊢
    rw [round_token strtod _ false true rest hsol.1 hsol.2 hload]
    obtain ⟨c, v', rfl, hc1, hc2, hc3⟩ := hv
    have hne : (g ++ c :: v' ++ l).isEmpty = false := by simp
    simp only [finish, hne, Bool.false_eq_true, if_false]
    rw [size_append] at hn
    obtain ⟨m, rfl⟩ : ∃ m, n = m + 1 := ⟨n - 1, by omega⟩
    rw [loop_line strtod m true (.inl (by simp))]
    have hsolid : Solid (c :: v' ++ l) := by
      refine ⟨?_, hb, c, v' ++ l, rfl, ?_⟩
      · have h := hc [] (c :: v') rfl (by simp)
        rw [List.cons_append, isComment.eq_def]
        split
        · rename_i heq; exact absurd ⟨_, heq.symm⟩ h.1
        · rename_i heq; exact absurd ⟨_, heq.symm⟩ h.2
        · rfl
      · simp [isBlank, hc1, hc2]
    have hload2 : loadToken strtod true (c :: v' ++ l) = some (.equValue (asBytes (c :: v')), l, false) := by
      simp only [loadToken, if_true]
      rw [equText_all hc hl, List.drop_left]
      rfl
    rw [List.append_assoc g, skip'_blanks _ rest hg.2, round_token strtod _ true false rest hsolid ⟨c, v' ++ l, rfl, hc3⟩ hload2]
    have hto : finish (loop strtod m) false true l rest [.equValue (asBytes (c :: v'))] = .ok (.equValue (asBytes (c :: v')) :: ts) := by
      refine finish_to strtod _ ?_ ?_
      · rw [size_append, List.length_append] at hn
        have : 1 ≤ g.length := by
          cases g with
          | nil => exact absurd rfl hg.1
          | cons _ _ => simp
        omega
      · intro k hk
        have hk' : k ≥ size [] rest := Nat.le_trans (Nat.add_le_add_right (Nat.zero_le _) _) hk
        have := reads_round h k hk'
        rcases hl with rfl | ⟨x, rfl⟩ | ⟨x, rfl⟩
        · exact this
        · rw [skip'_comment _ _ (.inl rfl), ← skip'_nil]; exact this
        · rw [skip'_comment _ _ (.inr rfl), ← skip'_nil]; exact this
    rw [hto]
    rfl
  | _, _, _, .continued (l := l) (rest := rest) (l' := l') (rest' := rest') hg h, n, hn => by
    rw [skip'_solid rest (solid_cons l (by decide) (by decide) rfl)]
    have hs := gap_skip hg
    have hz := gap_size hg
    rw [skip'] at hs
    unfold round
    simp only [hs, Bool.false_eq_true, if_false, List.nil_append, List.isEmpty_nil, if_true, finish]
    rw [size_cons] at hn
    rw [size_next] at hz
    rw [reads_loop h n (by omega)]
    rfl
  | _, _, _, .continuedLast (l := l) (rest := rest) hg, n, hn => by
    rw [skip'_solid rest (solid_cons l (by decide) (by decide) rfl)]
    have hs := gap_skip hg
    rw [skip'] at hs
    unfold round
    simp only [hs, Bool.false_eq_true, if_false, List.nil_append, List.isEmpty_nil, if_true, finish]
private theorem reads_loop : ∀ {l : List Char} {rest : List (List Char)} {ts : List Tok}, ReadsLine strtod l rest ts → ∀ n ≥ size l rest + 1,
    loop strtod n false l rest = .ok ts
  | _, _, _, .empty, n, hn => by
    obtain ⟨m, rfl⟩ : ∃ m, n = m + 1 := ⟨n - 1, by omega⟩
    simp [loop]
  | _, _, _, .line h0 h, n, hn => by
    obtain ⟨m, rfl⟩ : ∃ m, n = m + 1 := ⟨n - 1, by omega⟩
    rw [loop_line strtod m false h0]
    exact reads_round h m (by omega)
end

/-- **Tokens of a text.** Lines that hold tokens by the lexical rules are read as these tokens. -/
theorem tokens_read_partial {strtod : List Char → Option F64} {ls : List (List Char)} {ts : List Tok} (h : Holds strtod ls ts) :
    tokenize strtod ls = .ok ts := by
  cases ls with
  | nil => exact h.elim
  | cons l rest => exact reads_loop strtod h _ (by omega)

/-- A text holds at most one list of tokens. -/
theorem tokens_unique {strtod : List Char → Option F64} {ls : List (List Char)} {ts ts' : List Tok} (h : Holds strtod ls ts) (h' : Holds strtod ls ts') : ts = ts' := by
  have := tokens_read_partial h
  rw [tokens_read_partial h'] at this
  exact (Result.ok.inj this).symm

/-- **The tokenizer ends.** The bound on the number of rounds in the model is never reached. -/
theorem tokens_total (strtod : List Char → Option F64) (ls : List (List Char)) : tokenize strtod ls ≠ .more := by
  cases ls with
  | nil => simp [tokenize]
  | cons l rest => exact loop_enough strtod _ _ _ _ (by omega)

/-! ### Names -/

private def Fine : Tok → Prop
  | .ident n => KeptName n
  | _ => True

private theorem operator_fine {cur l : List Char} {t : Tok} (h : parseOperator cur = some (t, l)) : Fine t := by
  rw [parseOperator.eq_def] at h
  split at h <;> first | (cases h; trivial) | cases h

private theorem number_fine {cur l : List Char} {t : Tok} (h : loadNumber strtod cur = some (t, l)) : Fine t := by
  unfold loadNumber at h
  simp only at h
  repeat' split at h
  all_goals first | (cases h; trivial) | cases h

private theorem lower_kept (b : Byte) (first : Bool) (h : SymTab.isValidSymbolCharacter b first = true) :
    ((97 ≤ (lower b).toNat ∧ (lower b).toNat ≤ 122) ∨ (48 ≤ (lower b).toNat ∧ (lower b).toNat ≤ 57) ∨ (lower b).toNat = 95 ∨ (lower b).toNat = 46 ∨ (lower b).toNat = 64) ∧
      (first = true → ¬(48 ≤ (lower b).toNat ∧ (lower b).toNat ≤ 57)) := by
  revert first
  have : ∀ b : Byte, ∀ first : Bool, SymTab.isValidSymbolCharacter b first = true →
      ((97 ≤ (lower b).toNat ∧ (lower b).toNat ≤ 122) ∨ (48 ≤ (lower b).toNat ∧ (lower b).toNat ≤ 57) ∨ (lower b).toNat = 95 ∨ (lower b).toNat = 46 ∨ (lower b).toNat = 64) ∧
      (first = true → ¬(48 ≤ (lower b).toNat ∧ (lower b).toNat ≤ 57)) := by decide +kernel
  exact this b

private theorem ident_fine (c : Char) (r : List Char) (h : identText (c :: r) ≠ []) : KeptName ((bytes (identText (c :: r))).map lower) := by
  rw [identText] at h ⊢
  split
  · rename_i hc
    refine ⟨by simp [bytes], ?_, ?_⟩
    · intro b hb
      simp only [bytes, List.map_map, List.mem_map, List.mem_cons] at hb
      obtain ⟨x, hx, rfl⟩ := hb
      rcases hx with rfl | hx
      · exact (lower_kept _ _ hc).1
      · have := List.all_eq_true.mp List.all_takeWhile x hx
        exact (lower_kept _ _ this).1
    · intro b hb
      simp only [bytes, List.map_cons, List.head?_cons, Option.some.injEq] at hb
      subst hb
      exact (lower_kept _ _ hc).2 rfl
  · rename_i hc
    rw [if_neg hc] at h
    exact absurd rfl h

private theorem token_fine {equ equ' : Bool} {cur l : List Char} {t : Tok} (h : loadToken strtod equ cur = some (t, l, equ')) : Fine t := by
  cases equ with
  | true =>
    simp only [loadToken, if_true, Option.some.injEq, Prod.mk.injEq] at h
    rw [← h.1]; trivial
  | false =>
    cases ho : parseOperator cur with
    | some x =>
      obtain ⟨t', l'⟩ := x
      rw [load_operator strtod ho] at h
      cases h
      exact operator_fine ho
    | none =>
      have other : ∀ (c : Char) (r : List Char) (x : Option (Tok × List Char × Bool)), (x =
          if isDigit c then (loadNumber strtod (c :: r)).map fun r => (r.1, r.2, false)
          else
            match identText (c :: r) with
            | [] => (decodeUtf8 (c :: r)).map fun y => (.invalid, (c :: r).drop y.2, false)
            | text =>
              if (bytes text).map lower = lit "equ" then some (.equ, (c :: r).drop text.length, true)
              else some (.ident ((bytes text).map lower), (c :: r).drop text.length, false)) → x = some (t, l, equ') → Fine t := by
        rintro c r x rfl hx
        split at hx
        · simp only [Option.map_eq_some_iff] at hx
          obtain ⟨⟨a, b⟩, ha, hb⟩ := hx
          cases hb
          exact number_fine strtod ha
        · split at hx
          · simp only [Option.map_eq_some_iff] at hx
            obtain ⟨⟨a, b⟩, ha, hb⟩ := hx
            cases hb
            trivial
          · rename_i hne
            split at hx
            · cases hx; trivial
            · cases hx
              exact ident_fine c r hne
      simp only [loadToken, Bool.false_eq_true, if_false, ho] at h
      split at h
      · split at h
        · cases h
        · split at h
          · cases h
          · split at h
            · cases h; trivial
            · exact other _ _ _ rfl h
      · split at h
        · split at h
          · cases h; trivial
          · cases h; trivial
        · cases h
        · exact other _ _ _ rfl h

private theorem after_fine {ts ts' : List Tok} {r : Result} (h : ∀ t ∈ ts, Fine t) (hr : ∀ us, r = .ok us → ∀ t ∈ us, Fine t)
    (h' : r.after ts = .ok ts') : ∀ t ∈ ts', Fine t := by
  cases r with
  | more => cases h'
  | ub => cases h'
  | ok us =>
    cases h'
    intro t ht
    rcases List.mem_append.mp ht with ht | ht
    · exact h t ht
    · exact hr us rfl t ht

private theorem loop_fine : ∀ (n : Nat) (equ : Bool) (cur : List Char) (rest : List (List Char)) (ts : List Tok), loop strtod n equ cur rest = .ok ts → ∀ t ∈ ts, Fine t
  | 0, _, _, _, _, h => by cases h
  | n + 1, equ, cur, rest, ts, h => by
    have fin : ∀ (e sep : Bool) (l : List Char) (r : List (List Char)) (us : List Tok), (∀ t ∈ us, Fine t) →
        finish (loop strtod n) e sep l r us = .ok ts → ∀ t ∈ ts, Fine t := by
      intro e sep l r us hu hf
      have hu' : ∀ t ∈ (if sep = true then us ++ [Tok.separator] else us), Fine t := by
        intro t ht
        split at ht
        · rcases List.mem_append.mp ht with ht | ht
          · exact hu t ht
          · simp only [List.mem_singleton] at ht; subst ht; trivial
        · exact hu t ht
      unfold finish at hf
      split at hf
      · split at hf
        · cases hf; exact hu'
        · exact after_fine hu' (fun us h => loop_fine n _ _ _ us h) hf
      · exact after_fine hu (fun us h => loop_fine n _ _ _ us h) hf
    rw [loop] at h
    split at h
    · cases h; simp
    · generalize skip (size cur rest + 1) cur rest = s at h
      have hbad : ∀ t ∈ (if s.2.2 = true then [Tok.invalid] else []), Fine t := by
        intro t ht
        split at ht
        · simp only [List.mem_singleton] at ht; subst ht; trivial
        · simp at ht
      unfold round at h
      simp only at h
      split at h
      · exact fin _ _ _ _ _ hbad h
      · refine fin _ _ _ _ _ ?_ h
        intro t ht
        rcases List.mem_append.mp ht with ht | ht
        · rcases List.mem_append.mp ht with ht | ht
          · exact hbad t ht
          · split at ht
            · simp only [List.mem_singleton] at ht; subst ht; trivial
            · simp at ht
        · split at ht
          · simp at ht
          · simp only [List.mem_singleton] at ht; subst ht; trivial
      · split at h
        · cases h
        · rename_i hl
          refine fin _ _ _ _ _ ?_ h
          intro t ht
          rcases List.mem_append.mp ht with ht | ht
          · exact hbad t ht
          · simp only [List.mem_singleton] at ht; subst ht; exact token_fine strtod hl

/-- **Names.** Whatever the text is, every name among its tokens is written with small letters, digits, `_`, `.` and `@`, and does not begin with
a digit. -/
theorem tokens_names {strtod : List Char → Option F64} {ls : List (List Char)} {ts : List Tok} {n : Str} (h : tokenize strtod ls = .ok ts)
    (hn : .ident n ∈ ts) : KeptName n := by
  cases ls with
  | nil => cases h; simp at hn
  | cons l rest => exact loop_fine strtod _ _ _ _ _ h _ hn

/-- Tokens of a text meet the condition under which the replacement of equs and macro parameters is proved (`Props/Expand.lean`). -/
theorem tokens_small {strtod : List Char → Option F64} {ls : List (List Char)} {ts : List Tok} (h : tokenize strtod ls = .ok ts) :
    Spec.Expand.SmallToks ts := by
  intro n hn b hb
  have := (tokens_names h hn).2.1 b hb
  omega

/-! ### The text of an expression -/

private theorem asText_asBytes {s : List Char} (h : ∀ c ∈ s, c.toNat < 256) : asText (asBytes s) = s := by
  simp only [asText, asBytes, List.map_map]
  conv => rhs; rw [← List.map_id s]
  apply List.map_congr_left
  intro c hc
  simp only [Function.comp, byte_toNat (h c hc), Char.ofNat_toNat, id]

private theorem byteChar (b : Byte) : (Char.ofNat b.toNat).toNat = b.toNat := ofNat_toNat b.isLt

private theorem asBytes_asText (s : Str) : asBytes (asText s) = s := by
  simp only [asText, asBytes, List.map_map]
  conv => rhs; rw [← List.map_id s]
  apply List.map_congr_left
  intro b _
  simp only [Function.comp, byteChar, id, BitVec.ofNat_toNat, BitVec.setWidth_eq]

private theorem asText_append (a b : Str) : asText (a ++ b) = asText a ++ asText b := by simp [asText]

/-- An operator, if it does not go on. -/
private theorem op_spells {s : List Char} {t : Tok} {l : List Char} (h : (s, t) ∈ operators) (hl : ∀ d, l.head? = some d → s ++ [d] ∉ marks) :
    Spells strtod t s l := by
  refine .operator h fun m hm hlen hp => ?_
  have h1 : 1 ≤ s.length := by
    have : ∀ x ∈ operators, 1 ≤ x.1.length := by decide
    exact this _ h
  have h2 : m.length ≤ 2 := by
    have : ∀ x ∈ marks, x.length ≤ 2 := by decide
    exact this _ hm
  obtain ⟨r, rfl⟩ := List.prefix_of_prefix_length_le (List.prefix_append s l) hp (by omega)
  rw [List.length_append] at hlen h2
  obtain ⟨d, rfl⟩ : ∃ d, r = [d] := by
    cases r with
    | nil => simp at hlen
    | cons d r =>
      cases r with
      | nil => exact ⟨d, rfl⟩
      | cons _ _ => simp at h2; omega
  obtain ⟨x, hx⟩ := hp
  rw [List.append_assoc, List.append_cancel_left_eq] at hx
  exact hl d (by rw [← hx]; rfl) hm

private theorem op_blank {s : List Char} {t : Tok} (l : List Char) (h : (s, t) ∈ operators) : Spells strtod t s (' ' :: l) := by
  refine op_spells strtod h fun d hd hm => ?_
  cases hd
  have : ∀ x ∈ marks, ' ' ∉ x := by decide
  exact this _ hm (by simp)

/-- What follows an operand in the text of an expression. -/
private def Stop (l : List Char) : Prop := ∀ c, l.head? = some c → c = ' ' ∨ c = ')'

private theorem stop_before {l : List Char} {p : Char → Prop} (h : Stop l) (h1 : ¬ p ' ') (h2 : ¬ p ')') : Before l p := by
  intro c hc
  rcases h c hc with rfl | rfl
  · exact ⟨by decide, h1⟩
  · exact ⟨by decide, h2⟩

private theorem digitChar_value {n : Nat} (h : n < 10) : Armips.Spec.digitValue (Nat.digitChar n) = some n := by
  have : ∀ n : Fin 10, Armips.Spec.digitValue (Nat.digitChar n) = some n.val := by decide
  exact this ⟨n, h⟩

private theorem decimal_digits (n : Nat) : Digits 10 (Nat.toDigits 10 n) n := by
  induction n using Nat.strongRecOn with
  | ind n ih =>
    rw [Nat.toDigits_eq_if (by omega)]
    split
    · rename_i h
      have := Digits.snoc (b := 10) .nil (digitChar_value h) h
      simpa using this
    · have := Digits.snoc (ih (n / 10) (by omega)) (digitChar_value (Nat.mod_lt n (by omega))) (Nat.mod_lt n (by omega))
      rwa [Nat.div_add_mod'] at this

private theorem decimal_denotes (n : Nat) : Denotes (Nat.toDigits 10 n) n := by
  have hd : ∀ c ∈ Nat.toDigits 10 n, c.isDigit = true := fun c hc => Nat.isDigit_of_mem_toDigits (by omega) (by omega) hc
  refine ⟨10, _, .decimal Nat.toDigits_ne_nil ?_ ?_, decimal_digits n⟩
  · intro x hx
    have := hd x (List.mem_of_getLast? hx)
    refine ⟨?_, ?_, ?_, ?_, ?_, ?_⟩ <;> (rintro rfl; exact absurd this (by decide))
  · intro p rest hp
    have := hd p (by rw [hp]; simp)
    refine ⟨?_, ?_, ?_, ?_, ?_, ?_⟩ <;> (rintro rfl; exact absurd this (by decide))

private theorem fmtD_text {v : Int} (h : 0 ≤ v) : ∃ n : Nat, v = n ∧ asText (fmtD v) = Nat.toDigits 10 n := by
  obtain ⟨n, rfl⟩ := Int.eq_ofNat_of_zero_le h
  refine ⟨n, rfl, ?_⟩
  have : (toString (n : Int)).toList = Nat.toDigits 10 n := by
    show (n.repr).toList = _
    exact Nat.toList_repr
  unfold fmtD lit
  rw [this]
  refine asText_asBytes fun c hc => ?_
  have := (isDigit_iff c).mp (Nat.isDigit_of_mem_toDigits (by omega) (by omega) hc)
  omega

private theorem kept_name {n : Str} (h : KeptName n) : Name (asText n) ∧ (asText n).map Char.toLower = asText n := by
  obtain ⟨h0, h1, h2⟩ := h
  have on : ∀ b ∈ n, GoesOn (Char.ofNat b.toNat) := by
    intro b hb
    have := h1 b hb
    unfold GoesOn
    rw [begins_iff, isDigit_iff, byteChar]
    omega
  constructor
  · cases n with
    | nil => exact absurd rfl h0
    | cons b n =>
      refine ⟨?_, ?_⟩
      · have := h1 b (by simp)
        have := h2 b rfl
        rw [begins_iff, byteChar]
        omega
      · intro x hx
        simp only [List.mem_map] at hx
        obtain ⟨y, hy, rfl⟩ := hx
        exact on y (by simp [hy])
  · simp only [asText, List.map_map]
    apply List.map_congr_left
    intro b hb
    have := h1 b hb
    apply Char.toNat_inj.mp
    simp only [Function.comp, toLower_toNat, byteChar]
    rw [if_neg (by omega)]

private theorem quoted_plain {s : List Char} (h : ∀ c ∈ s, c ≠ '"' ∧ c ≠ '\\') : Quoted s s := by
  induction s with
  | nil => exact .nil
  | cons c s ih => exact .plain (h c (by simp)).1 (h c (by simp)).2 (ih fun x hx => h x (by simp [hx]))

private theorem bin_operator (op : BinOp) : (op.symbol.toList, (Spec.ExprParse.symbol op).1) ∈ operators := by cases op <;> decide
private theorem un_operator (op : UnOp) : (op.symbol.toList, Spec.ExprParse.unSymbol op) ∈ operators := by cases op <;> decide
private theorem bin_text (op : BinOp) : asText (lit op.symbol) = op.symbol.toList := by cases op <;> decide
private theorem text_blank : asText (lit " ") = [' '] := by decide
private theorem text_question : asText (lit " ? ") = [' ', '?', ' '] := by decide
private theorem text_colon : asText (lit " : ") = [' ', ':', ' '] := by decide
private theorem text_open : asText [chr '('] = ['('] := by decide
private theorem text_close : asText [chr ')'] = [')'] := by decide
private theorem un_text (op : UnOp) : asText (lit op.symbol) = op.symbol.toList := by cases op <;> decide

variable {strtod}

/-- The text of an expression holds its tokens, whatever follows. -/
private theorem printed_reads (H : Host) : ∀ (e : Expr), Printable e → ∃ s, e.render H = some s ∧ (∃ c r, asText s = c :: r ∧ c ≠ '=') ∧
    ∀ {l : List Char} {rest : List (List Char)} {ts : List Tok}, Stop l → Reads strtod l rest ts →
      Reads strtod (asText s ++ l) rest (Spec.ExprParse.full e ++ ts)
  | .invalid, h => h.elim
  | .float _, h => h.elim
  | .call _ _, h => h.elim
  | .int v, h => by
    obtain ⟨n, rfl, ht⟩ := fmtD_text h.1
    obtain ⟨c, r, hc⟩ : ∃ c r, Nat.toDigits 10 n = c :: r := List.exists_cons_of_ne_nil Nat.toDigits_ne_nil
    have hcd : c.isDigit = true := Nat.isDigit_of_mem_toDigits (n := n) (b := 10) (by omega) (by omega) (by rw [hc]; simp)
    refine ⟨_, rfl, ⟨c, r, by rw [ht, hc], ?_⟩, ?_⟩
    · rintro rfl; exact absurd hcd (by decide)
    · intro l rest ts hl hr
      rw [ht]
      exact .token (.integer ⟨c, by rw [hc]; rfl, hcd⟩ (decimal_denotes n) (by have := h.2; omega) (stop_before hl (by decide) (by decide))) hr
  | .ident n f s, h => by
    obtain ⟨h1, h2⟩ := kept_name h.1
    obtain ⟨c, r, hc⟩ : ∃ c r, asText n = c :: r := by
      cases hn : asText n with
      | nil => rw [hn] at h1; exact h1.elim
      | cons c r => exact ⟨c, r, rfl⟩
    refine ⟨n, rfl, ⟨c, r, hc, ?_⟩, ?_⟩
    · rintro rfl
      rw [hc] at h1
      exact absurd h1.1 (by unfold Begins; decide)
    · intro l rest ts hl hr
      have hs : Spells strtod (.ident (asBytes ((asText n).map Char.toLower))) (asText n) l := by
        refine .name h1 ?_ (stop_before hl (by unfold GoesOn Begins; decide) (by unfold GoesOn Begins; decide))
        rw [h2]
        intro he
        have := congrArg asBytes he
        rw [asBytes_asText] at this
        exact h.2 this
      rw [h2, asBytes_asText] at hs
      exact .token hs hr
  | .str s, h => by
    have hq : Quoted (asText s) (asText s) := by
      apply quoted_plain
      intro c hc
      simp only [asText, List.mem_map] at hc
      obtain ⟨b, hb, rfl⟩ := hc
      have := h b hb
      rw [ne_eq, ne_eq, char_eq_iff, char_eq_iff, byteChar]
      exact this
    have ht : asText (chr '"' :: s ++ [chr '"']) = '"' :: asText s ++ ['"'] := by
      rw [asText_append]; rfl
    refine ⟨_, rfl, ⟨'"', _, by rw [ht]; rfl, by decide⟩, ?_⟩
    intro l rest ts hl hr
    have hs := Spells.string (strtod := strtod) (l := l) hq
    rw [asBytes_asText] at hs
    rw [ht]
    exact .token hs hr
  | .memoryPos, _ => by
    refine ⟨_, rfl, ⟨'.', [], by decide, by decide⟩, ?_⟩
    intro l rest ts hl hr
    have hs : Spells strtod (.ident (asBytes (['.'].map Char.toLower))) ['.'] l :=
      .name ⟨by unfold Begins; decide, by simp⟩ (by decide) (stop_before hl (by unfold GoesOn Begins; decide) (by unfold GoesOn Begins; decide))
    exact .token hs hr
  | .un op a, h => by
    obtain ⟨s, h1, ⟨c, r, h2, h3⟩, h4⟩ := printed_reads H a h
    refine ⟨chr '(' :: lit op.symbol ++ s ++ [chr ')'], by simp [Expr.render, h1], ⟨'(', _, rfl, by decide⟩, ?_⟩
    intro l rest ts hl hr
    have e1 : asText (chr '(' :: lit op.symbol ++ s ++ [chr ')']) ++ l = ['('] ++ (op.symbol.toList ++ (asText s ++ ([')'] ++ l))) := by
      rw [asText_append, asText_append, show chr '(' :: lit op.symbol = [chr '('] ++ lit op.symbol from rfl, asText_append, un_text]
      simp [asText]; decide
    rw [e1]
    simp only [Spec.ExprParse.full, List.cons_append, List.append_assoc, List.nil_append]
    refine .token (s := ['(']) (op_spells strtod (by decide) ?_) (.token (op_spells strtod (un_operator op) ?_) (h4 ?_ (.token (s := [')']) (op_spells strtod (by decide) ?_) hr)))
    · intro d _ hm
      have : ∀ m ∈ marks, m.length = 2 → m.head? ≠ some '(' := by decide
      exact this _ hm rfl rfl
    · intro d hd hm
      rw [h2] at hd
      cases hd
      cases op
      · have : ∀ m ∈ marks, m.length = 2 → m.head? ≠ some '-' := by decide
        exact this _ hm rfl rfl
      · have : ∀ m ∈ marks, m.length = 2 → m.head? = some '!' → m = ['!', '='] := by decide
        have := this _ hm rfl rfl
        exact h3 (List.cons.inj (List.cons.inj this).2).1
      · have : ∀ m ∈ marks, m.length = 2 → m.head? ≠ some '~' := by decide
        exact this _ hm rfl rfl
    · intro c hc; cases hc; exact .inr rfl
    · intro d _ hm
      have : ∀ m ∈ marks, m.length = 2 → m.head? ≠ some ')' := by decide
      exact this _ hm rfl rfl
  | .bin op a b, h => by
    obtain ⟨s, h1, _, h4⟩ := printed_reads H a h.1
    obtain ⟨s', h1', _, h4'⟩ := printed_reads H b h.2
    refine ⟨chr '(' :: s ++ lit " " ++ lit op.symbol ++ lit " " ++ s' ++ [chr ')'], by simp [Expr.render, h1, h1'], ⟨'(', _, rfl, by decide⟩, ?_⟩
    intro l rest ts hl hr
    have e1 : asText (chr '(' :: s ++ lit " " ++ lit op.symbol ++ lit " " ++ s' ++ [chr ')']) ++ l =
        ['('] ++ (asText s ++ (' ' :: (op.symbol.toList ++ (' ' :: (asText s' ++ ([')'] ++ l)))))) := by
      rw [show chr '(' :: s = [chr '('] ++ s from rfl]
      simp only [asText_append, bin_text, text_blank, text_open, text_close]
      simp
    rw [e1]
    simp only [Spec.ExprParse.full, List.cons_append, List.append_assoc, List.nil_append]
    refine .token (s := ['(']) (op_spells strtod (by decide) ?_) (h4 ?_ (.blank (.inl rfl) (.token (op_blank strtod _ (bin_operator op)) (.blank (.inl rfl)
      (h4' ?_ (.token (s := [')']) (op_spells strtod (by decide) ?_) hr))))))
    · intro d _ hm
      have : ∀ m ∈ marks, m.length = 2 → m.head? ≠ some '(' := by decide
      exact this _ hm rfl rfl
    · intro c hc; cases hc; exact .inl rfl
    · intro c hc; cases hc; exact .inr rfl
    · intro d _ hm
      have : ∀ m ∈ marks, m.length = 2 → m.head? ≠ some ')' := by decide
      exact this _ hm rfl rfl
  | .cond a b c, h => by
    obtain ⟨s, h1, _, h4⟩ := printed_reads H a h.1
    obtain ⟨s', h1', _, h4'⟩ := printed_reads H b h.2.1
    obtain ⟨s'', h1'', _, h4''⟩ := printed_reads H c h.2.2
    refine ⟨chr '(' :: s ++ lit " ? " ++ s' ++ lit " : " ++ s'' ++ [chr ')'], by simp [Expr.render, h1, h1', h1''], ⟨'(', _, rfl, by decide⟩, ?_⟩
    intro l rest ts hl hr
    have e1 : asText (chr '(' :: s ++ lit " ? " ++ s' ++ lit " : " ++ s'' ++ [chr ')']) ++ l =
        ['('] ++ (asText s ++ (' ' :: (['?'] ++ (' ' :: (asText s' ++ (' ' :: ([':'] ++ (' ' :: (asText s'' ++ ([')'] ++ l)))))))))) := by
      rw [show chr '(' :: s = [chr '('] ++ s from rfl]
      simp only [asText_append, text_question, text_colon, text_open, text_close]
      simp
    rw [e1]
    simp only [Spec.ExprParse.full, List.cons_append, List.append_assoc, List.nil_append]
    refine .token (s := ['(']) (op_spells strtod (by decide) ?_) (h4 ?_ (.blank (.inl rfl) (.token (s := ['?']) (op_blank strtod _ (by decide)) (.blank (.inl rfl)
      (h4' ?_ (.blank (.inl rfl) (.token (s := [':']) (op_blank strtod _ (by decide)) (.blank (.inl rfl)
      (h4'' ?_ (.token (s := [')']) (op_spells strtod (by decide) ?_) hr))))))))))
    · intro d _ hm
      have : ∀ m ∈ marks, m.length = 2 → m.head? ≠ some '(' := by decide
      exact this _ hm rfl rfl
    · intro c hc; cases hc; exact .inl rfl
    · intro c hc; cases hc; exact .inl rfl
    · intro c hc; cases hc; exact .inr rfl
    · intro d _ hm
      have : ∀ m ∈ marks, m.length = 2 → m.head? ≠ some ')' := by decide
      exact this _ hm rfl rfl
  | .toString_ a, h => by
    obtain ⟨s, h1, _, h4⟩ := printed_reads H a h
    refine ⟨chr '(' :: 0xC2#8 :: 0xB0#8 :: s ++ [chr ')'], by simp [Expr.render, h1], ⟨'(', _, rfl, by decide⟩, ?_⟩
    intro l rest ts hl hr
    have e1 : asText (chr '(' :: 0xC2#8 :: 0xB0#8 :: s ++ [chr ')']) ++ l =
        ['('] ++ ([Char.ofNat 0xC2, Char.ofNat 0xB0] ++ (asText s ++ ([')'] ++ l))) := by
      rw [asText_append]
      simp [asText]; decide
    rw [e1]
    simp only [Spec.ExprParse.full, List.cons_append, List.append_assoc, List.nil_append]
    refine .token (s := ['(']) (op_spells strtod (by decide) ?_) (.token (s := [Char.ofNat 0xC2, Char.ofNat 0xB0]) (op_spells strtod (by decide) ?_)
      (h4 ?_ (.token (s := [')']) (op_spells strtod (by decide) ?_) hr)))
    · intro d _ hm
      have : ∀ m ∈ marks, m.length = 2 → m.head? ≠ some '(' := by decide
      exact this _ hm rfl rfl
    · intro d _ hm
      have : ∀ m ∈ marks, m.length ≤ 2 := by decide
      exact absurd (this _ hm) (by simp)
    · intro c hc; cases hc; exact .inr rfl
    · intro d _ hm
      have : ∀ m ∈ marks, m.length = 2 → m.head? ≠ some ')' := by decide
      exact this _ hm rfl rfl

/-- **Round trip of expressions through their text.** The text of an expression, read as a line of a source file, gives the tokens of the
expression, and they are parsed as the same expression. -/
theorem expr_text_roundtrip_partial {H : Host} {E : Armips.ExprParse.Env} {e : Expr} (hw : Spec.ExprParse.Writable E e) (hp : Printable e)
    (strtod : List Char → Option F64) :
    ∃ s, e.render H = some s ∧ tokenize strtod [asText s] = .ok (Spec.ExprParse.full e ++ [.separator]) ∧
      Armips.ExprParse.parse E (Spec.ExprParse.full e ++ [.separator]) = (some e, [.separator]) := by
  obtain ⟨s, h1, ⟨c, r, h2, _⟩, h3⟩ := printed_reads (strtod := strtod) H e hp
  refine ⟨s, h1, ?_, ?_⟩
  · apply tokens_read_partial
    refine .line (.inl (by rw [h2]; simp)) ?_
    have := h3 (l := []) (rest := []) (ts := [.separator]) (by intro c hc; simp at hc) .last
    rwa [List.append_nil] at this
  · refine expr_read (writes_le (full_writes E e hw) (by omega) (by omega)) ⟨?_, ?_⟩ ?_
    · intro op h
      cases op <;> cases h
    · intro _ h; cases h
    · intro i n _ _ h; cases h

/-! ### Errors -/

private theorem skipBlock_none {b : List Char} {rest : List (List Char)} (h : ∀ l ∈ b :: rest, NoEnd l) : skipBlock b rest = none := by
  induction rest generalizing b with
  | nil => simp [skipBlock, blockEnd_none (h b (by simp))]
  | cons next rest ih =>
    simp only [skipBlock, blockEnd_none (h b (by simp))]
    exact ih fun l hl => h l (by simp [List.mem_cons.mp hl])

/-- A block comment that is never closed is an error. -/
theorem tokens_unclosed_comment (strtod : List Char → Option F64) {b : List Char} {rest : List (List Char)} (h : ∀ l ∈ b :: rest, NoEnd l) :
    tokenize strtod (('/' :: '*' :: b) :: rest) = .ok [.invalid, .separator] := by
  rw [tokenize, loop_line strtod _ false (.inl (by simp)), skip', skip_step, if_neg (by simp [isComment])]
  simp only [skipBlock_none h]
  rfl

/-- A string that is not closed on its line is an error. -/
theorem tokens_unclosed_string (strtod : List Char → Option F64) {l : List Char} {rest : List (List Char)} {ts : List Tok}
    (h : ¬ ∃ t m r, Quoted t m ∧ l = t ++ '"' :: r) (ht : tokenize strtod (('"' :: l) :: rest) = .ok ts) : ts.head? = some .invalid := by
  have hn : ∀ l : List Char, stringBody l ≠ none → ∃ t m r, Quoted t m ∧ l = t ++ '"' :: r := by
    intro l
    induction l using stringBody.induct with
    | case1 => intro h; exact absurd rfl h
    | case2 l ih =>
      intro h
      obtain ⟨t, m, r, hq, rfl⟩ := ih (by intro hb; exact h (by simp [stringBody, hb]))
      exact ⟨_, _, r, .quote hq, rfl⟩
    | case3 l ih =>
      intro h
      obtain ⟨t, m, r, hq, rfl⟩ := ih (by intro hb; exact h (by simp [stringBody, hb]))
      exact ⟨_, _, r, .back hq, rfl⟩
    | case4 l => intro _; exact ⟨[], [], l, .nil, rfl⟩
    | case5 c l h1 h2 h3 ih =>
      intro h
      have hb : stringBody l ≠ none := by
        intro hb
        apply h
        rw [stringBody.eq_def]
        split
        · rfl
        · rename_i heq; obtain ⟨rfl, rfl⟩ := List.cons.inj heq; exact (h1 _ rfl rfl).elim
        · rename_i heq; obtain ⟨rfl, rfl⟩ := List.cons.inj heq; exact (h2 _ rfl rfl).elim
        · rename_i heq; obtain ⟨rfl, rfl⟩ := List.cons.inj heq; exact (h3 rfl).elim
        · rename_i heq; obtain ⟨rfl, rfl⟩ := List.cons.inj heq; rw [hb]; rfl
      obtain ⟨t, m, r, hq, rfl⟩ := ih hb
      by_cases hc : c = '\\'
      · subst hc
        cases hq with
        | nil => exact (h1 _ rfl rfl).elim
        | quote hq => exact (h2 _ rfl rfl).elim
        | back hq => exact (h2 _ rfl rfl).elim
        | plain a b hq => exact ⟨_, _, r, .lone a b hq, rfl⟩
        | lone a b hq => exact (h2 _ rfl rfl).elim
      · exact ⟨_, _, r, .plain (fun e => h3 e) hc hq, rfl⟩
  have hs : stringBody l = none := by
    cases hb : stringBody l with
    | none => rfl
    | some x => exact absurd (hn l (by rw [hb]; simp)) h
  have hl : loadToken strtod false ('"' :: l) = some (.invalid, [], false) := by rw [load_string, hs]
  rw [tokenize, loop_line strtod _ false (.inl (by simp)),
    round_token strtod _ false false rest (solid_cons l (by decide) (by decide) rfl) ⟨_, _, rfl, by decide⟩ hl] at ht
  unfold finish at ht
  simp only [List.isEmpty_nil, if_true] at ht
  cases rest with
  | nil => cases ht; rfl
  | cons l' rest =>
    simp only at ht
    cases hr : loop strtod (size ('"' :: l) (l' :: rest) + 1) false l' rest with
    | more => rw [hr] at ht; cases ht
    | ub => rw [hr] at ht; cases ht
    | ok us => rw [hr] at ht; cases ht; rfl

/-! ### Where the code goes another way -/

/-- A quotation mark at the end of a line is read past the end of the string: `linePos+2` is not checked. -/
theorem tokens_quote_wrong (strtod : List Char → Option F64) : tokenize strtod ["'".toList] = .ub := rfl

/-- A character outside of the Basic Multilingual Plane (four bytes in UTF-8) is not accepted as a character constant. -/
theorem tokens_character_wrong (strtod : List Char → Option F64) :
    tokenize strtod [asText [0x27, 0xF0, 0x9F, 0x98, 0x80, 0x27]] ≠ .ok [.int 0x1F600, .separator] := by
  intro h
  have : tokenize strtod [asText [0x27, 0xF0, 0x9F, 0x98, 0x80, 0x27]] = .ub := rfl
  rw [this] at h
  cases h

/-- A semicolon inside of a string begins a comment if the string is the value of an equ. -/
theorem tokens_equ_string_wrong (strtod : List Char → Option F64) : tokenize strtod ["x equ \"a;b\"".toList] =
    .ok [.ident (lit "x"), .equ, .equValue (lit "\"a"), .separator] := rfl

/-- An equ without a value takes the next line as its value. -/
theorem tokens_equ_line_wrong (strtod : List Char → Option F64) : tokenize strtod ["x equ".toList, "nop".toList] =
    .ok [.ident (lit "x"), .equ, .separator, .equValue (lit "nop"), .separator] := rfl

/-- The text of a negative number is read as a number with an operator in front, which is another expression (of the same value). -/
theorem expr_text_negative_wrong (H : Host) (E : Armips.ExprParse.Env) (strtod : List Char → Option F64) :
    ∃ s, (Expr.int (-5)).render H = some s ∧ tokenize strtod [asText s] = .ok [.minus, .int 5, .separator] ∧
      Armips.ExprParse.parse E [.minus, .int 5, .separator] = (some (.un .neg (.int 5)), [.separator]) :=
  ⟨_, rfl, rfl, rfl⟩

/-- The text of a string with a quotation mark is not read as that string: the text is written without escapes. -/
theorem expr_text_quote_wrong (H : Host) (strtod : List Char → Option F64) :
    ∃ s, (Expr.str (lit "a\"b")).render H = some s ∧ tokenize strtod [asText s] = .ok [.str (lit "a"), .ident (lit "b"), .invalid, .separator] :=
  ⟨_, rfl, rfl⟩

/-! ### Instances -/

/-- `Add r0,0x1F ; comment`, a block comment over two lines, a continued line and a string. -/
def tokensExample : List (List Char) :=
  ["Add r0,0x1F ; comment".toList, "/* one".toList, "two */ nop \\ // go on".toList, "\"a\\\"b\"<<'x'".toList, []]

example : tokenize (fun _ => none) tokensExample =
    .ok [.ident (lit "add"), .ident (lit "r0"), .comma, .int 31, .separator, .ident (lit "nop"), .str (lit "a\"b"), .leftShift, .int 120, .separator] := rfl

/-- The lexical rules give the same tokens. -/
theorem tokens_example : Holds (fun _ => none) ["Add r0,0x1F ; comment".toList, "/* one".toList, "two */nop\\ // go on".toList, "'x'".toList]
    [.ident (lit "add"), .ident (lit "r0"), .comma, .int 31, .separator, .ident (lit "nop"), .int 120, .separator] := by
  have before : ∀ (c : Char) (l : List Char) (p : Char → Prop), c.toNat < 256 → ¬ p c → Before (c :: l) p := by
    intro c l p h1 h2 x hx; cases hx; exact ⟨h1, h2⟩
  refine .line (.inl (by decide)) ?_
  refine .token (t := .ident (lit "add")) (s := ['A', 'd', 'd']) (l := " r0,0x1F ; comment".toList)
    (Spells.name (s := ['A', 'd', 'd']) ⟨by unfold Begins; decide, by unfold GoesOn Begins; decide⟩ (by decide) (before _ _ _ (by decide) (by unfold GoesOn Begins; decide))) ?_
  refine .blank (.inl rfl) ?_
  refine .token (t := .ident (lit "r0")) (s := ['r', '0']) (l := ",0x1F ; comment".toList)
    (Spells.name (s := ['r', '0']) ⟨by unfold Begins; decide, by unfold GoesOn Begins; decide⟩ (by decide) (before _ _ _ (by decide) (by unfold GoesOn Begins; decide))) ?_
  refine .token (s := [',']) (l := "0x1F ; comment".toList) (.operator (by decide) (by decide)) ?_
  refine .token (t := .int (31 : Nat)) (s := ['0', 'x', '1', 'F']) (l := " ; comment".toList) (.integer ⟨'0', rfl, by decide⟩ ?_ (by decide) (before _ _ _ (by decide) (by decide))) ?_
  · have h1 : Digits 16 ['1'] 1 := Digits.snoc (ds := []) (c := '1') (d := 1) .nil (by decide) (by decide)
    have h2 : Digits 16 ['1', 'F'] 31 := Digits.snoc (ds := ['1']) (c := 'F') (d := 15) h1 (by decide) (by decide)
    exact ⟨16, _, .hexPrefix (.inl rfl), h2⟩
  refine .blank (.inl rfl) (.comment (m := [';']) (.inl rfl) (.next (.line (.inl (by decide)) ?_)))
  refine .block (b := " one".toList) (l := "nop\\ // go on".toList) (rest' := ["'x'".toList]) (.later ?_ (.here (b := "two ".toList) ?_)) ?_
  · unfold NoEnd; decide
  · unfold NoEnd; decide
  refine .token (t := .ident (lit "nop")) (s := ['n', 'o', 'p']) (l := "\\ // go on".toList)
    (Spells.name (s := ['n', 'o', 'p']) ⟨by unfold Begins; decide, by unfold GoesOn Begins; decide⟩ (by decide) (before _ _ _ (by decide) (by unfold GoesOn Begins; decide))) ?_
  refine .continued (l' := "'x'".toList) (rest' := []) (.blank (.inl rfl) (.comment (m := ['/', '/']) (.inr rfl))) (.line (.inl (by decide)) ?_)
  exact .token (t := .int (120 : Nat)) (s := "'x'".toList) (l := []) (.character (n := 120) (by decide)) .last

/-- `((x + 5) << (°"a"))` can be printed and read. -/
example : Printable (.bin .leftShift (.bin .add (.ident (lit "x") 1 2) (.int 5)) (.toString_ (.str (lit "a")))) ∧
    Spec.ExprParse.Writable exprEnv (.bin .leftShift (.bin .add (.ident (lit "x") 1 2) (.int 5)) (.toString_ (.str (lit "a")))) := by
  refine ⟨⟨⟨⟨⟨by decide, by decide, by decide⟩, by decide⟩, by decide, by decide⟩, ?_⟩, ?_⟩
  · show ∀ b ∈ lit "a", _; decide
  · exact ⟨⟨⟨by decide, rfl, rfl⟩, trivial⟩, trivial⟩

end Armips.Props
