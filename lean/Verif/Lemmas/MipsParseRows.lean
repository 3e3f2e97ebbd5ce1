import Verif.Lemmas.MipsParseTable
/-!
# From the rows to the line

The row of an instruction is found because no row before it takes its text.
-/
namespace Armips.MipsParse
open ExprParse (Tok)
open Mips (Slot ImmType SecType Op Operands Version Flag)
open Spec.MipsParse

/-- A row with its name and its operands. -/
def rowOf (op : Op) : Op × List Nat × List Elem := (op, nameOf op, (elements op.mask.toList).getD [])

theorem rowTable_map : rowTable = Mips.opcodes.map fun op => (nameOf op, (elements op.mask.toList).getD []) := by
  have := congrArg (List.map fun x : List Nat × Option (List Elem) × Bool => (x.1, x.2.1.getD [])) rowTable_eq
  simp only [List.map_map, Function.comp_def, Option.getD_some] at this
  rw [this]
  simp

theorem zip_map_self {α β : Type} (f : α → β) : ∀ l : List α, l.zip (l.map f) = l.map fun x => (x, f x)
  | [] => rfl
  | a :: l => by simp [zip_map_self f l]

theorem zip_rows : Mips.opcodes.zip rowTable = Mips.opcodes.map rowOf := by
  rw [rowTable_map, zip_map_self]
  rfl

theorem row_mem {op : Op} (hm : op ∈ Mips.opcodes) :
    ∃ es, elements op.mask.toList = some es ∧ '?' ∉ op.mask.toList ∧ ok es = true ∧ plainKey (nameOf op) = true ∧ (∀ c ∈ op.name.toList, c.toNat < 128) ∧
      rowOf op = (op, nameOf op, es) := by
  have h1 : (nameOf op, elements op.mask.toList, op.mask.toList.contains '?') ∈ rowTable.map fun r => (r.1, some r.2, false) := by
    rw [← rowTable_eq]
    exact List.mem_map_of_mem (f := fun op : Op => (nameOf op, elements op.mask.toList, op.mask.toList.contains '?')) hm
  obtain ⟨r, hr, he⟩ := List.mem_map.1 h1
  simp only [Prod.mk.injEq] at he
  have h2 := List.all_eq_true.1 rows_ok r hr
  simp only [Bool.and_eq_true, List.all_eq_true, decide_eq_true_eq] at h2
  refine ⟨r.2, he.2.1.symm, ?_, h2.1.1, he.1 ▸ h2.1.2, ?_, ?_⟩
  · intro hq
    have := List.contains_iff_mem.2 hq
    rw [← he.2.2] at this
    cases this
  · intro c hc
    have := h2.2 c.toNat (by rw [he.1]; exact List.mem_map_of_mem hc)
    exact this
  · unfold rowOf
    rw [← he.2.1]
    rfl

theorem row_fit {op : Op} (hm : op ∈ Mips.opcodes) : symsFit (rowOf op) = true := by
  have := rows_fit
  rw [zip_rows, List.all_map, List.all_eq_true] at this
  exact this op hm

/-! ### No row hides another one -/

theorem chr_eq {c d : Char} (hc : c.toNat < 128) (hd : d.toNat < 128) (h : chr c = chr d) : c = d := by
  have := congrArg BitVec.toNat h
  simp only [chr, BitVec.toNat_ofNat] at this
  apply Char.ext
  apply UInt32.toNat_inj.1
  show c.toNat = d.toNat
  omega

theorem vfpuType_letter {k : Byte} {s : Nat} (h : vfpuType k = some s) : ∃ c : Char, k = chr c ∧ c.toNat ∈ [115, 112, 116, 113] ∧ c.toNat < 128 := by
  unfold vfpuType at h
  split at h
  · rename_i e; exact ⟨'s', e, by decide⟩
  · split at h
    · rename_i e; exact ⟨'p', e, by decide⟩
    · split at h
      · rename_i e; exact ⟨'t', e, by decide⟩
      · split at h
        · rename_i e; exact ⟨'q', e, by decide⟩
        · cases h

theorem overlap_of : ∀ {p q : List Char} {n : Str} {x y a b : Name}, decodeName p n x = some a → decodeName q n y = some b →
    (∀ c ∈ p, c.toNat < 128) → (∀ c ∈ q, c.toNat < 128) → overlap (p.map Char.toNat) (q.map Char.toNat) = true
  | [], [], _, _, _, _, _, _, _, _, _ => rfl
  | [], d :: q, [], _, _, _, _, _, h2, _, _ => by
    rw [decodeName.eq_def] at h2
    have : lookup [] branchConditions = none := by decide
    simp [this] at h2
  | c :: p, [], [], _, _, _, _, h1, _, _, _ => by
    rw [decodeName.eq_def] at h1
    have : lookup [] branchConditions = none := by decide
    simp [this] at h1
  | [], _ :: _, _ :: _, _, _, _, _, h1, _, _, _ => by simp [decodeName] at h1
  | _ :: _, [], _ :: _, _, _, _, _, _, h2, _, _ => by simp [decodeName] at h2
  | c :: p, d :: q, [], _, _, _, _, h1, h2, _, _ => by
    rw [decodeName.eq_def] at h1
    have : lookup [] branchConditions = none := by decide
    simp [this] at h1
  | c :: p, d :: q, k :: n, x, y, a, b, h1, h2, hp, hq => by
    have hc := hp c (by simp)
    have hd := hq d (by simp)
    have hp' : ∀ c ∈ p, c.toNat < 128 := fun c h => hp c (by simp [h])
    have hq' : ∀ c ∈ q, c.toNat < 128 := fun c h => hq c (by simp [h])
    simp only [List.map_cons, overlap, Bool.and_eq_true, Bool.or_eq_true, Nat.beq_eq, List.contains_iff_mem]
    by_cases c1 : c = 'B'
    · subst c1; exact ⟨.inl (.inl (.inl (.inr rfl))), .inl (.inl rfl)⟩
    by_cases d1 : d = 'B'
    · subst d1; exact ⟨.inl (.inl (.inr rfl)), .inl (.inr rfl)⟩
    rw [decodeName.eq_def] at h1 h2
    simp only [c1, d1, if_false] at h1 h2
    by_cases c2 : c = 'S'
    · subst c2
      simp only [if_true] at h1
      cases hk : vfpuType k with
      | none => rw [hk] at h1; cases h1
      | some s =>
        rw [hk] at h1
        simp only [Option.bind_some] at h1
        by_cases d2 : d = 'S'
        · subst d2
          simp only [if_true] at h2
          rw [hk] at h2
          simp only [Option.bind_some] at h2
          exact ⟨.inl (.inl (.inl (.inl rfl))), .inr (overlap_of h1 h2 hp' hq')⟩
        · simp only [d2, if_false] at h2
          split at h2
          · rename_i e
            obtain ⟨w, hw, h3, h4⟩ := vfpuType_letter hk
            have := chr_eq hd h4 (e.trans hw)
            subst this
            exact ⟨.inl (.inr ⟨rfl, h3⟩), .inr (overlap_of h1 h2 hp' hq')⟩
          · cases h2
    · simp only [c2, if_false] at h1
      split at h1
      · rename_i e1
        by_cases d2 : d = 'S'
        · subst d2
          simp only [if_true] at h2
          cases hk : vfpuType k with
          | none => rw [hk] at h2; cases h2
          | some s =>
            rw [hk] at h2
            simp only [Option.bind_some] at h2
            obtain ⟨w, hw, h3, h4⟩ := vfpuType_letter hk
            have := chr_eq hc h4 (e1.trans hw)
            subst this
            exact ⟨.inr ⟨rfl, h3⟩, .inr (overlap_of h1 h2 hp' hq')⟩
        · simp only [d2, if_false] at h2
          split at h2
          · rename_i e2
            have := chr_eq hc hd (e1.trans e2.symm)
            subst this
            exact ⟨.inl (.inl (.inl (.inl rfl))), .inr (overlap_of h1 h2 hp' hq')⟩
          · cases h2
      · cases h1

theorem overlap_take : ∀ (k : Nat) {p q : List Nat}, overlap p q = true → ((p.take k).all fun c => c != 66 && c != 83) = true →
    ((q.take k).all fun c => c != 66 && c != 83) = true → p.take k = q.take k
  | 0, _, _, _, _, _ => by simp
  | _ + 1, [], [], _, _, _ => rfl
  | _ + 1, [], _ :: _, h, _, _ => by simp [overlap] at h
  | _ + 1, _ :: _, [], h, _, _ => by simp [overlap] at h
  | k + 1, c :: p, d :: q, h, h1, h2 => by
    simp only [overlap, Bool.and_eq_true, Bool.or_eq_true, Nat.beq_eq] at h
    simp only [List.take_succ_cons, List.all_cons, Bool.and_eq_true, bne_iff_ne, ne_eq] at h1 h2
    obtain ⟨⟨h11, h12⟩, h13⟩ := h1
    obtain ⟨⟨h21, h22⟩, h23⟩ := h2
    simp only [h11, h12, h21, h22, or_false, false_or, false_and] at h
    obtain ⟨rfl, h⟩ := h
    rw [List.take_succ_cons, List.take_succ_cons, overlap_take k h h13 h23]

theorem overlap_key {p q : List Nat} (h : overlap p q = true) (hp : plainKey p = true) (hq : plainKey q = true) : key p = key q := by
  unfold key
  rw [overlap_take 3 h hp hq]

theorem allPairs_append {α : Type} {r : α → α → Bool} {b : α} : ∀ {l l' : List α}, allPairs r (l ++ b :: l') = true → ∀ a ∈ l, r a b = true
  | x :: l, l', h, a, ha => by
    simp only [List.cons_append, allPairs, Bool.and_eq_true, List.all_eq_true] at h
    rcases List.mem_cons.1 ha with rfl | ha
    · exact h.1 b (by simp)
    · exact allPairs_append h.2 a ha

theorem keys_map : rowKeys = Mips.opcodes.map fun op => key (nameOf op) := by
  rw [← rowKeys_eq, rowTable_map]
  simp [Function.comp_def]

theorem zip_map_two {α β γ : Type} (f : α → β) (g : α → γ) : ∀ l : List α, (l.map f).zip (l.map g) = l.map fun x => (f x, g x)
  | [] => rfl
  | a :: l => by simp [zip_map_two f g l]

theorem earlier {op : Op} {s t : List Op} (h : Mips.opcodes = s ++ op :: t) {op' : Op} (hm : op' ∈ s) :
    (!(key (nameOf op')).beq (key (nameOf op)) || apart (rowOf op') (rowOf op)) = true := by
  have := rows_apart
  rw [zip_rows, keys_map, zip_map_two, h, List.map_append, List.map_cons] at this
  exact allPairs_append this (key (nameOf op'), rowOf op') (List.mem_map_of_mem (f := fun x => (key (nameOf x), rowOf x)) hm)

theorem findSome_first {α β : Type} {f : α → Option β} {a : α} {b : β} : ∀ {s t : List α}, (∀ x ∈ s, f x = none) → f a = some b → (s ++ a :: t).findSome? f = some b
  | [], t, _, h => by simp [h]
  | x :: s, t, hs, h => by
    rw [List.cons_append, List.findSome?_cons, hs x (by simp)]
    exact findSome_first (fun y hy => hs y (by simp [hy])) h

theorem named_range {p : List Char} {n : Str} {s b : Option Nat} (h : Named p n s b) :
    (s.isSome ↔ 'S' ∈ p) ∧ (∀ k, s = some k → k < 4) ∧ (∀ k, b = some k → k ≤ 5) := by
  induction h with
  | nil => simp
  | letter h1 h2 _ ih =>
    refine ⟨?_, ih.2⟩
    rw [ih.1, List.mem_cons]
    constructor
    · exact .inr
    · rintro (h | h)
      · exact absurd h.symm h1
      · exact h
  | size hl _ ih =>
    refine ⟨by simp, fun j e => ?_, ih.2.2⟩
    injection e with e
    subst e
    exact (List.getElem?_eq_some_iff.1 hl).1
  | cond h1 h2 =>
    refine ⟨by simp, by simp, fun j e => ?_⟩
    injection e with e
    subst e
    have := (List.getElem?_eq_some_iff.1 h1).1
    have h6 : branchNames.length = 6 := rfl
    omega

theorem vectorSize_eq (op : Op) (size : Option Nat) : vectorSize op size = sizeOf op size := by
  cases size <;> rfl

theorem vectorSize_lt {op : Op} {size : Option Nat} (h : ∀ k, size = some k → k < 4) : ∀ k, vectorSize op size = some k → k < 4 := by
  intro k hk
  unfold vectorSize at hk
  split at hk
  · injection hk with hk; subst hk; exact h _ rfl
  · repeat' split at hk
    all_goals first | cases hk; decide | cases hk

theorem fresh_blank (size cond : Option Nat) : fresh ⟨size, cond⟩ = blank size cond := by
  cases cond <;> rfl

/-- The row that the PS2 takes another one for. -/
def hidden (v : Version) (op : Op) : Prop := v = .ps2 ∧ (op.name = "mult" ∨ op.name = "multu") ∧ ∃ es, elements op.mask.toList = some (.forced 0 :: es)

theorem toNats_inj : ∀ {l l' : List Char}, l.map Char.toNat = l'.map Char.toNat → l = l'
  | [], [], _ => rfl
  | a :: l, b :: l', h => by
    simp only [List.map_cons, List.cons.injEq] at h
    rw [Char.ext (UInt32.toNat_inj.1 h.1), toNats_inj h.2]

theorem shadowed_hidden {v : Version} {op : Op} {es : List Elem} (he : elements op.mask.toList = some es) (h : shadowed v (nameOf op) es = true) : hidden v op := by
  simp only [shadowed, Bool.and_eq_true, Bool.or_eq_true, beq_iff_eq] at h
  have hn : ∀ s : String, nameOf op = s.toList.map Char.toNat → op.name = s := by
    intro s hs
    apply String.toList_inj.1
    exact toNats_inj hs
  refine ⟨h.1.1, ?_, ?_⟩
  · rcases h.1.2 with e | e
    · left; apply hn; rw [e]; decide
    · right; apply hn; rw [e]; decide
  · cases es with
    | nil => simp at h
    | cons a l =>
      simp only [List.head?_cons, Option.some.injEq] at h
      exact ⟨l, by rw [he, h.2]⟩

/-- An instruction is read as it is written. -/
theorem line_reads {E : ExprParse.Env} {v : Version} {op : Op} {name : Str} {ts : List Token} {o : Operands} (hm : op ∈ Mips.opcodes)
    (hv : op.available v = true) (hh : ¬ hidden v op) (h : Text E op name ts o) (x y : Str) (rest : List Token) :
    line E v ((.ident name, x) :: (ts ++ (.separator, y) :: rest)) = some ((op, o), rest) := by
  obtain ⟨ps, size, cond, hmask, hn, hp⟩ := h
  obtain ⟨es, he, hq, hok, hkey, hasc, hro⟩ := row_mem hm
  have hps : elements op.mask.toList = some ps := by rw [hmask]; exact parts_elements hp (hmask ▸ hq)
  have heq : es = ps := Option.some.inj (he.symm.trans hps)
  subst heq
  obtain ⟨-, hsz, -⟩ := named_range hn
  obtain ⟨s, t, hst⟩ := List.append_of_mem hm
  unfold line
  rw [hst]
  apply findSome_first
  · intro op' hm'
    have hop' : op' ∈ Mips.opcodes := by rw [hst]; simp [hm']
    obtain ⟨es', he', -, -, hkey', hasc', hro'⟩ := row_mem hop'
    unfold row
    split
    · rename_i hv'
      cases hd : decodeName op'.name.toList name ⟨none, none⟩ with
      | none => rfl
      | some n' =>
        rw [he']
        have ho := overlap_of hd (decodeName_of hn ⟨none, none⟩) hasc' hasc
        change overlap (nameOf op') (nameOf op) = true at ho
        have hk := overlap_key ho hkey' hkey
        have ha := earlier hst hm'
        rw [hk, hro, hro'] at ha
        simp only [apart, ho, Bool.not_true, Bool.false_or, Bool.or_eq_true, Bool.not_eq_true', List.all_eq_true] at ha
        rcases ha with ha | ha
        · exact absurd (Nat.beq_refl _) (by rw [ha]; decide)
        · rcases ha v (mem_versions v) with (h1 | h1) | h1
          · rw [hv, hv'] at h1; cases h1
          · simp only
            rw [clash_fails h1 hok hp]
            rfl
          · exact absurd (shadowed_hidden he h1) hh
    · rfl
  · unfold row
    rw [hv, if_pos rfl, decodeName_of hn, he]
    simp only [Option.or_none]
    rw [← vectorSize_eq, fresh_blank, params_reads (vectorSize_lt hsz) hp hok]
    rfl

end Armips.MipsParse
