import Verif.Lemmas.MipsParseArgs
/-!
# Lemmas about the prefixes of the vector unit
-/
namespace Armips.MipsParse
open ExprParse (Tok)
open Mips (Slot ImmType SecType Op Operands Version Flag)
open Spec.MipsParse

/-- The bits of a cell of a source prefix. -/
def sourceBits (i : Nat) : Source → Nat
  | .cell neg k abs => (if neg then 1 <<< (16 + i) else 0) ||| (if abs then 1 <<< (8 + i) else 0) ||| k <<< (i * 2)
  | .const neg k => (if neg then 1 <<< (16 + i) else 0) ||| 1 <<< (12 + i) ||| (k &&& 3) <<< (i * 2) ||| (if k &&& 4 ≠ 0 then 1 <<< (8 + i) else 0)

/-- The numbers that can be written. -/
def Source.ok : Source → Bool
  | .cell _ k _ => k < 4
  | .const _ k => k < 8

theorem lane_iff {n : Str} {k : Nat} : lane n = some k ↔ ∃ s, ["x", "y", "z", "w"][k]? = some s ∧ n = lit s := by
  constructor
  · intro h
    unfold lane at h
    split at h
    · split at h
      · rename_i e; subst e; cases h; exact ⟨"x", rfl, rfl⟩
      · split at h
        · rename_i e; subst e; cases h; exact ⟨"y", rfl, rfl⟩
        · split at h
          · rename_i e; subst e; cases h; exact ⟨"z", rfl, rfl⟩
          · split at h
            · rename_i e; subst e; cases h; exact ⟨"w", rfl, rfl⟩
            · cases h
    · cases h
  · rintro ⟨s, h, rfl⟩
    match k, h with
    | 0, h => cases h; decide
    | 1, h => cases h; decide
    | 2, h => cases h; decide
    | 3, h => cases h; decide

theorem lane_bound {s : String} {k : Nat} (h : ["x", "y", "z", "w"][k]? = some s) : k < 4 := (List.getElem?_eq_some_iff.1 h).1

theorem const_table : (constEntries.all fun x => constants[x.1.toNat]? == some (x.2.filterMap id) && x.1 == (x.1.toNat : Int)) = true := by decide +kernel

theorem const_sound {ts rest : List Token} {n : Int} (h : sequence constEntries ts = some (n, rest)) :
    ∃ pre, n = (n.toNat : Int) ∧ constants[n.toNat]? = some (pre.map Prod.fst) ∧ ts = pre ++ rest := by
  obtain ⟨pre, h1, h2⟩ := sequence_some h
  have := List.all_eq_true.1 const_table _ h1
  simp only [Bool.and_eq_true, beq_iff_eq, List.filterMap_map] at this
  refine ⟨pre, this.2, ?_, h2⟩
  rw [this.1]
  simp

/-- What stands after a cell of a prefix. -/
def After (rest : List Token) : Prop := ∃ t x r, rest = (t, x) :: r ∧ (t = Tok.comma ∨ t = Tok.separator)

theorem const_reads {k : Nat} {pre rest : List Token} (h : constants[k]? = some (pre.map Prod.fst)) (ha : After rest) :
    sequence constEntries (pre ++ rest) = some ((k : Int), rest) := by
  obtain ⟨t, x, r, rfl, ht⟩ := ha
  have hp : ∀ toks, constants[k]? = some toks → ∀ tail, sequence constEntries (plain (toks ++ t :: tail)) = some ((k : Int), plain (t :: tail)) := by
    intro toks h tail
    match k, h with
    | 0, h => cases h; rcases ht with rfl | rfl <;> rfl
    | 1, h => cases h; rcases ht with rfl | rfl <;> rfl
    | 2, h => cases h; rcases ht with rfl | rfl <;> rfl
    | 3, h => cases h; rcases ht with rfl | rfl <;> rfl
    | 4, h => cases h; rcases ht with rfl | rfl <;> rfl
    | 5, h => cases h; rcases ht with rfl | rfl <;> rfl
    | 6, h => cases h; rcases ht with rfl | rfl <;> rfl
    | 7, h => cases h; rcases ht with rfl | rfl <;> rfl
  exact sequence_reads (hp _ h (r.map Prod.fst)) rfl rfl

/-- The part of `vpfxsElement` after the sign. -/
def afterSign (i : Nat) (result : Nat) (ts : List Token) : Option (Nat × List Token) :=
  let abs : Bool := ExprParse.peek (ts.map (·.1)) = .bitOr
  let result := if abs then result ||| 1 <<< (8 + i) else result
  let ts := if abs then ts.drop 1 else ts
  match ts with
  | (.ident n, _) :: ts =>
    match lane n with
    | none => none
    | some k =>
      let result := result ||| k <<< (i * 2)
      if abs then
        match ts with
        | (.bitOr, _) :: ts => some (result, ts)
        | _ => none
      else some (result, ts)
  | ts =>
    if abs then none
    else
      match sequence constEntries ts with
      | none => none
      | some (n, ts) =>
        let result := result ||| 1 <<< (12 + i)
        let result := result ||| (n.toNat &&& 3) <<< (i * 2)
        some (if n.toNat &&& 4 ≠ 0 then result ||| 1 <<< (8 + i) else result, ts)

theorem vpfxsElement_minus (i r : Nat) (x : Str) (ts : List Token) : vpfxsElement i r ((.minus, x) :: ts) = afterSign i (r ||| 1 <<< (16 + i)) ts := rfl

theorem vpfxsElement_plus (i r : Nat) (ts : List Token) (h : ExprParse.peek (ts.map (·.1)) ≠ .minus) : vpfxsElement i r ts = afterSign i r ts := by
  unfold vpfxsElement
  simp only [h, decide_false, Bool.false_eq_true, if_false]
  rfl

theorem constants_first : ∀ k : Nat, ∀ toks, constants[k]? = some toks → ∃ n tail, toks = .int n :: tail := by
  intro k toks h
  match k, h with
  | 0, h | 1, h | 2, h | 3, h | 4, h | 5, h | 6, h | 7, h => cases h; exact ⟨_, _, rfl⟩

/-- The cell without its sign. -/
inductive Unsigned : Source → List Token → Prop
  | cell {neg k s x} : ["x", "y", "z", "w"][k]? = some s → Unsigned (.cell neg k false) [(.ident (lit s), x)]
  | abs {neg k s x y z} : ["x", "y", "z", "w"][k]? = some s → Unsigned (.cell neg k true) [(.bitOr, x), (.ident (lit s), y), (.bitOr, z)]
  | const {neg k ts} : constants[k]? = some (ts.map Prod.fst) → Unsigned (.const neg k) ts

/-- The bits without the sign. -/
def unsignedBits (i : Nat) : Source → Nat
  | .cell _ k abs => (if abs then 1 <<< (8 + i) else 0) ||| k <<< (i * 2)
  | .const _ k => 1 <<< (12 + i) ||| (k &&& 3) <<< (i * 2) ||| (if k &&& 4 ≠ 0 then 1 <<< (8 + i) else 0)

/-- The sign. -/
def negated : Source → Bool
  | .cell n _ _ => n
  | .const n _ => n

theorem sourceBits_eq (i : Nat) (s : Source) : sourceBits i s = (if negated s then 1 <<< (16 + i) else 0) ||| unsignedBits i s := by
  cases s <;> simp only [sourceBits, unsignedBits, Nat.or_assoc] <;> rfl

theorem afterSign_text {i r : Nat} {s : Source} {ts rest : List Token} (h : Unsigned s ts) (ha : After rest) :
    afterSign i r (ts ++ rest) = some (r ||| unsignedBits i s, rest) := by
  cases h with
  | cell hk => simp [afterSign, ExprParse.peek, ExprParse.next, lane_iff.2 ⟨_, hk, rfl⟩, unsignedBits]
  | abs hk => simp [afterSign, ExprParse.peek, ExprParse.next, lane_iff.2 ⟨_, hk, rfl⟩, unsignedBits, Nat.or_assoc]
  | const hk =>
    have hr := const_reads hk ha
    obtain ⟨n, tail, e⟩ := constants_first _ _ hk
    match ts, e with
    | (t, x) :: ts, e =>
      simp only [List.map_cons, List.cons.injEq] at e
      obtain ⟨rfl, _⟩ := e
      simp only [List.cons_append] at hr ⊢
      simp only [afterSign, List.map_cons, ExprParse.peek, ExprParse.next, reduceCtorEq, decide_false, Bool.false_eq_true, if_false, hr, Int.toNat_natCast, unsignedBits]
      split <;> simp [Nat.or_assoc]

theorem afterSign_sound {i r v : Nat} {neg : Bool} {ts rest : List Token} (h : afterSign i r ts = some (v, rest)) :
    ∃ s pre, negated s = neg ∧ Unsigned s pre ∧ ts = pre ++ rest ∧ v = r ||| unsignedBits i s := by
  by_cases hb : ExprParse.peek (ts.map (·.1)) = .bitOr
  · match ts, hb with
    | (t, x) :: ts, hb =>
      have hb : t = .bitOr := hb
      subst hb
      simp only [afterSign, List.map_cons, ExprParse.peek, ExprParse.next, decide_true, if_true, List.drop_succ_cons, List.drop_zero] at h
      split at h
      · split at h
        · cases h
        · rename_i k hk
          split at h
          · cases h
            obtain ⟨s, h1, rfl⟩ := lane_iff.1 hk
            exact ⟨.cell neg k true, _, rfl, .abs h1, rfl, by simp [unsignedBits, Nat.or_assoc]⟩
          · cases h
      · cases h
  · simp only [afterSign, hb, decide_false, Bool.false_eq_true, if_false] at h
    split at h
    · split at h
      · cases h
      · rename_i k hk
        cases h
        obtain ⟨s, h1, rfl⟩ := lane_iff.1 hk
        exact ⟨.cell neg k false, _, rfl, .cell h1, rfl, by simp [unsignedBits]⟩
    · split at h
      · cases h
      · rename_i n us hs
        obtain ⟨pre, h1, h2, h3⟩ := const_sound hs
        refine ⟨.const neg n.toNat, pre, rfl, .const h2, ?_, ?_⟩
        · rw [h3]; simp only [Option.some.injEq, Prod.mk.injEq] at h; rw [h.2]
        · simp only [Option.some.injEq, Prod.mk.injEq] at h
          rw [← h.1]
          simp only [unsignedBits]
          split <;> simp [Nat.or_assoc]

theorem sourceText_iff {s : Source} {ts : List Token} : SourceText s ts ↔ ∃ pre us, Sign (negated s) pre ∧ Unsigned s us ∧ ts = pre ++ us := by
  constructor
  · rintro (⟨h1, h2⟩ | ⟨h1, h2⟩ | ⟨h1, h2⟩)
    · exact ⟨_, _, h1, .cell h2, rfl⟩
    · exact ⟨_, _, h1, .abs h2, rfl⟩
    · exact ⟨_, _, h1, .const h2, rfl⟩
  · rintro ⟨pre, us, h1, h2 | h2 | h2, rfl⟩
    · exact .cell h1 h2
    · exact .abs h1 h2
    · exact .const h1 h2

theorem unsigned_peek {s : Source} {ts : List Token} (h : Unsigned s ts) (rest : List Token) : ExprParse.peek ((ts ++ rest).map (·.1)) ≠ .minus := by
  cases h with
  | cell => intro h; cases h
  | abs => intro h; cases h
  | const hk =>
    obtain ⟨n, tail, e⟩ := constants_first _ _ hk
    match ts, e with
    | (t, x) :: ts, e =>
      simp only [List.map_cons, List.cons.injEq] at e
      obtain ⟨rfl, _⟩ := e
      intro h; cases h

theorem vpfxsElement_text {i r : Nat} {s : Source} {ts rest : List Token} (h : SourceText s ts) (ha : After rest) :
    vpfxsElement i r (ts ++ rest) = some (r ||| sourceBits i s, rest) := by
  obtain ⟨pre, us, h1, h2, rfl⟩ := sourceText_iff.1 h
  rw [sourceBits_eq]
  generalize hn : negated s = neg at h1
  cases h1 with
  | plus =>
    rw [List.nil_append, vpfxsElement_plus _ _ _ (unsigned_peek h2 rest), afterSign_text h2 ha]
    simp
  | minus =>
    rw [List.append_assoc]
    refine (vpfxsElement_minus _ _ _ _).trans ?_
    refine (afterSign_text h2 ha).trans ?_
    simp [Nat.or_assoc]

theorem vpfxsElement_sound {i r v : Nat} {ts rest : List Token} (h : vpfxsElement i r ts = some (v, rest)) :
    ∃ s pre, SourceText s pre ∧ ts = pre ++ rest ∧ v = r ||| sourceBits i s := by
  by_cases hm : ExprParse.peek (ts.map (·.1)) = .minus
  · match ts, hm with
    | (t, x) :: ts, hm =>
      have hm : t = .minus := hm
      subst hm
      rw [vpfxsElement_minus] at h
      obtain ⟨s, pre, h1, h2, rfl, rfl⟩ := afterSign_sound (neg := true) h
      refine ⟨s, (.minus, x) :: pre, sourceText_iff.2 ⟨[(.minus, x)], pre, by rw [h1]; exact .minus, h2, rfl⟩, rfl, ?_⟩
      rw [sourceBits_eq, h1]
      simp [Nat.or_assoc]
  · rw [vpfxsElement_plus _ _ _ hm] at h
    obtain ⟨s, pre, h1, h2, rfl, rfl⟩ := afterSign_sound (neg := false) h
    refine ⟨s, pre, sourceText_iff.2 ⟨[], pre, by rw [h1]; exact .plus, h2, rfl⟩, rfl, ?_⟩
    rw [sourceBits_eq, h1]
    simp

/-! ### The loop over the cells -/

/-- The bits of cells from place `i` on. -/
def foldBits {α : Type} (bits : Nat → α → Nat) : Nat → Nat → List α → Nat
  | _, r, [] => r
  | i, r, s :: l => foldBits bits (i + 1) (r ||| bits i s) l

theorem prefixLoop_text {α : Type} {R : α → List Token → Prop} {bits : Nat → α → Nat} {f : Nat → Nat → List Token → Option (Nat × List Token)}
    {N : Nat} (hf : ∀ {i r s ts rest}, R s ts → i < N → (i + 1 < N → ∃ x r, rest = (Tok.comma, x) :: r) →
      (i + 1 = N → ∃ x r, rest = (Tok.separator, x) :: r) → f i r (ts ++ rest) = some (r ||| bits i s, rest)) :
    ∀ {cells : List α} {texts : List (List Token)} {inner : List Token}, Each R cells texts → Joined texts inner →
    ∀ (i r : Nat) (x : Str) (rest : List Token) (y : Str), i + cells.length = N →
      prefixLoop f cells.length i r (lead i x ++ (inner ++ (.separator, y) :: rest)) = some (foldBits bits i r cells, (.separator, y) :: rest)
  | _, _, _, .nil, hj, i, r, x, rest, y, _ => by cases hj
  | _, _, _, .cons (l := ls) (a := l) hl hs, hj, i, r, x, rest, y, hN => by
    rw [List.length_cons] at hN
    rw [List.length_cons, prefixLoop, lead_symbol]
    simp only
    cases hj with
    | one =>
      cases hs
      simp only [List.length_nil] at hN
      rw [hf hl (by omega) (by omega) (fun _ => ⟨_, _, rfl⟩)]
      rfl
    | more _ z hj =>
      have h0 : 0 < ls.length := by
        cases hs with
        | nil => cases hj
        | cons => simp
      rw [List.append_assoc, List.cons_append, hf (i := i) (rest := (Tok.comma, z) :: (_ ++ (Tok.separator, y) :: rest)) hl (by omega) (fun _ => ⟨z, _, rfl⟩) (by omega), foldBits]
      simp only
      exact prefixLoop_text (bits := bits) hf hs hj (i + 1) (r ||| bits i l) z rest y (by omega)

theorem prefixLoop_sound {α : Type} {R : α → List Token → Prop} {bits : Nat → α → Nat} {f : Nat → Nat → List Token → Option (Nat × List Token)}
    (hf : ∀ {i r v ts rest}, f i r ts = some (v, rest) → ∃ s pre, R s pre ∧ ts = pre ++ rest ∧ v = r ||| bits i s) :
    ∀ {n i r v : Nat} {ts rest : List Token}, prefixLoop f (n + 1) i r ts = some (v, rest) →
    ∃ cells texts inner x, cells.length = n + 1 ∧ Each R cells texts ∧ Joined texts inner ∧ ts = lead i x ++ (inner ++ rest) ∧ v = foldBits bits i r cells := by
  intro n
  induction n with
  | zero =>
    intro i r v ts rest h
    rw [prefixLoop] at h
    split at h
    · cases h
    · rename_i us hl
      obtain ⟨x, rfl⟩ := lead_some hl
      split at h
      · cases h
      · rename_i s1 vs he
        obtain ⟨l, pre, h1, rfl, h3⟩ := hf he
        cases h
        exact ⟨[l], [pre], pre, x, rfl, .cons h1 .nil, .one _, rfl, h3⟩
  | succ n ih =>
    intro i r v ts rest h
    rw [prefixLoop] at h
    split at h
    · cases h
    · rename_i us hl
      obtain ⟨x, rfl⟩ := lead_some hl
      split at h
      · cases h
      · rename_i s1 vs he
        obtain ⟨l, pre, h1, rfl, h3⟩ := hf he
        obtain ⟨ls, texts, inner, y, h4, h5, h6, rfl, h8⟩ := ih h
        refine ⟨l :: ls, pre :: texts, pre ++ (.comma, y) :: inner, x, by rw [List.length_cons, h4], .cons h1 h5, .more _ _ h6, ?_, by rw [foldBits, ← h3]; exact h8⟩
        simp [lead]

/-! ### Numbers of source prefixes -/

/-- The bits of cell `i` of a source prefix. -/
def fields (v i : Nat) : Nat × Nat × Nat × Nat := (v / 2 ^ (2 * i) % 2 ^ 2, v / 2 ^ (8 + i) % 2 ^ 1, v / 2 ^ (12 + i) % 2 ^ 1, v / 2 ^ (16 + i) % 2 ^ 1)

/-- The cell with these bits. -/
def sourceOf : Nat × Nat × Nat × Nat → Source
  | (a, b, c, d) => if c = 1 then .const (decide (d = 1)) (a + b * 4) else .cell (decide (d = 1)) a (decide (b = 1))

theorem sourceAt_eq (v i : Nat) : sourceAt v i = sourceOf (fields v i) := by
  rfl

/-- Both numbers have these bits together. -/
def orFields (x y : Nat × Nat × Nat × Nat) : Nat × Nat × Nat × Nat := (x.1 ||| y.1, x.2.1 ||| y.2.1, x.2.2.1 ||| y.2.2.1, x.2.2.2 ||| y.2.2.2)

theorem field_or (x y p q : Nat) : (x ||| y) / 2 ^ p % 2 ^ q = (x / 2 ^ p % 2 ^ q) ||| (y / 2 ^ p % 2 ^ q) := by
  rw [← Nat.shiftRight_eq_div_pow, ← Nat.shiftRight_eq_div_pow, ← Nat.shiftRight_eq_div_pow, Nat.shiftRight_or_distrib, Nat.or_mod_two_pow]

theorem fields_or (x y i : Nat) : fields (x ||| y) i = orFields (fields x i) (fields y i) := by
  simp only [fields, orFields, field_or]

/-- All cells that can be written. -/
def allSources : List Source :=
  [false, true].flatMap fun n => ((List.range 4).flatMap fun k => [.cell n k false, .cell n k true]) ++ (List.range 8).map fun k => .const n k

theorem mem_allSources {s : Source} (h : Source.ok s = true) : s ∈ allSources := by
  cases s with
  | cell n k a =>
    simp only [Source.ok, decide_eq_true_eq] at h
    have : ∀ k < 4, ∀ n a, Source.cell n k a ∈ allSources := by decide +kernel
    exact this k h n a
  | const n k =>
    simp only [Source.ok, decide_eq_true_eq] at h
    have : ∀ k < 8, ∀ n, Source.const n k ∈ allSources := by decide +kernel
    exact this k h n

theorem fields_own : ((List.range 4).all fun i => allSources.all fun s => sourceOf (fields (sourceBits i s) i) == s) = true := by decide +kernel

theorem fields_other : ((List.range 4).all fun i => (List.range 4).all fun j => i == j || allSources.all fun s => fields (sourceBits i s) j == (0, 0, 0, 0)) = true := by
  decide +kernel

theorem source_small : ((List.range 4).all fun i => allSources.all fun s => decide (sourceBits i s < 2 ^ 20)) = true := by decide +kernel

theorem sourceText_ok {s : Source} {ts : List Token} (h : SourceText s ts) : Source.ok s = true := by
  cases h with
  | cell _ h => have := lane_bound h; simpa [Source.ok] using this
  | abs _ h => have := lane_bound h; simpa [Source.ok] using this
  | const _ h => have : _ < 8 := (List.getElem?_eq_some_iff.1 h).1; simpa [Source.ok] using this

theorem orFields_zero (x : Nat × Nat × Nat × Nat) : orFields (0, 0, 0, 0) x = x ∧ orFields x (0, 0, 0, 0) = x := by simp [orFields]

theorem cells_of_bits {a b c d : Source} (ha : Source.ok a = true) (hb : Source.ok b = true) (hc : Source.ok c = true) (hd : Source.ok d = true) :
    (List.range 4).map (sourceAt (foldBits sourceBits 0 0 [a, b, c, d])) = [a, b, c, d] ∧ foldBits sourceBits 0 0 [a, b, c, d] < 2 ^ 20 := by
  have own : ∀ i < 4, ∀ s, Source.ok s = true → sourceOf (fields (sourceBits i s) i) = s := by
    intro i hi s hs
    simpa using List.all_eq_true.1 (List.all_eq_true.1 fields_own i (List.mem_range.2 hi)) s (mem_allSources hs)
  have other : ∀ i < 4, ∀ j < 4, i ≠ j → ∀ s, Source.ok s = true → fields (sourceBits i s) j = (0, 0, 0, 0) := by
    intro i hi j hj hij s hs
    have := List.all_eq_true.1 (List.all_eq_true.1 fields_other i (List.mem_range.2 hi)) j (List.mem_range.2 hj)
    simp only [Bool.or_eq_true, beq_iff_eq, hij, false_or] at this
    simpa using List.all_eq_true.1 this s (mem_allSources hs)
  have small : ∀ i < 4, ∀ s, Source.ok s = true → sourceBits i s < 2 ^ 20 := by
    intro i hi s hs
    simpa using List.all_eq_true.1 (List.all_eq_true.1 source_small i (List.mem_range.2 hi)) s (mem_allSources hs)
  simp only [foldBits, Nat.zero_or]
  constructor
  · simp only [List.range, List.range.loop, List.map_cons, List.map_nil, sourceAt_eq, fields_or,
      other 1 (by omega) 0 (by omega) (by omega) b hb, other 2 (by omega) 0 (by omega) (by omega) c hc, other 3 (by omega) 0 (by omega) (by omega) d hd,
      other 0 (by omega) 1 (by omega) (by omega) a ha, other 2 (by omega) 1 (by omega) (by omega) c hc, other 3 (by omega) 1 (by omega) (by omega) d hd,
      other 0 (by omega) 2 (by omega) (by omega) a ha, other 1 (by omega) 2 (by omega) (by omega) b hb, other 3 (by omega) 2 (by omega) (by omega) d hd,
      other 0 (by omega) 3 (by omega) (by omega) a ha, other 1 (by omega) 3 (by omega) (by omega) b hb, other 2 (by omega) 3 (by omega) (by omega) c hc,
      (orFields_zero _).1, (orFields_zero _).2, own 0 (by omega) a ha, own 1 (by omega) b hb, own 2 (by omega) c hc, own 3 (by omega) d hd]
  · exact Nat.or_lt_two_pow (Nat.or_lt_two_pow (Nat.or_lt_two_pow (small 0 (by omega) a ha) (small 1 (by omega) b hb)) (small 2 (by omega) c hc)) (small 3 (by omega) d hd)

theorem sourceOf_inj {x y : Nat × Nat × Nat × Nat} (h : sourceOf x = sourceOf y) (hx : x.1 < 4 ∧ x.2.1 < 2 ∧ x.2.2.1 < 2 ∧ x.2.2.2 < 2)
    (hy : y.1 < 4 ∧ y.2.1 < 2 ∧ y.2.2.1 < 2 ∧ y.2.2.2 < 2) : x = y := by
  obtain ⟨a, b, c, d⟩ := x
  obtain ⟨a', b', c', d'⟩ := y
  simp only at hx hy
  simp only [sourceOf] at h
  split at h <;> split at h
  · simp only [Source.const.injEq, decide_eq_decide] at h
    simp only [Prod.mk.injEq]
    omega
  · cases h
  · cases h
  · simp only [Source.cell.injEq, decide_eq_decide] at h
    simp only [Prod.mk.injEq]
    omega

theorem fields_bound (v i : Nat) : (fields v i).1 < 4 ∧ (fields v i).2.1 < 2 ∧ (fields v i).2.2.1 < 2 ∧ (fields v i).2.2.2 < 2 := by
  simp only [fields]; omega

theorem testBit_of_field {v w p : Nat} (h : v / 2 ^ p % 2 ^ 1 = w / 2 ^ p % 2 ^ 1) : v.testBit p = w.testBit p := by
  rw [Nat.testBit_eq_decide_div_mod_eq, Nat.testBit_eq_decide_div_mod_eq]
  simp only [Nat.pow_one] at h
  rw [h]

theorem testBit_of_field2 {v w p : Nat} (h : v / 2 ^ p % 2 ^ 2 = w / 2 ^ p % 2 ^ 2) : v.testBit p = w.testBit p ∧ v.testBit (p + 1) = w.testBit (p + 1) := by
  constructor
  · exact testBit_of_field (by omega)
  · refine testBit_of_field ?_
    rw [Nat.pow_succ, ← Nat.div_div_eq_div_mul, ← Nat.div_div_eq_div_mul]
    omega

theorem fields_unique {v w : Nat} (hv : v < 2 ^ 20) (hw : w < 2 ^ 20) (h : ∀ i < 4, fields v i = fields w i) : v = w := by
  apply Nat.eq_of_testBit_eq
  intro j
  have f : ∀ i < 4, (v.testBit (2 * i) = w.testBit (2 * i) ∧ v.testBit (2 * i + 1) = w.testBit (2 * i + 1)) ∧ v.testBit (8 + i) = w.testBit (8 + i) ∧
      v.testBit (12 + i) = w.testBit (12 + i) ∧ v.testBit (16 + i) = w.testBit (16 + i) := by
    intro i hi
    have := h i hi
    simp only [fields, Prod.mk.injEq] at this
    exact ⟨testBit_of_field2 this.1, testBit_of_field this.2.1, testBit_of_field this.2.2.1, testBit_of_field this.2.2.2⟩
  by_cases hj : j < 20
  · by_cases h8 : j < 8
    · have := f (j / 2) (by omega)
      rcases Nat.mod_two_eq_zero_or_one j with e | e
      · rw [show j = 2 * (j / 2) by omega]; exact this.1.1
      · rw [show j = 2 * (j / 2) + 1 by omega]; exact this.1.2
    · by_cases h12 : j < 12
      · have := f (j - 8) (by omega); rw [show j = 8 + (j - 8) by omega]; exact this.2.1
      · by_cases h16 : j < 16
        · have := f (j - 12) (by omega); rw [show j = 12 + (j - 12) by omega]; exact this.2.2.1
        · have := f (j - 16) (by omega); rw [show j = 16 + (j - 16) by omega]; exact this.2.2.2
  · have hp : 2 ^ 20 ≤ 2 ^ j := Nat.pow_le_pow_right (by omega) (by omega)
    rw [Nat.testBit_lt_two_pow (by omega), Nat.testBit_lt_two_pow (by omega)]

theorem each_ok {R : Source → List Token → Prop} (hR : ∀ s t, R s t → Source.ok s = true) : ∀ {l : List Source} {t : List (List Token)}, Each R l t → ∀ s ∈ l, Source.ok s = true
  | _, _, .nil, s, hs => by cases hs
  | _, _, .cons h hl, s, hs => by
    rcases List.mem_cons.1 hs with rfl | hs
    · exact hR _ _ h
    · exact each_ok hR hl s hs

theorem list_four {α : Type} {l : List α} (h : l.length = 4) : ∃ a b c d, l = [a, b, c, d] := by
  match l, h with
  | [a, b, c, d], _ => exact ⟨a, b, c, d, rfl⟩

theorem vpfxs_sound {ts rest : List Token} {n : Int} (h : vpfxs ts = some (n, rest)) : ∃ (v : Nat) (pre : List Token), n = (v : Int) ∧ SourcePrefix v pre ∧ ts = pre ++ rest := by
  unfold vpfxs at h
  cases hl : prefixLoop vpfxsElement 4 0 0 ts with
  | none => rw [hl] at h; cases h
  | some r =>
    rw [hl] at h
    simp only [Option.map_some, Option.some.injEq, Prod.mk.injEq] at h
    obtain ⟨cells, texts, inner, x, h1, h2, h3, h4, h5⟩ := prefixLoop_sound (R := SourceText) (bits := sourceBits) (fun h => vpfxsElement_sound h) (v := r.1) (rest := r.2) hl
    obtain ⟨a, b, c, d, rfl⟩ := list_four h1
    have ok := each_ok (fun _ _ h => sourceText_ok h) h2
    have := cells_of_bits (ok a (by simp)) (ok b (by simp)) (ok c (by simp)) (ok d (by simp))
    rw [← h5] at this
    refine ⟨r.1, inner, h.1.symm, ⟨this.2, texts, by rw [this.1]; exact h2, h3⟩, ?_⟩
    rw [h4, h.2]
    rfl

theorem vpfxs_reads {v : Nat} {pre rest : List Token} {y : Str} (h : SourcePrefix v pre) :
    vpfxs (pre ++ (.separator, y) :: rest) = some ((v : Int), (.separator, y) :: rest) := by
  obtain ⟨hv, texts, h1, h2⟩ := h
  have ok := each_ok (fun _ _ h => sourceText_ok h) h1
  have hl := prefixLoop_text (R := SourceText) (bits := sourceBits) (f := vpfxsElement) (N := 4) (by
    intro i r s ts rest hs hi hc he
    refine vpfxsElement_text hs ?_
    by_cases e : i + 1 = 4
    · obtain ⟨x, r, rfl⟩ := he e; exact ⟨_, x, r, rfl, .inr rfl⟩
    · obtain ⟨x, r, rfl⟩ := hc (by omega); exact ⟨_, x, r, rfl, .inl rfl⟩) h1 h2 0 0 [] rest y (by simp)
  have hb := cells_of_bits (ok (sourceAt v 0) (List.mem_map.2 ⟨0, by decide, rfl⟩)) (ok (sourceAt v 1) (List.mem_map.2 ⟨1, by decide, rfl⟩)) (ok (sourceAt v 2) (List.mem_map.2 ⟨2, by decide, rfl⟩))
    (ok (sourceAt v 3) (List.mem_map.2 ⟨3, by decide, rfl⟩))
  have hu : foldBits sourceBits 0 0 ((List.range 4).map (sourceAt v)) = v := by
    refine fields_unique hb.2 hv ?_
    intro i hi
    refine sourceOf_inj ?_ (fields_bound _ _) (fields_bound _ _)
    rw [← sourceAt_eq, ← sourceAt_eq]
    have e := congrArg (·[i]?) hb.1
    have e2 : (List.map (sourceAt (foldBits sourceBits 0 0 [sourceAt v 0, sourceAt v 1, sourceAt v 2, sourceAt v 3])) (List.range 4))[i]? = (List.map (sourceAt v) (List.range 4))[i]? := e
    rw [List.getElem?_map, List.getElem?_map, List.getElem?_range hi] at e2
    simp only [Option.map_some, Option.some.injEq] at e2
    exact e2
  rw [hu] at hl
  simp only [List.length_map, List.length_range] at hl
  have : lead 0 [] ++ (pre ++ (Tok.separator, y) :: rest) = pre ++ (Tok.separator, y) :: rest := rfl
  rw [this] at hl
  rw [vpfxs, hl]
  rfl

/-! ### Destination prefixes -/

/-- The bits of a cell of a destination prefix. -/
def destBits (i : Nat) : Dest → Nat
  | .plain => 0
  | .masked => 1 <<< (8 + i)
  | .unit => 1 <<< (2 * i)
  | .signed => 3 <<< (2 * i)

theorem dest_entry {n : Int} {ts rest : List Token} (h : sequence maskEntries ts = some (n, rest)) :
    ∃ d pre, DestText d pre ∧ ts = pre ++ rest ∧ ((n = -1 ∧ d = .masked) ∨ (n = 1 ∧ d = .unit) ∨ (n = 3 ∧ d = .signed)) := by
  obtain ⟨pre, h1, h2⟩ := sequence_some h
  simp only [maskEntries, List.mem_cons, Prod.mk.injEq, List.not_mem_nil, or_false] at h1
  have fm : ∀ l : List Tok, (l.map some).filterMap id = l := by intro l; simp [List.filterMap_map]
  rcases h1 with ⟨rfl, h1⟩ | ⟨rfl, h1⟩ | ⟨rfl, h1⟩
  · have h1 := congrArg (List.filterMap id) h1
    rw [fm] at h1
    match pre, h1 with
    | [(t, x)], h1 =>
      have h1 : [t] = [Tok.ident (lit "m")] := h1
      simp only [List.cons.injEq, and_true] at h1
      subst h1
      exact ⟨.masked, _, .masked, h2, .inl ⟨rfl, rfl⟩⟩
  · have h1 := congrArg (List.filterMap id) h1
    rw [fm] at h1
    exact ⟨.unit, _, .unit h1, h2, .inr (.inl ⟨rfl, rfl⟩)⟩
  · have h1 := congrArg (List.filterMap id) h1
    rw [fm] at h1
    exact ⟨.signed, _, .signed h1, h2, .inr (.inr ⟨rfl, rfl⟩)⟩

theorem vpfxdElement_sound {i r v : Nat} {ts rest : List Token} (h : vpfxdElement i r ts = some (v, rest)) :
    ∃ s pre, DestText s pre ∧ ts = pre ++ rest ∧ v = r ||| destBits i s := by
  unfold vpfxdElement at h
  split at h
  · split at h
    · cases h; exact ⟨.plain, [], .plain, rfl, by simp [destBits]⟩
    · cases h
  · split at h
    · cases h; exact ⟨.plain, [], .plain, rfl, by simp [destBits]⟩
    · cases h
  · split at h
    · cases h
    · rename_i n us hs
      obtain ⟨d, pre, h1, h2, h3⟩ := dest_entry hs
      simp only [Option.some.injEq, Prod.mk.injEq] at h
      obtain ⟨h4, rfl⟩ := h
      refine ⟨d, pre, h1, h2, ?_⟩
      rw [← h4]
      rcases h3 with ⟨rfl, rfl⟩ | ⟨rfl, rfl⟩ | ⟨rfl, rfl⟩ <;> rfl

theorem vpfxdElement_text {i r : Nat} {s : Dest} {ts rest : List Token} (h : DestText s ts) (hi : i < 4)
    (hc : i + 1 < 4 → ∃ x r, rest = (Tok.comma, x) :: r) (he : i + 1 = 4 → ∃ x r, rest = (Tok.separator, x) :: r) :
    vpfxdElement i r (ts ++ rest) = some (r ||| destBits i s, rest) := by
  cases h with
  | plain =>
    rw [List.nil_append]
    by_cases e : i + 1 = 4
    · obtain ⟨x, q, rfl⟩ := he e
      simp only [vpfxdElement, destBits]
      rw [if_pos (by omega)]; simp
    · obtain ⟨x, q, rfl⟩ := hc (by omega)
      simp only [vpfxdElement, destBits]
      rw [if_pos (by omega)]; simp
  | masked =>
    have hs : sequence maskEntries ([(Tok.ident (lit "m"), ‹Str›)] ++ rest) = some (-1, rest) := rfl
    simp only [List.cons_append, List.nil_append] at hs ⊢
    simp only [vpfxdElement, hs]
    rfl
  | unit h =>
    have hs : sequence maskEntries (ts ++ rest) = some (1, rest) := sequence_reads (toks := [.lbrack, .int 0, .colon, .int 1, .rbrack]) (tail := rest.map Prod.fst) rfl h rfl
    match ts, h with
    | (t, x) :: ts, h =>
      simp only [List.map_cons, List.cons.injEq] at h
      obtain ⟨rfl, _⟩ := h
      simp only [List.cons_append] at hs ⊢
      simp only [vpfxdElement, hs]
      rfl
  | signed h =>
    have hs : sequence maskEntries (ts ++ rest) = some (3, rest) := sequence_reads (toks := [.lbrack, .minus, .int 1, .colon, .int 1, .rbrack]) (tail := rest.map Prod.fst) rfl h rfl
    match ts, h with
    | (t, x) :: ts, h =>
      simp only [List.map_cons, List.cons.injEq] at h
      obtain ⟨rfl, _⟩ := h
      simp only [List.cons_append] at hs ⊢
      simp only [vpfxdElement, hs]
      rfl

/-- All cells of a destination prefix. -/
def allDests : List Dest := [.plain, .masked, .unit, .signed]

theorem dest_cells : (allDests.all fun a => allDests.all fun b => allDests.all fun c => allDests.all fun d =>
    (List.range 4).map (destAt (foldBits destBits 0 0 [a, b, c, d])) == [some a, some b, some c, some d] &&
      decide (foldBits destBits 0 0 [a, b, c, d] < 2 ^ 12)) = true := by decide +kernel

theorem mem_allDests (d : Dest) : d ∈ allDests := by cases d <;> simp [allDests]

theorem cells_of_dest (a b c d : Dest) : (List.range 4).map (destAt (foldBits destBits 0 0 [a, b, c, d])) = [some a, some b, some c, some d] ∧
    foldBits destBits 0 0 [a, b, c, d] < 2 ^ 12 := by
  have h := List.all_eq_true.1 (List.all_eq_true.1 (List.all_eq_true.1 (List.all_eq_true.1 dest_cells a (mem_allDests a)) b (mem_allDests b)) c (mem_allDests c)) d (mem_allDests d)
  simpa only [Bool.and_eq_true, beq_iff_eq, decide_eq_true_eq] using h

theorem dest_unique_all : ((List.range 4096).all fun v =>
    match destAt v 0, destAt v 1, destAt v 2, destAt v 3 with
    | some a, some b, some c, some d => foldBits destBits 0 0 [a, b, c, d] == v
    | _, _, _, _ => true) = true := by decide +kernel

theorem dest_unique {v : Nat} (hv : v < 2 ^ 12) {l : List Dest} (h : (List.range 4).map (destAt v) = l.map some) : foldBits destBits 0 0 l = v ∧ l.length = 4 := by
  have hl := congrArg List.length h
  simp only [List.length_map, List.length_range] at hl
  obtain ⟨a, b, c, d, rfl⟩ := list_four hl.symm
  have h : [destAt v 0, destAt v 1, destAt v 2, destAt v 3] = [some a, some b, some c, some d] := h
  simp only [List.cons.injEq, and_true] at h
  have := List.all_eq_true.1 dest_unique_all v (List.mem_range.2 hv)
  rw [h.1, h.2.1, h.2.2.1, h.2.2.2] at this
  exact ⟨by simpa using this, rfl⟩

theorem vpfxd_sound {ts rest : List Token} {n : Int} (h : vpfxd ts = some (n, rest)) : ∃ (v : Nat) (pre : List Token), n = (v : Int) ∧ DestPrefix v pre ∧ ts = pre ++ rest := by
  unfold vpfxd at h
  cases hl : prefixLoop vpfxdElement 4 0 0 ts with
  | none => rw [hl] at h; cases h
  | some r =>
    rw [hl] at h
    simp only [Option.map_some, Option.some.injEq, Prod.mk.injEq] at h
    obtain ⟨cells, texts, inner, x, h1, h2, h3, h4, h5⟩ := prefixLoop_sound (R := DestText) (bits := destBits) (fun h => vpfxdElement_sound h) (v := r.1) (rest := r.2) hl
    obtain ⟨a, b, c, d, rfl⟩ := list_four h1
    have := cells_of_dest a b c d
    rw [← h5] at this
    refine ⟨r.1, inner, h.1.symm, ⟨this.2, [a, b, c, d], texts, this.1, h2, h3⟩, ?_⟩
    rw [h4, h.2]
    rfl

theorem vpfxd_reads {v : Nat} {pre rest : List Token} {y : Str} (h : DestPrefix v pre) :
    vpfxd (pre ++ (.separator, y) :: rest) = some ((v : Int), (.separator, y) :: rest) := by
  obtain ⟨hv, lanes, texts, h0, h1, h2⟩ := h
  have hu := dest_unique hv h0
  have hl := prefixLoop_text (R := DestText) (bits := destBits) (f := vpfxdElement) (N := 4) (fun hs hi hc he => vpfxdElement_text hs hi hc he) h1 h2 0 0 [] rest y (by omega)
  rw [hu.1, hu.2] at hl
  have : lead 0 [] ++ (pre ++ (Tok.separator, y) :: rest) = pre ++ (Tok.separator, y) :: rest := rfl
  rw [this] at hl
  rw [vpfxd, hl]
  rfl

end Armips.MipsParse
