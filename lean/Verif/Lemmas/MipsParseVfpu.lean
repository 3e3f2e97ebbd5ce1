import Verif.Lemmas.MipsParse
/-!
# Lemmas about the registers of the vector unit of the PSP
-/
namespace Armips.MipsParse
open ExprParse (Tok)
open Mips (Slot ImmType SecType Op Operands Version Flag)
open Spec.MipsParse

/-- The letters. -/
def vfpuLetters : List Char := ['s', 'c', 'r', 'm', 'e']

/-- All positions. -/
def positions : List (Nat × Nat × Nat) := (List.range 8).flatMap fun m => (List.range 4).flatMap fun c => (List.range 4).map fun r => (m, c, r)

theorem mem_positions {m c r : Nat} (hm : m < 8) (hc : c < 4) (hr : r < 4) : (m, c, r) ∈ positions := by
  simp only [positions, List.mem_flatMap, List.mem_range, List.mem_map]
  exact ⟨m, hm, c, hc, r, hr, rfl⟩

theorem vfpu_spelling : (vfpuLetters.all fun l => positions.all fun x =>
    lit (String.ofList [l] ++ toString x.1 ++ toString x.2.1 ++ toString x.2.2) ==
      [chr l, BitVec.ofNat 8 (0x30 + x.1), BitVec.ofNat 8 (0x30 + x.2.1), BitVec.ofNat 8 (0x30 + x.2.2)] &&
    lit (String.ofList [l.toUpper] ++ toString x.1 ++ toString x.2.1 ++ toString x.2.2) ==
      [chr l.toUpper, BitVec.ofNat 8 (0x30 + x.1), BitVec.ofNat 8 (0x30 + x.2.1), BitVec.ofNat 8 (0x30 + x.2.2)]) = true := by decide +kernel

theorem vfpu_sound : (vfpuLetters.all fun l => positions.all fun x => (List.range 4).all fun size =>
    match vfpuNumber (chr l) x.1 x.2.1 x.2.2 size with
    | some (false, n) => decide (n < 128) && vectorNamed l x.1 x.2.1 x.2.2 size == some (vectorCells size n)
    | some (true, n) => decide (n < 128) && matrixNamed l x.1 x.2.1 x.2.2 size == some (matrixCells size n)
    | none => true) = true := by decide +kernel

theorem vector_complete : ((List.range 4).all fun size => (List.range 128).all fun n => ['s', 'c', 'r'].all fun l =>
    match (vectorCells size n)[0]? with
    | some (m, c, r) => !(vectorNamed l m c r size == some (vectorCells size n)) || vfpuNumber (chr l) m c r size == some (false, n)
    | none => true) = true := by decide +kernel

theorem matrix_complete : ((List.range 4).all fun size => (List.range 128).all fun n => ['m', 'e'].all fun l =>
    match (matrixCells size n)[0]?.bind (·[0]?) with
    | some (m, a, b) =>
      (!(matrixNamed l m a b size == some (matrixCells size n)) || vfpuNumber (chr l) m a b size == some (true, n)) &&
      (!(matrixNamed l m b a size == some (matrixCells size n)) || vfpuNumber (chr l) m b a size == some (true, n))
    | _ => true) = true := by decide +kernel

theorem lowerByte_letters : ∀ b : Byte, (vfpuLetters.all fun l => !(lowerByte b == chr l) || b == chr l || b == chr l.toUpper) = true := by decide +kernel

theorem lowerByte_spelled : (vfpuLetters.all fun l => lowerByte (chr l) == chr l && lowerByte (chr l.toUpper) == chr l) = true := by decide +kernel

theorem digit_iff {b : Byte} {n : Nat} : digit b = some n ↔ n ≤ 9 ∧ b = BitVec.ofNat 8 (0x30 + n) := by
  unfold digit
  constructor
  · intro h
    split at h
    · rename_i hb
      cases h
      refine ⟨by omega, ?_⟩
      apply BitVec.eq_of_toNat_eq
      rw [BitVec.toNat_ofNat]; omega
    · cases h
  · rintro ⟨h, rfl⟩
    have : (BitVec.ofNat 8 (0x30 + n)).toNat = 0x30 + n := by rw [BitVec.toNat_ofNat]; omega
    rw [this, if_pos (by omega)]
    congr 1; omega

theorem vfpuNumber_bounds {b : Byte} {m c r size : Nat} {x : Bool × Nat} (h : vfpuNumber b m c r size = some x) :
    m < 8 ∧ c < 4 ∧ r < 4 ∧ ∃ l ∈ vfpuLetters, b = chr l := by
  unfold vfpuNumber at h
  split at h
  · cases h
  · refine ⟨by omega, by omega, by omega, ?_⟩
    simp only at h
    by_cases h1 : b = chr 'r'
    · exact ⟨_, by decide, h1⟩
    by_cases h2 : b = chr 'c'
    · exact ⟨_, by decide, h2⟩
    by_cases h3 : b = chr 's'
    · exact ⟨_, by decide, h3⟩
    by_cases h4 : b = chr 'e'
    · exact ⟨_, by decide, h4⟩
    by_cases h5 : b = chr 'm'
    · exact ⟨_, by decide, h5⟩
    rw [if_neg h1, if_neg h2, if_neg h3, if_neg h4, if_neg h5] at h
    cases h

/-- What a letter and three digits are read as. -/
theorem vfpuRegister_spelled {name : Str} {l : Char} {m c r : Nat} (hl : l ∈ vfpuLetters) (h : Spelled name l m c r) (size : Nat) (x : Str) (ts : List Token) :
    vfpuRegister (some size) ((.ident name, x) :: ts) = (vfpuNumber (chr l) m c r size).map (·, ts) := by
  obtain ⟨hm, hc, hr, h⟩ := h
  have h1 := List.all_eq_true.1 (List.all_eq_true.1 vfpu_spelling l hl) _ (mem_positions hm hc hr)
  simp only [Bool.and_eq_true, beq_iff_eq] at h1
  have h2 := List.all_eq_true.1 lowerByte_spelled l hl
  simp only [Bool.and_eq_true, beq_iff_eq] at h2
  rw [h1.1, h1.2] at h
  rcases h with rfl | rfl
  · unfold vfpuRegister
    simp only [digit_iff.2 ⟨show m ≤ 9 by omega, rfl⟩, digit_iff.2 ⟨show c ≤ 9 by omega, rfl⟩, digit_iff.2 ⟨show r ≤ 9 by omega, rfl⟩, h2.1, Option.bind_eq_bind, Option.bind_some]
    cases vfpuNumber (chr l) m c r size <;> rfl
  · unfold vfpuRegister
    simp only [digit_iff.2 ⟨show m ≤ 9 by omega, rfl⟩, digit_iff.2 ⟨show c ≤ 9 by omega, rfl⟩, digit_iff.2 ⟨show r ≤ 9 by omega, rfl⟩, h2.2, Option.bind_eq_bind, Option.bind_some]
    cases vfpuNumber (chr l) m c r size <;> rfl

theorem vfpuRegister_some {size : Option Nat} {ts rest : List Token} {n : Bool × Nat} (h : vfpuRegister size ts = some (n, rest)) :
    ∃ name x l m c r k, ts = (.ident name, x) :: rest ∧ size = some k ∧ l ∈ vfpuLetters ∧ Spelled name l m c r ∧ vfpuNumber (chr l) m c r k = some n := by
  unfold vfpuRegister at h
  split at h
  · rename_i k m c r x ts
    cases hm : digit m with
    | none => rw [hm] at h; cases h
    | some m' =>
    cases hc : digit c with
    | none => rw [hm, hc] at h; cases h
    | some c' =>
    cases hr : digit r with
    | none => rw [hm, hc, hr] at h; cases h
    | some r' =>
    cases size with
    | none => rw [hm, hc, hr] at h; cases h
    | some z =>
    rw [hm, hc, hr] at h
    cases hv : vfpuNumber (lowerByte k) m' c' r' z with
    | none => simp only [Option.bind_eq_bind, Option.bind_some] at h; rw [hv] at h; cases h
    | some y =>
      simp only [Option.bind_eq_bind, Option.bind_some] at h
      rw [hv] at h
      cases h
      obtain ⟨b1, b2, b3, l, hl, hk⟩ := vfpuNumber_bounds hv
      have h1 := List.all_eq_true.1 (List.all_eq_true.1 vfpu_spelling l hl) _ (mem_positions b1 b2 b3)
      simp only [Bool.and_eq_true, beq_iff_eq] at h1
      have h2 := List.all_eq_true.1 (lowerByte_letters k) l hl
      rw [hk] at hv
      refine ⟨_, x, l, m', c', r', z, rfl, rfl, hl, ⟨b1, b2, b3, ?_⟩, hv⟩
      rw [h1.1, h1.2, (digit_iff.1 hm).2, (digit_iff.1 hc).2, (digit_iff.1 hr).2]
      simp only [hk, Bool.or_eq_true, Bool.not_eq_true', beq_eq_false_iff_ne, ne_eq, beq_iff_eq, not_true_eq_false, false_or] at h2
      rcases h2 with rfl | rfl
      · exact .inl rfl
      · exact .inr rfl
  · cases h

theorem vectorNamed_letter {l : Char} {m c r size : Nat} {x : List Cell} (h : vectorNamed l m c r size = some x) : l ∈ ['s', 'c', 'r'] := by
  unfold vectorNamed at h
  split at h <;> first | (cases h; done) | simp

theorem matrixNamed_letter {l : Char} {m c r size : Nat} {x : List (List Cell)} (h : matrixNamed l m c r size = some x) : l ∈ ['m', 'e'] := by
  unfold matrixNamed at h
  split at h
  · cases h
  · split at h <;> first | (cases h; done) | simp

theorem vectorNamed_first {l : Char} {m c r size : Nat} {x : List Cell} (hc : c < 4) (hr : r < 4) (h : vectorNamed l m c r size = some x) :
    x[0]? = some (m, c, r) := by
  unfold vectorNamed at h
  split at h
  · split at h
    · cases h; rfl
    · cases h
  · split at h
    · cases h
    · cases h; simp [List.range_succ_eq_map, Nat.mod_eq_of_lt hr]
  · split at h
    · cases h
    · cases h; simp [List.range_succ_eq_map, Nat.mod_eq_of_lt hc]
  · cases h

theorem matrixNamed_first {l : Char} {m c r size : Nat} {x : List (List Cell)} (hc : c < 4) (hr : r < 4) (h : matrixNamed l m c r size = some x) :
    x[0]?.bind (·[0]?) = some (m, c, r) ∨ x[0]?.bind (·[0]?) = some (m, r, c) := by
  unfold matrixNamed at h
  split at h
  · cases h
  · split at h
    · cases h; left; simp [List.range_succ_eq_map, Nat.mod_eq_of_lt hc, Nat.mod_eq_of_lt hr]
    · cases h; right; simp [List.range_succ_eq_map, Nat.mod_eq_of_lt hc, Nat.mod_eq_of_lt hr]
    · cases h

theorem vfpuVector_iff {size : Nat} (hs : size < 4) {ts rest : List Token} {n : Nat} :
    vfpuRegister (some size) ts = some ((false, n), rest) ↔ ∃ name x, ts = (.ident name, x) :: rest ∧ VecName size name n := by
  constructor
  · intro h
    obtain ⟨name, x, l, m, c, r, k, rfl, hk, hl, hsp, hv⟩ := vfpuRegister_some h
    cases hk
    obtain ⟨b1, b2, b3, _⟩ := vfpuNumber_bounds hv
    have := List.all_eq_true.1 (List.all_eq_true.1 (List.all_eq_true.1 vfpu_sound l hl) _ (mem_positions b1 b2 b3)) size (List.mem_range.2 hs)
    simp only [hv, Bool.and_eq_true, decide_eq_true_eq, beq_iff_eq] at this
    exact ⟨name, x, rfl, this.1, l, m, c, r, hsp, this.2⟩
  · rintro ⟨name, x, rfl, hn, l, m, c, r, hsp, hv⟩
    have hl := vectorNamed_letter hv
    have h1 := List.all_eq_true.1 (List.all_eq_true.1 (List.all_eq_true.1 vector_complete size (List.mem_range.2 hs)) n (List.mem_range.2 hn)) l hl
    rw [vectorNamed_first hsp.2.1 hsp.2.2.1 hv] at h1
    simp only [hv, Bool.or_eq_true, Bool.not_eq_true', beq_self_eq_true, Bool.true_eq_false, false_or, beq_iff_eq] at h1
    rw [vfpuRegister_spelled (by revert hl; simp [vfpuLetters]; rintro (h | h | h) <;> simp [h]) hsp, h1]
    rfl

theorem vfpuMatrix_iff {size : Nat} (hs : size < 4) {ts rest : List Token} {n : Nat} :
    vfpuRegister (some size) ts = some ((true, n), rest) ↔ ∃ name x, ts = (.ident name, x) :: rest ∧ MatName size name n := by
  constructor
  · intro h
    obtain ⟨name, x, l, m, c, r, k, rfl, hk, hl, hsp, hv⟩ := vfpuRegister_some h
    cases hk
    obtain ⟨b1, b2, b3, _⟩ := vfpuNumber_bounds hv
    have := List.all_eq_true.1 (List.all_eq_true.1 (List.all_eq_true.1 vfpu_sound l hl) _ (mem_positions b1 b2 b3)) size (List.mem_range.2 hs)
    simp only [hv, Bool.and_eq_true, decide_eq_true_eq, beq_iff_eq] at this
    exact ⟨name, x, rfl, this.1, l, m, c, r, hsp, this.2⟩
  · rintro ⟨name, x, rfl, hn, l, m, c, r, hsp, hv⟩
    have hl := matrixNamed_letter hv
    have h1 := List.all_eq_true.1 (List.all_eq_true.1 (List.all_eq_true.1 matrix_complete size (List.mem_range.2 hs)) n (List.mem_range.2 hn)) l hl
    have h2 : vfpuNumber (chr l) m c r size = some (true, n) := by
      rcases matrixNamed_first hsp.2.1 hsp.2.2.1 hv with h | h
      · rw [h] at h1
        simp only [hv, Bool.and_eq_true, Bool.or_eq_true, Bool.not_eq_true', beq_self_eq_true, Bool.true_eq_false, false_or, beq_iff_eq] at h1
        exact h1.1
      · rw [h] at h1
        simp only [hv, Bool.and_eq_true, Bool.or_eq_true, Bool.not_eq_true', beq_self_eq_true, Bool.true_eq_false, false_or, beq_iff_eq] at h1
        exact h1.2
    rw [vfpuRegister_spelled (by revert hl; simp [vfpuLetters]; rintro (h | h) <;> simp [h]) hsp, h2]
    rfl

/-- Bit 5 exchanges columns and rows. -/
theorem matrix_mirror : ((List.range 4).all fun size => (List.range 128).all fun n =>
    matrixCells size (n ^^^ 32) == mirror (matrixCells size n) && decide (n ^^^ 32 < 128)) = true := by decide +kernel

/-- The number of a matrix register from its cells. -/
def undoMatrix : List (List Cell) → Nat
  | ((m, a, b) :: (_, a', _) :: _) :: _ =>
    if a = a' then m * 4 + a + (if b = 0 then 0 else 64) else m * 4 + b + 32 + (if a = 0 then 0 else 64)
  | _ => 0

theorem undo_matrix : ([1, 2, 3].all fun size => (List.range 128).all fun n => undoMatrix (matrixCells size n) == n) = true := by decide +kernel

theorem matrix_unique {size n n' : Nat} (hs : size < 4) (h0 : size ≠ 0) (hn : n < 128) (hn' : n' < 128) (h : matrixCells size n = matrixCells size n') : n = n' := by
  have hm : size ∈ [1, 2, 3] := by simp; omega
  have h1 := List.all_eq_true.1 (List.all_eq_true.1 undo_matrix size hm) n (List.mem_range.2 hn)
  have h2 := List.all_eq_true.1 (List.all_eq_true.1 undo_matrix size hm) n' (List.mem_range.2 hn')
  simp only [beq_iff_eq] at h1 h2
  rw [← h1, ← h2, h]

theorem resized_iff {v : VSize} {k n : Nat} (hk : k < 4) : v.apply (some k) = some n ↔ resized v k n := by
  match k, hk with
  | 0, _ => cases v <;> simp [VSize.apply, resized] <;> omega
  | 1, _ => cases v <;> simp [VSize.apply, resized] <;> omega
  | 2, _ => cases v <;> simp [VSize.apply, resized] <;> omega
  | 3, _ => cases v <;> simp [VSize.apply, resized] <;> omega

end Armips.MipsParse
