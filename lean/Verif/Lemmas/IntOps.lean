import Verif.Spec.Expression
import Verif.Lemmas.Expression
import Verif.Lemmas.BitInt
namespace Armips
open Spec

theorem toInt_mod (x : BitVec 64) : ∃ k : Int, x.toInt = x.toNat + k * 2 ^ 64 := by
  rw [BitVec.toInt_eq_toNat_cond]
  split
  · exact ⟨0, by omega⟩
  · exact ⟨-1, by omega⟩

theorem toInt_inI64 (x : BitVec 64) : InI64 x.toInt := by
  rw [BitVec.toInt_eq_toNat_cond]
  unfold InI64
  have := x.isLt
  split <;> omega

theorem shl_spec (a : Int) (n : Nat) : ∃ k, (BitVec.ofInt 64 a <<< n).toInt = a * 2 ^ n + k * 2 ^ 64 := by
  obtain ⟨k, hk⟩ := toInt_mod (BitVec.ofInt 64 a <<< n)
  rw [hk, BitVec.toNat_shiftLeft, BitVec.toNat_ofInt, Nat.shiftLeft_eq]
  have hnn : 0 ≤ a % 2 ^ 64 := Int.emod_nonneg _ (by decide)
  have h1 : (((a % ((2 ^ 64 : Nat) : Int)).toNat : Nat) : Int) = a % 2 ^ 64 := by
    rw [Int.toNat_of_nonneg]
    · rfl
    · exact hnn
  have h2 : (((a % ((2 ^ 64 : Nat) : Int)).toNat * 2 ^ n : Nat) : Int) = (a % 2 ^ 64) * 2 ^ n := by
    rw [Int.natCast_mul, h1]; simp
  generalize ((a % ((2 ^ 64 : Nat) : Int)).toNat * 2 ^ n : Nat) = m at h2
  have h3 : a = 2 ^ 64 * (a / 2 ^ 64) + a % 2 ^ 64 := (Int.mul_ediv_add_emod a _).symm
  have h4 : (m : Int) = a * 2 ^ n - (a / 2 ^ 64 * 2 ^ n) * 2 ^ 64 := by
    rw [h2]
    conv => rhs; lhs; rw [h3]
    rw [Int.add_mul, Int.mul_comm (2 ^ 64) _, Int.mul_assoc, Int.mul_comm (2 ^ 64) (2 ^ n), ← Int.mul_assoc]
    omega
  generalize a / 2 ^ 64 * 2 ^ n = q at h4
  generalize a * 2 ^ n = p at h4
  refine ⟨k - q - (m / 2 ^ 64 : Nat), ?_⟩
  omega

theorem shr_spec (a : Int) (n : Nat) : ∃ k, (BitVec.ofInt 64 a >>> n).toInt = (a % 2 ^ 64) / 2 ^ n + k * 2 ^ 64 := by
  obtain ⟨k, hk⟩ := toInt_mod (BitVec.ofInt 64 a >>> n)
  refine ⟨k, ?_⟩
  rw [hk, BitVec.toNat_ushiftRight, BitVec.toNat_ofInt, Nat.shiftRight_eq_div_pow, Int.natCast_ediv,
    Int.toNat_of_nonneg (Int.emod_nonneg _ (by decide))]
  simp

theorem div_spec (a b : Int) (hb : b ≠ 0) : a = b * a.tdiv b + a.tmod b ∧ -(b.natAbs : Int) < a.tmod b ∧
    a.tmod b < b.natAbs ∧ (0 ≤ a → 0 ≤ a.tmod b) ∧ (a ≤ 0 → a.tmod b ≤ 0) := by
  have h1 := Int.mul_tdiv_add_tmod a b
  have h2 : (a.tmod b).natAbs < b.natAbs := by
    rw [Int.natAbs_tmod]
    exact Nat.mod_lt _ (by omega)
  refine ⟨h1.symm, by omega, by omega, fun h => Int.tmod_nonneg b h, fun h => ?_⟩
  have : 0 ≤ (-a).tmod b := Int.tmod_nonneg b (by omega)
  rw [Int.neg_tmod] at this
  omega

theorem tdiv_inI64 (a b : Int) (ha : InI64 a) (h : ¬ (a = -(2 ^ 63) ∧ b = -1)) : InI64 (a.tdiv b) := by
  have h1 : (a.tdiv b).natAbs = a.natAbs / b.natAbs := Int.natAbs_tdiv a b
  unfold InI64 at *
  by_cases hb : b = 0
  · subst hb; simp
  by_cases hb1 : b = 1
  · subst hb1; simpa using ha
  by_cases hb2 : b = -1
  · subst hb2
    have : a.tdiv (-1) = -a := by simp [Int.tdiv_neg]
    omega
  · have h2 : a.natAbs / b.natAbs ≤ a.natAbs / 2 := Nat.div_le_div_left (by omega) (by decide)
    omega

theorem tmod_inI64 (a b : Int) (ha : InI64 a) : InI64 (a.tmod b) := by
  have h2 : (a.tmod b).natAbs ≤ a.natAbs := by
    rw [Int.natAbs_tmod]
    exact Nat.mod_le _ _
  have h3 : 0 ≤ a → 0 ≤ a.tmod b := fun h => Int.tmod_nonneg b h
  have h4 : a ≤ 0 → a.tmod b ≤ 0 := by
    intro h
    have : 0 ≤ (-a).tmod b := Int.tmod_nonneg b (by omega)
    rw [Int.neg_tmod] at this
    omega
  unfold InI64 at *
  omega

/-- The warning as a list of diagnostics. -/
def warning : Option String → List Diag
  | none => []
  | some s => [{ type := .warning, text := s }]

theorem chk_ok {v : Int} (h : InI64 v) : chk v = .ok (.int v) [] := by simp [chk, h]

theorem ofBool_eq (p : Prop) [Decidable p] (b : Bool) (h : b = true ↔ p) : Value.ofBool b = .int (if p then 1 else 0) := by
  unfold Value.ofBool
  by_cases hp : p
  · rw [h.2 hp]; simp [hp]
  · have : b = false := by cases b <;> simp_all
    rw [this]; simp [hp]

theorem boolInt_inI64 (p : Prop) [Decidable p] : InI64 (if p then 1 else 0) := by
  unfold InI64; split <;> decide

theorem apply_int (H : Host) (op : BinOp) (a b : Int) (ha : InI64 a) (hb : InI64 b) (hr : InRange op a b) :
    ∃ r w, op.apply H (.int a) (.int b) = .ok (.int r) (warning w) ∧ InI64 r ∧ IntResult op a b r w := by
  cases op with
  | add => exact ⟨a + b, none, chk_ok hr, hr, rfl, rfl⟩
  | sub => exact ⟨a - b, none, chk_ok hr, hr, rfl, rfl⟩
  | mult => exact ⟨a * b, none, chk_ok hr, hr, rfl, rfl⟩
  | div =>
    simp only [BinOp.apply, Value.div, IntResult]
    by_cases h1 : a = -(2 ^ 63) ∧ b = -1
    · refine ⟨-(2 ^ 63), some "Division overflow in expression", ?_, by unfold InI64; decide, ?_⟩
      · rw [if_pos h1]; rfl
      · rw [if_neg (by omega), if_pos h1]; exact ⟨rfl, rfl⟩
    · by_cases h2 : b = 0
      · refine ⟨-1, some "Integer division by zero in expression", ?_, by unfold InI64; decide, ?_⟩
        · rw [if_neg h1, if_pos h2]; rfl
        · rw [if_pos h2]; exact ⟨rfl, rfl⟩
      · refine ⟨a.tdiv b, none, ?_, tdiv_inI64 a b ha h1, ?_⟩
        · rw [if_neg h1, if_neg h2]; rfl
        · rw [if_neg h2, if_neg h1]; exact ⟨rfl, _, div_spec a b h2⟩
  | mod =>
    simp only [BinOp.apply, Value.mod, IntResult]
    by_cases h1 : a = -(2 ^ 63) ∧ b = -1
    · refine ⟨0, some "Division overflow in expression", ?_, by unfold InI64; decide, ?_⟩
      · rw [if_pos h1]; rfl
      · rw [if_neg (by omega), if_pos h1]; exact ⟨rfl, rfl⟩
    · by_cases h2 : b = 0
      · refine ⟨a, some "Integer division by zero in expression", ?_, ha, ?_⟩
        · rw [if_neg h1, if_pos h2]; rfl
        · rw [if_pos h2]; exact ⟨rfl, rfl⟩
      · refine ⟨a.tmod b, none, ?_, tmod_inI64 a b ha, ?_⟩
        · rw [if_neg h1, if_neg h2]; rfl
        · rw [if_neg h2, if_neg h1]; exact ⟨rfl, _, div_spec a b h2⟩
  | leftShift =>
    refine ⟨_, none, ?_, toInt_inI64 _, shl_spec a b.toNat, rfl⟩
    simp only [BinOp.apply, Value.shl]
    rw [if_pos (show 0 ≤ b ∧ b < 64 from hr)]; rfl
  | rightShift =>
    refine ⟨_, none, ?_, toInt_inI64 _, shr_spec a b.toNat, rfl⟩
    simp only [BinOp.apply, Value.shr]
    rw [if_pos (show 0 ≤ b ∧ b < 64 from hr)]; rfl
  | less =>
    refine ⟨_, none, ?_, boolInt_inI64 (a < b), rfl, rfl⟩
    simp only [BinOp.apply, Value.lt, ofBool_eq (a < b) _ decide_eq_true_iff]; rfl
  | greater =>
    refine ⟨_, none, ?_, boolInt_inI64 (a > b), rfl, rfl⟩
    simp only [BinOp.apply, Value.gt, Value.lt, ofBool_eq (a > b) _ decide_eq_true_iff]; rfl
  | lessEqual =>
    refine ⟨_, none, ?_, boolInt_inI64 (a ≤ b), rfl, rfl⟩
    simp only [BinOp.apply, Value.le, ofBool_eq (a ≤ b) _ decide_eq_true_iff]; rfl
  | greaterEqual =>
    refine ⟨_, none, ?_, boolInt_inI64 (a ≥ b), rfl, rfl⟩
    simp only [BinOp.apply, Value.ge, Value.le, ofBool_eq (a ≥ b) _ decide_eq_true_iff]; rfl
  | equal =>
    refine ⟨_, none, ?_, boolInt_inI64 (a = b), rfl, rfl⟩
    simp only [BinOp.apply, Value.eq]; rw [ofBool_eq (a = b) _ (by simp)]; rfl
  | notEqual =>
    refine ⟨_, none, ?_, boolInt_inI64 (a ≠ b), rfl, rfl⟩
    simp only [BinOp.apply, Value.eq]; rw [ofBool_eq (a ≠ b) _ (by simp)]; rfl
  | bitAnd =>
    refine ⟨_, none, rfl, toInt_inI64 _, ?_, rfl⟩
    intro i hi
    rw [bit_toInt 64 _ i hi, BitVec.getLsbD_and, bit_ofInt 64 _ i hi, bit_ofInt 64 _ i hi]
  | bitOr =>
    refine ⟨_, none, rfl, toInt_inI64 _, ?_, rfl⟩
    intro i hi
    rw [bit_toInt 64 _ i hi, BitVec.getLsbD_or, bit_ofInt 64 _ i hi, bit_ofInt 64 _ i hi]
  | xor =>
    refine ⟨_, none, rfl, toInt_inI64 _, ?_, rfl⟩
    intro i hi
    rw [bit_toInt 64 _ i hi, BitVec.getLsbD_xor, bit_ofInt 64 _ i hi, bit_ofInt 64 _ i hi]
  | logAnd =>
    refine ⟨_, none, ?_, boolInt_inI64 (a ≠ 0 ∧ b ≠ 0), rfl, rfl⟩
    simp only [BinOp.apply, Value.land]; rw [ofBool_eq (a ≠ 0 ∧ b ≠ 0) _ (by simp)]; rfl
  | logOr =>
    refine ⟨_, none, ?_, boolInt_inI64 (a ≠ 0 ∨ b ≠ 0), rfl, rfl⟩
    simp only [BinOp.apply, Value.lor]; rw [ofBool_eq (a ≠ 0 ∨ b ≠ 0) _ (by simp)]; rfl

end Armips
