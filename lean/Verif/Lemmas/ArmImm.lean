import Verif.Model.Arm
import Verif.Spec.Arm
import Verif.Lemmas.Fields
/-! Lemmas about rotated immediates. -/
namespace Armips.Arm
open Spec Spec.Arm

theorem immMask_bit : ∀ i j : Fin 32, 8 ≤ j.val → (immMask i.val).getLsbD ((j.val + 32 - i.val) % 32) = true := by
  decide +kernel

theorem immMask_bit' : ∀ i k : Fin 32, (immMask i.val).getLsbD k.val = true → 8 ≤ (k.val + i.val) % 32 := by
  decide +kernel

theorem rotl_bit (v : BitVec 32) {i j : Nat} (hi : i < 32) (hj : j < 32) :
    ((v <<< i) ||| (v >>> ((32 - i) % 32))).getLsbD j = v.getLsbD ((j + 32 - i) % 32) := by
  simp only [BitVec.getLsbD_or, BitVec.getLsbD_shiftLeft, BitVec.getLsbD_ushiftRight, hj, decide_true, Bool.true_and]
  by_cases h : j < i
  · have h1 : (32 - i) % 32 = 32 - i := Nat.mod_eq_of_lt (by omega)
    have h2 : (j + 32 - i) % 32 = j + 32 - i := Nat.mod_eq_of_lt (by omega)
    have h3 : 32 - i + j = j + 32 - i := by omega
    simp [h, h1, h2, h3]
  · have h2 : (j + 32 - i) % 32 = j - i := by
      rw [show j + 32 - i = (j - i) + 32 by omega, Nat.add_mod_right, Nat.mod_eq_of_lt (by omega)]
    by_cases h0 : i = 0
    · subst h0; simp [Nat.mod_eq_of_lt hj]
    · have h1 : (32 - i) % 32 = 32 - i := Nat.mod_eq_of_lt (by omega)
      have h3 : v.getLsbD (32 - i + j) = false := BitVec.getLsbD_of_ge _ _ (by omega)
      simp [h, h1, h2, h3]

theorem rotr_bit (v : BitVec 32) {i j : Nat} (hi : i < 32) (hj : j < 32) :
    (v.rotateRight i).getLsbD j = v.getLsbD ((j + i) % 32) := by
  rw [BitVec.getLsbD_rotateRight]
  rw [Nat.mod_eq_of_lt hi]
  by_cases h : j < 32 - i
  · have : (j + i) % 32 = i + j := by rw [Nat.mod_eq_of_lt (by omega)]; omega
    simp [h, this]
  · have : (j + i) % 32 = j - (32 - i) := by
      rw [show j + i = (j - (32 - i)) + 32 by omega, Nat.add_mod_right, Nat.mod_eq_of_lt (by omega)]
    simp [h, hj, this]

theorem rotr_rotl (v : BitVec 32) {i : Nat} (hi : i < 32) :
    ((v <<< i) ||| (v >>> ((32 - i) % 32))).rotateRight i = v := by
  apply BitVec.eq_of_getLsbD_eq
  intro j hj
  rw [rotr_bit _ hi hj, rotl_bit _ hi (Nat.mod_lt _ (by decide))]
  congr 1
  omega

theorem lt_256 {v : BitVec 32} (h : ∀ j, 8 ≤ j → j < 32 → v.getLsbD j = false) : v.toNat < 256 := by
  apply Nat.lt_pow_two_of_testBit (n := 8)
  intro j hj
  rw [BitVec.testBit_toNat]
  by_cases h2 : j < 32
  · exact h j hj h2
  · exact BitVec.getLsbD_of_ge _ _ (by omega)

theorem masked_zero {v : BitVec 32} {i : Nat} (hi : i < 32) :
    v &&& immMask i = 0#32 ↔ ((v <<< i) ||| (v >>> ((32 - i) % 32))).toNat < 256 := by
  constructor
  · intro h
    apply lt_256
    intro j h8 hj
    rw [rotl_bit v hi hj]
    have hb := congrArg (fun x => x.getLsbD ((j + 32 - i) % 32)) h
    simp only [BitVec.getLsbD_and, BitVec.getLsbD_zero] at hb
    rw [immMask_bit ⟨i, hi⟩ ⟨j, hj⟩ h8, Bool.and_true] at hb
    exact hb
  · intro h
    apply BitVec.eq_of_getLsbD_eq
    intro k hk
    simp only [BitVec.getLsbD_and, BitVec.getLsbD_zero]
    by_cases hm : (immMask i).getLsbD k = true
    · have h8 := immMask_bit' ⟨i, hi⟩ ⟨k, hk⟩ hm
      have hj : (k + i) % 32 < 32 := Nat.mod_lt _ (by decide)
      have hr := rotl_bit v hi hj
      have : ((k + i) % 32 + 32 - i) % 32 = k := by omega
      rw [this] at hr
      have hz : ((v <<< i) ||| (v >>> ((32 - i) % 32))).getLsbD ((k + i) % 32) = false := by
        rw [← BitVec.testBit_toNat]
        exact Nat.testBit_lt_two_pow (Nat.lt_of_lt_of_le h (Nat.pow_le_pow_right (n := 2) (by decide) h8))
      rw [← hr, hz]
      rfl
    · simp only [Bool.not_eq_true] at hm
      rw [hm, Bool.and_false]

theorem shifted_some {v val : BitVec 32} {r : Nat} (h : getShiftedImmediate v = some (r, val)) :
    r % 2 = 0 ∧ r < 32 ∧ val.toNat < 256 ∧ val.rotateRight r = v := by
  obtain ⟨i, hm, hi⟩ := List.exists_of_findSome?_eq_some h
  have hlt : i % 2 = 0 ∧ i < 32 := by
    clear hi
    revert i
    decide
  split at hi
  · rename_i hz
    simp only [Option.some.injEq, Prod.mk.injEq] at hi
    obtain ⟨rfl, rfl⟩ := hi
    exact ⟨hlt.1, hlt.2, (masked_zero hlt.2).1 hz, rotr_rotl v hlt.2⟩
  · simp at hi

theorem shifted_none {v : BitVec 32} (h : getShiftedImmediate v = none) : ¬ Encodable v := by
  rintro ⟨imm, rot, hi, hr, rfl⟩
  unfold getShiftedImmediate at h
  rw [List.findSome?_eq_none_iff] at h
  have hm : 2 * rot ∈ [0, 2, 4, 6, 8, 10, 12, 14, 16, 18, 20, 22, 24, 26, 28, 30] := by
    have : ∀ r : Fin 16, 2 * r.val ∈ [0, 2, 4, 6, 8, 10, 12, 14, 16, 18, 20, 22, 24, 26, 28, 30] := by decide
    exact this ⟨rot, hr⟩
  have hz := h _ hm
  have h32 : 2 * rot < 32 := by omega
  have hkey : (BitVec.ofNat 32 imm).rotateRight (2 * rot) &&& immMask (2 * rot) = 0#32 := by
    rw [masked_zero h32]
    have : ((BitVec.ofNat 32 imm).rotateRight (2 * rot) <<< (2 * rot)) |||
        ((BitVec.ofNat 32 imm).rotateRight (2 * rot) >>> ((32 - 2 * rot) % 32)) = BitVec.ofNat 32 imm := by
      apply BitVec.eq_of_getLsbD_eq
      intro j hj
      rw [rotl_bit _ h32 hj, rotr_bit _ h32 (Nat.mod_lt _ (by decide))]
      congr 1
      omega
    rw [this, BitVec.toNat_ofNat]
    omega
  rw [if_pos hkey] at hz
  simp at hz

theorem encodable_iff {v : BitVec 32} : Encodable v ↔ (getShiftedImmediate v).isSome = true := by
  constructor
  · intro h
    cases hg : getShiftedImmediate v with
    | none => exact absurd h (shifted_none hg)
    | some _ => rfl
  · intro h
    cases hg : getShiftedImmediate v with
    | none => rw [hg] at h; simp at h
    | some p =>
      obtain ⟨r, val⟩ := p
      obtain ⟨h1, h2, h3, h4⟩ := shifted_some hg
      refine ⟨val.toNat, r / 2, h3, by omega, ?_⟩
      rw [BitVec.ofNat_toNat, BitVec.setWidth_eq, show 2 * (r / 2) = r by omega, h4]

end Armips.Arm
