import Verif.Spec.Bit
namespace Armips
open Spec

theorem div_mod_pow (v : Int) (n i : Nat) (h : i < n) : (v % 2 ^ n) / 2 ^ i % 2 = v / 2 ^ i % 2 := by
  have hq : v = 2 ^ n * (v / 2 ^ n) + v % 2 ^ n := (Int.mul_ediv_add_emod v (2 ^ n)).symm
  have hp : (2 : Int) ^ n = 2 ^ i * (2 * 2 ^ (n - i - 1)) := by
    rw [show (2 : Int) * 2 ^ (n - i - 1) = 2 ^ (n - i) by
      rw [← Int.pow_succ']; congr 1; omega]
    rw [← Int.pow_add]; congr 1; omega
  have hpos : (2 : Int) ^ i ≠ 0 := by
    have : (0 : Int) < 2 ^ i := Int.pow_pos (by decide)
    omega
  have h2 : v / 2 ^ i = 2 * (2 ^ (n - i - 1) * (v / 2 ^ n)) + (v % 2 ^ n) / 2 ^ i := by
    have e : v = (v % 2 ^ n) + 2 ^ i * (2 * (2 ^ (n - i - 1) * (v / 2 ^ n))) := by
      have e2 : 2 ^ i * (2 * (2 ^ (n - i - 1) * (v / 2 ^ n))) = 2 ^ n * (v / 2 ^ n) := by
        generalize v / 2 ^ n = q
        rw [hp]
        simp only [Int.mul_assoc]
      omega
    conv => lhs; rw [e]
    rw [Int.add_mul_ediv_left _ _ hpos]
    omega
  omega

theorem bit_ofInt (n : Nat) (v : Int) (i : Nat) (h : i < n) : (BitVec.ofInt n v).getLsbD i = bit v i := by
  unfold bit
  have e := div_mod_pow v n i h
  have hnn : 0 ≤ v % 2 ^ n := Int.emod_nonneg _ (by
    have : (0 : Int) < 2 ^ n := Int.pow_pos (by decide)
    omega)
  rw [BitVec.getLsbD, BitVec.toNat_ofInt, Nat.testBit_eq_decide_div_mod_eq, ← e]
  simp only [decide_eq_decide]
  have hc : ((2 ^ n : Nat) : Int) = 2 ^ n := by simp
  have hc' : ((2 ^ i : Nat) : Int) = 2 ^ i := by simp
  rw [hc]
  generalize hr : v % 2 ^ n = r at hnn ⊢
  obtain ⟨k, rfl⟩ := Int.eq_ofNat_of_zero_le hnn
  rw [← hc']
  simp only [Int.toNat_natCast]
  omega

theorem bit_toInt (n : Nat) (x : BitVec n) (i : Nat) (h : i < n) : bit x.toInt i = x.getLsbD i := by
  rw [← bit_ofInt n _ i h, BitVec.ofInt_toInt]
end Armips
