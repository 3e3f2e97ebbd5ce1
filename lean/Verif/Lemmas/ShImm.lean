import Verif.Lemmas.Sh
/-! What becomes of the immediate of a SuperH instruction. -/
namespace Armips.Sh
open Spec Spec.Sh Spec.Instr

/-- The distance as the code computes it. -/
def dist (x base : Int) : Int := (x - base + 2 ^ 63) % 2 ^ 64 - 2 ^ 63

/-- The number `d` that an accepted immediate of value `x` becomes. -/
def Taken : Kind → Nat → Int → Int → Int → Prop
  | .plain u, b, x, _, d => x % u = 0 ∧ (x / u).natAbs ≤ 2 ^ b - 1 ∧ d = x / u % 2 ^ b
  | .branch, b, x, a, d => x % 2 = 0 ∧ (dist x (a + 4)).natAbs ≤ 2 ^ b - 1 ∧ d = dist x (a + 4) / 2 % 2 ^ b
  | .rel u, b, x, a, d =>
    let base := if u = 4 then a + 4 - (a + 4) % 4 else a + 4
    x % u = 0 ∧ 0 ≤ dist x base ∧ dist x base ≤ (2 ^ b - 1) * u ∧ d = dist x base / u
  | .manual u, b, x, a, d =>
    let y := x + int32 a;
    let base := if u = 4 then a + 4 - (a + 4) % 4 else a + 4;
    -2 ^ 31 ≤ y ∧ y < 2 ^ 31 ∧ y % u = 0 ∧ 0 ≤ dist y base ∧ dist y base ≤ (2 ^ b - 1) * u ∧ d = dist y base / u

theorem toInt_ofInt32 (v : Int) : (BitVec.ofInt 32 v).toInt = int32 v := by
  rw [BitVec.toInt_ofInt]; unfold int32; rw [Int.bmod_def]; split <;> omega

theorem toInt_ofInt64 (x base : Int) : (BitVec.ofInt 64 (x - base)).toInt = dist x base := by
  rw [BitVec.toInt_ofInt]; unfold dist; rw [Int.bmod_def]; split <;> omega

theorem int32_id {v : Int} (h1 : -2 ^ 31 ≤ v) (h2 : v < 2 ^ 31) : int32 v = v := by unfold int32; omega

theorem limited_iff {b : Nat} (hb : b = 4 ∨ b = 8 ∨ b = 12) {v m : BitVec 32} :
    limited b v = .ok m ↔ v.toInt.natAbs ≤ 2 ^ b - 1 ∧ (m.toNat : Int) = v.toInt % 2 ^ b := by
  have hand : ((v &&& BitVec.ofNat 32 (2 ^ b - 1)).toNat : Int) = v.toInt % 2 ^ b := by
    have h1 : (v &&& BitVec.ofNat 32 (2 ^ b - 1)).toNat = v.toNat % 2 ^ b := by
      rw [BitVec.toNat_and, BitVec.toNat_ofNat, Nat.mod_eq_of_lt (a := 2 ^ b - 1) (by rcases hb with rfl | rfl | rfl <;> decide),
        Nat.and_two_pow_sub_one_eq_mod]
    rw [h1, BitVec.toInt_eq_toNat_bmod, Int.bmod_def]
    rcases hb with rfl | rfl | rfl <;> split <;> omega
  unfold limited
  split
  · rename_i h
    refine ⟨fun h => (by cases h), fun ⟨h1, _⟩ => ?_⟩
    rw [h] at h1
    exfalso
    rcases hb with rfl | rfl | rfl <;> revert h1 <;> decide
  · split
    · rename_i h
      exact ⟨fun h => (by cases h), fun ⟨h1, _⟩ => by omega⟩
    · rename_i h
      refine ⟨fun h' => ?_, fun ⟨_, h2⟩ => ?_⟩
      · cases h'
        exact ⟨by omega, hand⟩
      · rw [← hand] at h2
        rw [BitVec.eq_of_toNat_eq (Int.ofNat.inj h2)]

theorem scale_toInt {op : Op} (v : BitVec 32) : (scale op v).toInt =
    v.toInt / (if op.has .imm16 then 2 else if op.has .imm32 then 4 else 1) := by
  unfold scale
  split
  · rw [BitVec.toInt_sshiftRight, Int.shiftRight_eq_div_pow]; rfl
  · split
    · rw [BitVec.toInt_sshiftRight, Int.shiftRight_eq_div_pow]; rfl
    · simp

/-- Flags by kind. -/
theorem kind_flags {op : Op} {k : Kind} (h : kind op = some k) :
    (op.has .imm16, op.has .imm32, op.has .immrel, op.has .immsigned, op.has .pcrelmanual) ∈
      (match k with
       | .plain 1 => [(false, false, false, false, false)]
       | .plain 2 => [(true, false, false, false, false)]
       | .plain 4 => [(false, true, false, false, false)]
       | .branch => [(true, false, true, true, false)]
       | .rel 2 => [(true, false, true, false, false)]
       | .rel 4 => [(false, true, true, false, false)]
       | .manual 2 => [(true, false, false, false, true)]
       | .manual 4 => [(false, true, false, false, true)]
       | _ => []) := by
  unfold kind at h
  split at h <;> cases h <;> simp_all

theorem kind_cases {op : Op} {k : Kind} (h : kind op = some k) :
    k = .plain 1 ∨ k = .plain 2 ∨ k = .plain 4 ∨ k = .branch ∨ k = .rel 2 ∨ k = .rel 4 ∨ k = .manual 2 ∨ k = .manual 4 := by
  unfold kind at h
  split at h <;> cases h <;> simp

theorem bind_ok {α β : Type} {x : Except (Option String) α} {f : α → Except (Option String) β} {r : β} :
    (x >>= f) = .ok r ↔ ∃ a, x = .ok a ∧ f a = .ok r := by
  cases x <;> simp [bind, Except.bind]

theorem aligned_iff {op : Op} {k : Kind} (h : kind op = some k) {v w : BitVec 32} {a : Int} : aligned op v a = .ok w ↔
    match k with
    | .plain u => v.toInt % u = 0 ∧ w = v
    | .branch => v.toInt % 2 = 0 ∧ w = v
    | .rel u => v.toInt % u = 0 ∧ w = v
    | .manual u => let y := v.toInt + int32 a; -2 ^ 31 ≤ y ∧ y < 2 ^ 31 ∧ y % u = 0 ∧ w = BitVec.ofInt 32 y := by
  have hk := kind_flags h
  have hmul : ∀ (u : Nat) (y : Int), -2 ^ 31 ≤ y ∧ y < 2 ^ 31 → (BitVec.ofInt 32 y).toInt = y := fun u y hy => by
    rw [toInt_ofInt32, int32_id hy.1 hy.2]
  rcases kind_cases h with rfl | rfl | rfl | rfl | rfl | rfl | rfl | rfl <;>
    simp only [List.mem_singleton, Prod.mk.injEq] at hk <;> obtain ⟨h1, h2, h3, h4, h5⟩ := hk <;>
    simp only [aligned, h1, h2, h5, toInt_ofInt32, Bool.or_false, Bool.or_true, Bool.false_or, Bool.or_self, if_true, if_false,
      Bool.false_and, Bool.true_and, Bool.false_eq_true]
  · simp [eq_comm, Int.emod_one]
  · by_cases h : v.toInt % 2 = 0 <;> simp [h, eq_comm]
  · by_cases h : v.toInt % 4 = 0 <;> simp [h, eq_comm]
  · by_cases h : v.toInt % 2 = 0 <;> simp [h, eq_comm]
  · by_cases h : v.toInt % 2 = 0 <;> simp [h, eq_comm]
  · by_cases h : v.toInt % 4 = 0 <;> simp [h, eq_comm]
  · by_cases hr : -2 ^ 31 ≤ v.toInt + int32 a ∧ v.toInt + int32 a < 2 ^ 31
    · rw [int32_id hr.1 hr.2]
      by_cases h : (v.toInt + int32 a) % 2 = 0
      · simp only [hr, h, decide_true]; simp [eq_comm]
        omega
      · simp only [hr, h, decide_true]; simp [h]
    · simp only [hr, decide_false]; simp
      intro h1 h2; exact absurd ⟨h1, h2⟩ hr
  · by_cases hr : -2 ^ 31 ≤ v.toInt + int32 a ∧ v.toInt + int32 a < 2 ^ 31
    · rw [int32_id hr.1 hr.2]
      by_cases h : (v.toInt + int32 a) % 4 = 0
      · simp only [hr, h, decide_true]; simp [eq_comm]
        omega
      · simp only [hr, h, decide_true]; simp [h]
    · simp only [hr, decide_false]; simp
      intro h1 h2; exact absurd ⟨h1, h2⟩ hr

theorem relative_iff {op : Op} {k : Kind} (h : kind op = some k) {b : Nat} {v w : BitVec 32} {a : Int} : relative op b v a = .ok w ↔
    match k with
    | .plain _ => w = v
    | .branch => (dist v.toInt (a + 4)).natAbs ≤ 2 ^ b - 1 ∧ w = BitVec.ofInt 32 (dist v.toInt (a + 4))
    | .rel u | .manual u =>
      let base := if u = 4 then a + 4 - (a + 4) % 4 else a + 4
      0 ≤ dist v.toInt base ∧ dist v.toInt base ≤ (2 ^ b - 1) * u ∧ w = BitVec.ofInt 32 (dist v.toInt base) := by
  have hk := kind_flags h
  have hp : (0 : Int) < 2 ^ b := Int.pow_pos (by decide)
  have hpn : ((2 ^ b : Nat) : Int) = 2 ^ b := by simp
  rcases kind_cases h with rfl | rfl | rfl | rfl | rfl | rfl | rfl | rfl <;>
    simp only [List.mem_singleton, Prod.mk.injEq] at hk <;> obtain ⟨h1, h2, h3, h4, h5⟩ := hk <;>
    simp only [relative, relBase, h1, h2, h3, h4, h5, toInt_ofInt64, Bool.or_false, Bool.or_true, Bool.false_or, Bool.or_self, if_true, if_false,
      Bool.false_eq_true]
  · simp [eq_comm]
  · simp [eq_comm]
  · simp [eq_comm]
  all_goals
    try simp only [show ((2 : Nat) = 4) = False by simp, if_false]
    split
    · rename_i hc
      refine ⟨fun h => (by cases h), fun h' => ?_⟩
      omega
    · rename_i hc
      simp only [Except.ok.injEq]
      constructor
      · rintro rfl
        simp only [and_true]
        omega
      · intro h'; simp only [h']

theorem immediate_iff {op : Op} {k : Kind} (h : kind op = some k) {b : Nat} (hb : b = 4 ∨ b = 8 ∨ b = 12) {v m : BitVec 32} {a : Int} :
    immediate op b v a = .ok m ↔ Taken k b v.toInt a m.toNat := by
  unfold immediate
  simp only [bind_ok, aligned_iff h, relative_iff h, limited_iff hb, scale_toInt]
  have hk := kind_flags h
  have hd : ∀ x base : Int, -2 ^ 31 ≤ dist x base → dist x base < 2 ^ 31 → int32 (dist x base) = dist x base := fun x base => int32_id
  rcases kind_cases h with rfl | rfl | rfl | rfl | rfl | rfl | rfl | rfl <;>
    simp only [List.mem_singleton, Prod.mk.injEq] at hk <;> obtain ⟨h1, h2, h3, h4, h5⟩ := hk <;>
    simp only [Taken, h1, h2, if_true, if_false, Bool.false_eq_true]
  · constructor
    · rintro ⟨_, ⟨h1, rfl⟩, _, rfl, h2, h3⟩; exact ⟨h1, h2, h3⟩
    · rintro ⟨h1, h2, h3⟩; exact ⟨_, ⟨h1, rfl⟩, _, rfl, h2, h3⟩
  · constructor
    · rintro ⟨_, ⟨h1, rfl⟩, _, rfl, h2, h3⟩; exact ⟨h1, h2, h3⟩
    · rintro ⟨h1, h2, h3⟩; exact ⟨_, ⟨h1, rfl⟩, _, rfl, h2, h3⟩
  · constructor
    · rintro ⟨_, ⟨h1, rfl⟩, _, rfl, h2, h3⟩; exact ⟨h1, h2, h3⟩
    · rintro ⟨h1, h2, h3⟩; exact ⟨_, ⟨h1, rfl⟩, _, rfl, h2, h3⟩
  · constructor
    · rintro ⟨_, ⟨h1, rfl⟩, _, ⟨h2, rfl⟩, h3, h4⟩
      rw [toInt_ofInt32, hd] at h4
      · exact ⟨h1, h2, h4⟩
      all_goals rcases hb with rfl | rfl | rfl <;> omega
    · rintro ⟨h1, h2, h4⟩
      refine ⟨_, ⟨h1, rfl⟩, _, ⟨h2, rfl⟩, ?_⟩
      rw [toInt_ofInt32, hd]
      · exact ⟨by rcases hb with rfl | rfl | rfl <;> omega, h4⟩
      all_goals rcases hb with rfl | rfl | rfl <;> omega
  · constructor
    · rintro ⟨_, ⟨h1, rfl⟩, _, ⟨h2, h2', rfl⟩, h3, h4⟩
      rw [toInt_ofInt32, hd] at h4
      · exact ⟨h1, h2, h2', by rcases hb with rfl | rfl | rfl <;> omega⟩
      all_goals rcases hb with rfl | rfl | rfl <;> omega
    · rintro ⟨h1, h2, h2', h4⟩
      refine ⟨_, ⟨h1, rfl⟩, _, ⟨h2, h2', rfl⟩, ?_⟩
      rw [toInt_ofInt32, hd]
      · rcases hb with rfl | rfl | rfl <;> omega
      all_goals rcases hb with rfl | rfl | rfl <;> omega
  · constructor
    · rintro ⟨_, ⟨h1, rfl⟩, _, ⟨h2, h2', rfl⟩, h3, h4⟩
      rw [toInt_ofInt32, hd] at h4
      · exact ⟨h1, h2, h2', by rcases hb with rfl | rfl | rfl <;> omega⟩
      all_goals rcases hb with rfl | rfl | rfl <;> omega
    · rintro ⟨h1, h2, h2', h4⟩
      refine ⟨_, ⟨h1, rfl⟩, _, ⟨h2, h2', rfl⟩, ?_⟩
      rw [toInt_ofInt32, hd]
      · rcases hb with rfl | rfl | rfl <;> omega
      all_goals rcases hb with rfl | rfl | rfl <;> omega
  all_goals
    constructor
    · rintro ⟨_, ⟨ha, hb', h1, rfl⟩, _, ⟨h2, h2', rfl⟩, h3, h4⟩
      simp only [toInt_ofInt32, int32_id ha hb'] at h2 h2' h3 h4
      rw [hd] at h4
      · exact ⟨ha, hb', h1, h2, h2', by rcases hb with rfl | rfl | rfl <;> omega⟩
      all_goals rcases hb with rfl | rfl | rfl <;> omega
    · rintro ⟨ha, hb', h1, h2, h2', h4⟩
      refine ⟨_, ⟨ha, hb', h1, rfl⟩, _, ⟨?_, ?_, rfl⟩, ?_⟩
      · rw [toInt_ofInt32, int32_id ha hb']; exact h2
      · rw [toInt_ofInt32, int32_id ha hb']; exact h2'
      · simp only [toInt_ofInt32, int32_id ha hb']
        rw [hd]
        · rcases hb with rfl | rfl | rfl <;> omega
        all_goals rcases hb with rfl | rfl | rfl <;> omega

end Armips.Sh
