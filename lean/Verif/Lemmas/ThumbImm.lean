import Verif.Lemmas.ThumbRun
/-! Constants of THUMB instructions. -/
namespace Armips.Thumb
open Spec Spec.Thumb Spec.Instr
open Armips.Arm (fld orIf failWith not_clean_failWith)

theorem and3 (v : BitVec 32) : v &&& 3#32 = 0#32 ↔ v.toInt % 4 = 0 := by
  have : (v &&& 3#32).toNat = v.toNat % 4 := by
    rw [BitVec.toNat_and]; exact Nat.and_two_pow_sub_one_eq_mod v.toNat 2
  rw [← BitVec.toNat_inj, this, BitVec.toInt_eq_toNat_cond]
  simp only [BitVec.toNat_ofNat]
  split <;> omega

theorem and1 (v : BitVec 32) : v &&& 1#32 = 0#32 ↔ v.toInt % 2 = 0 := by
  have : (v &&& 1#32).toNat = v.toNat % 2 := by
    rw [BitVec.toNat_and]; exact Nat.and_two_pow_sub_one_eq_mod v.toNat 1
  rw [← BitVec.toNat_inj, this, BitVec.toInt_eq_toNat_cond]
  simp only [BitVec.toNat_ofNat]
  split <;> omega

theorem toInt_sshift (v : BitVec 32) (k : Nat) : (v.sshiftRight k).toInt = v.toInt / 2 ^ k := by
  rw [BitVec.toInt_sshiftRight, Int.shiftRight_eq_div_pow]
  simp

theorem toInt_neg32 {v : BitVec 32} (h : -2147483648 < v.toInt) : (-v).toInt = -v.toInt := by
  have h2 := BitVec.toInt_lt (x := v)
  rw [BitVec.toInt_neg, Int.bmod_def]
  simp only [Nat.reduceSub, Int.reducePow] at h2
  split <;> omega

theorem fld_of_toInt {v : BitVec 32} {k : Nat} (h : v.toInt = k) : v = fld k 0 := by
  apply BitVec.eq_of_toInt_eq
  have h1 := BitVec.toInt_lt (x := v)
  simp only [Nat.reduceSub, Int.reducePow] at h1
  have : (BitVec.ofNat 32 k).toInt = k := by
    rw [BitVec.toInt_ofNat', Int.bmod_def]
    split <;> omega
  simp [fld, this, h]

/-- Result of the case distinction for a plain constant. -/
theorem cases_plain {op : Op} {f : Format} {bitLen : Nat} {v : BitVec 32} {a : Int}
    (hw : op.has .word = decide (f.scale = 4)) (hh : op.has .halfword = decide (f.scale = 2)) (hb : op.has .branch = false)
    (hp : op.has .pool = false) (hr : op.has .pcr = false) (hs : f.scale ∈ [1, 2, 4]) :
    (v.toInt % f.scale = 0 → ∃ v', immCases op bitLen v a = .ok v' ∧ v'.toInt * f.scale = v.toInt) ∧
    (v.toInt % f.scale ≠ 0 → ∃ t, immCases op bitLen v a = .error t) := by
  simp only [List.mem_cons, List.not_mem_nil, or_false] at hs
  rcases hs with hs | hs | hs
  · simp only [immCases, hb, hw, hh, hp, hr, hs]
    simp
  · have e := and1 v
    simp only [immCases, hb, hw, hh, hp, hr, hs]
    simp only [Bool.false_eq_true, if_false, Nat.reduceEqDiff, decide_false, decide_true, if_true]
    constructor
    · intro h
      refine ⟨v.sshiftRight 1, ?_, ?_⟩
      · have := e.2 h
        simp [this]
      · rw [toInt_sshift]; omega
    · intro h
      have := mt e.1 h
      simp [this]
  · have e := and3 v
    simp only [immCases, hb, hw, hh, hp, hr, hs]
    simp only [Bool.false_eq_true, if_false, decide_true, if_true]
    constructor
    · intro h
      refine ⟨v.sshiftRight 2, ?_, ?_⟩
      · have := e.2 h
        simp [this]
      · rw [toInt_sshift]; omega
    · intro h
      have := mt e.1 h
      simp [this]

theorem pow_bits {f : Format} (h : f.bits ∈ [3, 5, 7, 8, 11]) : 2 ^ f.bits ≤ 2048 := by
  simp only [List.mem_cons, List.not_mem_nil, or_false] at h
  rcases h with h | h | h | h | h <;> rw [h] <;> decide

/-- A plain constant that can be expressed. -/
theorem plain_ok {op : Op} {f f' : Format} {k : Nat} (h : op ∈ opcodes) (hf : format op.name op.mask = some f)
    (hp : plainConstant op f = true) {v : BitVec 32} {a : Int} (he : Encodes f v.toInt f' k) :
    ∃ m, immediate op (constantBits op.mask.toList) v a = .ok m ∧ m.value = fld k 0 ∧ m.pool = false ∧
      RowCore op f' ∧ HasFields (m.encoding.getD op.encoding) (f'.layout {}) ∧ f'.bits = f.bits := by
  obtain ⟨t1, t2, t3, t4, t5, t6, t7, t8, t9, t10, t11, t12⟩ := constant_table op h f (by simp [hf]) hp
  obtain ⟨hc, he⟩ := he
  obtain ⟨hrow, hfields⟩ := row_table op h f (by simp [hf])
  have hsc := cases_plain (bitLen := constantBits op.mask.toList) (v := v) (a := a) t1 t2 t3 t4 t5 t8
  have hs0 : 0 < f.scale := by
    simp only [List.mem_cons, List.not_mem_nil, or_false] at t8; omega
  have hdiv : v.toInt % f.scale = 0 := by
    rcases he with ⟨-, he⟩ | ⟨-, -, he⟩
    · rw [he]; simp
    · rw [he]; simp
  obtain ⟨v', hv', hm'⟩ := hsc.1 hdiv
  have hk : v'.toInt = k ∨ (v'.toInt = -k ∧ v'.toInt < 0 ∧ f.opposite = some f') := by
    rcases he with ⟨-, he⟩ | ⟨ho, hneg, he⟩
    · left
      rw [he, Int.mul_comm] at hm'
      exact Int.eq_of_mul_eq_mul_left (by omega) hm'
    · right
      have : v'.toInt = -k := by
        rw [he, ← Int.mul_neg, Int.mul_comm] at hm'
        exact Int.eq_of_mul_eq_mul_left (by omega) hm'
      refine ⟨this, ?_, ho⟩
      apply Int.lt_of_not_ge
      intro hge
      have := Int.mul_nonneg hge (b := (f.scale : Int)) (by omega)
      omega
  have hpow := pow_bits t9
  rw [t6]
  have hcast : ((2 ^ f.bits : Nat) : Int) = (2 : Int) ^ f.bits := by simp
  have hcr : ∀ x : BitVec 32, x.toInt = k → checkRange op f.bits x = .ok x := by
    intro x hx
    have : ¬ (x.toInt < 0 ∨ x.toInt > 2 ^ f.bits - 1) := by omega
    simp [checkRange, t11, t3, t4, t5, this]
  rcases hk with hk | ⟨hk, hneg, ho⟩
  · have hf' : f' = f := by
      rcases he with ⟨he, -⟩ | ⟨-, hneg, -⟩
      · exact he
      · have := Int.mul_nonneg (a := v'.toInt) (b := (f.scale : Int)) (by omega) (by omega)
        omega
    subst hf'
    have has : addSub op f'.bits v' = (v', none) := by
      have : ¬ (-(2 ^ f'.bits - 1 : Int) ≤ v'.toInt ∧ v'.toInt < 0) := by omega
      simp [addSub, this]
    refine ⟨{ value := v', encoding := none, pool := false }, ?_, fld_of_toInt hk, rfl, hrow, hfields, rfl⟩
    rw [t6] at hv'
    simp only [immediate, hv', has, hcr v' hk, t4, Bool.and_false]
  · obtain ⟨u1, u2, u3, u4, u5⟩ := t12 f' (by simp [ho])
    obtain ⟨e, hneq⟩ := Option.isSome_iff_exists.1 u4
    have has : addSub op f.bits v' = (-v', some e) := by
      have : (-(2 ^ f.bits - 1 : Int) ≤ v'.toInt ∧ v'.toInt < 0) := by omega
      simp [addSub, this, t7, ho, hneq]
    have hnk : (-v').toInt = k := by rw [toInt_neg32 (by omega)]; omega
    refine ⟨{ value := -v', encoding := some e, pool := false }, ?_, fld_of_toInt hnk, rfl, u1, ?_, u3⟩
    · rw [t6] at hv'
      simp only [immediate, hv', has, hcr _ hnk, t4, Bool.and_false]
    · simpa [hneq] using u5

/-- A plain constant that cannot be expressed. -/
theorem plain_bad {op : Op} {f : Format} (h : op ∈ opcodes) (hf : format op.name op.mask = some f)
    (hp : plainConstant op f = true) {v : BitVec 32} {a : Int} (he : ¬ ∃ f' k, Encodes f v.toInt f' k) :
    ∃ t, immediate op (constantBits op.mask.toList) v a = .error t := by
  obtain ⟨t1, t2, t3, t4, t5, t6, t7, t8, t9, t10, t11, t12⟩ := constant_table op h f (by simp [hf]) hp
  have hsc := cases_plain (bitLen := constantBits op.mask.toList) (v := v) (a := a) t1 t2 t3 t4 t5 t8
  have hs0 : 0 < f.scale := by
    simp only [List.mem_cons, List.not_mem_nil, or_false] at t8; omega
  have hpow := pow_bits t9
  have hcast : ((2 ^ f.bits : Nat) : Int) = (2 : Int) ^ f.bits := by simp
  rw [t6] at hsc ⊢
  by_cases hdiv : v.toInt % f.scale = 0
  · obtain ⟨v', hv', hm'⟩ := hsc.1 hdiv
    have hcr : ∀ x : BitVec 32, (x.toInt < 0 ∨ x.toInt > 2 ^ f.bits - 1) → ∃ t, checkRange op f.bits x = .error t := by
      intro x hx
      exact ⟨"Immediate value out of range", by simp only [checkRange, t11, t3, t4, t5, hx, if_false, Bool.false_eq_true, Bool.or_false, Bool.not_false, if_true]⟩
    have hno : ¬ (0 ≤ v'.toInt ∧ v'.toInt ≤ 2 ^ f.bits - 1) := by
      rintro ⟨h1, h2⟩
      refine he ⟨f, v'.toInt.toNat, by omega, .inl ⟨rfl, ?_⟩⟩
      rw [Int.toNat_of_nonneg h1, ← hm', Int.mul_comm]
    have has : addSub op f.bits v' = (v', none) := by
      by_cases hr : -(2 ^ f.bits - 1 : Int) ≤ v'.toInt ∧ v'.toInt < 0
      · have ho : f.opposite = none := by
          cases ho : f.opposite with
          | none => rfl
          | some f' =>
            refine absurd ⟨f', (-v'.toInt).toNat, by omega, .inr ⟨ho, ?_, ?_⟩⟩ he
            · rw [← hm']
              exact Int.mul_neg_of_neg_of_pos hr.2 (by omega)
            · rw [Int.toNat_of_nonneg (by omega), Int.mul_neg, Int.neg_neg, ← hm', Int.mul_comm]
        simp [addSub, t7, ho]
      · simp [addSub, hr]
    obtain ⟨t, ht⟩ := hcr v' (by omega)
    exact ⟨t, by simp only [immediate, hv', has, ht]⟩
  · obtain ⟨t, ht⟩ := hsc.2 hdiv
    exact ⟨t, by simp only [immediate, ht]⟩

end Armips.Thumb
