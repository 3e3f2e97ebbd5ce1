import Verif.Lemmas.MipsAccept
/-! Immediates without an address. -/
namespace Armips.Mips
open Spec Spec.Mips Spec.Instr

theorem low_zero {v : BitVec 32} {k : Nat} (hk : k ≤ 4) : v &&& BitVec.ofNat 32 (2 ^ k - 1) = 0#32 ↔ v.toInt % 2 ^ k = 0 := by
  have h := and_mask v (b := k) (by omega)
  constructor
  · intro e
    rw [e] at h
    simp at h
    exact h.symm
  · intro e
    rw [e] at h
    apply BitVec.eq_of_toNat_eq
    simpa using h

/-- What an immediate without an address becomes. -/
theorem adjust_scaled {op : Op} (hn : Names op) (hb : op.name ∉ branches) (hj : op.name ∉ jumps) {v : BitVec 32} {a : Int} :
    adjust op v a =
      if op.name ∈ subtractions ∧ v = BitVec.intMin 32 then .error none
      else if ∀ k, rspScale op.name = some k → v.toInt % 2 ^ k = 0 then .ok (BitVec.ofInt 32 (scaled op.name v.toInt))
      else .error (some "Offset must be aligned") := by
  have n2 : op.has .ipca = false := by
    cases h : op.has .ipca
    · rfl
    · exact absurd (hn.ipca.1 h) hj
  have n3 : op.has .ipcr = false := by
    cases h : op.has .ipcr
    · rfl
    · exact absurd (hn.ipcr.1 h) hb
  have hv : int32 v.toInt = v.toInt := int32_toInt v
  unfold adjust scaled
  simp only [n2, n3, hv, Bool.false_eq_true, if_false]
  by_cases hs : op.name ∈ subtractions
  · have hr := lists_apart.2.2 _ hs
    rw [if_pos (hn.negimm.2 hs), if_pos hs]
    by_cases hi : v = BitVec.intMin 32
    · rw [if_pos hi, if_pos ⟨hs, hi⟩]
    · rw [if_neg hi, if_neg (fun h => hi h.2), if_pos (by rw [hr]; exact fun _ h => by cases h)]
      congr 1
      apply BitVec.eq_of_toInt_eq
      rw [toInt_neg_of hi, toInt_ofInt32, ← toInt_neg_of hi, int32_toInt]
  · have hneg : ¬ op.has .negimm = true := fun h => hs (hn.negimm.1 h)
    rw [if_neg hneg, if_neg (show ¬ (op.name ∈ subtractions ∧ v = BitVec.intMin 32) from fun h => hs h.1), if_neg hs]
    cases hr : rspScale op.name with
    | none =>
      have : ¬ (op.has .rspHw || op.has .rspW || op.has .rspDw || op.has .rspQw) = true := by
        intro h
        have := hn.rsp.1 h
        rw [hr] at this
        cases this
      rw [if_neg this, if_pos (fun _ h => by cases h)]
      simp
    | some k =>
      have hk := hn.scale k hr
      have hle : k ≤ 4 := hk ▸ rspShift_le op
      rw [if_pos (hn.rsp.2 (by simp [hr])), ← hk]
      by_cases hz : v.toInt % 2 ^ k = 0
      · rw [if_neg (by rw [Decidable.not_not]; exact (low_zero hle).2 hz),
          if_pos (fun k' h => by cases h; exact hz)]
        congr 1
        apply BitVec.eq_of_toInt_eq
        simp only
        rw [← toInt_shr, toInt_ofInt32, int32_toInt]
      · rw [if_pos (fun h => hz ((low_zero hle).1 h)), if_neg (fun h => hz (h k rfl))]

/-- The primary immediate of an instruction without an address. -/
theorem primary_scaled {op : Op} (hn : Names op) (hb : op.name ∉ branches) (hj : op.name ∉ jumps) {t : ImmType}
    (ht : primType op.syms = some t) {x a : Int} :
    (∀ p, primary op t (BitVec.ofInt 32 x) a = .ok p →
      Multiple op.name (int32 x) ∧ (scaled op.name x).natAbs < 2 ^ t.bits ∧ (p.toNat : Int) = scaled op.name x % 2 ^ t.bits) ∧
    (Multiple op.name (int32 x) → (scaled op.name x).natAbs < 2 ^ t.bits →
      ∃ p, primary op t (BitVec.ofInt 32 x) a = .ok p) ∧
    (int32 x ≠ -2147483648 → ¬ (Multiple op.name (int32 x) ∧ (scaled op.name x).natAbs < 2 ^ t.bits) →
      ∃ m, primary op t (BitVec.ofInt 32 x) a = .error (some m)) := by
  have hx := toInt_ofInt32 x
  have hbnd := int32_bounds x
  have h32 : scaled op.name (int32 x) = scaled op.name x := by
    unfold scaled
    rw [int32_id (v := int32 x) hbnd.1 hbnd.2]
  have hal : op.has .immaligned = true ↔ op.name ∈ aligned := by
    rw [hn.immaligned, ht]; simp
  have himin : BitVec.ofInt 32 x = BitVec.intMin 32 ↔ int32 x = -2147483648 := by rw [intMin_iff, hx]
  unfold primary
  rw [adjust_scaled hn hb hj]
  simp only [hx, h32, himin]
  have hsc : int32 (scaled op.name x) = scaled op.name x ∨ (op.name ∈ subtractions ∧ int32 x = -2147483648) := by
    by_cases hi : op.name ∈ subtractions ∧ int32 x = -2147483648
    · exact .inr hi
    · left
      unfold scaled
      split
      · rename_i hs
        have : int32 x ≠ -2147483648 := fun h => hi ⟨hs, h⟩
        exact int32_id (by omega) (by omega)
      · split
        · rename_i k hk
          have h1 : -2147483648 ≤ int32 x / 2 ^ k := by
            apply Int.le_ediv_of_mul_le (Int.pow_pos (by decide))
            have : (1 : Int) ≤ 2 ^ k := Int.pow_pos (by decide)
            generalize (2 : Int) ^ k = m at *
            omega
          have h2 : int32 x / 2 ^ k < 2147483648 := by
            apply Int.ediv_lt_of_lt_mul (Int.pow_pos (by decide))
            have : (1 : Int) ≤ 2 ^ k := Int.pow_pos (by decide)
            generalize (2 : Int) ^ k = m at *
            omega
          exact int32_id h1 h2
        · exact int32_id hbnd.1 hbnd.2
  have hlt : 2 ^ t.bits ≤ 2 ^ 31 := Nat.pow_le_pow_right (by decide) (bits_le t)
  have hcheck : int32 (scaled op.name x) = scaled op.name x →
      (BitVec.ofInt 32 (scaled op.name x)).toInt = scaled op.name x := fun h => by rw [toInt_ofInt32, h]
  generalize hy : scaled op.name x = y at *
  by_cases hA : op.has .immaligned = true ∧ int32 x % 4 ≠ 0
  · have : (op.has .immaligned && decide (int32 x % 4 ≠ 0)) = true := by simp [hA.1]; exact hA.2
    rw [if_pos this]
    refine ⟨(fun p h => by cases h), (fun h => absurd (h.2 (hal.1 hA.1)) hA.2), (fun _ _ => ⟨_, rfl⟩)⟩
  · have : ¬ (op.has .immaligned && decide (int32 x % 4 ≠ 0)) = true := by
      simpa using hA
    rw [if_neg this]
    have hA' : op.name ∈ aligned → int32 x % 4 = 0 := fun h => by
      rw [← hal] at h
      exact Decidable.byContradiction fun hne => hA ⟨h, hne⟩
    by_cases hI : op.name ∈ subtractions ∧ int32 x = -2147483648
    · rw [if_pos hI]
      have hys : y = 2147483648 := by
        rw [← hy]; unfold scaled; rw [if_pos hI.1, hI.2]; rfl
      refine ⟨(fun p h => by cases h), (fun _ h => ?_), (fun h => absurd hI.2 h)⟩
      rw [hys] at h
      simp at h
      omega
    · rw [if_neg hI]
      have hysc := hcheck (hsc.resolve_right hI)
      by_cases hM : ∀ k, rspScale op.name = some k → int32 x % 2 ^ k = 0
      · rw [if_pos hM]
        simp only
        refine ⟨fun p h => ?_, fun _ h => ?_, fun hne h => ?_⟩
        · obtain ⟨h1, h2⟩ := checkBits_ok (bits_le t) h
          rw [hysc] at h1 h2
          exact ⟨⟨hM, hA'⟩, h2, h1⟩
        · exact ⟨_, checkBits_small (bits_le t) (by rw [hysc]; exact h)⟩
        · refine ⟨_, checkBits_large (by rw [hysc]; exact Nat.le_of_not_lt fun hl => h ⟨⟨hM, hA'⟩, hl⟩) ?_⟩
          rw [hysc, ← hy]
          unfold scaled
          split
          · omega
          · split
            · rename_i k hk
              intro he
              have hz := hM k hk
              have e := Int.mul_ediv_add_emod (int32 x) (2 ^ k)
              rw [he, hz] at e
              have : (1 : Int) ≤ 2 ^ k := Int.pow_pos (by decide)
              generalize (2 : Int) ^ k = m at *
              omega
            · exact hne
      · rw [if_neg hM]
        exact ⟨fun p h => by (simp only at h; cases h), fun h => absurd h.1 hM, fun _ _ => ⟨_, rfl⟩⟩

end Armips.Mips
