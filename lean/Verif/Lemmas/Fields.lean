import Verif.Spec.Fields
import Verif.Lemmas.Bits
/-! Lemmas about bit fields. -/
namespace Armips.Spec

variable {n : Nat}

theorem field_eq (w : BitVec n) (lo len : Nat) : field w lo len = (w.extractLsb' lo len).toNat := by
  simp [field, BitVec.extractLsb'_toNat, Nat.shiftRight_eq_div_pow]

theorem field_or (a b : BitVec n) (lo len : Nat) : field (a ||| b) lo len = field a lo len ||| field b lo len := by
  simp [field_eq, BitVec.extractLsb'_or]

theorem field_lt (w : BitVec n) (lo len : Nat) : field w lo len < 2 ^ len :=
  Nat.mod_lt _ (Nat.two_pow_pos _)

theorem testBit_field (w : BitVec n) (lo len i : Nat) :
    (field w lo len).testBit i = (decide (i < len) && w.getLsbD (lo + i)) := by
  rw [field_eq, BitVec.testBit_toNat, BitVec.getLsbD_extractLsb']

/-- A small number moved to bit `sh`. -/
theorem field_shl_same {v sh len : Nat} (h : v < 2 ^ len) (hn : sh + len ≤ n) :
    field (BitVec.ofNat n v <<< sh) sh len = v := by
  apply Nat.eq_of_testBit_eq
  intro i
  rw [testBit_field]
  simp only [BitVec.getLsbD_shiftLeft, BitVec.getLsbD_ofNat]
  by_cases hi : i < len
  · have h1 : sh + i < n := by omega
    have h2 : ¬ sh + i < sh := by omega
    have h3 : sh + i - sh = i := by omega
    have h4 : i < n := by omega
    simp [hi, h1, h3, h4]
  · have : v.testBit i = false := Nat.testBit_lt_two_pow (Nat.lt_of_lt_of_le h (Nat.pow_le_pow_right (by decide) (by omega)))
    simp [hi, this]

theorem field_shl_other {v sh len lo k : Nat} (h : v < 2 ^ k) (hd : sh + k ≤ lo ∨ lo + len ≤ sh) :
    field (BitVec.ofNat n v <<< sh) lo len = 0 := by
  apply Nat.eq_of_testBit_eq
  intro i
  rw [testBit_field]
  simp only [BitVec.getLsbD_shiftLeft, BitVec.getLsbD_ofNat, Nat.zero_testBit]
  by_cases hi : i < len
  · rcases hd with hd | hd
    · have : v.testBit (lo + i - sh) = false :=
        Nat.testBit_lt_two_pow (Nat.lt_of_lt_of_le h (Nat.pow_le_pow_right (by decide) (by omega)))
      simp [this]
    · have : lo + i < sh := by omega
      simp [this]
  · simp [hi]

theorem field_low {w : BitVec n} {len : Nat} (h : w.toNat < 2 ^ len) : field w 0 len = w.toNat := by
  simp [field, Nat.mod_eq_of_lt h]

theorem field_high {w : BitVec n} {k lo len : Nat} (h : w.toNat < 2 ^ k) (hk : k ≤ lo) : field w lo len = 0 := by
  have : w.toNat / 2 ^ lo = 0 :=
    Nat.div_eq_of_lt (Nat.lt_of_lt_of_le h (Nat.pow_le_pow_right (by decide) hk))
  simp [field, this]

theorem field_clear_other (w : BitVec n) {b lo len : Nat} (h : b < lo ∨ lo + len ≤ b) :
    field (w &&& ~~~(1#n <<< b)) lo len = field w lo len := by
  apply Nat.eq_of_testBit_eq
  intro i
  simp only [testBit_field, BitVec.getLsbD_and, BitVec.getLsbD_not, BitVec.getLsbD_shiftLeft, BitVec.getLsbD_one]
  by_cases hi : i < len
  · by_cases hw : lo + i < n
    · have : ¬ (lo + i - b = 0 ∧ ¬ lo + i < b) := by omega
      by_cases h2 : lo + i < b
      · simp [hi, hw, h2]
      · have : ¬ (lo + i - b = 0) := by omega
        simp [hi, hw, h2, this]
    · have : w.getLsbD (lo + i) = false := BitVec.getLsbD_of_ge _ _ (by omega)
      simp [this]
  · simp [hi]

theorem field_clear_same (w : BitVec n) {b : Nat} : field (w &&& ~~~(1#n <<< b)) b 1 = 0 := by
  apply Nat.eq_of_testBit_eq
  intro i
  simp only [testBit_field, BitVec.getLsbD_and, BitVec.getLsbD_not, BitVec.getLsbD_shiftLeft, BitVec.getLsbD_one,
    Nat.zero_testBit]
  by_cases hi : i < 1
  · have : i = 0 := by omega
    subst this
    by_cases hb : b < n
    · have : 0 < n := by omega
      simp [hb, this]
    · simp [hb]
  · simp [hi]

/-- Two words with the same covering fields are equal. -/
theorem eq_of_fields {w w' : BitVec n} : ∀ (l : List (Nat × Nat × Nat)) (top : Nat),
    Covers top l = true → HasFields w l → HasFields w' l → w.toNat % 2 ^ top = w'.toNat % 2 ^ top
  | [], top, hc, _, _ => by simp only [Covers, beq_iff_eq] at hc; simp [hc, Nat.mod_one]
  | (lo, len, v) :: rest, top, hc, h, h' => by
    simp only [Covers, Bool.and_eq_true, beq_iff_eq] at hc
    have ih := eq_of_fields rest lo hc.2 (fun x hx => h x (List.mem_cons_of_mem _ hx))
      (fun x hx => h' x (List.mem_cons_of_mem _ hx))
    have a := h _ (List.mem_cons_self ..)
    have b := h' _ (List.mem_cons_self ..)
    simp only [field] at a b
    rw [← hc.1, Nat.pow_add, Nat.mod_mul, Nat.mod_mul, ih, a, b]

/-- A word is determined by the content of fields that cover it. -/
theorem fields_determine {w w' : BitVec n} {l : List (Nat × Nat × Nat)} (hc : Covers n l = true) (h : HasFields w l)
    (h' : HasFields w' l) : w = w' := by
  apply BitVec.eq_of_toNat_eq
  have := eq_of_fields l n hc h h'
  rwa [Nat.mod_eq_of_lt w.isLt, Nat.mod_eq_of_lt w'.isLt] at this

end Armips.Spec
