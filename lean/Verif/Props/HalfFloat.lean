import Verif.Model.HalfFloat
import Verif.Lemmas.Bits
/-!
# C51: half-precision conversion

Magnitudes are compared exactly, as integers in units of `2^-67`: a normal `double` with fields `e ≥ 1008`, `m` has
magnitude `(2^52 + m) * 2^(e - 1075)`, a normal half with fields `e`, `m` has magnitude `(2^10 + m) * 2^(e - 25)`.
-/
namespace Armips.Props
open Armips.Half

/-- Magnitude of a double of at least `2^-15`, in units of `2^-67`. -/
def dblMag (d : Dbl) : Nat := (2 ^ 52 + d.mantissa) * 2 ^ (d.exponent - 1008)

/-- Magnitude of a normal half pattern, in units of `2^-67`. -/
def halfMag (h : Nat) : Nat := (2 ^ 10 + h % 1024) * 2 ^ ((h / 1024) % 32 + 42)

/-- Normal (finite, not zero, not subnormal) half patterns. -/
def HalfNormal (h : Nat) : Prop := h < 65536 ∧ 1 ≤ (h / 1024) % 32 ∧ (h / 1024) % 32 ≤ 30

private theorem pack (s e m : Nat) (hs : s < 2) (he : e < 32) (hm : m < 1024) :
    ((s <<< 15) ||| (e <<< 10) ||| m) % 65536 = s * 32768 + e * 1024 + m := by
  have h1 : (s <<< 15) ||| (e <<< 10) = s <<< 15 + e <<< 10 := by
    rw [Nat.shiftLeft_eq, Nat.shiftLeft_eq, Nat.mul_comm s, ← Nat.two_pow_add_eq_or_of_lt (by omega)]
  rw [h1]
  have h2 : s <<< 15 + e <<< 10 = 2 ^ 10 * (s * 32 + e) := by
    rw [Nat.shiftLeft_eq, Nat.shiftLeft_eq]; omega
  rw [h2, ← Nat.two_pow_add_eq_or_of_lt (by omega), Nat.mod_eq_of_lt] <;> omega

private theorem toHalf_fields (d : Dbl) (hd : d.Valid) (h1 : 0x3F1 ≤ d.exponent) (h2 : d.exponent < 0x7FF)
    (q E : Nat) (hq0 : q = (d.mantissa / 2 ^ 41 + 1) / 2) (hE : E = d.exponent - 0x3F0) :
    toHalfFloat d = d.sign * 32768 + (if q = 1024 then if E + 1 ≥ 31 then 30 * 1024 + 1023 else (E + 1) * 1024
      else if E ≥ 31 then 30 * 1024 + 1023 else E * 1024 + q) := by
  obtain ⟨hs, he, hm⟩ := hd
  have hq : (d.mantissa >>> (42 - 1) + 1) >>> 1 = q := by
    rw [Nat.shiftRight_eq_div_pow, Nat.shiftRight_eq_div_pow, hq0]
  have hq' : q ≤ 1024 := by omega
  unfold toHalfFloat
  rw [if_neg (by omega), if_neg (by omega), if_neg (by omega), ← hE]
  simp only [hq]
  by_cases c : q = 1024
  · simp only [c, if_true]
    by_cases c2 : E + 1 ≥ 31
    · rw [if_pos c2, if_pos c2]; simp only; rw [pack _ _ _ hs (by omega) (by omega)]
    · rw [if_neg c2, if_neg c2]; simp only; rw [pack _ _ _ hs (by omega) (by omega)]; omega
  · rw [if_neg c, if_neg c]
    by_cases c2 : E ≥ 31
    · rw [if_pos c2, if_pos c2]; simp only; rw [pack _ _ _ hs (by omega) (by omega)]
    · rw [if_neg c2, if_neg c2]; simp only; rw [pack _ _ _ hs (by omega) (by omega)]; omega

/-- Round trip: every half pattern that is a zero, a normal number or an infinity survives conversion to `double`
and back; subnormals become the zero of the same sign; NaNs become a (positive) NaN. -/
theorem half_roundtrip (nan h : Nat) (hn : 0 < nan) (hh : h < 65536) :
    toHalfFloat (fromHalfFloat nan h) =
      if (h / 1024) % 32 = 31 ∧ h % 1024 ≠ 0 then 0x7C01
      else if (h / 1024) % 32 = 0 then (h / 32768) * 32768
      else h := by
  unfold fromHalfFloat
  have hs : h / 32768 % 2 < 2 := Nat.mod_lt _ (by decide)
  by_cases h31 : (h / 1024) % 32 = 31
  · by_cases hm : h % 1024 = 0
    · simp only [h31, hm, toHalfFloat]
      have := pack (h / 32768 % 2) 31 0 hs (by decide) (by decide)
      simp at this ⊢
      omega
    · have hn' : nan ≠ 0 := by omega
      simp [h31, hm, toHalfFloat, hn']
  · by_cases h0 : (h / 1024) % 32 = 0
    · simp [h0, toHalfFloat]
      rw [Nat.shiftLeft_eq]; omega
    · have hm42 : ((h % 1024) <<< 42) % 2 ^ 52 = h % 1024 * 2 ^ 42 := by
        rw [Nat.shiftLeft_eq]; apply Nat.mod_eq_of_lt; omega
      rw [if_neg (by omega), if_neg (by omega), if_neg h0]
      have hM : ((h % 1024) <<< 42) % 2 ^ 52 / 2 ^ 41 = 2 * (h % 1024) ∧ ((h % 1024) <<< 42) % 2 ^ 52 < 2 ^ 52 := by
        rw [hm42]; omega
      clear hm42
      generalize ((h % 1024) <<< 42) % 2 ^ 52 = M at *
      rw [toHalf_fields ⟨_, _, M⟩ ⟨hs, by simp only; omega, hM.2⟩ (by simp only; omega) (by simp only; omega)
        (h % 1024) (h / 1024 % 32) (by simp only; omega) (by simp only; omega)]
      rw [if_neg (show ¬ h % 1024 = 1024 by omega), if_neg (show ¬ h / 1024 % 32 ≥ 31 by omega),
        if_neg (fun h => h31 h.1), if_neg h0]
      simp only
      omega

/-- The sign bit of a number, zero or infinity is kept. -/
theorem half_sign (d : Dbl) (hd : d.Valid) : toHalfFloat d / 32768 = d.sign := by
  obtain ⟨hs, he, hm⟩ := hd
  unfold toHalfFloat
  split
  · have := pack d.sign 31 0 hs (by decide) (by decide)
    simp at this ⊢; omega
  · split
    · have := pack d.sign 31 1 hs (by decide) (by decide)
      simp at this ⊢; omega
    · split
      · rw [Nat.shiftLeft_eq]; omega
      · simp only
        have hq : (d.mantissa >>> (42 - 1) + 1) >>> 1 ≤ 1024 := by
          rw [Nat.shiftRight_eq_div_pow, Nat.shiftRight_eq_div_pow]; omega
        generalize (d.mantissa >>> (42 - 1) + 1) >>> 1 = q at hq
        split <;> simp only <;> split <;> simp only <;> rw [pack _ _ _ hs (by omega) (by omega)] <;> omega

/-- Numbers below `2^-14` in magnitude (including zero and subnormals) become the zero of the same sign. -/
theorem half_flush (d : Dbl) (hd : d.Valid) (h : d.exponent ≤ 0x3F0) : toHalfFloat d = d.sign * 32768 := by
  have := hd.1
  unfold toHalfFloat
  rw [if_neg (by omega), if_neg (by omega), if_pos h, Nat.shiftLeft_eq]; omega

private theorem mul_pow_mono (a b c d : Nat) (h : a ≤ b) (h' : c ≤ d) : c * 2 ^ a ≤ d * 2 ^ b :=
  Nat.mul_le_mul h' (Nat.pow_le_pow_right (by decide) h)

private theorem scale_le (x r k P : Nat) (h : ((x : Int) - (r : Int)).natAbs ≤ ((x : Int) - (k : Int)).natAbs) :
    (((x * P : Nat) : Int) - ((r * P : Nat) : Int)).natAbs ≤ (((x * P : Nat) : Int) - ((k * P : Nat) : Int)).natAbs := by
  rw [Int.natCast_mul, Int.natCast_mul, Int.natCast_mul, ← Int.sub_mul, ← Int.sub_mul, Int.natAbs_mul, Int.natAbs_mul]
  exact Nat.mul_le_mul_right _ h

private theorem max_half (h : Nat) (hh : HalfNormal h) : halfMag h ≤ 2047 * 2 ^ 72 := by
  unfold halfMag HalfNormal at *
  exact mul_pow_mono (h / 1024 % 32 + 42) 72 (2 ^ 10 + h % 1024) 2047 (by omega) (by omega)

private theorem above_near (D M H : Nat) (h : H ≤ M) (h' : M ≤ D) :
    ((D : Int) - M).natAbs ≤ ((D : Int) - H).natAbs := by omega

private theorem below_near (B r A H : Nat) (h : ((B : Int) - r).natAbs ≤ ((B : Int) - A).natAbs) (h1 : H ≤ A) (h2 : A ≤ B) :
    ((B : Int) - r).natAbs ≤ ((B : Int) - H).natAbs := by omega

private theorem aux_le (a p e c : Nat) (h : a * (p * 2) ≤ 2048 * e) : a * (p * c) ≤ 1024 * c * e := by
  have h1 : a * p ≤ 1024 * e := by
    have : a * (p * 2) = 2 * (a * p) := by rw [Nat.mul_comm p 2, Nat.mul_left_comm]
    omega
  calc a * (p * c) = a * p * c := (Nat.mul_assoc _ _ _).symm
    _ ≤ 1024 * e * c := Nat.mul_le_mul_right _ h1
    _ = 1024 * c * e := by rw [Nat.mul_assoc, Nat.mul_comm e c, ← Nat.mul_assoc]

private theorem regular_near (x r E h c : Nat) (hc : c = 2 ^ 42)
    (hx1 : ∀ k : Nat, ((x : Int) - (r : Int)).natAbs ≤ ((x : Int) - ((k * c : Nat) : Int)).natAbs)
    (hx2 : 1024 * c ≤ x) :
    (((x * 2 ^ E : Nat) : Int) - ((r * 2 ^ E : Nat) : Int)).natAbs ≤
      (((x * 2 ^ E : Nat) : Int) - (halfMag h : Int)).natAbs := by
  have hmag : halfMag h = (1024 + h % 1024) * (2 ^ (h / 1024 % 32) * c) := by
    rw [hc, ← Nat.pow_add]; rfl
  clear hc
  by_cases hE : E ≤ h / 1024 % 32
  · have e : halfMag h = (1024 + h % 1024) * 2 ^ (h / 1024 % 32 - E) * c * 2 ^ E := by
      have hp : 2 ^ (h / 1024 % 32) = 2 ^ (h / 1024 % 32 - E) * 2 ^ E := by
        rw [← Nat.pow_add, Nat.sub_add_cancel hE]
      rw [hmag, hp, Nat.mul_assoc, Nat.mul_assoc, Nat.mul_assoc, Nat.mul_comm c]
    rw [e]
    exact scale_le _ _ _ _ (hx1 _)
  · have hle : halfMag h ≤ 1024 * c * 2 ^ E := by
      have := mul_pow_mono (h / 1024 % 32 + 1) E (1024 + h % 1024) 2048 (by omega) (by omega)
      rw [Nat.pow_succ] at this
      rw [hmag]
      exact aux_le _ _ _ _ this
    exact below_near _ _ _ _ (scale_le x r (1024 * c) (2 ^ E) (hx1 _)) hle (Nat.mul_le_mul_right _ hx2)

private theorem halfMag_fields (t e m c : Nat) (h1 : t / 1024 % 32 = e) (h2 : t % 1024 = m) (hc : c = 2 ^ 42) :
    halfMag t = (1024 + m) * (2 ^ e * c) := by
  rw [hc, ← Nat.pow_add, ← h1, ← h2]; rfl

private theorem core_near (m q : Nat) (hq : (m / 2 ^ 41 + 1) / 2 = q) (c x : Nat) (hc : c = 2 ^ 42) (hx : x = 2 ^ 52 + m) :
    (∀ k : Nat, ((x : Int) - (((1024 + q) * c : Nat) : Int)).natAbs ≤ ((x : Int) - ((k * c : Nat) : Int)).natAbs) ∧
    1024 * c ≤ x := by
  subst hc hx
  constructor
  · intro k; omega
  · omega

private theorem core_big (m q E x : Nat) (hq : (m / 2 ^ 41 + 1) / 2 = q) (hx : x = 2 ^ 52 + m)
    (hs : 31 ≤ E ∨ (q = 1024 ∧ E = 30)) (M : Nat) (hM : M = 2047 * 2 ^ 72) : M ≤ x * 2 ^ E := by
  have hx1 : 2 ^ 52 ≤ x := by omega
  rcases hs with h | ⟨h, h'⟩
  · exact Nat.le_trans (by rw [hM]; decide +kernel) (mul_pow_mono 31 E (2 ^ 52) x h hx1)
  · have : 2 ^ 53 - 2 ^ 41 ≤ x := by omega
    rw [hM, h']
    omega

/-- Every finite double of magnitude at least `2^-14` is converted to a normal half pattern that is nearest to it:
no normal half is closer. Magnitudes above 65504 therefore give 65504. -/
theorem half_nearest (d : Dbl) (hd : d.Valid) (h1 : 0x3F1 ≤ d.exponent) (h2 : d.exponent < 0x7FF) :
    HalfNormal (toHalfFloat d) ∧ ∀ h, HalfNormal h →
      ((dblMag d : Int) - halfMag (toHalfFloat d)).natAbs ≤ ((dblMag d : Int) - halfMag h).natAbs := by
  obtain ⟨q, hq⟩ : ∃ q, (d.mantissa / 2 ^ 41 + 1) / 2 = q := ⟨_, rfl⟩
  obtain ⟨E, hE⟩ : ∃ E, E = d.exponent - 0x3F0 := ⟨_, rfl⟩
  obtain ⟨c, hc⟩ : ∃ c, c = 2 ^ 42 := ⟨_, rfl⟩
  obtain ⟨x, hx⟩ : ∃ x, x = 2 ^ 52 + d.mantissa := ⟨_, rfl⟩
  have hf := toHalf_fields d hd h1 h2 q E hq.symm hE
  have hdm : dblMag d = x * 2 ^ E := by rw [hx, hE]; rfl
  have hE1 : 1 ≤ E := by omega
  have hs := hd.1
  have hq1 : q ≤ 1024 := by have := hd.2.2; omega
  have hcore := core_near d.mantissa q hq c x hc hx
  rw [hdm]
  by_cases hsat : 31 ≤ E ∨ (q = 1024 ∧ E = 30)
  · have hr : toHalfFloat d = d.sign * 32768 + (30 * 1024 + 1023) := by
      rw [hf]
      by_cases c : q = 1024
      · rw [if_pos c, if_pos (by omega)]
      · rw [if_neg c, if_pos (by omega)]
    obtain ⟨M, hM⟩ : ∃ M, M = 2047 * 2 ^ 72 := ⟨_, rfl⟩
    have hbig := core_big d.mantissa q E x hq hx hsat M hM
    have hmag : halfMag (toHalfFloat d) = M := by
      rw [halfMag_fields _ 30 1023 _ (by rw [hr]; omega) (by rw [hr]; omega) rfl, hM]
    refine ⟨by unfold HalfNormal; rw [hr]; omega, fun h hh => ?_⟩
    rw [hmag]
    exact above_near _ _ _ (by rw [hM]; exact max_half h hh) hbig
  · have hr : HalfNormal (toHalfFloat d) ∧ halfMag (toHalfFloat d) = (1024 + q) * c * 2 ^ E := by
      by_cases c1 : q = 1024
      · rw [if_pos c1, if_neg (by omega)] at hf
        refine ⟨by unfold HalfNormal; rw [hf]; omega, ?_⟩
        rw [halfMag_fields _ (E + 1) 0 c (by rw [hf]; omega) (by rw [hf]; omega) hc, Nat.pow_succ, c1]
        clear hc hcore hdm
        rw [Nat.mul_right_comm (2 ^ E), Nat.mul_assoc (1024 + 1024), Nat.mul_comm c]
        omega
      · rw [if_neg c1, if_neg (by omega)] at hf
        refine ⟨by unfold HalfNormal; rw [hf]; omega, ?_⟩
        rw [halfMag_fields _ E q c (by rw [hf]; omega) (by rw [hf]; omega) hc]
        rw [Nat.mul_assoc, Nat.mul_comm c]
    refine ⟨hr.1, fun h hh => ?_⟩
    rw [hr.2]
    exact regular_near x ((1024 + q) * c) E h c hc hcore.1 hcore.2

/-- Infinities stay infinities of the same sign; NaNs stay NaNs. -/
theorem half_special (d : Dbl) (hd : d.Valid) (h : d.exponent = 0x7FF) :
    (toHalfFloat d / 1024) % 32 = 31 ∧ (toHalfFloat d % 1024 = 0 ↔ d.mantissa = 0) := by
  obtain ⟨hs, he, hm⟩ := hd
  unfold toHalfFloat
  by_cases c : d.mantissa = 0
  · have := pack d.sign 31 0 hs (by decide) (by decide)
    simp [h, c] at this ⊢; omega
  · have := pack d.sign 31 1 hs (by decide) (by decide)
    simp [h, c] at this ⊢; omega

-- 1.5 converts to 0x3E00; 100000.0 saturates; hypotheses are satisfiable
example : (⟨0, 0x3FF, 2 ^ 51⟩ : Dbl).Valid ∧ toHalfFloat ⟨0, 0x3FF, 2 ^ 51⟩ = 0x3E00 ∧
    toHalfFloat ⟨1, 0x40F, 0x86A0000000000⟩ = 0xFBFF := by
  refine ⟨⟨by decide, by decide, by decide⟩, by decide +kernel, by decide +kernel⟩

end Armips.Props
