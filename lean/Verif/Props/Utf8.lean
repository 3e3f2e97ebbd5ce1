import Verif.Model.Utf8
import Verif.Lemmas.Bits

/-! C42 — UTF-8 encoding and decoding are inverse on the basic multilingual plane. -/
namespace Armips.Props
open Armips.Utf8 Armips.Bits

private theorem encode1 {c : Nat} (h : c < 0x80) : encode c = [c] := by
  simp only [encode, h, if_true, and_0x7F]; congr 1; omega

private theorem encode2 {c : Nat} (h0 : ¬ c < 0x80) (h : c < 0x800) :
    encode c = [192 + c / 64, 128 + c % 64] := by
  have e1 : 0xC0 ||| c / 64 % 32 = 192 + c / 64 % 32 := or_eq_add_of_dvd 5 (by decide) (by omega)
  have e2 : 0x80 ||| c % 64 = 128 + c % 64 := or_eq_add_of_dvd 6 (by decide) (by omega)
  simp only [encode, h0, h, if_true, if_false, and_0x1F, and_0x3F, shr]
  simp only [Nat.reducePow, e1, e2]
  congr 1
  · omega
  · congr 1; omega

private theorem encode3 {c : Nat} (h0 : ¬ c < 0x800) (h : c < 0x10000) :
    encode c = [224 + c / 4096, 128 + c / 64 % 64, 128 + c % 64] := by
  have e1 : 0xE0 ||| c / 4096 % 16 = 224 + c / 4096 % 16 := or_eq_add_of_dvd 4 (by decide) (by omega)
  have e2 : 0x80 ||| c % 64 = 128 + c % 64 := or_eq_add_of_dvd 6 (by decide) (by omega)
  have e3 : 0x80 ||| c / 64 % 64 = 128 + c / 64 % 64 := or_eq_add_of_dvd 6 (by decide) (by omega)
  have h1 : ¬ c < 0x80 := by omega
  simp only [encode, h0, h1, if_false, and_0xF, and_0x3F, shr]
  simp only [Nat.reducePow, e1, e2, e3]
  congr 1
  · omega
  · congr 1
    · omega
    · congr 1; omega

private theorem lead1 : ∀ b < 128, b &&& 0xE0 ≠ 0xC0 ∧ b &&& 0xF0 ≠ 0xE0 := by decide +kernel
private theorem lead2 : ∀ b < 32, (192 + b) &&& 0xE0 = 0xC0 ∧ (192 + b) &&& 0x1F = b := by decide +kernel
private theorem lead3 : ∀ b < 16, (224 + b) &&& 0xE0 ≠ 0xC0 ∧ (224 + b) &&& 0xF0 = 0xE0 ∧
    (224 + b) &&& 0xF = b := by decide +kernel
private theorem cont : ∀ b < 64, (128 + b) &&& 0xC0 = 0x80 ∧ (128 + b) &&& 0x3F = b := by decide +kernel

private theorem join (a b : Nat) (h : b < 64) : (a <<< 6) ||| b = a * 64 + b := by
  rw [shl]; exact or_eq_add_of_dvd 6 (by simp) h

/-- Reading back the UTF-8 encoding of any code point below `0x10000`, followed by arbitrary text, with the
source file reader: the same code point, no diagnosis, and exactly the encoding consumed. -/
theorem utf8_reader_roundtrip (c : Nat) (hc : c < 0x10000) (rest : List Nat) :
    readCharacter (encode c ++ rest) = some (c, false, rest) := by
  by_cases h1 : c < 0x80
  · obtain ⟨a, b⟩ := lead1 c (by omega)
    simp [encode1 h1, readCharacter, a, b]; omega
  · by_cases h2 : c < 0x800
    · obtain ⟨a1, a2⟩ := lead2 (c / 64) (by omega)
      obtain ⟨c1, c2⟩ := cont (c % 64) (by omega)
      simp [encode2 h1 h2, readCharacter, a1, a2, continuation, c1, c2, join _ _ (Nat.mod_lt c (by decide : 0 < 64))]
      omega
    · obtain ⟨a1, a2, a3⟩ := lead3 (c / 4096) (by omega)
      obtain ⟨c1, c2⟩ := cont (c % 64) (by omega)
      obtain ⟨d1, d2⟩ := cont (c / 64 % 64) (by omega)
      simp [encode3 h2 hc, readCharacter, a1, a2, a3, continuation, c1, c2, d1, d2,
        join _ _ (Nat.mod_lt c (by decide : 0 < 64)), join _ _ (Nat.mod_lt (c/64) (by decide : 0 < 64))]
      omega

/-- The same for the tokenizer's decoder (character constants). -/
theorem utf8_tokenizer_roundtrip (c : Nat) (hc : c < 0x10000) (rest : List Nat) :
    decodeTok (encode c ++ rest) = some (c, rest) := by
  by_cases h1 : c < 0x80
  · obtain ⟨a, b⟩ := lead1 c (by omega)
    simp [encode1 h1, decodeTok, a, b]; omega
  · by_cases h2 : c < 0x800
    · obtain ⟨a1, a2⟩ := lead2 (c / 64) (by omega)
      obtain ⟨c1, c2⟩ := cont (c % 64) (by omega)
      simp [encode2 h1 h2, decodeTok, a1, a2, continuation, c1, c2, join _ _ (Nat.mod_lt c (by decide : 0 < 64))]
      omega
    · obtain ⟨a1, a2, a3⟩ := lead3 (c / 4096) (by omega)
      obtain ⟨c1, c2⟩ := cont (c % 64) (by omega)
      obtain ⟨d1, d2⟩ := cont (c / 64 % 64) (by omega)
      simp [encode3 h2 hc, decodeTok, a1, a2, a3, continuation, c1, c2, d1, d2,
        join _ _ (Nat.mod_lt c (by decide : 0 < 64)), join _ _ (Nat.mod_lt (c/64) (by decide : 0 < 64))]
      omega

/-- The shape of a UTF-8 character of at most three bytes: a plain byte, or a lead byte followed by continuation bytes. -/
def WellFormed : List Nat → Prop
  | [a] => a < 0x80
  | [a, b] => (0xC0 ≤ a ∧ a < 0xE0) ∧ (0x80 ≤ b ∧ b < 0xC0)
  | [a, b, c] => (0xE0 ≤ a ∧ a < 0xF0) ∧ (0x80 ≤ b ∧ b < 0xC0) ∧ (0x80 ≤ c ∧ c < 0xC0)
  | _ => False

private theorem leadKinds : ∀ b < 256, (b &&& 0xE0 = 0xC0 ↔ 0xC0 ≤ b ∧ b < 0xE0) ∧ (b &&& 0xF0 = 0xE0 ↔ 0xE0 ≤ b ∧ b < 0xF0) ∧
    (b &&& 0xC0 = 0x80 ↔ 0x80 ≤ b ∧ b < 0xC0) := by decide +kernel

/-- The reader reports invalid UTF-8 exactly when the bytes it consumes do not have the shape of a UTF-8 character. -/
theorem utf8_reader_diagnosis (bytes : List Nat) (hb : ∀ b ∈ bytes, b < 256) (c : Nat) (bad : Bool) (rest : List Nat)
    (h : readCharacter bytes = some (c, bad, rest)) :
    ∃ used, used ≠ [] ∧ bytes = used ++ rest ∧ (bad = false ↔ WellFormed used) := by
  match bytes with
  | [] => simp [readCharacter] at h
  | a :: l =>
    obtain ⟨k1, k2, k3⟩ := leadKinds a (hb a (by simp))
    rw [readCharacter] at h
    split at h
    · next h1 =>
      match l with
      | [] => simp [continuation] at h
      | b :: r =>
        obtain ⟨j1, j2, j3⟩ := leadKinds b (hb b (by simp))
        simp only [continuation, Option.some.injEq, Prod.mk.injEq] at h
        obtain ⟨-, rfl, rfl⟩ := h
        exact ⟨[a, b], by simp, rfl, by simp [WellFormed, k1.1 h1, ← j3]⟩
    · split at h
      · next h0 h1 =>
        match l with
        | [] => simp [continuation] at h
        | [b] => simp [continuation] at h
        | b :: d :: r =>
          obtain ⟨j1, j2, j3⟩ := leadKinds b (hb b (by simp))
          obtain ⟨i1, i2, i3⟩ := leadKinds d (hb d (by simp))
          simp only [continuation, Option.some.injEq, Prod.mk.injEq] at h
          obtain ⟨-, rfl, rfl⟩ := h
          exact ⟨[a, b, d], by simp, rfl, by simp [WellFormed, k2.1 h1, ← j3, ← i3]⟩
      · simp only [Option.some.injEq, Prod.mk.injEq] at h
        obtain ⟨-, rfl, rfl⟩ := h
        refine ⟨[a], by simp, rfl, ?_⟩
        simp only [WellFormed, decide_eq_false_iff_not]
        omega

example : readCharacter [0xE2, 0x82, 0x41, 0x42] = some (0x2081, true, [0x42]) := by decide +kernel
example : encode 0x20AC = [0xE2, 0x82, 0xAC] := by decide
end Armips.Props
