import Verif.Spec.Bytes
/-!
# Byte strings

`std::string` is a list of bytes.
-/
namespace Armips

abbrev Str := List Byte

/-- A string constant of the source code. -/
def lit (s : String) : Str := s.toList.map fun c => BitVec.ofNat 8 c.toNat

/-- The byte of an ASCII character. -/
def chr (c : Char) : Byte := BitVec.ofNat 8 c.toNat

/-- `::tolower` in the C locale. -/
def lower (b : Byte) : Byte := if 65 ≤ b.toNat ∧ b.toNat ≤ 90 then b + 32#8 else b

/-- Lower-case hexadecimal digit. -/
def hexDigit (n : Nat) : Byte := if n < 10 then BitVec.ofNat 8 (48 + n) else BitVec.ofNat 8 (87 + n)

/-- Digits of `n` in hexadecimal without leading zeros (`fuel` digits at most, `n < 16 ^ fuel`). -/
def hexDigits : Nat → Nat → Str
  | 0, _ => []
  | fuel + 1, n => if n < 16 then [hexDigit n] else hexDigits fuel (n / 16) ++ [hexDigit (n % 16)]

/-- `printf("%08x", n)`. -/
def fmt08x (n : Nat) : Str :=
  let d := hexDigits (n + 1) n
  List.replicate (8 - d.length) (chr '0') ++ d

end Armips
