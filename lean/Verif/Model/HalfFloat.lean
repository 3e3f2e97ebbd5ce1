/-!
# Half-precision conversion

Models `toHalfFloat` and `fromHalfFloat` (`Util/Util.cpp:113-213`) on bit patterns. The unions reinterpret a
`double` as the bit fields `sign`, `exponent`, `mantissa`; that layout (IEEE 754 binary64, little-endian bit-field
allocation) is the modelling assumption.
-/
namespace Armips.Half

/-- The bit fields of a `double`. -/
structure Dbl where
  sign : Nat
  exponent : Nat
  mantissa : Nat
  deriving DecidableEq, Repr

/-- The fields have the widths declared in the union (1, 11 and 52 bits). -/
def Dbl.Valid (d : Dbl) : Prop := d.sign < 2 ∧ d.exponent < 2 ^ 11 ∧ d.mantissa < 2 ^ 52

/-- `Util.cpp:113-163` `toHalfFloat`; the result is truncated to `uint16_t`. -/
def toHalfFloat (d : Dbl) : Nat :=
  if d.exponent = 0x7FF ∧ d.mantissa = 0 then ((d.sign <<< 15) ||| (0x1F <<< 10)) % 65536
  else if d.exponent = 0x7FF ∧ d.mantissa ≠ 0 then ((d.sign <<< 15) ||| (0x1F <<< 10) ||| 1) % 65536
  else if d.exponent ≤ 0x3F0 then (d.sign <<< 15) % 65536
  else
    let exponent := d.exponent - 0x3F0
    let mantissa := ((d.mantissa >>> (42 - 1)) + 1) >>> 1
    let (exponent, mantissa) := if mantissa = 0x400 then (exponent + 1, 0) else (exponent, mantissa)
    let (exponent, mantissa) := if exponent ≥ 0x1F then (0x1E, 0x3FF) else (exponent, mantissa)
    ((d.sign <<< 15) ||| (exponent <<< 10) ||| mantissa) % 65536

/-- `Util.cpp:165-213` `fromHalfFloat` on the `uint16_t` pattern `x`. The signalling NaN constant is given by an
arbitrary nonzero mantissa `nan`. -/
def fromHalfFloat (nan : Nat) (x : Nat) : Dbl :=
  let mantissa := x % 1024
  let exponent := (x / 1024) % 32
  let sign := (x / 32768) % 2
  if exponent = 0x1F ∧ mantissa = 0 then ⟨sign, 0x7FF, 0⟩
  else if exponent = 0x1F ∧ mantissa ≠ 0 then ⟨0, 0x7FF, nan⟩
  else if exponent = 0 then ⟨sign, 0, 0⟩
  else ⟨sign, exponent + 0x3F0, (mantissa <<< 42) % 2 ^ 52⟩

end Armips.Half
