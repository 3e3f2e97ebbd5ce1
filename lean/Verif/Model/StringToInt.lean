/-!
# Integer literals

Models `stringToInt` (`Util/Util.cpp:51-104`). A `std::string` is a list of bytes, written as `Char`s with codes
below 256; `code` is the value of the C++ (signed) `char`. `tolower` is the "C" locale function.
-/
namespace Armips.StrInt

/-- Value of a signed `char`. -/
def code (c : Char) : Int := if c.toNat < 128 then c.toNat else (c.toNat : Int) - 256

/-- `tolower` on a `char`. -/
def tolower (c : Int) : Int := if 65 ≤ c ∧ c ≤ 90 then c + 32 else c

/-- `tolower(line[i])`. `std::string::operator[]` gives NUL at index `size()`; further out is undefined
(`none`). -/
def charAt (line : List Char) (i : Nat) : Option Int :=
  if i < line.length then (line[i]?).map fun c => tolower (code c)
  else if i = line.length then some 0
  else none

/-- What `stringToInt` did: `ub` is an access outside the string, `reject` the return value `false`, `ok v o` the
return value `true` with result `v`. The accumulator is an `int64_t`; `o` records that some intermediate result
was not representable (undefined behaviour; compilers wrap, which is what `v` contains). -/
inductive Outcome
  | ub
  | reject
  | ok (value : BitVec 64) (overflow : Bool)
  deriving DecidableEq, Repr

/-- `Util.cpp:54-70` prefix detection: the base and the new start. -/
def prefixBase (line : List Char) (start stop : Nat) : Option (Int × Nat) := do
  let c0 ← charAt line start
  if c0 = 48 then
    let c1 ← charAt line (start + 1)
    let cl ← charAt line (stop - 1)
    if c1 = 120 then pure (16, start + 2)
    else if c1 = 111 then pure (8, start + 2)
    else if c1 = 98 ∧ cl ≠ 104 then pure (2, start + 2)
    else pure (10, start)
  else pure (10, start)

/-- `Util.cpp:72-87` suffix detection, only for base 10. -/
def suffixBase (line : List Char) (base : Int) (stop : Nat) : Option (Int × Nat) := do
  if base = 10 then
    let cl ← charAt line (stop - 1)
    if cl = 104 then pure (16, stop - 1)
    else if cl = 98 then pure (2, stop - 1)
    else if cl = 111 then pure (8, stop - 1)
    else pure (10, stop)
  else pure (base, stop)

/-- `Util.cpp:95` the digit value of a (lowered) character. -/
def digit (c : Int) : Int := if c ≥ 97 then c - 97 + 10 else c - 48

/-- `Util.cpp:89-103` the conversion loop, on the characters of `line[start .. end)`. -/
def convert (base : Int) : List Char → BitVec 64 → Bool → Outcome
  | [], acc, o => .ok acc o
  | c :: cs, acc, o =>
    let v := digit (tolower (code c))
    if v ≥ base then .reject
    else
      let exact := acc.toInt * base + v
      convert base cs (BitVec.ofInt 64 exact)
        (o || !decide (-(2 ^ 63) ≤ acc.toInt * base ∧ acc.toInt * base < 2 ^ 63 ∧ -(2 ^ 63) ≤ exact ∧ exact < 2 ^ 63))

/-- `Util.cpp:51-104` `stringToInt`. `line[end-1]` with `end = 0` is an out-of-range access. -/
def stringToInt (line : List Char) (start stop : Nat) : Outcome :=
  if stop = 0 then .ub else
  match prefixBase line start stop with
  | none => .ub
  | some (b, s) =>
    match suffixBase line b stop with
    | none => .ub
    | some (b, e) =>
      if e ≤ line.length then convert b ((line.take e).drop s) 0#64 false else .ub

end Armips.StrInt
