/-!
# Bit fields of an instruction word
-/
namespace Armips.Spec

/-- The field of `len` bits whose lowest bit is number `lo`, as a number. -/
def field {n : Nat} (w : BitVec n) (lo len : Nat) : Nat := w.toNat / 2 ^ lo % 2 ^ len

/-- A field's content read as a two's complement number. -/
def signed (len v : Nat) : Int := if v < 2 ^ (len - 1) then v else (v : Int) - 2 ^ len

/-- A word consisting of the given fields: lowest bit, width and content of each. -/
def HasFields {n : Nat} (w : BitVec n) (l : List (Nat × Nat × Nat)) : Prop :=
  ∀ x ∈ l, field w x.1 x.2.1 = x.2.2

/-- The fields, listed from the highest to the lowest, cover the bits from 0 up to `top` without gap or overlap. -/
def Covers : Nat → List (Nat × Nat × Nat) → Bool
  | top, [] => top == 0
  | top, (lo, len, _) :: rest => lo + len == top && Covers lo rest

end Armips.Spec
