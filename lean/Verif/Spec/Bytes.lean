/-!
# Byte order specification

Little- and big-endian byte strings of natural numbers, independent of the assembler's code.
-/
namespace Armips

abbrev Byte := BitVec 8

/-- The `n` low-order bytes of `v`, least significant first. -/
def toLE : Nat → Nat → List Byte
  | 0, _ => []
  | n + 1, v => BitVec.ofNat 8 v :: toLE n (v / 256)

/-- The `n` low-order bytes of `v`, most significant first. -/
def toBE (n v : Nat) : List Byte := (toLE n v).reverse

/-- The number denoted by a little-endian byte string. -/
def fromLE : List Byte → Nat
  | [] => 0
  | b :: bs => b.toNat + 256 * fromLE bs

/-- The number denoted by a big-endian byte string. -/
def fromBE (bs : List Byte) : Nat := fromLE bs.reverse

/-- Output byte order. -/
inductive Endianness | big | little
  deriving DecidableEq, Repr

/-- `n` bytes of `v` in byte order `e`. -/
def toBytes (e : Endianness) (n v : Nat) : List Byte :=
  match e with | .little => toLE n v | .big => toBE n v

/-- The number denoted by bytes in byte order `e`. -/
def fromBytes (e : Endianness) (bs : List Byte) : Nat :=
  match e with | .little => fromLE bs | .big => fromBE bs

@[simp] theorem toLE_length (n v : Nat) : (toLE n v).length = n := by
  induction n generalizing v with
  | zero => rfl
  | succ n ih => simp [toLE, ih]

@[simp] theorem toBytes_length (e : Endianness) (n v : Nat) : (toBytes e n v).length = n := by
  cases e <;> simp [toBytes, toBE]

theorem fromLE_toLE (n v : Nat) : fromLE (toLE n v) = v % 256 ^ n := by
  induction n generalizing v with
  | zero => simp [toLE, fromLE, Nat.mod_one]
  | succ n ih =>
    simp only [toLE, fromLE, ih, BitVec.toNat_ofNat]
    rw [Nat.pow_succ (n := 256), Nat.mul_comm (256 ^ n) 256, Nat.mod_mul]

theorem fromBytes_toBytes (e : Endianness) (n v : Nat) : fromBytes e (toBytes e n v) = v % 256 ^ n := by
  cases e <;> simp [fromBytes, toBytes, fromBE, toBE, fromLE_toLE]

end Armips
