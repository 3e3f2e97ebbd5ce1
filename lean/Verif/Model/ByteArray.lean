import Verif.Spec.Bytes
/-!
# Byte arrays

Models `Util/ByteArray.{h,cpp}`. An array is the allocated memory block `buf` (`data_[0 .. allocatedSize_)`)
together with the used size. Reading or writing outside `buf` is undefined behaviour and is the outcome `none`.
Memory obtained from `malloc`/`realloc` has unspecified contents: it is given by an arbitrary function `junk`.
Allocation failure is not modelled. `size_t` arithmetic in bounds checks wraps at `2^64` as in the code.
-/
namespace Armips

structure BA where
  /-- the allocated block -/
  buf : List Byte
  /-- `size_` -/
  size : Nat

namespace BA

/-- `ByteArray.cpp:7-11` default constructor. -/
def empty : BA := ⟨[], 0⟩

/-- The bytes a user of the array sees: `data_[0 .. size_)`. -/
def contents (a : BA) : List Byte := a.buf.take a.size

/-- `memcpy(&data_[pos], bytes, n)` into the allocated block. -/
def store (a : BA) (pos : Nat) (bytes : List Byte) : Option BA :=
  if pos + bytes.length ≤ a.buf.length then
    some { a with buf := a.buf.take pos ++ bytes ++ a.buf.drop (pos + bytes.length) }
  else none

/-- `ByteArray.cpp:61-73` `grow`. -/
def grow (junk : Nat → Byte) (a : BA) (needed : Nat) : BA :=
  if needed < a.buf.length then a
  else { a with buf := a.buf ++ (List.range (((needed + 511) / 512) * 512 - a.buf.length)).map junk }

/-- `ByteArray.cpp:75-92` both `append` overloads (source not aliasing this array). Returns the old size. -/
def append (junk : Nat → Byte) (a : BA) (bytes : List Byte) : Option (BA × Nat) := do
  let g := grow junk a (a.size + bytes.length)
  let s ← g.store a.size bytes
  pure ({ s with size := a.size + bytes.length }, a.size)

/-- `ByteArray.h:31` `replaceByte`. -/
def replaceByte (a : BA) (pos : Nat) (b : Byte) : Option BA := a.store pos [b]

/-- `ByteArray.cpp:94-100` `replaceBytes`. -/
def replaceBytes (a : BA) (pos : Nat) : List Byte → Option BA
  | [] => some a
  | b :: bs => do
    let a' ← a.replaceByte pos b
    replaceBytes a' (pos + 1) bs

/-- `ByteArray.cpp:102-107` `reserveBytes`. -/
def reserveBytes (junk : Nat → Byte) (a : BA) (count : Nat) (value : Byte) : Option BA := do
  let g := grow junk a (a.size + count)
  let s ← g.store a.size (List.replicate count value)
  pure { s with size := a.size + count }

/-- `ByteArray.cpp:113-116`, the loop of `alignSize`; `fuel` bounds the iterations (the theorems show that
`alignment` iterations suffice). -/
def alignLoop (junk : Nat → Byte) (alignment : Nat) : Nat → BA → Option BA
  | 0, _ => none
  | fuel + 1, a =>
    if a.size % alignment ≠ 0 then do
      let (a', _) ← append junk a [0#8]
      alignLoop junk alignment fuel a'
    else some a

/-- `ByteArray.cpp:109-117` `alignSize`. -/
def alignSize (junk : Nat → Byte) (a : BA) (alignment : Nat) : Option BA :=
  if alignment = 0 then some a else alignLoop junk alignment (alignment + 1) a

/-- `ByteArray.cpp:119-123` `resize`. -/
def resize (junk : Nat → Byte) (a : BA) (n : Nat) : BA := { grow junk a n with size := n }

/-- `memcpy` source read: `n` bytes of the block from `pos`. -/
def load (a : BA) (pos n : Nat) : Option (List Byte) :=
  if pos + n ≤ a.buf.length then some ((a.buf.drop pos).take n) else none

/-- `ByteArray.cpp:125-138` `mid`. The subtraction `size_-start` is unsigned; when `start > size_` the wrapped
value is not used because the function returns first. -/
def mid (junk : Nat → Byte) (a : BA) (start : Nat) (length : Int) : Option BA :=
  let len : Nat := if length < 0 then a.size - start else length.toNat
  if start ≥ a.size then some empty
  else do
    let bytes ← a.load start len
    let r := grow junk empty len
    let r ← store { r with size := len } 0 bytes
    pure r

/-- `ByteArray.h:111` `left`. -/
def left (junk : Nat → Byte) (a : BA) (length : Nat) : Option BA := mid junk a 0 length

/-- `ByteArray.h:112` `right` (unsigned `size_-length`). -/
def right (junk : Nat → Byte) (a : BA) (length : Nat) : Option BA :=
  mid junk a ((a.size + 2 ^ 64 - length) % 2 ^ 64) length

/-- `data_[i]`. -/
def at? (a : BA) (i : Nat) : Option Byte := a.buf[i]?

/-- `ByteArray.h:36-47` `getWord`; the C++ `int` result is a 32-bit word. -/
def getWord (a : BA) (pos : Nat) (e : Endianness) : Option (BitVec 32) :=
  if (pos + 1) % 2 ^ 64 ≥ a.size then some (-1#32)
  else do
    let d0 ← a.at? pos
    let d1 ← a.at? (pos + 1)
    match e with
    | .little => pure (d0.setWidth 32 ||| (d1.setWidth 32 <<< 8))
    | .big => pure (d1.setWidth 32 ||| (d0.setWidth 32 <<< 8))

/-- `ByteArray.h:49-60` `getDoubleWord`. -/
def getDoubleWord (a : BA) (pos : Nat) (e : Endianness) : Option (BitVec 32) :=
  if (pos + 3) % 2 ^ 64 ≥ a.size then some (-1#32)
  else do
    let d0 ← a.at? pos
    let d1 ← a.at? (pos + 1)
    let d2 ← a.at? (pos + 2)
    let d3 ← a.at? (pos + 3)
    match e with
    | .little => pure (d0.setWidth 32 ||| (d1.setWidth 32 <<< 8) ||| (d2.setWidth 32 <<< 16) ||| (d3.setWidth 32 <<< 24))
    | .big => pure (d3.setWidth 32 ||| (d2.setWidth 32 <<< 8) ||| (d1.setWidth 32 <<< 16) ||| (d0.setWidth 32 <<< 24))

/-- `w & 0xFF` of the shifted word, stored into an `unsigned char`. -/
def byteOf (w : BitVec 32) (shift : Nat) : Byte := ((w >>> shift) &&& 0xFF#32).setWidth 8

/-- `ByteArray.h:62-75` `replaceWord`. -/
def replaceWord (a : BA) (pos : Nat) (w : BitVec 32) (e : Endianness) : Option BA :=
  if (pos + 1) % 2 ^ 64 ≥ a.size then some a
  else
    match e with
    | .little => do
      let a ← a.replaceByte pos (byteOf w 0)
      a.replaceByte (pos + 1) (byteOf w 8)
    | .big => do
      let a ← a.replaceByte pos (byteOf w 8)
      a.replaceByte (pos + 1) (byteOf w 0)

/-- `ByteArray.h:77-94` `replaceDoubleWord`. -/
def replaceDoubleWord (a : BA) (pos : Nat) (w : BitVec 32) (e : Endianness) : Option BA :=
  if (pos + 3) % 2 ^ 64 ≥ a.size then some a
  else
    match e with
    | .little => do
      let a ← a.replaceByte pos (byteOf w 0)
      let a ← a.replaceByte (pos + 1) (byteOf w 8)
      let a ← a.replaceByte (pos + 2) (byteOf w 16)
      a.replaceByte (pos + 3) (byteOf w 24)
    | .big => do
      let a ← a.replaceByte pos (byteOf w 24)
      let a ← a.replaceByte (pos + 1) (byteOf w 16)
      let a ← a.replaceByte (pos + 2) (byteOf w 8)
      a.replaceByte (pos + 3) (byteOf w 0)

end BA
end Armips
