import Verif.Spec.Bytes
/-!
# What an output file is

A cursor (physical position and header size) and the bytes of a file as determined by the history of writes.
-/
namespace Armips.Spec.Out
open Armips

/-- What a program does with an open output file. -/
inductive Op
  | seekVirtual (address : Int)
  | seekPhysical (position : Int)
  | headerSize (size : Int)
  | advance (count : Int)
  | write (bytes : List Byte)

/-- Physical position and header size; the virtual address is their sum. -/
structure Cursor where
  phys : Nat
  header : Int

def Cursor.virt (c : Cursor) : Int := c.phys + c.header

/-- Move to a physical position, unless it is negative. -/
def Cursor.goto (c : Cursor) (p : Int) : Cursor := if 0 ≤ p then { c with phys := p.toNat } else c

def Cursor.step (c : Cursor) : Op → Cursor
  | .seekVirtual a => c.goto (a - c.header)
  | .seekPhysical p => c.goto p
  | .headerSize h => { c with header := h }
  | .advance n => c.goto (c.phys + n)
  | .write bs => c.goto (c.phys + bs.length)

/-- Position after a history (oldest first). -/
def Cursor.run (c : Cursor) (ops : List Op) : Cursor := ops.foldl Cursor.step c

/-- The writes of a history with their positions, newest first. -/
def writes (c : Cursor) (ops : List Op) : List (Nat × List Byte) :=
  match ops with
  | [] => []
  | .write bs :: rest => writes (c.step (.write bs)) rest ++ [(c.phys, bs)]
  | op :: rest => writes (c.step op) rest

/-- The byte at a position: that of the newest write covering it, else the original one, else zero. -/
def byteAt (original : List Byte) : List (Nat × List Byte) → Nat → Byte
  | [], p => original[p]?.getD 0#8
  | (q, bs) :: older, p => if q ≤ p ∧ p < q + bs.length then bs[p - q]?.getD 0#8 else byteAt original older p

/-- The size of the file: it reaches to the end of the furthest nonempty write. -/
def size (original : List Byte) : List (Nat × List Byte) → Nat
  | [] => original.length
  | (q, bs) :: older => if bs.isEmpty then size original older else max (size original older) (q + bs.length)

end Armips.Spec.Out
