import Verif.Spec.Mips
/-!
# Load delays of the MIPS I

On the R3000 the value of a load is not available to the next instruction. From the manual of the processor: which words are
loads, and which registers a word reads. Nothing here refers to the assembler.
-/
namespace Armips.Spec.Mips
open Spec

/-- The register that a load defines: `lb`, `lh`, `lwl`, `lw`, `lbu`, `lhu`, `lwr`. -/
def loadTarget (w : BitVec 32) : Option Nat :=
  if 32 ≤ field w 26 6 ∧ field w 26 6 ≤ 38 then some (field w 16 5) else none

/-- A coprocessor instruction that moves a register to the coprocessor: `mtcz`, `ctcz`. -/
def moveTo (w : BitVec 32) : Bool :=
  16 ≤ field w 26 6 && field w 26 6 ≤ 19 && field w 25 1 == 0 && [4, 6].contains (field w 21 4)

/-- The word reads the register in its field `rs`. -/
def readsRs (w : BitVec 32) : Bool :=
  let op := field w 26 6
  if op = 0 then [4, 6, 7, 8, 9, 17, 19, 24, 25, 26, 27, 32, 33, 34, 35, 36, 37, 38, 39, 42, 43].contains (field w 0 6)
  else op == 1 || (4 ≤ op && op ≤ 14) || (32 ≤ op && op ≤ 63)

/-- The word reads the register in its field `rt`. The merging loads `lwl` and `lwr` do not count: the processor hands them the
value that is being loaded. -/
def readsRt (w : BitVec 32) : Bool :=
  let op := field w 26 6
  if op = 0 then [0, 2, 3, 4, 6, 7, 24, 25, 26, 27, 32, 33, 34, 35, 36, 37, 38, 39, 42, 43].contains (field w 0 6)
  else op == 4 || op == 5 || (40 ≤ op && op ≤ 46) || moveTo w

/-- The word reads register `r`. -/
def Reads (w : BitVec 32) (r : Nat) : Prop :=
  (readsRs w = true ∧ field w 21 5 = r) ∨ (readsRt w = true ∧ field w 16 5 = r)

/-- No word of the list reads a register that the word before it loads. Register 0 is always zero. -/
def NoDelay : List (BitVec 32) → Prop
  | w :: w' :: r => (∀ n, loadTarget w = some n → n ≠ 0 → ¬ Reads w' n) ∧ NoDelay (w' :: r)
  | _ => True

/-- A straight-line sequence of instructions, each where it stands, is accepted and writes these words. -/
inductive Writes : ArchState → List (InstrSem × Ctx) → List (BitVec 32) → Prop
  | nil {st} : Writes st [] []
  | cons {st st' s c out r u ws} : Instr.Clean (s.run c st) (out, st') →
      (∀ p, out.words p = u.map fun w => (Width.w32, (w.toNat : Int))) → Writes st' r ws → Writes st ((s, c) :: r) (u ++ ws)

end Armips.Spec.Mips
