import Verif.Model.Arm
import Verif.Spec.Instr
import Verif.Spec.Arm
/-!
# Operands an ARM instruction can have

A row of the opcode table has a mnemonic (`C` stands for the condition, `S` for the optional `s`, `A` for an addressing mode,
`X` and `Y` for `t` or `b`) and an operand syntax: `d`, `n`, `m` and `s` are registers, `i`, `I` and `j` immediates, `S` an
optional shift, and so on. `Valid` says which operand values can be written for a row.
-/
namespace Armips.Spec.Arm
open Armips.Arm Armips.Spec.Instr

/-- Width of the immediate in the operand syntax: the number after `j`, otherwise 32. -/
def immediateBits : List Char → Nat
  | 'j' :: k :: _ => k.toNat
  | _ :: r => immediateBits r
  | [] => 32

/-- The shift that a pseudo instruction stands for: the number after `z`. -/
def pseudoShift : List Char → Nat
  | 'z' :: k :: _ => k.toNat
  | _ :: r => pseudoShift r
  | [] => 0

/-- Operand values that can be written for a row of the table. Only what is written is known: without an immediate the width is not used, and only
the syntaxes that begin with `P0` have fields of a status register. -/
structure Valid (op : Op) (o : Operands) : Prop where
  c : o.c ≤ 14
  noC : 'C' ∉ op.name.toList → o.c = 0
  s : o.s = true → 'S' ∈ op.name.toList
  a : o.a ≤ 7
  rd : 'd' ∈ op.mask.toList → o.rd ≤ 15
  rn : 'n' ∈ op.mask.toList → o.rn ≤ 15
  rm : 'm' ∈ op.mask.toList → o.rm ≤ 15
  rs : 's' ∈ op.mask.toList → o.rs ≤ 15
  cd : 'D' ∈ op.mask.toList → o.cd ≤ 15
  cn : 'N' ∈ op.mask.toList → o.cn ≤ 15
  cm : 'M' ∈ op.mask.toList → o.cm ≤ 15
  pn : 'X' ∈ op.mask.toList → o.pn ≤ 15
  field : op.mask.toList.take 2 = ['P', '0'] → o.field ≤ 15
  rlist : 'R' ∈ op.mask.toList → o.rlist < 2 ^ 16
  writeback : o.writeback = true → 'W' ∈ op.mask.toList
  psr : o.psr = true → 'p' ∈ op.mask.toList
  bits : op.has .immediate = true → o.bitLen = immediateBits op.mask.toList
  noShift : 'S' ∉ op.mask.toList → 'z' ∉ op.mask.toList → o.shift = none
  pseudo : 'z' ∈ op.mask.toList → ∃ s, o.shift = some s ∧ s.type = pseudoShift op.mask.toList
  shift : ∀ s, o.shift = some s → s.type ≤ 4 ∧ (s.byRegister = true → s.reg ≤ 15)

/-- The instruction is accepted and its machine code is the word `w`. -/
def Emits (s : InstrSem) (c : Ctx) (st : ArchState) (w : BitVec 32) : Prop :=
  ∃ out, Accepts s c st out ∧ ∀ p, out.words p = [(Width.w32, (w.toNat : Int))]

/-- The 32 bits a constant denotes: an integer modulo 2^32, a float as its single precision bits. -/
def constantBits (E : Env) : Value → Option (BitVec 32)
  | .int v => some (BitVec.ofInt 32 v)
  | .float v => some (BitVec.ofInt 32 (E.floatBits v))
  | _ => none

/-- The operand syntaxes with an immediate second operand: `op rd,rn,#imm`, `op rd,#imm` and `op rn,#imm`. -/
def dataImmediateSyntax : List String := ["d0,n0,/#i", "d0,/#i", "n0,/#i"]

/-- The first operand register: `op rd,#imm` is short for `op rd,rd,#imm`; `mov` and `mvn` have none. -/
def firstOperand (op : Op) (o : Operands) (n : Nat) : Nat :=
  if n == 13 || n == 15 then 0 else if op.mask = "d0,/#i" then o.rd else o.rn

/-- The operand syntaxes with a register as second operand. -/
def dataRegisterSyntax : List String := ["d0,n0,m0S0", "d0,m0S0", "n0,m0S0"]

/-- The first operand register of those: `op rd,rm` is short for `op rd,rd,rm`; `mov` and `mvn` have none. -/
def firstRegister (op : Op) (o : Operands) (n : Nat) : Nat :=
  if n == 13 || n == 15 then 0 else if op.mask = "d0,m0S0" then o.rd else o.rn

/-- Shifts written as instructions: `lsl rd,rm,x` is `mov rd,rm,lsl x`. -/
def pseudoOp : String → Option ShiftOp
  | "lslCS" => some .lsl | "lsrCS" => some .lsr | "asrCS" => some .asr | "rorCS" => some .ror
  | _ => none

/-- What is added to or subtracted from the base register of a load or store. -/
inductive Offset | none | const | reg
  deriving DecidableEq, Repr

/-- Operand syntax of word and byte loads and stores: offset, pre-indexed, writeback (if the syntax demands it). -/
def addressing : String → Option (Offset × Nat × Nat)
  | "d0,[n0]" => some (.none, 1, 0) | "d0,[n0]!" => some (.none, 1, 1)
  | "d0,[n0,/#j\x0c]W" => some (.const, 1, 0) | "d0,[n0],/#j\x0c" => some (.const, 0, 0)
  | "d0,[n0,vm1S1]W" => some (.reg, 1, 0) | "d0,[n0],vm1S1" => some (.reg, 0, 0)
  | _ => Option.none

/-- The same for halfwords, signed bytes and doublewords: offset, pre-indexed. -/
def addressingMisc : String → Option (Offset × Nat)
  | "d0,[n0]" => some (.none, 1)
  | "d0,[n0,/#j\x08]W" => some (.const, 1) | "d0,[n0,/#j\x08]" => some (.const, 1) | "d0,[n0],/#j\x08" => some (.const, 0)
  | "d0,[n0,vm1]W" => some (.reg, 1) | "d0,[n0,m1]" => some (.reg, 1) | "d0,[n0],vm1" => some (.reg, 0)
  | _ => Option.none

/-- The five shift names in the order of the assembler's numbering. -/
def shiftName : Nat → ShiftOp
  | 0 => .lsl | 1 => .lsr | 2 => .asr | 3 => .ror | _ => .rrx

/-- The addressing modes in the order of the assembler's numbering. -/
def modeOf : Nat → Mode
  | 0 => .ib | 1 => .ia | 2 => .db | 3 => .da | 4 => .ed | 5 => .fd | 6 => .ea | _ => .fa

end Armips.Spec.Arm
