import Verif.Model.Thumb
import Verif.Spec.Arm
import Verif.Spec.Instr
/-!
# The THUMB instruction set, as far as the statements need it

The first part is taken from the ARM architecture reference manual (ARMv5TE), not from the assembler: the fields of the 16-bit
instructions and how a processor reads the branches. The second part says which operand values can be written.
-/
namespace Armips.Spec.Thumb
open Armips.Spec.Instr

/-- The instruction formats. Numbers are contents of fields that select the operation. -/
inductive Format
  | shift (type : Nat)                -- shift by a constant: lsl, lsr, asr
  | addRegister (sub : Nat)           -- add or subtract a register
  | addSmall (sub : Nat)              -- add or subtract a 3-bit constant
  | imm8 (op : Nat)                   -- mov, cmp, add, sub with an 8-bit constant
  | alu (op : Nat)                    -- two registers
  | high (op : Nat)                   -- add, cmp, mov with registers r0 to r15
  | exchange (link : Nat)             -- bx, blx
  | literal                           -- load relative to the program counter
  | registerOffset (load byte : Nat)  -- load, store
  | registerOffsetMisc (h s : Nat)    -- halfwords and signed bytes
  | offset5 (byte load : Nat)         -- load, store with a constant offset
  | halfOffset5 (load : Nat)
  | stackOffset (load : Nat)          -- relative to the stack pointer
  | address (sp : Nat)                -- program counter or stack pointer plus constant
  | adjust (sub : Nat)                -- stack pointer plus or minus constant
  | stack (load : Nat)                -- push, pop
  | multiple (load : Nat)             -- stmia, ldmia
  | conditional (cond : Nat)          -- conditional branch
  | interrupt                         -- swi
  | breakpoint
  | branch
  | linkLow                           -- second half of bl
  deriving DecidableEq, Repr

/-- Operands: registers, the content of the constant's field and the register list (bit n for register n). -/
structure Args where
  rd : Nat := 0
  rs : Nat := 0
  rn : Nat := 0
  ro : Nat := 0
  imm : Nat := 0
  rlist : Nat := 0

/-- The fields from bit 15 down to bit 0: lowest bit, width, content. -/
def Format.layout (f : Format) (a : Args) : List (Nat × Nat × Nat) :=
  match f with
  | .shift t => [(13, 3, 0), (11, 2, t), (6, 5, a.imm), (3, 3, a.rs), (0, 3, a.rd)]
  | .addRegister s => [(11, 5, 3), (10, 1, 0), (9, 1, s), (6, 3, a.rn), (3, 3, a.rs), (0, 3, a.rd)]
  | .addSmall s => [(11, 5, 3), (10, 1, 1), (9, 1, s), (6, 3, a.imm), (3, 3, a.rs), (0, 3, a.rd)]
  | .imm8 n => [(13, 3, 1), (11, 2, n), (8, 3, a.rd), (0, 8, a.imm)]
  | .alu n => [(10, 6, 16), (6, 4, n), (3, 3, a.rs), (0, 3, a.rd)]
  | .high n => [(10, 6, 17), (8, 2, n), (7, 1, a.rd / 8), (6, 1, a.rs / 8), (3, 3, a.rs % 8), (0, 3, a.rd % 8)]
  | .exchange l => [(10, 6, 17), (8, 2, 3), (7, 1, l), (6, 1, a.rs / 8), (3, 3, a.rs % 8), (0, 3, 0)]
  | .literal => [(11, 5, 9), (8, 3, a.rd), (0, 8, a.imm)]
  | .registerOffset l b => [(12, 4, 5), (11, 1, l), (10, 1, b), (9, 1, 0), (6, 3, a.ro), (3, 3, a.rs), (0, 3, a.rd)]
  | .registerOffsetMisc h s => [(12, 4, 5), (11, 1, h), (10, 1, s), (9, 1, 1), (6, 3, a.ro), (3, 3, a.rs), (0, 3, a.rd)]
  | .offset5 b l => [(13, 3, 3), (12, 1, b), (11, 1, l), (6, 5, a.imm), (3, 3, a.rs), (0, 3, a.rd)]
  | .halfOffset5 l => [(12, 4, 8), (11, 1, l), (6, 5, a.imm), (3, 3, a.rs), (0, 3, a.rd)]
  | .stackOffset l => [(12, 4, 9), (11, 1, l), (8, 3, a.rd), (0, 8, a.imm)]
  | .address sp => [(12, 4, 10), (11, 1, sp), (8, 3, a.rd), (0, 8, a.imm)]
  | .adjust s => [(8, 8, 0xB0), (7, 1, s), (0, 7, a.imm)]
  | .stack l => [(12, 4, 11), (11, 1, l), (9, 2, 2), (8, 1, if l = 1 then a.rlist / 2 ^ 15 % 2 else a.rlist / 2 ^ 14 % 2), (0, 8, a.rlist % 256)]
  | .multiple l => [(12, 4, 12), (11, 1, l), (8, 3, a.rd), (0, 8, a.rlist)]
  | .conditional c => [(12, 4, 13), (8, 4, c), (0, 8, a.imm)]
  | .interrupt => [(8, 8, 0xDF), (0, 8, a.imm)]
  | .breakpoint => [(8, 8, 0xBE), (0, 8, a.imm)]
  | .branch => [(11, 5, 28), (0, 11, a.imm)]
  | .linkLow => [(11, 5, 31), (0, 11, a.imm)]

/-- First half of `bl` and `blx`, and the second half of `blx`. -/
def linkHigh (off : Nat) : List (Nat × Nat × Nat) := [(11, 5, 30), (0, 11, off)]
/-- See `linkHigh`; the second half of `bl` is `Format.linkLow`. -/
def exchangeLow (off : Nat) : List (Nat × Nat × Nat) := [(11, 5, 29), (0, 11, off)]

/-- The constant counts units of this many bytes. -/
def Format.scale : Format → Nat
  | .literal | .stackOffset _ | .address _ | .adjust _ => 4
  | .offset5 b _ => if b = 1 then 1 else 4
  | .halfOffset5 _ | .linkLow => 2
  | _ => 1

/-- Width of the constant's field. -/
def Format.bits : Format → Nat
  | .addSmall _ => 3
  | .shift _ | .offset5 _ _ | .halfOffset5 _ => 5
  | .adjust _ => 7
  | .imm8 _ | .literal | .stackOffset _ | .address _ | .interrupt | .breakpoint | .conditional _ => 8
  | .branch | .linkLow => 11
  | _ => 0

/-- The instruction that subtracts what this one adds, and the other way round. -/
def Format.opposite : Format → Option Format
  | .addSmall s => some (.addSmall (1 - s))
  | .imm8 2 => some (.imm8 3)
  | .imm8 3 => some (.imm8 2)
  | .adjust s => some (.adjust (1 - s))
  | _ => none

/-- What an instruction that adds or subtracts a constant computes: the number of the operation in the sense of
`Spec.Arm.compute` (4 add, 2 subtract). -/
def Format.operation : Format → Option Nat
  | .addSmall 0 | .imm8 2 | .adjust 0 => some 4
  | .addSmall 1 | .imm8 3 | .adjust 1 => some 2
  | _ => none

/-- Where a conditional branch at `address` goes. -/
def conditionalTarget (w : BitVec 16) (address : Int) : Int := address + 4 + 2 * signed 8 (field w 0 8)
/-- Where `b` at `address` goes. -/
def branchTarget (w : BitVec 16) (address : Int) : Int := address + 4 + 2 * signed 11 (field w 0 11)
/-- Where the pair of instructions `bl` at `address` goes. -/
def linkTarget (w1 w2 : BitVec 16) (address : Int) : Int :=
  address + 4 + 4096 * signed 11 (field w1 0 11) + 2 * field w2 0 11
/-- Where the pair `blx` goes: the two lowest bits are cleared. -/
def exchangeTarget (w1 w2 : BitVec 16) (address : Int) : Int :=
  linkTarget w1 w2 address - linkTarget w1 w2 address % 4
/-- The address a load relative to the program counter accesses, or `add rd,pc,#imm` computes. -/
def literalAddress (w : BitVec 16) (address : Int) : Int :=
  (address + 4) - (address + 4) % 4 + 4 * field w 0 8

/-! ### Mnemonics and operand syntax -/

/-- Number of a two register operation. -/
def aluOp : String → Option Nat
  | "and" => some 0 | "eor" => some 1 | "xor" => some 1 | "lsl" => some 2 | "lsr" => some 3 | "asr" => some 4
  | "adc" => some 5 | "sbc" => some 6 | "ror" => some 7 | "tst" => some 8 | "neg" => some 9 | "cmp" => some 10
  | "cmn" => some 11 | "orr" => some 12 | "mul" => some 13 | "bic" => some 14 | "mvn" => some 15
  | _ => none

/-- Condition of a branch. -/
def condition : String → Option Nat
  | "beq" => some 0 | "bne" => some 1 | "bcs" => some 2 | "bhs" => some 2 | "bcc" => some 3 | "blo" => some 3
  | "bmi" => some 4 | "bpl" => some 5 | "bvs" => some 6 | "bvc" => some 7 | "bhi" => some 8 | "bls" => some 9
  | "bge" => some 10 | "blt" => some 11 | "bgt" => some 12 | "ble" => some 13
  | _ => none

/-- Format by mnemonic and operand syntax: `d`, `s`, `n`, `o` are registers r0 to r7, `D` and `S` registers r0 to r15, `r`
followed by a number that register, `i` and `I` constants followed by their width, `R` a register list. -/
def format (name syntax_ : String) : Option Format :=
  match syntax_ with
  | "d,s,/#i\x05" | "d,/#i\x05" =>
    if name = "lsl" ∨ name = "asl" then some (.shift 0) else if name = "lsr" then some (.shift 1)
    else if name = "asr" then some (.shift 2) else none
  | "d,s,n" | "d,n" => if name = "add" then some (.addRegister 0) else if name = "sub" then some (.addRegister 1) else none
  | "d,s,/#i\x03" => if name = "add" then some (.addSmall 0) else if name = "sub" then some (.addSmall 1) else none
  | "d,/#i\x08" =>
    if name = "mov" then some (.imm8 0) else if name = "cmp" then some (.imm8 1) else if name = "add" then some (.imm8 2)
    else if name = "sub" then some (.imm8 3) else none
  | "d,s" => if name = "mov" then some (.addSmall 0) else (aluOp name).map .alu
  | "D,S" =>
    if name = "add" then some (.high 0) else if name = "cmp" then some (.high 1) else if name = "mov" then some (.high 2)
    else none
  | "S" => if name = "bx" then some (.exchange 0) else if name = "blx" then some (.exchange 1) else none
  | "d,[r\x0f]" | "d,[r\x0f,/#i\x08]" | "d,[/#I\x20]" | "d,=/#I\x20" => if name = "ldr" then some .literal else none
  | "d,[s,o]" =>
    match name with
    | "str" => some (.registerOffset 0 0) | "strb" => some (.registerOffset 0 1)
    | "ldr" => some (.registerOffset 1 0) | "ldrb" => some (.registerOffset 1 1)
    | "strh" => some (.registerOffsetMisc 0 0) | "ldsb" => some (.registerOffsetMisc 0 1)
    | "ldrsb" => some (.registerOffsetMisc 0 1) | "ldrh" => some (.registerOffsetMisc 1 0)
    | "ldsh" => some (.registerOffsetMisc 1 1) | "ldrsh" => some (.registerOffsetMisc 1 1)
    | _ => none
  | "d,[s,/#i\x05]" | "d,[s]" =>
    match name with
    | "str" => some (.offset5 0 0) | "ldr" => some (.offset5 0 1) | "strb" => some (.offset5 1 0)
    | "ldrb" => some (.offset5 1 1) | "strh" => some (.halfOffset5 0) | "ldrh" => some (.halfOffset5 1)
    | _ => none
  | "d,[r\x0d,/#i\x08]" | "d,[r\x0d]" =>
    if name = "str" then some (.stackOffset 0) else if name = "ldr" then some (.stackOffset 1) else none
  | "d,r\x0f,/#i\x08" | "d,=/#i\x20" => if name = "add" then some (.address 0) else none
  | "d,r\x0d,/#i\x08" => if name = "add" then some (.address 1) else none
  | "r\x0d,/#i\x07" | "r\x0d,r\x0d,/#i\x07" =>
    if name = "add" then some (.adjust 0) else if name = "sub" then some (.adjust 1) else none
  | "/{R\xff\x40/}" => if name = "push" then some (.stack 0) else none
  | "/{R\xff\x80/}" => if name = "pop" then some (.stack 1) else none
  | "/[d/]!,/{R\xff\x00/}" =>
    if name = "stmia" then some (.multiple 0) else if name = "ldmia" then some (.multiple 1) else none
  | "/#I\x08" => (condition name).map .conditional
  | "/#i\x08" => if name = "swi" then some .interrupt else if name = "bkpt" then some .breakpoint else none
  | "/#I\x0b" => if name = "b" then some .branch else if name = "blh" then some .linkLow else none
  | "r\x0e+/#I\x0b" | "r\x0e" => if name = "bl" then some .linkLow else none
  | _ => none

/-- The operand is an address: a branch or a word that is loaded relative to the program counter. -/
def addressSyntax : List String := ["d,[/#I\x20]", "d,=/#I\x20", "d,=/#i\x20"]

/-- The syntax contains a constant or address. -/
def hasConstant (op : Thumb.Op) : Bool := decide ('i' ∈ op.mask.toList ∨ 'I' ∈ op.mask.toList)

/-- The constant is written as such: not an address that the instruction refers to relative to its own. -/
def plainConstant (op : Thumb.Op) (f : Format) : Bool :=
  hasConstant op && decide (op.mask ∉ addressSyntax) &&
    (match f with | .conditional _ | .branch | .shift _ => false | _ => true)

/-- Width in the operand syntax: the character after `i` or `I`. -/
def constantBits : List Char → Nat
  | 'i' :: k :: _ => k.toNat
  | 'I' :: k :: _ => k.toNat
  | _ :: r => constantBits r
  | [] => 0

/-- Operand values that can be written for a row of the table. -/
structure Valid (op : Thumb.Op) (o : Thumb.Operands) : Prop where
  rd : 'd' ∈ op.mask.toList → o.rd ≤ 7
  rs : 's' ∈ op.mask.toList → o.rs ≤ 7
  rn : 'n' ∈ op.mask.toList → o.rn ≤ 7
  ro : 'o' ∈ op.mask.toList → o.ro ≤ 7
  rD : 'D' ∈ op.mask.toList → o.rd ≤ 15
  rS : 'S' ∈ op.mask.toList → o.rs ≤ 15
  rlist : 'R' ∈ op.mask.toList → o.rlist < 2 ^ 16
  bits : op.has .immediate = true → o.bitLen = constantBits op.mask.toList

/-- The registers as the instruction uses them: without a second register `op rd,x` means `op rd,rd,x`. -/
def args (op : Thumb.Op) (o : Thumb.Operands) (imm : Nat) : Args where
  rd := o.rd
  rs := if 's' ∈ op.mask.toList ∨ 'S' ∈ op.mask.toList then o.rs else o.rd
  rn := o.rn
  ro := o.ro
  imm := imm
  rlist := o.rlist

/-- The instruction is accepted and its machine code is the halfword `w`. -/
def Emits (s : InstrSem) (c : Ctx) (st : ArchState) (w : BitVec 16) : Prop :=
  ∃ out, Accepts s c st out ∧ ∀ p, out.words p = [(Width.w16, (w.toNat : Int))]

/-- The instruction is accepted and its machine code is the halfwords `w1` and `w2`. -/
def Emits2 (s : InstrSem) (c : Ctx) (st : ArchState) (w1 w2 : BitVec 16) : Prop :=
  ∃ out, Accepts s c st out ∧ ∀ p, out.words p = [(Width.w16, (w1.toNat : Int)), (Width.w16, (w2.toNat : Int))]

/-- The number as a signed 32-bit number. -/
def int32 (v : Int) : Int := (v + 2 ^ 31) % 2 ^ 32 - 2 ^ 31

/-- The constant `n` is expressed as `k` units in an instruction of format `f'`: the instruction itself, or, for a negative
number, the opposite one. -/
def Encodes (f : Format) (n : Int) (f' : Format) (k : Nat) : Prop :=
  k < 2 ^ f.bits ∧ ((f' = f ∧ n = f.scale * k) ∨ (f.opposite = some f' ∧ n < 0 ∧ n = -(f.scale * k)))

/-- The row the parser uses for a long branch: the first with this mnemonic and operand syntax. -/
def longRow (name : String) : Option Thumb.Op := Thumb.opcodes.find? fun r => r.name == name && r.mask == "/#I\x16"

end Armips.Spec.Thumb
