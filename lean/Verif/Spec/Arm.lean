import Verif.Spec.Fields
/-!
# The ARM instruction set, as far as the statements need it

Taken from the ARM architecture reference manual (ARMv5TE), not from the assembler: how a processor reads the fields of a
32-bit instruction word and what the data processing instructions compute.
-/
namespace Armips.Spec.Arm

/-! ### Second operand -/

/-- The immediate operand of a data processing instruction: bits 7-0 rotated right by twice bits 11-8. -/
def immediateOf (w : BitVec 32) : BitVec 32 := (BitVec.ofNat 32 (field w 0 8)).rotateRight (2 * field w 8 4)

/-- Some 8-bit value and even rotation produce the constant. -/
def Encodable (v : BitVec 32) : Prop :=
  ∃ imm rot : Nat, imm < 256 ∧ rot < 16 ∧ (BitVec.ofNat 32 imm).rotateRight (2 * rot) = v

/-- The shifts of the assembly language. -/
inductive ShiftOp | lsl | lsr | asr | ror | rrx
  deriving DecidableEq, Repr

/-- Value and carry out of a shift by a constant. `none`: the instruction set has no such shift. -/
def shiftBy (k : ShiftOp) (n : Int) (x : BitVec 32) (carry : Bool) : Option (BitVec 32 × Bool) :=
  match k with
  | .lsl => if n = 0 then some (x, carry) else if 0 < n ∧ n < 32 then some (x <<< n.toNat, x.getLsbD (32 - n.toNat)) else none
  | .lsr => if n = 0 then some (x, carry) else if 0 < n ∧ n ≤ 32 then some (x >>> n.toNat, x.getLsbD (n.toNat - 1)) else none
  | .asr =>
    if n = 0 then some (x, carry) else if 0 < n ∧ n ≤ 32 then some (x.sshiftRight n.toNat, x.getLsbD (n.toNat - 1)) else none
  | .ror => if n = 0 then some (x, carry) else if 0 < n ∧ n < 32 then some (x.rotateRight n.toNat, x.getLsbD (n.toNat - 1)) else none
  | .rrx => if n = 1 then some ((x >>> 1) ||| (if carry then 0x80000000#32 else 0#32), x.getLsbD 0) else none

/-- How the processor reads bits 6-5 (type) and 11-7 (amount) of a shift by a constant. -/
def decodeShift (type amount : Nat) (x : BitVec 32) (carry : Bool) : Option (BitVec 32 × Bool) :=
  match type with
  | 0 => shiftBy .lsl amount x carry
  | 1 => shiftBy .lsr (if amount = 0 then 32 else amount) x carry
  | 2 => shiftBy .asr (if amount = 0 then 32 else amount) x carry
  | 3 => if amount = 0 then shiftBy .rrx 1 x carry else shiftBy .ror amount x carry
  | _ => none

/-! ### Data processing -/

/-- Number of a data processing instruction, bits 24-21, by the mnemonic the assembler's documentation uses: `C` stands for
the condition, `S` for the optional `s`. `xor` is another name of `eor`. -/
def opcode : String → Option Nat
  | "andCS" => some 0 | "eorCS" => some 1 | "xorCS" => some 1 | "subCS" => some 2 | "rsbCS" => some 3 | "addCS" => some 4
  | "adcCS" => some 5 | "sbcCS" => some 6 | "rscCS" => some 7 | "tstC" => some 8 | "teqC" => some 9 | "cmpC" => some 10
  | "cmnC" => some 11 | "orrCS" => some 12 | "movCS" => some 13 | "bicCS" => some 14 | "mvnCS" => some 15
  | _ => none

/-- The instruction only sets flags. -/
def isTest (n : Nat) : Bool := 8 ≤ n && n ≤ 11

/-- Sum with carry in; result, carry out and overflow. -/
def addWithCarry (a b : BitVec 32) (c : Bool) : BitVec 32 × Bool × Bool :=
  let r := BitVec.ofNat 32 (a.toNat + b.toNat + c.toNat)
  (r, decide (2 ^ 32 ≤ a.toNat + b.toNat + c.toNat), decide (r.toInt ≠ a.toInt + b.toInt + c.toNat))

/-- Result of a data processing instruction on the first operand `a`, the second operand `b` and the carry flag, with the
carry and overflow flags if the instruction computes them (the others take the carry from the shifter). N and Z are
functions of the result. -/
def compute (n : Nat) (a b : BitVec 32) (c : Bool) : BitVec 32 × Option (Bool × Bool) :=
  let arith (r : BitVec 32 × Bool × Bool) : BitVec 32 × Option (Bool × Bool) := (r.1, some r.2)
  match n with
  | 0 | 8 => (a &&& b, none)
  | 1 | 9 => (a ^^^ b, none)
  | 2 | 10 => arith (addWithCarry a (~~~b) true)
  | 3 => arith (addWithCarry b (~~~a) true)
  | 4 | 11 => arith (addWithCarry a b false)
  | 5 => arith (addWithCarry a b c)
  | 6 => arith (addWithCarry a (~~~b) c)
  | 7 => arith (addWithCarry b (~~~a) c)
  | 12 => (a ||| b, none)
  | 13 => (b, none)
  | 14 => (a &&& ~~~b, none)
  | _ => (~~~b, none)

/-- Data processing word with an immediate: condition, opcode, S, Rn, Rd, rotation, value. -/
def dataImmediate (cond n s rn rd rot imm : Nat) : List (Nat × Nat × Nat) :=
  [(28, 4, cond), (26, 2, 0), (25, 1, 1), (21, 4, n), (20, 1, s), (16, 4, rn), (12, 4, rd), (8, 4, rot), (0, 8, imm)]

/-! ### Branches -/

/-- Where `b` and `bl` at `address` go: bits 23-0 as a signed number of words from the instruction's address plus 8. -/
def branchTarget (w : BitVec 32) (address : Int) : Int := address + 8 + 4 * signed 24 (field w 0 24)

/-- Where `blx` goes: bit 24 adds a halfword. -/
def blxTarget (w : BitVec 32) (address : Int) : Int := branchTarget w address + 2 * field w 24 1

/-- `b` and `bl`: condition, link bit, offset. -/
def branch (cond link off : Nat) : List (Nat × Nat × Nat) := [(28, 4, cond), (25, 3, 5), (24, 1, link), (0, 24, off)]

/-- `blx` with an immediate: condition field 15, halfword bit, offset. -/
def blx (half off : Nat) : List (Nat × Nat × Nat) := [(28, 4, 15), (25, 3, 5), (24, 1, half), (0, 24, off)]

/-! ### Layouts of the other instructions

Each list gives the fields from bit 31 down to bit 0: lowest bit, width, content. -/

/-- Data processing with a register shifted by a constant. -/
def dataRegister (cond n s rn rd amount type rm : Nat) : List (Nat × Nat × Nat) :=
  [(28, 4, cond), (26, 2, 0), (25, 1, 0), (21, 4, n), (20, 1, s), (16, 4, rn), (12, 4, rd), (7, 5, amount), (5, 2, type),
    (4, 1, 0), (0, 4, rm)]

/-- Data processing with a register shifted by a register. -/
def dataRegisterRegister (cond n s rn rd rs type rm : Nat) : List (Nat × Nat × Nat) :=
  [(28, 4, cond), (26, 2, 0), (25, 1, 0), (21, 4, n), (20, 1, s), (16, 4, rn), (12, 4, rd), (8, 4, rs), (7, 1, 0),
    (5, 2, type), (4, 1, 1), (0, 4, rm)]

/-- `bx` and `blx` with a register. -/
def branchExchange (cond link rm : Nat) : List (Nat × Nat × Nat) :=
  [(28, 4, cond), (20, 8, 0x12), (8, 12, 0xFFF), (6, 2, 0), (5, 1, link), (4, 1, 1), (0, 4, rm)]

/-- `mrs`. -/
def mrs (cond spsr rd : Nat) : List (Nat × Nat × Nat) :=
  [(28, 4, cond), (23, 5, 2), (22, 1, spsr), (20, 2, 0), (16, 4, 15), (12, 4, rd), (0, 12, 0)]

/-- `msr` with a register. -/
def msrRegister (cond spsr mask rm : Nat) : List (Nat × Nat × Nat) :=
  [(28, 4, cond), (23, 5, 2), (22, 1, spsr), (20, 2, 2), (16, 4, mask), (12, 4, 15), (4, 8, 0), (0, 4, rm)]

/-- `msr` with an immediate. -/
def msrImmediate (cond spsr mask rot imm : Nat) : List (Nat × Nat × Nat) :=
  [(28, 4, cond), (23, 5, 6), (22, 1, spsr), (20, 2, 2), (16, 4, mask), (12, 4, 15), (8, 4, rot), (0, 8, imm)]

/-- Multiplications: bits 27-21 select the operation, bits 7-4 are `1 y x b4`. -/
def multiply (cond op s rd rn rs y x b4 rm : Nat) : List (Nat × Nat × Nat) :=
  [(28, 4, cond), (21, 7, op), (20, 1, s), (16, 4, rd), (12, 4, rn), (8, 4, rs), (7, 1, 1), (6, 1, y), (5, 1, x), (4, 1, b4),
    (0, 4, rm)]

/-- Bits 27-21, bit 5 if it is not x, and bit 4 of the multiplications. -/
def multiplyOp : String → Option (Nat × Nat × Nat)
  | "mulCS" => some (0, 0, 1)
  | "mlaCS" => some (1, 0, 1)
  | "umullCS" => some (4, 0, 1)
  | "umlalCS" => some (5, 0, 1)
  | "smullCS" => some (6, 0, 1)
  | "smlalCS" => some (7, 0, 1)
  | "smlaXYC" => some (8, 0, 0)
  | "smlawYC" => some (9, 0, 0)
  | "smulwYC" => some (9, 1, 0)
  | "smlalXYC" => some (10, 0, 0)
  | "smulXYC" => some (11, 0, 0)
  | _ => none

/-- Loads and stores of words and bytes: `i` register offset, `p` pre-indexed, `u` add, `b` byte, `w` writeback (or user mode
if post-indexed), `l` load. -/
def loadStore (cond i p u b w l rn rd : Nat) (offset : List (Nat × Nat × Nat)) : List (Nat × Nat × Nat) :=
  [(28, 4, cond), (26, 2, 1), (25, 1, i), (24, 1, p), (23, 1, u), (22, 1, b), (21, 1, w), (20, 1, l), (16, 4, rn),
    (12, 4, rd)] ++ offset

/-- Offset fields of `loadStore`: a constant. -/
def offset12 (n : Nat) : List (Nat × Nat × Nat) := [(0, 12, n)]
/-- The address a load or store relative to the program counter accesses: the instruction's address plus 8, plus or minus the
constant in bits 11-0. -/
def literalAddress (w : BitVec 32) (address : Int) : Int :=
  address + 8 + (if field w 23 1 = 1 then (field w 0 12 : Int) else -(field w 0 12 : Int))
/-- Offset fields of `loadStore`: a shifted register. -/
def offsetRegister (amount type rm : Nat) : List (Nat × Nat × Nat) := [(7, 5, amount), (5, 2, type), (4, 1, 0), (0, 4, rm)]

/-- Byte, load and user mode by mnemonic. -/
def loadStoreOp : String → Option (Nat × Nat × Nat)
  | "strC" => some (0, 0, 0) | "ldrC" => some (0, 1, 0) | "strCb" => some (1, 0, 0) | "ldrCb" => some (1, 1, 0)
  | "strCt" => some (0, 0, 1) | "ldrCt" => some (0, 1, 1) | "strCbt" => some (1, 0, 1) | "ldrCbt" => some (1, 1, 1)
  | _ => none

/-- Loads and stores of halfwords, signed bytes and doublewords; `i` constant offset, `sh` is bits 6-5. -/
def loadStoreMisc (cond p u i w l rn rd hi sh lo : Nat) : List (Nat × Nat × Nat) :=
  [(28, 4, cond), (25, 3, 0), (24, 1, p), (23, 1, u), (22, 1, i), (21, 1, w), (20, 1, l), (16, 4, rn), (12, 4, rd),
    (8, 4, hi), (7, 1, 1), (5, 2, sh), (4, 1, 1), (0, 4, lo)]

/-- Load bit and bits 6-5 by mnemonic. -/
def loadStoreMiscOp : String → Option (Nat × Nat)
  | "strCh" => some (0, 1) | "ldrCh" => some (1, 1) | "ldrCsb" => some (1, 2) | "ldCsb" => some (1, 2)
  | "ldrCsh" => some (1, 3) | "ldCsh" => some (1, 3) | "ldrCd" => some (0, 2) | "strCd" => some (0, 3)
  | _ => none

/-- Block transfers. -/
def block (cond p u s w l rn list : Nat) : List (Nat × Nat × Nat) :=
  [(28, 4, cond), (25, 3, 4), (24, 1, p), (23, 1, u), (22, 1, s), (21, 1, w), (20, 1, l), (16, 4, rn), (0, 16, list)]

/-- The addressing modes: increment or decrement, before or after; for stacks full or empty, descending or ascending. -/
inductive Mode | ib | ia | db | da | ed | fd | ea | fa
  deriving DecidableEq, Repr

/-- The P and U bits of a mode. A stack that is full or ascending and so on is read and written in opposite directions. -/
def Mode.bits (load : Bool) : Mode → Nat × Nat
  | .ib => (1, 1) | .ia => (0, 1) | .db => (1, 0) | .da => (0, 0)
  | .fd => if load then (0, 1) else (1, 0)
  | .ed => if load then (1, 1) else (0, 0)
  | .fa => if load then (0, 0) else (1, 1)
  | .ea => if load then (1, 0) else (0, 1)

/-- `swp` and `swpb`. -/
def swap (cond b rn rd rm : Nat) : List (Nat × Nat × Nat) :=
  [(28, 4, cond), (23, 5, 2), (22, 1, b), (20, 2, 0), (16, 4, rn), (12, 4, rd), (8, 4, 0), (4, 4, 9), (0, 4, rm)]

/-- `swi`. -/
def swi (cond imm : Nat) : List (Nat × Nat × Nat) := [(28, 4, cond), (24, 4, 15), (0, 24, imm)]

/-- `bkpt`. -/
def bkpt (imm : Nat) : List (Nat × Nat × Nat) := [(28, 4, 14), (20, 8, 0x12), (8, 12, imm / 16), (4, 4, 7), (0, 4, imm % 16)]

/-- `cdp`. -/
def cdp (cond op1 cn cd pn op2 cm : Nat) : List (Nat × Nat × Nat) :=
  [(28, 4, cond), (24, 4, 14), (20, 4, op1), (16, 4, cn), (12, 4, cd), (8, 4, pn), (5, 3, op2), (4, 1, 0), (0, 4, cm)]

/-- `mcr` and `mrc`. -/
def mcr (cond op1 l cn rd pn op2 cm : Nat) : List (Nat × Nat × Nat) :=
  [(28, 4, cond), (24, 4, 14), (21, 3, op1), (20, 1, l), (16, 4, cn), (12, 4, rd), (8, 4, pn), (5, 3, op2), (4, 1, 1), (0, 4, cm)]

/-- `mcrr` and `mrrc`. -/
def mcrr (cond l rn rd pn op cm : Nat) : List (Nat × Nat × Nat) :=
  [(28, 4, cond), (21, 7, 0x62), (20, 1, l), (16, 4, rn), (12, 4, rd), (8, 4, pn), (4, 4, op), (0, 4, cm)]

/-- `clz`. -/
def clz (cond rd rm : Nat) : List (Nat × Nat × Nat) :=
  [(28, 4, cond), (20, 8, 0x16), (16, 4, 15), (12, 4, rd), (8, 4, 15), (4, 4, 1), (0, 4, rm)]

/-- `qadd`, `qsub`, `qdadd`, `qdsub`: number in bits 22-21. -/
def saturating (cond n rn rd rm : Nat) : List (Nat × Nat × Nat) :=
  [(28, 4, cond), (23, 5, 2), (21, 2, n), (20, 1, 0), (16, 4, rn), (12, 4, rd), (8, 4, 0), (4, 4, 5), (0, 4, rm)]

/-- The number in bits 22-21. -/
def saturatingOp : String → Option Nat
  | "qaddC" => some 0 | "qsubC" => some 1 | "qdaddC" => some 2 | "qdsubC" => some 3
  | _ => none

/-- The load bit of coprocessor transfers: to the coprocessor 0, from it 1. `mov` is told apart by its operands. -/
def mcrOp (name syntax_ : String) : Option Nat :=
  if name = "mcrC" ∨ name = "mcr2" ∨ (name = "movC" ∧ syntax_ = "X,Y,N,M,Z,d1") then some 0
  else if name = "mrcC" ∨ name = "mrc2" ∨ (name = "movC" ∧ syntax_ = "d1,X,Y,N,M,Z") then some 1
  else none

end Armips.Spec.Arm
