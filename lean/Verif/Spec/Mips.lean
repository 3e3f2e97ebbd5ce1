import Verif.Spec.Fields
import Verif.Spec.Instr
import Verif.Model.Mips
/-!
# The MIPS instruction words

From the architecture manuals: which bits of the word hold which operand, and the numbers of the mnemonics. The operands
are those written by the user. Nothing here refers to how the assembler computes words.
-/
namespace Armips.Spec.Mips
open Armips.Mips (Slot Op Operands ImmType SecType Sym Flag)

/-- The operands of an instruction: a register in one of its roles, the immediate, the second immediate, the size given by
the suffix of a vector mnemonic, the condition of a vector comparison. -/
inductive Item
  | reg (s : Slot)
  | imm
  | sec
  | size
  | cond
  deriving DecidableEq, Repr

/-- A part of an instruction word: the bits from `lo` on hold `len` bits of an operand, beginning with its bit `src`. -/
structure Piece where
  item : Item
  lo : Nat
  len : Nat
  src : Nat
  deriving DecidableEq, Repr

/-- Where the words of the CPU, its coprocessors and the RSP vector unit hold a register. The loads and stores of the VFPU
(`mixed`) split the register number: bits 5 and 6 are at the bottom of the word; for some of them the number has only six
bits (`six`). -/
def regPieces (mixed six : Bool) (s : Slot) : List Piece :=
  match s with
  | .grs | .ps2vrs => [⟨.reg s, 21, 5, 0⟩]
  | .grt | .frt | .ps2vrt | .rspvrt => [⟨.reg s, 16, 5, 0⟩]
  | .grd | .frs | .rspvrs => [⟨.reg s, 11, 5, 0⟩]
  | .frd | .ps2vrd | .rspvrd => [⟨.reg s, 6, 5, 0⟩]
  | .rspve => [⟨.reg s, 21, 4, 0⟩]
  | .rspvde => [⟨.reg s, 11, 4, 0⟩]
  | .rspvealt => [⟨.reg s, 7, 4, 0⟩]
  | .vrt => if mixed then [⟨.reg s, 16, 5, 0⟩, ⟨.reg s, 0, if six then 1 else 2, 5⟩] else [⟨.reg s, 16, 7, 0⟩]
  | .vrs | .vrd => []

/-- Where the words of the vector arithmetic of the VFPU hold a register. -/
def vfpuRegPieces (s : Slot) : List Piece :=
  match s with
  | .vrd => [⟨.reg s, 0, 7, 0⟩]
  | .vrs => [⟨.reg s, 8, 7, 0⟩]
  | .vrt => [⟨.reg s, 16, 7, 0⟩]
  | .grt => [⟨.reg s, 16, 5, 0⟩]
  | _ => []

/-- Where an immediate is: a shift amount and the codes of traps, `break` and `syscall` begin at bit 6, the others at bit
0. The offset of a VFPU load or store is a multiple of four whose lowest two bits are not stored. -/
def immPieces (mixed : Bool) : ImmType → List Piece
  | .i5 => [⟨.imm, 6, 5, 0⟩]
  | .i10 => [⟨.imm, 6, 10, 0⟩]
  | .i20 => [⟨.imm, 6, 20, 0⟩]
  | .i16 => if mixed then [⟨.imm, 2, 14, 2⟩] else [⟨.imm, 0, 16, 0⟩]
  | .half => [⟨.imm, 0, 16, 0⟩]
  | .i7 => [⟨.imm, 0, 7, 0⟩]
  | .i20_0 => [⟨.imm, 0, 20, 0⟩]
  | .i25 => [⟨.imm, 0, 25, 0⟩]
  | .i26 => [⟨.imm, 0, 26, 0⟩]

/-- Where the immediate of an instruction of the vector arithmetic is. -/
def vfpuImmPieces : ImmType → List Piece
  | .i5 => [⟨.imm, 16, 5, 0⟩]
  | .i7 => [⟨.imm, 0, 7, 0⟩]
  | _ => []

/-- Where the second immediate is. -/
def secPieces : SecType → List Piece
  | .cacheOp => [⟨.sec, 16, 5, 0⟩]
  | .ext | .ins => [⟨.sec, 11, 5, 0⟩]
  | .branchType => [⟨.sec, 18, 3, 0⟩]

/-- Where an operand is held. -/
def symPieces (op : Op) : Sym → List Piece
  | .reg s => if op.has .vfpu then vfpuRegPieces s else regPieces (op.has .vfpuMixed) (op.has .vfpu6bit) s
  | .imm t => if op.has .vfpu then vfpuImmPieces t else immPieces (op.has .vfpuMixed) t
  | .sec t => if op.has .vfpu then [] else secPieces t
  | .cond => if op.has .vfpu then [⟨.cond, 0, 4, 0⟩] else []
  | .size => if op.has .vfpu && !op.fixedSize then [⟨.size, 7, 1, 0⟩, ⟨.size, 15, 1, 1⟩] else []

/-- The registers that a short form does not name, and the named register that is used for each. -/
def shortForms (op : Op) : List (Slot × Slot) :=
  (if op.has .rsd then [(.grd, .grs)] else []) ++ (if op.has .rst then [(.grt, .grs)] else []) ++
    (if op.has .rdt then [(.grt, .grd)] else []) ++ (if op.has .frsd then [(.frd, .frs)] else []) ++
    (if op.has .rspVrsd then [(.rspvrd, .rspvrs)] else [])

/-- All parts of the word of an instruction that hold operands. -/
def pieces (op : Op) : List Piece :=
  op.syms.flatMap (symPieces op) ++ (shortForms op).flatMap (fun x => symPieces op (.reg x.1))

/-- The number of bits of a register number. -/
def regBits (six : Bool) : Slot → Nat
  | .rspve | .rspvde | .rspvealt => 4
  | .vrs | .vrt | .vrd => if six then 6 else 7
  | _ => 5

/-- The registers of an instruction are those that its syntax names, and have numbers in range; the vector size and the
condition are given when there are any. This is what the parser delivers. -/
structure Valid (op : Op) (o : Operands) : Prop where
  named : ∀ s, (o.regs s).isSome ↔ .reg s ∈ op.syms
  range : ∀ s n, o.regs s = some n → n < 2 ^ regBits (op.has .vfpu6bit) s
  size : o.size.isSome ↔ .size ∈ op.syms
  sizeRange : ∀ n, o.size = some n → n < 4
  cond : o.cond.isSome ↔ .cond ∈ op.syms
  condRange : ∀ n, o.cond = some n → n < 16
  branchType : .sec .branchType ∈ op.syms → o.sec = none ∧ o.secValue.toNat ≤ 5

/-- The register used in a role: the one written, or the one that a short form repeats. -/
def regValue (op : Op) (o : Operands) (s : Slot) : Nat :=
  match (shortForms op).find? (fun x => x.1 == s) with
  | some x => (o.regs x.2).getD 0
  | none => (o.regs s).getD 0

/-- The value of each operand, where `imm` and `sec` are the values of the immediates as they are to be stored. -/
def value (op : Op) (o : Operands) (imm sec : Nat) : Item → Nat
  | .reg s => regValue op o s
  | .imm => imm
  | .sec => sec
  | .size => o.size.getD 0
  | .cond => o.cond.getD 0

/-- The word holds all operands, and its remaining bits are the fixed bits of the instruction. -/
structure Holds (op : Op) (o : Operands) (imm sec : Nat) (w : BitVec 32) : Prop where
  operands : ∀ p ∈ pieces op, field w p.lo p.len = value op o imm sec p.item / 2 ^ p.src % 2 ^ p.len
  rest : ∀ i, i < 32 → (∀ p ∈ pieces op, ¬ (p.lo ≤ i ∧ i < p.lo + p.len)) → w.getLsbD i = op.encoding.getLsbD i

/-! ## Immediates -/

/-- Branches: the offset from the next instruction, counted in words. -/
def branches : List String :=
  ["beq", "beqz", "b", "bne", "bnez", "blez", "bgtz", "beql", "beqzl", "bnel", "bnezl", "blezl", "bgtzl", "bltz", "bgez",
    "bltzl", "bgezl", "bltzal", "bgezal", "bal", "bltzall", "bgezall", "bc1f", "bc1t", "bc1fl", "bc1tl", "bvf", "bvf.B",
    "bvt", "bvt.B", "bvfl", "bvfl.B", "bvtl", "bvtl.B"]

/-- Jumps: the address counted in words, within the current region of 2^28 bytes. -/
def jumps : List String := ["j", "jal"]

/-- Instructions with a delay slot. -/
def transfers : List String := branches ++ jumps ++ ["jr", "jalr"]

/-- Instructions that must not be in a delay slot. -/
def notInSlot : List String := transfers ++ ["break", "syscall"]

/-- The instruction may be where it is, or the user has turned the check off. -/
def SlotAllowed (cfg : Armips.Mips.Config) (name : String) (st : ArchState) : Prop :=
  name ∈ notInSlot → st.delaySlot = true → cfg.ignoreDelay = true

/-- Subtractions of an immediate, which are additions of the negated one. -/
def subtractions : List String := ["subi", "subiu", "dsubi", "dsubiu"]

/-- The unit in which the vector loads and stores of the RSP count their offset, as a power of two. -/
def rspScale (name : String) : Option Nat :=
  if name ∈ ["lsv", "ssv"] then some 1
  else if name ∈ ["llv", "slv"] then some 2
  else if name ∈ ["ldv", "lpv", "luv", "sdv", "spv", "suv"] then some 3
  else if name ∈ ["lqv", "lrv", "lhv", "lfv", "ltv", "sqv", "srv", "shv", "sfv", "swv", "stv"] then some 4
  else none

/-- The loads and stores of the VFPU need an offset that is a multiple of four. -/
def aligned : List String :=
  ["lv.s", "ulv.q", "lvl.q", "lvr.q", "lv.q", "sv.s", "usv.q", "svl.q", "svr.q", "sv.q"]

/-- The number as a signed 32-bit value. -/
def int32 (v : Int) : Int := (v + 2 ^ 31) % 2 ^ 32 - 2 ^ 31

/-- The value of the immediate: of its expression, or the number that the parser made of a vector operand. -/
def ImmValue (E : Env) (c : Ctx) (o : Operands) (x : Int) : Prop :=
  match o.imm with
  | some e => Instr.Evaluates E .mips c e (.int x)
  | none => x = o.immValue.toInt

/-- The value of the second immediate. -/
def SecValue (E : Env) (c : Ctx) (o : Operands) (x : Int) : Prop :=
  match o.sec with
  | some e => Instr.Evaluates E .mips c e (.int x)
  | none => x = o.secValue.toInt

/-- What is stored for the value `x` in a field of `bits` bits, for an instruction at address `a`. -/
def stored (name : String) (bits : Nat) (x a : Int) : Nat :=
  if name ∈ branches then ((x - (a + 4)) / 4 % 2 ^ bits).toNat
  else if name ∈ jumps then (x / 4 % 2 ^ bits).toNat
  else if name ∈ subtractions then (-x % 2 ^ bits).toNat
  else
    match rspScale name with
    | some k => (x / 2 ^ k % 2 ^ bits).toNat
    | none => (x % 2 ^ bits).toNat

/-- The number that an immediate stands for, for instructions without an address: as it is, negated, or in units. -/
def scaled (name : String) (x : Int) : Int :=
  if name ∈ subtractions then -int32 x
  else
    match rspScale name with
    | some k => int32 x / 2 ^ k
    | none => int32 x

/-- The immediate is a multiple of the unit of the instruction. -/
def Multiple (name : String) (x : Int) : Prop :=
  (∀ k, rspScale name = some k → x % 2 ^ k = 0) ∧ (name ∈ aligned → x % 4 = 0)

/-- What is stored as a half precision number: the conversion of a number, of which `Props.HalfFloat` says what it is. -/
def HalfValue (E : Env) (c : Ctx) (o : Operands) (h : Nat) : Prop :=
  match o.imm with
  | some e => (∃ v, Instr.Evaluates E .mips c e (.float v) ∧ h = Half.toHalfFloat (Armips.Mips.dbl v)) ∨
      (∃ v, Instr.Evaluates E .mips c e (.int v) ∧ h = Half.toHalfFloat (Armips.Mips.dbl (E.host.ofInt v)))
  | none => h = (o.immValue.toInt % 2 ^ 16).toNat

/-- The immediate of an instruction is stored as the number `imm`. -/
def StoresImm (E : Env) (c : Ctx) (op : Op) (o : Operands) (imm : Nat) : Prop :=
  match Armips.Mips.primType op.syms with
  | none => imm = 0
  | some .half => HalfValue E c o imm
  | some t => ∃ x, ImmValue E c o x ∧ imm = stored op.name t.bits x c.virtualAddress

/-- The second immediate is stored as the number `sec`: an operation of the cache or a condition as it is; the size of a
field as the size less one (`ext`) or as the number of its last bit (`ins`, whose first immediate is the first bit). -/
def StoresSec (E : Env) (c : Ctx) (op : Op) (o : Operands) (imm sec : Nat) : Prop :=
  match Armips.Mips.secType op.syms with
  | none => sec = 0
  | some .cacheOp => ∃ x, SecValue E c o x ∧ int32 x = sec ∧ sec < 32
  | some .branchType => ∃ x, SecValue E c o x ∧ x = sec ∧ sec ≤ 5
  | some .ext => ∃ x, SecValue E c o x ∧ int32 x = sec + 1
  | some .ins => ∃ x, SecValue E c o x ∧ imm + int32 x = sec + 1

/-- The field of an `ext` or `ins` is inside the register. -/
def FieldInside (E : Env) (c : Ctx) (op : Op) (o : Operands) : Prop :=
  (Armips.Mips.secType op.syms = some .ext → ∀ x, SecValue E c o x → 1 ≤ int32 x) ∧
    (Armips.Mips.secType op.syms = some .ins →
      ∀ x y, SecValue E c o x → ImmValue E c o y → 1 ≤ int32 x ∧ 0 ≤ int32 y ∧ int32 y + int32 x ≤ 32)

/-- An accepted instruction writes the word `w`, after a `nop` if `nop` says so. -/
def Emits (s : InstrSem) (c : Ctx) (st : ArchState) (nop : Bool) (w : BitVec 32) : Prop :=
  ∃ out, Instr.Accepts s c st out ∧
    ∀ p, out.words p = (if nop then [(Width.w32, (0 : Int))] else []) ++ [(Width.w32, (w.toNat : Int))]

/-- The address that a branch word at address `a` goes to. -/
def branchTarget (a : Int) (w : BitVec 32) : Int := a + 4 + 4 * signed 16 (field w 0 16)

/-- The address that a jump word at address `a` goes to: in the region of the instruction after it. -/
def jumpTarget (a : Int) (w : BitVec 32) : Int := (a + 4) / 2 ^ 28 * 2 ^ 28 + 4 * field w 0 26

/-! ## Mnemonics of the CPU and of its coprocessors -/

/-- The content of a field. -/
inductive Content
  | num (n : Nat)
  | reg (s : Slot)
  | imm
  | sec
  deriving DecidableEq, Repr

/-- A word, from the highest to the lowest bit: lowest bit, width and content of each field. -/
abbrev Layout := List (Nat × Nat × Content)

/-- The number of a mnemonic in a list. -/
def number (l : List (String × Nat)) (name : String) : Option Nat := (l.find? fun x => x.1 == name).map (·.2)

/-- `SPECIAL`: rs, rt, rd, shift amount, function. -/
def special (rs rt rd sa : Content) (f : Nat) : Layout :=
  [(26, 6, .num 0), (21, 5, rs), (16, 5, rt), (11, 5, rd), (6, 5, sa), (0, 6, .num f)]

/-- Opcode, rs, rt, immediate. -/
def iType (op : Nat) (rs rt imm : Content) : Layout := [(26, 6, .num op), (21, 5, rs), (16, 5, rt), (0, 16, imm)]

/-- `REGIMM`: rs, function, immediate. -/
def regimm (rs : Content) (f : Nat) (imm : Content) : Layout := iType 1 rs (.num f) imm

/-- Coprocessor operations: number of the coprocessor, format, two registers and the register or number below them,
function. -/
def cop (z fmt : Nat) (rt rd sa : Content) (f : Nat) : Layout :=
  [(26, 6, .num (16 + z)), (21, 5, .num fmt), (16, 5, rt), (11, 5, rd), (6, 5, sa), (0, 6, .num f)]

/-- Three registers. -/
def alu3 : List (String × Nat) :=
  [("movz", 10), ("movn", 11), ("mult", 24), ("multu", 25), ("add", 32), ("addu", 33), ("sub", 34), ("subu", 35),
    ("and", 36), ("or", 37), ("xor", 38), ("eor", 38), ("nor", 39), ("slt", 42), ("sltu", 43), ("dadd", 44), ("max", 44),
    ("daddu", 45), ("min", 45), ("dsub", 46), ("dsubu", 47)]

/-- Operations with a short form, where the first operand is also the destination. -/
def alu2 : List (String × Nat) :=
  [("add", 32), ("addu", 33), ("sub", 34), ("subu", 35), ("and", 36), ("or", 37), ("xor", 38), ("eor", 38), ("nor", 39),
    ("slt", 42), ("sltu", 43), ("dadd", 44), ("daddu", 45), ("dsub", 46), ("dsubu", 47)]

/-- Multiplication and division. -/
def mulDiv : List (String × Nat) :=
  [("mult", 24), ("multu", 25), ("div", 26), ("divu", 27), ("dmult", 28), ("madd", 28), ("dmultu", 29), ("maddu", 29),
    ("ddiv", 30), ("ddivu", 31), ("msub", 46), ("msubu", 47)]

/-- Traps on two registers. -/
def traps : List (String × Nat) := [("tge", 48), ("tgeu", 49), ("tlt", 50), ("tltu", 51), ("teq", 52), ("tne", 54)]

/-- Shifts by a register. -/
def shiftV : List (String × Nat) :=
  [("sllv", 4), ("srlv", 6), ("srav", 7), ("dsllv", 20), ("dsrlv", 22), ("dsrav", 23), ("rotrv", 6)]

/-- Shifts by a constant. -/
def shiftC : List (String × Nat) :=
  [("sll", 0), ("srl", 2), ("sra", 3), ("rotr", 2), ("dsll", 56), ("dsrl", 58), ("dsra", 59), ("dsll32", 60),
    ("dsrl32", 62), ("dsra32", 63)]

/-- Arithmetic with an immediate. A subtraction is an addition. -/
def aluI : List (String × Nat) :=
  [("addi", 8), ("subi", 8), ("addiu", 9), ("subiu", 9), ("slti", 10), ("sltiu", 11), ("andi", 12), ("ori", 13),
    ("xori", 14), ("daddi", 24), ("dsubi", 24), ("daddiu", 25), ("dsubiu", 25)]

/-- Loads and stores of the CPU. -/
def memory : List (String × Nat) :=
  [("ldl", 26), ("ldr", 27), ("lq", 30), ("sq", 31), ("lb", 32), ("lh", 33), ("lwl", 34), ("lw", 35), ("lbu", 36),
    ("lhu", 37), ("lwr", 38), ("lwu", 39), ("sb", 40), ("sh", 41), ("swl", 42), ("sw", 43), ("sdl", 44), ("sdr", 45),
    ("swr", 46), ("ll", 48), ("lld", 52), ("ld", 55), ("sc", 56), ("scd", 60), ("sd", 63)]

/-- Loads and stores of the floating point unit. -/
def memory1 : List (String × Nat) :=
  [("lwc1", 49), ("l.s", 49), ("ldc1", 53), ("l.d", 53), ("swc1", 57), ("s.s", 57), ("sdc1", 61), ("s.d", 61)]

/-- Branches comparing two registers. -/
def branch2 : List (String × Nat) := [("beq", 4), ("bne", 5), ("beql", 20), ("bnel", 21)]

/-- Branches comparing one register with zero. -/
def branch1 : List (String × Nat) :=
  [("beqz", 4), ("bnez", 5), ("blez", 6), ("bgtz", 7), ("beqzl", 20), ("bnezl", 21), ("blezl", 22), ("bgtzl", 23)]

/-- `REGIMM` functions. -/
def regimms : List (String × Nat) :=
  [("bltz", 0), ("bgez", 1), ("bltzl", 2), ("bgezl", 3), ("tgei", 8), ("tgeiu", 9), ("tlti", 10), ("tltiu", 11),
    ("teqi", 12), ("tnei", 14), ("bltzal", 16), ("bgezal", 17), ("bltzall", 18), ("bgezall", 19), ("mtsab", 24),
    ("mtsah", 25)]

/-- Branches on the condition of the floating point unit. -/
def branchC : List (String × Nat) := [("bc1f", 0), ("bc1t", 1), ("bc1fl", 2), ("bc1tl", 3)]

/-- Branches on a condition of the VFPU. -/
def branchV : List (String × Nat) :=
  [("bvf", 0), ("bvt", 1), ("bvfl", 2), ("bvtl", 3), ("bvf.B", 0), ("bvt.B", 1), ("bvfl.B", 2), ("bvtl.B", 3)]

/-- Moves from and to a coprocessor. -/
def moves : List (String × Nat) :=
  [("mfc0", 0), ("dmfc0", 1), ("mtc0", 4), ("dmtc0", 5), ("mfc1", 0), ("dmfc1", 1), ("cfc1", 2), ("mtc1", 4), ("dmtc1", 5),
    ("ctc1", 6), ("mfc2", 0), ("cfc2", 2), ("mtc2", 4), ("ctc2", 6)]

/-- Byte and bit permutations of the Allegrex CPU. -/
def permutations : List (String × Nat) := [("wsbh", 2), ("wsbw", 3), ("seb", 16), ("bitrev", 20), ("seh", 24)]

/-- Floating point arithmetic with two operands: format and function. -/
def float3 : List (String × Nat × Nat) :=
  [("add.s", 16, 0), ("sub.s", 16, 1), ("mul.s", 16, 2), ("div.s", 16, 3), ("madd.s", 16, 28), ("msub.s", 16, 29),
    ("max.s", 16, 40), ("min.s", 16, 41), ("add.d", 17, 0), ("sub.d", 17, 1), ("mul.d", 17, 2), ("div.d", 17, 3)]

/-- Floating point comparisons, and the operations of the PS2 on the accumulator. The comparisons of the PS2 have
numbers of their own. -/
def floatC : List (String × Nat × Nat) :=
  [("adda.s", 16, 24), ("suba.s", 16, 25), ("mula.s", 16, 26), ("madda.s", 16, 30), ("msuba.s", 16, 31), ("c.f.s", 16, 48),
    ("c.un.s", 16, 49), ("c.eq.s", 16, 50), ("c.ueq.s", 16, 51), ("c.olt.s", 16, 52), ("c.ult.s", 16, 53),
    ("c.ole.s", 16, 54), ("c.ule.s", 16, 55), ("c.sf.s", 16, 56), ("c.ngle.s", 16, 57), ("c.seq.s", 16, 58),
    ("c.ngl.s", 16, 59), ("c.lt.s", 16, 60), ("c.nge.s", 16, 61), ("c.le.s", 16, 62), ("c.ngt.s", 16, 63), ("c.f.d", 17, 48),
    ("c.un.d", 17, 49), ("c.eq.d", 17, 50), ("c.ueq.d", 17, 51), ("c.olt.d", 17, 52), ("c.ult.d", 17, 53),
    ("c.ole.d", 17, 54), ("c.ule.d", 17, 55), ("c.sf.d", 17, 56), ("c.ngle.d", 17, 57), ("c.seq.d", 17, 58),
    ("c.ngl.d", 17, 59), ("c.lt.d", 17, 60), ("c.nge.d", 17, 61), ("c.le.d", 17, 62), ("c.ngt.d", 17, 63)]

/-- The two comparisons that the PS2 numbers differently. -/
def floatCPs2 : List (String × Nat × Nat) := [("c.lt.s", 16, 52), ("c.le.s", 16, 54)]

/-- Floating point operations with one operand. (The assembler also has a `rsqrt.w.s` with one operand, which is in no
manual.) -/
def float2 : List (String × Nat × Nat) :=
  [("sqrt.s", 16, 4), ("abs.s", 16, 5), ("mov.s", 16, 6), ("neg.s", 16, 7), ("round.l.s", 16, 8), ("trunc.l.s", 16, 9),
    ("ceil.l.s", 16, 10), ("floor.l.s", 16, 11), ("round.w.s", 16, 12), ("trunc.w.s", 16, 13), ("ceil.w.s", 16, 14),
    ("floor.w.s", 16, 15), ("cvt.d.s", 16, 33), ("cvt.w.s", 16, 36), ("cvt.l.s", 16, 37),
    ("sqrt.d", 17, 4), ("abs.d", 17, 5), ("mov.d", 17, 6), ("neg.d", 17, 7), ("round.l.d", 17, 8), ("trunc.l.d", 17, 9),
    ("ceil.l.d", 17, 10), ("floor.l.d", 17, 11), ("round.w.d", 17, 12), ("trunc.w.d", 17, 13), ("ceil.w.d", 17, 14),
    ("floor.w.d", 17, 15), ("cvt.s.d", 17, 32), ("cvt.w.d", 17, 36), ("cvt.l.d", 17, 37), ("cvt.s.w", 20, 32),
    ("cvt.d.w", 20, 33), ("cvt.s.l", 21, 32), ("cvt.d.l", 21, 33)]

/-- Arithmetic of the RSP vector unit. -/
def rsp3 : List (String × Nat) :=
  [("vmulf", 0), ("vmulu", 1), ("vrndp", 2), ("vmulq", 3), ("vmudl", 4), ("vmudm", 5), ("vmudn", 6), ("vmudh", 7),
    ("vmacf", 8), ("vmacu", 9), ("vrndn", 10), ("vmacq", 11), ("vmadl", 12), ("vmadm", 13), ("vmadn", 14), ("vmadh", 15),
    ("vadd", 16), ("vsub", 17), ("vsut", 18), ("vabs", 19), ("vaddc", 20), ("vsubc", 21), ("vaddb", 22), ("vsubb", 23),
    ("vaccb", 24), ("vsucb", 25), ("vsad", 26), ("vsac", 27), ("vsum", 28), ("vsar", 29), ("vacc", 30), ("vsuc", 31),
    ("vlt", 32), ("veq", 33), ("vne", 34), ("vge", 35), ("vcl", 36), ("vch", 37), ("vcr", 38), ("vmrg", 39), ("vand", 40),
    ("vnand", 41), ("vor", 42), ("vnor", 43), ("vxor", 44), ("vnxor", 45), ("vextt", 56), ("vextq", 57), ("vextn", 58),
    ("vinst", 60), ("vinsq", 61), ("vinsn", 62)]

/-- Operations of the RSP vector unit on single elements. -/
def rsp2 : List (String × Nat) :=
  [("vrcp", 48), ("vrcpl", 49), ("vrcph", 50), ("vmov", 51), ("vrsq", 52), ("vrsql", 53), ("vrsqh", 54)]

/-- Loads and stores of the RSP vector unit: opcode and function. -/
def rspMem : List (String × Nat × Nat) :=
  [("lbv", 50, 0), ("lsv", 50, 1), ("llv", 50, 2), ("ldv", 50, 3), ("lqv", 50, 4), ("lrv", 50, 5), ("lpv", 50, 6),
    ("luv", 50, 7), ("lhv", 50, 8), ("lfv", 50, 9), ("ltv", 50, 11), ("sbv", 58, 0), ("ssv", 58, 1), ("slv", 58, 2),
    ("sdv", 58, 3), ("sqv", 58, 4), ("srv", 58, 5), ("spv", 58, 6), ("suv", 58, 7), ("shv", 58, 8), ("sfv", 58, 9),
    ("swv", 58, 10), ("stv", 58, 11)]

/-- The pair of numbers of a mnemonic in a list. -/
def pair (l : List (String × Nat × Nat)) (name : String) : Option (Nat × Nat) := (l.find? fun x => x.1 == name).map (·.2)

/-- An instruction of the RSP vector unit. -/
def rspVec (e rt : Content) (rs : Layout) (rd : Content) (f : Nat) : Layout :=
  [(26, 6, .num 18), (25, 1, .num 1), (21, 4, e), (16, 5, rt)] ++ rs ++ [(6, 5, rd), (0, 6, .num f)]

/-- A load or store of the RSP vector unit. -/
def rspMemory (k : Nat × Nat) (imm : Content) : Layout :=
  [(26, 6, .num k.1), (21, 5, .reg .grs), (16, 5, .reg .rspvrt), (11, 5, .num k.2), (7, 4, .reg .rspvealt), (0, 7, imm)]

/-- Instructions without operands. -/
def plain (name : String) : Option Layout :=
  if name = "nop" then some (special (.num 0) (.num 0) (.num 0) (.num 0) 0)
  else if name = "syscall" then some [(26, 6, .num 0), (6, 20, .num 0), (0, 6, .num 12)]
  else if name = "break" then some [(26, 6, .num 0), (6, 20, .num 0), (0, 6, .num 13)]
  else if name = "sync" then some (special (.num 0) (.num 0) (.num 0) (.num 0) 15)
  else if name = "vnop" then some [(26, 6, .num 18), (25, 1, .num 1), (6, 19, .num 0), (0, 6, .num 55)]
  else if name = "vnull" then some [(26, 6, .num 18), (25, 1, .num 1), (6, 19, .num 0), (0, 6, .num 63)]
  else (number [("tlbr", 1), ("tlbwi", 2), ("tlbwr", 6), ("tlbp", 8), ("rfe", 16), ("eret", 24)] name).map fun f =>
    cop 0 16 (.num 0) (.num 0) (.num 0) f

/-- Number of the bit that tells a rotation from a shift. -/
def rot (name : String) : Content := .num (if name = "rotr" ∨ name = "rotrv" then 1 else 0)

/-- The word that the manuals give for a mnemonic with operands of a given syntax, or `none` for the VFPU. In the syntax,
`d`, `s`, `t` are the CPU registers destination, source and target, `D`, `S`, `T` those of the floating point unit, `z`,
`gs`, `gc` and so on those of coprocessors, `R…` those of the RSP, `iN` an immediate of `N` bits. -/
def standard (name mask : String) : Option Layout :=
  if mask = "" then plain name
  else if mask = "d,s,t" then (number alu3 name).map (special (.reg .grs) (.reg .grt) (.reg .grd) (.num 0))
  else if mask = "s,t" then
    ((number alu2 name).map (special (.reg .grs) (.reg .grt) (.reg .grs) (.num 0))) <|>
    ((number mulDiv name).map (special (.reg .grs) (.reg .grt) (.num 0) (.num 0))) <|>
    ((number traps name).map (special (.reg .grs) (.reg .grt) (.num 0) (.num 0)))
  else if mask = "r\x00,s,t" then (number mulDiv name).map (special (.reg .grs) (.reg .grt) (.num 0) (.num 0))
  else if mask = "d,t,s" then
    ((number shiftV name).map (special (.reg .grs) (.reg .grt) (.reg .grd) (rot name))) <|>
    ((number [("sgt", 42), ("sgtu", 43)] name).map (special (.reg .grs) (.reg .grt) (.reg .grd) (.num 0)))
  else if mask = "d,s" then
    ((number shiftV name).map (special (.reg .grs) (.reg .grd) (.reg .grd) (rot name))) <|>
    ((number [("sgt", 42), ("sgtu", 43)] name).map (special (.reg .grs) (.reg .grd) (.reg .grd) (.num 0))) <|>
    ((number [("clz", 22), ("clo", 23), ("move", 33), ("dmove", 45), ("not", 39)] name).map
      (special (.reg .grs) (.num 0) (.reg .grd) (.num 0)))
  else if mask = "d,t,i5" then (number shiftC name).map (special (rot name) (.reg .grt) (.reg .grd) .imm)
  else if mask = "d,i5" then (number shiftC name).map (special (rot name) (.reg .grd) (.reg .grd) .imm)
  else if mask = "d" then
    ((number [("mfhi", 16), ("mflo", 18), ("clear", 33), ("mfsa", 40)] name).map
      (special (.num 0) (.num 0) (.reg .grd) (.num 0))) <|>
    ((number permutations name).map fun f =>
      [(26, 6, .num 31), (21, 5, .num 0), (16, 5, .reg .grd), (11, 5, .reg .grd), (6, 5, .num f), (0, 6, .num 32)])
  else if mask = "d,t" then
    ((number [("neg", 34), ("negu", 35), ("dneg", 46), ("dnegu", 47)] name).map
      (special (.num 0) (.reg .grt) (.reg .grd) (.num 0))) <|>
    ((number permutations name).map fun f =>
      [(26, 6, .num 31), (21, 5, .num 0), (16, 5, .reg .grt), (11, 5, .reg .grd), (6, 5, .num f), (0, 6, .num 32)])
  else if mask = "s" then
    ((number [("jr", 8), ("mthi", 17), ("mtlo", 19), ("mtsa", 41)] name).map
      (special (.reg .grs) (.num 0) (.num 0) (.num 0))) <|>
    ((number [("jalr", 9)] name).map (special (.reg .grs) (.num 0) (.num 31) (.num 0)))
  else if mask = "s,d" then (number [("jalr", 9)] name).map (special (.reg .grs) (.num 0) (.reg .grd) (.num 0))
  else if mask = "i20" then
    (number [("syscall", 12), ("break", 13)] name).map fun f => [(26, 6, .num 0), (6, 20, .imm), (0, 6, .num f)]
  else if mask = "s,t,i10" then
    (number traps name).map fun f =>
      [(26, 6, .num 0), (21, 5, .reg .grs), (16, 5, .reg .grt), (6, 10, .imm), (0, 6, .num f)]
  else if mask = "t,s,i16" then (number aluI name).map fun f => iType f (.reg .grs) (.reg .grt) .imm
  else if mask = "s,i16" then
    ((number aluI name).map fun f => iType f (.reg .grs) (.reg .grs) .imm) <|>
    ((number branch1 name).map fun f => iType f (.reg .grs) (.num 0) .imm) <|>
    ((number regimms name).map fun f => regimm (.reg .grs) f .imm)
  else if mask = "s,t,i16" then (number branch2 name).map fun f => iType f (.reg .grs) (.reg .grt) .imm
  else if mask = "t,i16" then (number [("lui", 15)] name).map fun f => iType f (.num 0) (.reg .grt) .imm
  else if mask = "i16" then
    ((number [("b", 4)] name).map fun f => iType f (.num 0) (.num 0) .imm) <|>
    ((number [("bal", 17)] name).map fun f => regimm (.num 0) f .imm) <|>
    ((number branchC name).map fun f => [(26, 6, .num 17), (21, 5, .num 8), (16, 5, .num f), (0, 16, .imm)]) <|>
    ((number branchV name).map fun f =>
      [(26, 6, .num 18), (21, 5, .num 8), (18, 3, .sec), (16, 2, .num f), (0, 16, .imm)])
  else if mask = "jb,i16" then
    (number branchV name).map fun f =>
      [(26, 6, .num 18), (21, 5, .num 8), (18, 3, .sec), (16, 2, .num f), (0, 16, .imm)]
  else if mask = "i26" then (number [("j", 2), ("jal", 3)] name).map fun f => [(26, 6, .num f), (0, 26, .imm)]
  else if mask = "i25" then
    (number [("cop2", 1)] name).map fun f => [(26, 6, .num 18), (25, 1, .num f), (0, 25, .imm)]
  else if mask = "t,i16(s)" then (number memory name).map fun f => iType f (.reg .grs) (.reg .grt) .imm
  else if mask = "t,(s)" then (number memory name).map fun f => iType f (.reg .grs) (.reg .grt) (.num 0)
  else if mask = "T,i16(s)" then (number memory1 name).map fun f => iType f (.reg .grs) (.reg .frt) .imm
  else if mask = "T,(s)" then (number memory1 name).map fun f => iType f (.reg .grs) (.reg .frt) (.num 0)
  else if mask = "gt,i16(s)" then
    (number [("lwc2", 50), ("swc2", 58)] name).map fun f => iType f (.reg .grs) (.reg .grt) .imm
  else if mask = "gt,(s)" then
    (number [("lwc2", 50), ("swc2", 58)] name).map fun f => iType f (.reg .grs) (.reg .grt) (.num 0)
  else if mask = "Vt,i16(s)" then
    (number [("lqc2", 54), ("sqc2", 62)] name).map fun f => iType f (.reg .grs) (.reg .ps2vrt) .imm
  else if mask = "jc,i16(s)" then (number [("cache", 47)] name).map fun f => iType f (.reg .grs) .sec .imm
  else if mask = "jc,(s)" then (number [("cache", 47)] name).map fun f => iType f (.reg .grs) .sec (.num 0)
  else if mask = "t,z" ∨ mask = "t,Rz" then
    (number moves name).map fun f => cop 0 f (.reg .grt) (.reg .grd) (.num 0) 0
  else if mask = "t,S" ∨ mask = "t,f" then
    (number moves name).map fun f => cop 1 f (.reg .grt) (.reg .frs) (.num 0) 0
  else if mask = "t,gs" ∨ mask = "t,gc" ∨ mask = "t,Rc" then
    (number moves name).map fun f => cop 2 f (.reg .grt) (.reg .grd) (.num 0) 0
  else if mask = "t,RsRo" then
    (number moves name).map fun f =>
      [(26, 6, .num 18), (21, 5, .num f), (16, 5, .reg .grt), (11, 5, .reg .rspvrs), (7, 4, .reg .rspvealt), (0, 7, .num 0)]
  else if mask = "D,S,T" then
    (pair float3 name).map fun f => cop 1 f.1 (.reg .frt) (.reg .frs) (.reg .frd) f.2
  else if mask = "S,T" then
    ((pair float3 name).map fun f => cop 1 f.1 (.reg .frt) (.reg .frs) (.reg .frs) f.2) <|>
    ((pair floatC name).map fun f => cop 1 f.1 (.reg .frt) (.reg .frs) (.num 0) f.2)
  else if mask = "D,S" then
    (pair float2 name).map fun f => cop 1 f.1 (.num 0) (.reg .frs) (.reg .frd) f.2
  else if mask = "t,s,i5,je" then
    (number [("ext", 0)] name).map fun f =>
      [(26, 6, .num 31), (21, 5, .reg .grs), (16, 5, .reg .grt), (11, 5, .sec), (6, 5, .imm), (0, 6, .num f)]
  else if mask = "t,s,i5,ji" then
    (number [("ins", 4)] name).map fun f =>
      [(26, 6, .num 31), (21, 5, .reg .grs), (16, 5, .reg .grt), (11, 5, .sec), (6, 5, .imm), (0, 6, .num f)]
  else if mask = "Rd,Rs,RtRe" then
    (number rsp3 name).map (rspVec (.reg .rspve) (.reg .rspvrt) [(11, 5, .reg .rspvrs)] (.reg .rspvrd))
  else if mask = "Rs,RtRe" then
    (number rsp3 name).map (rspVec (.reg .rspve) (.reg .rspvrt) [(11, 5, .reg .rspvrs)] (.reg .rspvrs))
  else if mask = "RdRm,RtRl" then
    (number rsp2 name).map
      (rspVec (.reg .rspve) (.reg .rspvrt) [(15, 1, .num 0), (11, 4, .reg .rspvde)] (.reg .rspvrd))
  else if mask = "RtRo,i7(s)" then (pair rspMem name).map fun k => rspMemory k .imm
  else if mask = "RtRo,(s)" then (pair rspMem name).map fun k => rspMemory k (.num 0)
  else none

/-- The layout of a row of the assembler's table: that of its mnemonic and syntax. The PS2 has two rows of its own. -/
def layout (op : Op) : Option Layout :=
  if op.archs = [.ps2] ∧ op.mask = "S,T" ∧ (pair floatCPs2 op.name).isSome then
    (pair floatCPs2 op.name).map fun f => cop 1 f.1 (.reg .frt) (.reg .frs) (.num 0) f.2
  else standard op.name op.mask

/-- The number in a field of a layout. -/
def Content.eval (o : Operands) (imm sec : Nat) : Content → Nat
  | .num n => n
  | .reg s => (o.regs s).getD 0
  | .imm => imm
  | .sec => sec

/-- The fields with their numbers. -/
def Layout.eval (l : Layout) (o : Operands) (imm sec : Nat) : List (Nat × Nat × Nat) :=
  l.map fun x => (x.1, x.2.1, x.2.2.eval o imm sec)

end Armips.Spec.Mips
