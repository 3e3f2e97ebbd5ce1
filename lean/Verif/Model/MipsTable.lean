/-!
# The table of MIPS instructions

`Archs/MIPS/MipsOpcodes.h` and `Archs/MIPS/MipsOpcodes.cpp`. The rows are generated from the source text by evaluating
its macros.
-/
namespace Armips.Mips

/-- `MipsOpcodes.h:20-49`. -/
inductive Flag
  | ipca | ipcr | rsd | rst | rdt | delay | nodelayslot | delayrt | ignorertd | frsd | immaligned | negimm | bit64
  | fpu | dfpu | vfpu | vfpuMixed | vfpu6bit | vfpuSingle | vfpuQuad | vfpuTransposeVs | vfpuPair | vfpuTriple
  | rspVrsd | rspHw | rspW | rspDw | rspQw
  deriving DecidableEq, Repr

/-- `MipsOpcodes.h:5-18`. -/
inductive Set
  | mips1 | mips2 | mips3 | mips4 | psx | ps2 | psp | rsp | expsx | exn64 | exps2 | expsp | exrsp
  deriving DecidableEq, Repr

/-- `CMipsInstruction.h:57-83` the members of `MipsRegisterData`. -/
inductive Slot
  | grs | grt | grd | frs | frt | frd | ps2vrs | ps2vrt | ps2vrd | rspvrs | rspvrt | rspvrd | rspve | rspvde | rspvealt
  | vrs | vrt | vrd
  deriving DecidableEq, Repr

/-- `CMipsInstruction.h:9-24` the types of a primary immediate. -/
inductive ImmType
  | i5 | i7 | i10 | i16 | i20 | i20_0 | i25 | i26 | half
  deriving DecidableEq, Repr

/-- `CMipsInstruction.h:9-24` the types of a secondary immediate. -/
inductive SecType
  | ext | ins | cacheOp | branchType
  deriving DecidableEq, Repr

/-- What a piece of the operand syntax stands for. -/
inductive Sym
  | reg (s : Slot)
  | imm (t : ImmType)
  | sec (t : SecType)
  | cond
  | size
  deriving DecidableEq, Repr

/-- `MipsOpcodes.h:113-120` `tMipsOpcode`: name, operand syntax, fixed bits, `archs`, `flags`. `syms` lists the operands that
the name and the syntax stand for; it is generated too, and the theorem `syms_eq` proves that it is what the parser's
functions `nameSyms` and `scan` compute. -/
structure Op where
  name : String
  mask : String
  encoding : BitVec 32
  archs : List Set
  flags : List Flag
  syms : List Sym
  deriving DecidableEq, Repr

/-- `opcode.flags & MO_…`. -/
def Op.has (op : Op) (f : Flag) : Bool := op.flags.contains f

/-- `MipsOpcodes.cpp:18-1035` `MipsOpcodes`, rows 0 to 99. -/
def opcodes0 : List Op := [
  ⟨"j", "i26", 0x08000000#32, [.mips1], [.ipca, .delay, .nodelayslot], [.imm .i26]⟩,
  ⟨"jal", "i26", 0x0C000000#32, [.mips1], [.ipca, .delay, .nodelayslot], [.imm .i26]⟩,
  ⟨"beq", "s,t,i16", 0x10000000#32, [.mips1], [.ipcr, .delay, .nodelayslot], [.reg .grs, .reg .grt, .imm .i16]⟩,
  ⟨"beqz", "s,i16", 0x10000000#32, [.mips1], [.ipcr, .delay, .nodelayslot], [.reg .grs, .imm .i16]⟩,
  ⟨"b", "i16", 0x10000000#32, [.mips1], [.ipcr, .delay, .nodelayslot], [.imm .i16]⟩,
  ⟨"bne", "s,t,i16", 0x14000000#32, [.mips1], [.ipcr, .delay, .nodelayslot], [.reg .grs, .reg .grt, .imm .i16]⟩,
  ⟨"bnez", "s,i16", 0x14000000#32, [.mips1], [.ipcr, .delay, .nodelayslot], [.reg .grs, .imm .i16]⟩,
  ⟨"blez", "s,i16", 0x18000000#32, [.mips1], [.ipcr, .delay, .nodelayslot], [.reg .grs, .imm .i16]⟩,
  ⟨"bgtz", "s,i16", 0x1C000000#32, [.mips1], [.ipcr, .delay, .nodelayslot], [.reg .grs, .imm .i16]⟩,
  ⟨"addi", "t,s,i16", 0x20000000#32, [.mips1], [.ignorertd], [.reg .grt, .reg .grs, .imm .i16]⟩,
  ⟨"addi", "s,i16", 0x20000000#32, [.mips1], [.rst], [.reg .grs, .imm .i16]⟩,
  ⟨"subi", "t,s,i16", 0x20000000#32, [.mips1], [.ignorertd, .negimm], [.reg .grt, .reg .grs, .imm .i16]⟩,
  ⟨"subi", "s,i16", 0x20000000#32, [.mips1], [.rst, .negimm], [.reg .grs, .imm .i16]⟩,
  ⟨"addiu", "t,s,i16", 0x24000000#32, [.mips1], [.ignorertd], [.reg .grt, .reg .grs, .imm .i16]⟩,
  ⟨"addiu", "s,i16", 0x24000000#32, [.mips1], [.rst], [.reg .grs, .imm .i16]⟩,
  ⟨"subiu", "t,s,i16", 0x24000000#32, [.mips1], [.ignorertd, .negimm], [.reg .grt, .reg .grs, .imm .i16]⟩,
  ⟨"subiu", "s,i16", 0x24000000#32, [.mips1], [.rst, .negimm], [.reg .grs, .imm .i16]⟩,
  ⟨"slti", "t,s,i16", 0x28000000#32, [.mips1], [.ignorertd], [.reg .grt, .reg .grs, .imm .i16]⟩,
  ⟨"slti", "s,i16", 0x28000000#32, [.mips1], [.rst], [.reg .grs, .imm .i16]⟩,
  ⟨"sltiu", "t,s,i16", 0x2C000000#32, [.mips1], [.ignorertd], [.reg .grt, .reg .grs, .imm .i16]⟩,
  ⟨"sltiu", "s,i16", 0x2C000000#32, [.mips1], [.rst], [.reg .grs, .imm .i16]⟩,
  ⟨"andi", "t,s,i16", 0x30000000#32, [.mips1], [.ignorertd], [.reg .grt, .reg .grs, .imm .i16]⟩,
  ⟨"andi", "s,i16", 0x30000000#32, [.mips1], [.rst], [.reg .grs, .imm .i16]⟩,
  ⟨"ori", "t,s,i16", 0x34000000#32, [.mips1], [.ignorertd], [.reg .grt, .reg .grs, .imm .i16]⟩,
  ⟨"ori", "s,i16", 0x34000000#32, [.mips1], [.rst], [.reg .grs, .imm .i16]⟩,
  ⟨"xori", "t,s,i16", 0x38000000#32, [.mips1], [.ignorertd], [.reg .grt, .reg .grs, .imm .i16]⟩,
  ⟨"xori", "s,i16", 0x38000000#32, [.mips1], [.rst], [.reg .grs, .imm .i16]⟩,
  ⟨"lui", "t,i16", 0x3C000000#32, [.mips1], [.ignorertd], [.reg .grt, .imm .i16]⟩,
  ⟨"cop2", "i25", 0x4A000000#32, [.psx], [], [.imm .i25]⟩,
  ⟨"beql", "s,t,i16", 0x50000000#32, [.mips2], [.ipcr, .delay, .nodelayslot], [.reg .grs, .reg .grt, .imm .i16]⟩,
  ⟨"beqzl", "s,i16", 0x50000000#32, [.mips2], [.ipcr, .delay, .nodelayslot], [.reg .grs, .imm .i16]⟩,
  ⟨"bnel", "s,t,i16", 0x54000000#32, [.mips2], [.ipcr, .delay, .nodelayslot], [.reg .grs, .reg .grt, .imm .i16]⟩,
  ⟨"bnezl", "s,i16", 0x54000000#32, [.mips2], [.ipcr, .delay, .nodelayslot], [.reg .grs, .imm .i16]⟩,
  ⟨"blezl", "s,i16", 0x58000000#32, [.mips2], [.ipcr, .delay, .nodelayslot], [.reg .grs, .imm .i16]⟩,
  ⟨"bgtzl", "s,i16", 0x5C000000#32, [.mips2], [.ipcr, .delay, .nodelayslot], [.reg .grs, .imm .i16]⟩,
  ⟨"daddi", "t,s,i16", 0x60000000#32, [.mips3], [.bit64], [.reg .grt, .reg .grs, .imm .i16]⟩,
  ⟨"daddi", "s,i16", 0x60000000#32, [.mips3], [.rst, .bit64], [.reg .grs, .imm .i16]⟩,
  ⟨"dsubi", "t,s,i16", 0x60000000#32, [.mips3], [.negimm, .bit64], [.reg .grt, .reg .grs, .imm .i16]⟩,
  ⟨"dsubi", "s,i16", 0x60000000#32, [.mips3], [.rst, .negimm, .bit64], [.reg .grs, .imm .i16]⟩,
  ⟨"daddiu", "t,s,i16", 0x64000000#32, [.mips3], [.bit64], [.reg .grt, .reg .grs, .imm .i16]⟩,
  ⟨"daddiu", "s,i16", 0x64000000#32, [.mips3], [.rst, .bit64], [.reg .grs, .imm .i16]⟩,
  ⟨"dsubiu", "t,s,i16", 0x64000000#32, [.mips3], [.negimm, .bit64], [.reg .grt, .reg .grs, .imm .i16]⟩,
  ⟨"dsubiu", "s,i16", 0x64000000#32, [.mips3], [.rst, .negimm, .bit64], [.reg .grs, .imm .i16]⟩,
  ⟨"ldl", "t,i16(s)", 0x68000000#32, [.mips3], [.delayrt, .ignorertd, .bit64], [.reg .grt, .imm .i16, .reg .grs]⟩,
  ⟨"ldl", "t,(s)", 0x68000000#32, [.mips3], [.delayrt, .ignorertd, .bit64], [.reg .grt, .reg .grs]⟩,
  ⟨"ldr", "t,i16(s)", 0x6C000000#32, [.mips3], [.delayrt, .ignorertd, .bit64], [.reg .grt, .imm .i16, .reg .grs]⟩,
  ⟨"ldr", "t,(s)", 0x6C000000#32, [.mips3], [.delayrt, .ignorertd, .bit64], [.reg .grt, .reg .grs]⟩,
  ⟨"lq", "t,i16(s)", 0x78000000#32, [.ps2], [.delayrt, .ignorertd], [.reg .grt, .imm .i16, .reg .grs]⟩,
  ⟨"lq", "t,(s)", 0x78000000#32, [.ps2], [.delayrt, .ignorertd], [.reg .grt, .reg .grs]⟩,
  ⟨"sq", "t,i16(s)", 0x7C000000#32, [.ps2], [.delayrt, .ignorertd], [.reg .grt, .imm .i16, .reg .grs]⟩,
  ⟨"sq", "t,(s)", 0x7C000000#32, [.ps2], [.delayrt, .ignorertd], [.reg .grt, .reg .grs]⟩,
  ⟨"lb", "t,i16(s)", 0x80000000#32, [.mips1], [.delayrt, .ignorertd], [.reg .grt, .imm .i16, .reg .grs]⟩,
  ⟨"lb", "t,(s)", 0x80000000#32, [.mips1], [.delayrt, .ignorertd], [.reg .grt, .reg .grs]⟩,
  ⟨"lh", "t,i16(s)", 0x84000000#32, [.mips1], [.delayrt, .ignorertd], [.reg .grt, .imm .i16, .reg .grs]⟩,
  ⟨"lh", "t,(s)", 0x84000000#32, [.mips1], [.delayrt, .ignorertd], [.reg .grt, .reg .grs]⟩,
  ⟨"lwl", "t,i16(s)", 0x88000000#32, [.mips1, .exrsp], [.delayrt, .ignorertd], [.reg .grt, .imm .i16, .reg .grs]⟩,
  ⟨"lwl", "t,(s)", 0x88000000#32, [.mips1, .exrsp], [.delayrt, .ignorertd], [.reg .grt, .reg .grs]⟩,
  ⟨"lw", "t,i16(s)", 0x8C000000#32, [.mips1], [.delayrt, .ignorertd], [.reg .grt, .imm .i16, .reg .grs]⟩,
  ⟨"lw", "t,(s)", 0x8C000000#32, [.mips1], [.delayrt, .ignorertd], [.reg .grt, .reg .grs]⟩,
  ⟨"lbu", "t,i16(s)", 0x90000000#32, [.mips1], [.delayrt, .ignorertd], [.reg .grt, .imm .i16, .reg .grs]⟩,
  ⟨"lbu", "t,(s)", 0x90000000#32, [.mips1], [.delayrt, .ignorertd], [.reg .grt, .reg .grs]⟩,
  ⟨"lhu", "t,i16(s)", 0x94000000#32, [.mips1], [.delayrt, .ignorertd], [.reg .grt, .imm .i16, .reg .grs]⟩,
  ⟨"lhu", "t,(s)", 0x94000000#32, [.mips1], [.delayrt, .ignorertd], [.reg .grt, .reg .grs]⟩,
  ⟨"lwr", "t,i16(s)", 0x98000000#32, [.mips1, .exrsp], [.delayrt, .ignorertd], [.reg .grt, .imm .i16, .reg .grs]⟩,
  ⟨"lwr", "t,(s)", 0x98000000#32, [.mips1, .exrsp], [.delayrt, .ignorertd], [.reg .grt, .reg .grs]⟩,
  ⟨"lwu", "t,i16(s)", 0x9C000000#32, [.mips3], [.delayrt, .bit64], [.reg .grt, .imm .i16, .reg .grs]⟩,
  ⟨"lwu", "t,(s)", 0x9C000000#32, [.mips3], [.delayrt, .bit64], [.reg .grt, .reg .grs]⟩,
  ⟨"sb", "t,i16(s)", 0xA0000000#32, [.mips1], [], [.reg .grt, .imm .i16, .reg .grs]⟩,
  ⟨"sb", "t,(s)", 0xA0000000#32, [.mips1], [], [.reg .grt, .reg .grs]⟩,
  ⟨"sh", "t,i16(s)", 0xA4000000#32, [.mips1], [], [.reg .grt, .imm .i16, .reg .grs]⟩,
  ⟨"sh", "t,(s)", 0xA4000000#32, [.mips1], [], [.reg .grt, .reg .grs]⟩,
  ⟨"swl", "t,i16(s)", 0xA8000000#32, [.mips1, .exrsp], [], [.reg .grt, .imm .i16, .reg .grs]⟩,
  ⟨"swl", "t,(s)", 0xA8000000#32, [.mips1, .exrsp], [], [.reg .grt, .reg .grs]⟩,
  ⟨"sw", "t,i16(s)", 0xAC000000#32, [.mips1], [], [.reg .grt, .imm .i16, .reg .grs]⟩,
  ⟨"sw", "t,(s)", 0xAC000000#32, [.mips1], [], [.reg .grt, .reg .grs]⟩,
  ⟨"sdl", "t,i16(s)", 0xB0000000#32, [.mips3], [.bit64], [.reg .grt, .imm .i16, .reg .grs]⟩,
  ⟨"sdl", "t,(s)", 0xB0000000#32, [.mips3], [.bit64], [.reg .grt, .reg .grs]⟩,
  ⟨"sdr", "t,i16(s)", 0xB4000000#32, [.mips3], [.ignorertd, .bit64], [.reg .grt, .imm .i16, .reg .grs]⟩,
  ⟨"sdr", "t,(s)", 0xB4000000#32, [.mips3], [.ignorertd, .bit64], [.reg .grt, .reg .grs]⟩,
  ⟨"swr", "t,i16(s)", 0xB8000000#32, [.mips1, .exrsp], [], [.reg .grt, .imm .i16, .reg .grs]⟩,
  ⟨"swr", "t,(s)", 0xB8000000#32, [.mips1, .exrsp], [], [.reg .grt, .reg .grs]⟩,
  ⟨"cache", "jc,i16(s)", 0xBC000000#32, [.mips2], [], [.sec .cacheOp, .imm .i16, .reg .grs]⟩,
  ⟨"cache", "jc,(s)", 0xBC000000#32, [.mips2], [], [.sec .cacheOp, .reg .grs]⟩,
  ⟨"ll", "t,i16(s)", 0xC0000000#32, [.mips2], [.delayrt, .ignorertd], [.reg .grt, .imm .i16, .reg .grs]⟩,
  ⟨"ll", "t,(s)", 0xC0000000#32, [.mips2], [.delayrt, .ignorertd], [.reg .grt, .reg .grs]⟩,
  ⟨"lwc1", "T,i16(s)", 0xC4000000#32, [.mips1], [.fpu], [.reg .frt, .imm .i16, .reg .grs]⟩,
  ⟨"lwc1", "T,(s)", 0xC4000000#32, [.mips1], [.fpu], [.reg .frt, .reg .grs]⟩,
  ⟨"l.s", "T,i16(s)", 0xC4000000#32, [.mips1], [.fpu], [.reg .frt, .imm .i16, .reg .grs]⟩,
  ⟨"l.s", "T,(s)", 0xC4000000#32, [.mips1], [.fpu], [.reg .frt, .reg .grs]⟩,
  ⟨"lwc2", "gt,i16(s)", 0xC8000000#32, [.psx], [], [.reg .grt, .imm .i16, .reg .grs]⟩,
  ⟨"lwc2", "gt,(s)", 0xC8000000#32, [.psx], [], [.reg .grt, .reg .grs]⟩,
  ⟨"lv.s", "vt,i16(s)", 0xC8000000#32, [.psp], [.immaligned, .vfpuMixed, .vfpuSingle], [.reg .vrt, .imm .i16, .reg .grs]⟩,
  ⟨"lv.s", "vt,(s)", 0xC8000000#32, [.psp], [.vfpuMixed, .vfpuSingle], [.reg .vrt, .reg .grs]⟩,
  ⟨"lld", "t,i16(s)", 0xD0000000#32, [.mips3], [.delayrt, .bit64], [.reg .grt, .imm .i16, .reg .grs]⟩,
  ⟨"lld", "t,(s)", 0xD0000000#32, [.mips3], [.delayrt, .bit64], [.reg .grt, .reg .grs]⟩,
  ⟨"ldc1", "T,i16(s)", 0xD4000000#32, [.mips2], [.dfpu], [.reg .frt, .imm .i16, .reg .grs]⟩,
  ⟨"ldc1", "T,(s)", 0xD4000000#32, [.mips2], [.dfpu], [.reg .frt, .reg .grs]⟩,
  ⟨"l.d", "T,i16(s)", 0xD4000000#32, [.mips2], [.dfpu], [.reg .frt, .imm .i16, .reg .grs]⟩,
  ⟨"l.d", "T,(s)", 0xD4000000#32, [.mips2], [.dfpu], [.reg .frt, .reg .grs]⟩,
  ⟨"ulv.q", "vt,i16(s)", 0xD4000000#32, [.psp], [.immaligned, .vfpuMixed, .vfpuQuad], [.reg .vrt, .imm .i16, .reg .grs]⟩]

/-- `MipsOpcodes.cpp:18-1035` `MipsOpcodes`, rows 100 to 199. -/
def opcodes1 : List Op := [
  ⟨"ulv.q", "vt,(s)", 0xD4000000#32, [.psp], [.vfpuMixed, .vfpuQuad], [.reg .vrt, .reg .grs]⟩,
  ⟨"lvl.q", "vt,i16(s)", 0xD4000000#32, [.psp], [.immaligned, .vfpuMixed, .vfpu6bit, .vfpuQuad], [.reg .vrt, .imm .i16, .reg .grs]⟩,
  ⟨"lvl.q", "vt,(s)", 0xD4000000#32, [.psp], [.vfpuMixed, .vfpu6bit, .vfpuQuad], [.reg .vrt, .reg .grs]⟩,
  ⟨"lvr.q", "vt,i16(s)", 0xD4000002#32, [.psp], [.immaligned, .vfpuMixed, .vfpu6bit, .vfpuQuad], [.reg .vrt, .imm .i16, .reg .grs]⟩,
  ⟨"lvr.q", "vt,(s)", 0xD4000002#32, [.psp], [.vfpuMixed, .vfpu6bit, .vfpuQuad], [.reg .vrt, .reg .grs]⟩,
  ⟨"lv.q", "vt,i16(s)", 0xD8000000#32, [.psp], [.immaligned, .vfpuMixed, .vfpu6bit, .vfpuQuad], [.reg .vrt, .imm .i16, .reg .grs]⟩,
  ⟨"lv.q", "vt,(s)", 0xD8000000#32, [.psp], [.vfpuMixed, .vfpu6bit, .vfpuQuad], [.reg .vrt, .reg .grs]⟩,
  ⟨"lqc2", "Vt,i16(s)", 0xD8000000#32, [.ps2], [.delayrt], [.reg .ps2vrt, .imm .i16, .reg .grs]⟩,
  ⟨"ld", "t,i16(s)", 0xDC000000#32, [.mips3], [.delayrt, .bit64], [.reg .grt, .imm .i16, .reg .grs]⟩,
  ⟨"ld", "t,(s)", 0xDC000000#32, [.mips3], [.delayrt, .bit64], [.reg .grt, .reg .grs]⟩,
  ⟨"sc", "t,i16(s)", 0xE0000000#32, [.mips2], [], [.reg .grt, .imm .i16, .reg .grs]⟩,
  ⟨"sc", "t,(s)", 0xE0000000#32, [.mips2], [], [.reg .grt, .reg .grs]⟩,
  ⟨"swc1", "T,i16(s)", 0xE4000000#32, [.mips1], [.fpu], [.reg .frt, .imm .i16, .reg .grs]⟩,
  ⟨"swc1", "T,(s)", 0xE4000000#32, [.mips1], [.fpu], [.reg .frt, .reg .grs]⟩,
  ⟨"s.s", "T,i16(s)", 0xE4000000#32, [.mips1], [.fpu], [.reg .frt, .imm .i16, .reg .grs]⟩,
  ⟨"s.s", "T,(s)", 0xE4000000#32, [.mips1], [.fpu], [.reg .frt, .reg .grs]⟩,
  ⟨"swc2", "gt,i16(s)", 0xE8000000#32, [.psx], [], [.reg .grt, .imm .i16, .reg .grs]⟩,
  ⟨"swc2", "gt,(s)", 0xE8000000#32, [.psx], [], [.reg .grt, .reg .grs]⟩,
  ⟨"sv.s", "vt,i16(s)", 0xE8000000#32, [.psp], [.immaligned, .vfpuMixed, .vfpuSingle], [.reg .vrt, .imm .i16, .reg .grs]⟩,
  ⟨"sv.s", "vt,(s)", 0xE8000000#32, [.psp], [.vfpuMixed, .vfpuSingle], [.reg .vrt, .reg .grs]⟩,
  ⟨"scd", "t,i16(s)", 0xF0000000#32, [.mips3], [.delayrt, .bit64], [.reg .grt, .imm .i16, .reg .grs]⟩,
  ⟨"scd", "t,(s)", 0xF0000000#32, [.mips3], [.delayrt, .bit64], [.reg .grt, .reg .grs]⟩,
  ⟨"sdc1", "T,i16(s)", 0xF4000000#32, [.mips2], [.dfpu], [.reg .frt, .imm .i16, .reg .grs]⟩,
  ⟨"sdc1", "T,(s)", 0xF4000000#32, [.mips2], [.dfpu], [.reg .frt, .reg .grs]⟩,
  ⟨"s.d", "T,i16(s)", 0xF4000000#32, [.mips2], [.dfpu], [.reg .frt, .imm .i16, .reg .grs]⟩,
  ⟨"s.d", "T,(s)", 0xF4000000#32, [.mips2], [.dfpu], [.reg .frt, .reg .grs]⟩,
  ⟨"usv.q", "vt,i16(s)", 0xF4000000#32, [.psp], [.immaligned, .vfpuMixed, .vfpuQuad], [.reg .vrt, .imm .i16, .reg .grs]⟩,
  ⟨"usv.q", "vt,(s)", 0xF4000000#32, [.psp], [.vfpuMixed, .vfpuQuad], [.reg .vrt, .reg .grs]⟩,
  ⟨"svl.q", "vt,i16(s)", 0xF4000000#32, [.psp], [.immaligned, .vfpuMixed, .vfpu6bit, .vfpuQuad], [.reg .vrt, .imm .i16, .reg .grs]⟩,
  ⟨"svl.q", "vt,(s)", 0xF4000000#32, [.psp], [.vfpuMixed, .vfpu6bit, .vfpuQuad], [.reg .vrt, .reg .grs]⟩,
  ⟨"svr.q", "vt,i16(s)", 0xF4000002#32, [.psp], [.immaligned, .vfpuMixed, .vfpu6bit, .vfpuQuad], [.reg .vrt, .imm .i16, .reg .grs]⟩,
  ⟨"svr.q", "vt,(s)", 0xF4000002#32, [.psp], [.vfpuMixed, .vfpu6bit, .vfpuQuad], [.reg .vrt, .reg .grs]⟩,
  ⟨"sv.q", "vt,i16(s),w", 0xF8000002#32, [.psp], [.immaligned, .vfpuMixed, .vfpu6bit, .vfpuQuad], [.reg .vrt, .imm .i16, .reg .grs]⟩,
  ⟨"sv.q", "vt,(s),w", 0xF8000002#32, [.psp], [.vfpuMixed, .vfpu6bit, .vfpuQuad], [.reg .vrt, .reg .grs]⟩,
  ⟨"sv.q", "vt,i16(s)", 0xF8000000#32, [.psp], [.immaligned, .vfpuMixed, .vfpu6bit, .vfpuQuad], [.reg .vrt, .imm .i16, .reg .grs]⟩,
  ⟨"sv.q", "vt,(s)", 0xF8000000#32, [.psp], [.vfpuMixed, .vfpu6bit, .vfpuQuad], [.reg .vrt, .reg .grs]⟩,
  ⟨"sqc2", "Vt,i16(s)", 0xF8000000#32, [.ps2], [.delayrt], [.reg .ps2vrt, .imm .i16, .reg .grs]⟩,
  ⟨"sd", "t,i16(s)", 0xFC000000#32, [.mips3], [.delayrt, .bit64], [.reg .grt, .imm .i16, .reg .grs]⟩,
  ⟨"sd", "t,(s)", 0xFC000000#32, [.mips3], [.delayrt, .bit64], [.reg .grt, .reg .grs]⟩,
  ⟨"sll", "d,t,i5", 0x00000000#32, [.mips1], [], [.reg .grd, .reg .grt, .imm .i5]⟩,
  ⟨"sll", "d,i5", 0x00000000#32, [.mips1], [.rdt], [.reg .grd, .imm .i5]⟩,
  ⟨"nop", "", 0x00000000#32, [.mips1], [], []⟩,
  ⟨"srl", "d,t,i5", 0x00000002#32, [.mips1], [], [.reg .grd, .reg .grt, .imm .i5]⟩,
  ⟨"srl", "d,i5", 0x00000002#32, [.mips1], [.rdt], [.reg .grd, .imm .i5]⟩,
  ⟨"rotr", "d,t,i5", 0x00200002#32, [.psp], [], [.reg .grd, .reg .grt, .imm .i5]⟩,
  ⟨"rotr", "d,i5", 0x00200002#32, [.psp], [.rdt], [.reg .grd, .imm .i5]⟩,
  ⟨"sra", "d,t,i5", 0x00000003#32, [.mips1], [], [.reg .grd, .reg .grt, .imm .i5]⟩,
  ⟨"sra", "d,i5", 0x00000003#32, [.mips1], [.rdt], [.reg .grd, .imm .i5]⟩,
  ⟨"sllv", "d,t,s", 0x00000004#32, [.mips1], [], [.reg .grd, .reg .grt, .reg .grs]⟩,
  ⟨"sllv", "d,s", 0x00000004#32, [.mips1], [.rdt], [.reg .grd, .reg .grs]⟩,
  ⟨"srlv", "d,t,s", 0x00000006#32, [.mips1], [], [.reg .grd, .reg .grt, .reg .grs]⟩,
  ⟨"srlv", "d,s", 0x00000006#32, [.mips1], [.rdt], [.reg .grd, .reg .grs]⟩,
  ⟨"rotrv", "d,t,s", 0x00000046#32, [.psp], [], [.reg .grd, .reg .grt, .reg .grs]⟩,
  ⟨"rotrv", "d,s", 0x00000046#32, [.psp], [.rdt], [.reg .grd, .reg .grs]⟩,
  ⟨"srav", "d,t,s", 0x00000007#32, [.mips1], [], [.reg .grd, .reg .grt, .reg .grs]⟩,
  ⟨"srav", "d,s", 0x00000007#32, [.mips1], [.rdt], [.reg .grd, .reg .grs]⟩,
  ⟨"jr", "s", 0x00000008#32, [.mips1], [.delay, .nodelayslot], [.reg .grs]⟩,
  ⟨"jalr", "s,d", 0x00000009#32, [.mips1], [.delay, .nodelayslot], [.reg .grs, .reg .grd]⟩,
  ⟨"jalr", "s", 0x0000F809#32, [.mips1], [.delay, .nodelayslot], [.reg .grs]⟩,
  ⟨"movz", "d,s,t", 0x0000000A#32, [.mips4, .ps2, .psp], [], [.reg .grd, .reg .grs, .reg .grt]⟩,
  ⟨"movn", "d,s,t", 0x0000000B#32, [.mips4, .ps2, .psp], [], [.reg .grd, .reg .grs, .reg .grt]⟩,
  ⟨"syscall", "i20", 0x0000000C#32, [.mips1, .exrsp], [.nodelayslot], [.imm .i20]⟩,
  ⟨"syscall", "", 0x0000000C#32, [.mips1, .exrsp], [.nodelayslot], []⟩,
  ⟨"break", "i20", 0x0000000D#32, [.mips1], [.nodelayslot], [.imm .i20]⟩,
  ⟨"break", "", 0x0000000D#32, [.mips1], [.nodelayslot], []⟩,
  ⟨"sync", "", 0x0000000F#32, [.mips2], [], []⟩,
  ⟨"mfhi", "d", 0x00000010#32, [.mips1, .exrsp], [], [.reg .grd]⟩,
  ⟨"mthi", "s", 0x00000011#32, [.mips1, .exrsp], [], [.reg .grs]⟩,
  ⟨"mflo", "d", 0x00000012#32, [.mips1, .exrsp], [], [.reg .grd]⟩,
  ⟨"mtlo", "s", 0x00000013#32, [.mips1, .exrsp], [], [.reg .grs]⟩,
  ⟨"dsllv", "d,t,s", 0x00000014#32, [.mips3], [.bit64], [.reg .grd, .reg .grt, .reg .grs]⟩,
  ⟨"dsllv", "d,s", 0x00000014#32, [.mips3], [.rdt, .bit64], [.reg .grd, .reg .grs]⟩,
  ⟨"dsrlv", "d,t,s", 0x00000016#32, [.mips3], [.bit64], [.reg .grd, .reg .grt, .reg .grs]⟩,
  ⟨"dsrlv", "d,s", 0x00000016#32, [.mips3], [.rdt, .bit64], [.reg .grd, .reg .grs]⟩,
  ⟨"clz", "d,s", 0x00000016#32, [.psp], [], [.reg .grd, .reg .grs]⟩,
  ⟨"dsrav", "d,t,s", 0x00000017#32, [.mips3], [.bit64], [.reg .grd, .reg .grt, .reg .grs]⟩,
  ⟨"dsrav", "d,s", 0x00000017#32, [.mips3], [.rdt, .bit64], [.reg .grd, .reg .grs]⟩,
  ⟨"clo", "d,s", 0x00000017#32, [.psp], [], [.reg .grd, .reg .grs]⟩,
  ⟨"mult", "d,s,t", 0x00000018#32, [.ps2], [], [.reg .grd, .reg .grs, .reg .grt]⟩,
  ⟨"multu", "d,s,t", 0x00000019#32, [.ps2], [], [.reg .grd, .reg .grs, .reg .grt]⟩,
  ⟨"mult", "s,t", 0x00000018#32, [.mips1, .exrsp], [], [.reg .grs, .reg .grt]⟩,
  ⟨"mult", "r\x00,s,t", 0x00000018#32, [.mips1, .exrsp], [], [.reg .grs, .reg .grt]⟩,
  ⟨"multu", "s,t", 0x00000019#32, [.mips1, .exrsp], [], [.reg .grs, .reg .grt]⟩,
  ⟨"multu", "r\x00,s,t", 0x00000019#32, [.mips1, .exrsp], [], [.reg .grs, .reg .grt]⟩,
  ⟨"div", "s,t", 0x0000001A#32, [.mips1, .exrsp], [], [.reg .grs, .reg .grt]⟩,
  ⟨"div", "r\x00,s,t", 0x0000001A#32, [.mips1, .exrsp], [], [.reg .grs, .reg .grt]⟩,
  ⟨"divu", "s,t", 0x0000001B#32, [.mips1, .exrsp], [], [.reg .grs, .reg .grt]⟩,
  ⟨"divu", "r\x00,s,t", 0x0000001B#32, [.mips1, .exrsp], [], [.reg .grs, .reg .grt]⟩,
  ⟨"dmult", "s,t", 0x0000001C#32, [.mips3, .exps2], [.bit64], [.reg .grs, .reg .grt]⟩,
  ⟨"dmult", "r\x00,s,t", 0x0000001C#32, [.mips3, .exps2], [.bit64], [.reg .grs, .reg .grt]⟩,
  ⟨"madd", "s,t", 0x0000001C#32, [.psp], [], [.reg .grs, .reg .grt]⟩,
  ⟨"dmultu", "s,t", 0x0000001D#32, [.mips3, .exps2], [.bit64], [.reg .grs, .reg .grt]⟩,
  ⟨"dmultu", "r\x00,s,t", 0x0000001D#32, [.mips3, .exps2], [.bit64], [.reg .grs, .reg .grt]⟩,
  ⟨"maddu", "s,t", 0x0000001D#32, [.psp], [], [.reg .grs, .reg .grt]⟩,
  ⟨"ddiv", "s,t", 0x0000001E#32, [.mips3, .exps2], [.bit64], [.reg .grs, .reg .grt]⟩,
  ⟨"ddiv", "r\x00,s,t", 0x0000001E#32, [.mips3, .exps2], [.bit64], [.reg .grs, .reg .grt]⟩,
  ⟨"ddivu", "s,t", 0x0000001F#32, [.mips3, .exps2], [.bit64], [.reg .grs, .reg .grt]⟩,
  ⟨"ddivu", "r\x00,s,t", 0x0000001F#32, [.mips3, .exps2], [.bit64], [.reg .grs, .reg .grt]⟩,
  ⟨"add", "d,s,t", 0x00000020#32, [.mips1], [], [.reg .grd, .reg .grs, .reg .grt]⟩,
  ⟨"add", "s,t", 0x00000020#32, [.mips1], [.rsd], [.reg .grs, .reg .grt]⟩]

/-- `MipsOpcodes.cpp:18-1035` `MipsOpcodes`, rows 200 to 299. -/
def opcodes2 : List Op := [
  ⟨"addu", "d,s,t", 0x00000021#32, [.mips1], [], [.reg .grd, .reg .grs, .reg .grt]⟩,
  ⟨"addu", "s,t", 0x00000021#32, [.mips1], [.rsd], [.reg .grs, .reg .grt]⟩,
  ⟨"move", "d,s", 0x00000021#32, [.mips1], [], [.reg .grd, .reg .grs]⟩,
  ⟨"clear", "d", 0x00000021#32, [.mips1], [], [.reg .grd]⟩,
  ⟨"sub", "d,s,t", 0x00000022#32, [.mips1], [], [.reg .grd, .reg .grs, .reg .grt]⟩,
  ⟨"sub", "s,t", 0x00000022#32, [.mips1], [.rsd], [.reg .grs, .reg .grt]⟩,
  ⟨"neg", "d,t", 0x00000022#32, [.mips1], [], [.reg .grd, .reg .grt]⟩,
  ⟨"subu", "d,s,t", 0x00000023#32, [.mips1], [], [.reg .grd, .reg .grs, .reg .grt]⟩,
  ⟨"subu", "s,t", 0x00000023#32, [.mips1], [.rsd], [.reg .grs, .reg .grt]⟩,
  ⟨"negu", "d,t", 0x00000023#32, [.mips1], [], [.reg .grd, .reg .grt]⟩,
  ⟨"and", "d,s,t", 0x00000024#32, [.mips1], [], [.reg .grd, .reg .grs, .reg .grt]⟩,
  ⟨"and", "s,t", 0x00000024#32, [.mips1], [.rsd], [.reg .grs, .reg .grt]⟩,
  ⟨"or", "d,s,t", 0x00000025#32, [.mips1], [], [.reg .grd, .reg .grs, .reg .grt]⟩,
  ⟨"or", "s,t", 0x00000025#32, [.mips1], [.rsd], [.reg .grs, .reg .grt]⟩,
  ⟨"xor", "d,s,t", 0x00000026#32, [.mips1], [], [.reg .grd, .reg .grs, .reg .grt]⟩,
  ⟨"eor", "d,s,t", 0x00000026#32, [.mips1], [], [.reg .grd, .reg .grs, .reg .grt]⟩,
  ⟨"xor", "s,t", 0x00000026#32, [.mips1], [.rsd], [.reg .grs, .reg .grt]⟩,
  ⟨"eor", "s,t", 0x00000026#32, [.mips1], [.rsd], [.reg .grs, .reg .grt]⟩,
  ⟨"nor", "d,s,t", 0x00000027#32, [.mips1], [], [.reg .grd, .reg .grs, .reg .grt]⟩,
  ⟨"nor", "s,t", 0x00000027#32, [.mips1], [.rsd], [.reg .grs, .reg .grt]⟩,
  ⟨"not", "d,s", 0x00000027#32, [.mips1], [], [.reg .grd, .reg .grs]⟩,
  ⟨"mfsa", "d", 0x00000028#32, [.ps2], [], [.reg .grd]⟩,
  ⟨"mtsa", "s", 0x00000029#32, [.ps2], [], [.reg .grs]⟩,
  ⟨"slt", "d,s,t", 0x0000002A#32, [.mips1], [], [.reg .grd, .reg .grs, .reg .grt]⟩,
  ⟨"slt", "s,t", 0x0000002A#32, [.mips1], [.rsd], [.reg .grs, .reg .grt]⟩,
  ⟨"sgt", "d,t,s", 0x0000002A#32, [.mips1], [], [.reg .grd, .reg .grt, .reg .grs]⟩,
  ⟨"sgt", "d,s", 0x0000002A#32, [.mips1], [.rdt], [.reg .grd, .reg .grs]⟩,
  ⟨"sltu", "d,s,t", 0x0000002B#32, [.mips1], [], [.reg .grd, .reg .grs, .reg .grt]⟩,
  ⟨"sltu", "s,t", 0x0000002B#32, [.mips1], [.rsd], [.reg .grs, .reg .grt]⟩,
  ⟨"sgtu", "d,t,s", 0x0000002B#32, [.mips1], [], [.reg .grd, .reg .grt, .reg .grs]⟩,
  ⟨"sgtu", "d,s", 0x0000002B#32, [.mips1], [.rdt], [.reg .grd, .reg .grs]⟩,
  ⟨"dadd", "d,s,t", 0x0000002C#32, [.mips3], [.bit64], [.reg .grd, .reg .grs, .reg .grt]⟩,
  ⟨"dadd", "s,t", 0x0000002C#32, [.mips3], [.rsd, .bit64], [.reg .grs, .reg .grt]⟩,
  ⟨"max", "d,s,t", 0x0000002C#32, [.psp], [], [.reg .grd, .reg .grs, .reg .grt]⟩,
  ⟨"daddu", "d,s,t", 0x0000002D#32, [.mips3], [.bit64], [.reg .grd, .reg .grs, .reg .grt]⟩,
  ⟨"daddu", "s,t", 0x0000002D#32, [.mips3], [.rsd, .bit64], [.reg .grs, .reg .grt]⟩,
  ⟨"dmove", "d,s", 0x0000002D#32, [.mips3], [.bit64], [.reg .grd, .reg .grs]⟩,
  ⟨"min", "d,s,t", 0x0000002D#32, [.psp], [], [.reg .grd, .reg .grs, .reg .grt]⟩,
  ⟨"dsub", "d,s,t", 0x0000002E#32, [.mips3], [.bit64], [.reg .grd, .reg .grs, .reg .grt]⟩,
  ⟨"dsub", "s,t", 0x0000002E#32, [.mips3], [.rsd, .bit64], [.reg .grs, .reg .grt]⟩,
  ⟨"dneg", "d,t", 0x0000002E#32, [.mips3], [.bit64], [.reg .grd, .reg .grt]⟩,
  ⟨"msub", "s,t", 0x0000002E#32, [.psp], [], [.reg .grs, .reg .grt]⟩,
  ⟨"dsubu", "d,s,t", 0x0000002F#32, [.mips3], [.bit64], [.reg .grd, .reg .grs, .reg .grt]⟩,
  ⟨"dsubu", "s,t", 0x0000002F#32, [.mips3], [.rsd, .bit64], [.reg .grs, .reg .grt]⟩,
  ⟨"dnegu", "d,t", 0x0000002F#32, [.mips3], [.bit64], [.reg .grd, .reg .grt]⟩,
  ⟨"msubu", "s,t", 0x0000002F#32, [.psp], [], [.reg .grs, .reg .grt]⟩,
  ⟨"tge", "s,t,i10", 0x00000030#32, [.mips2], [], [.reg .grs, .reg .grt, .imm .i10]⟩,
  ⟨"tge", "s,t", 0x00000030#32, [.mips2], [], [.reg .grs, .reg .grt]⟩,
  ⟨"tgeu", "s,t,i10", 0x00000031#32, [.mips2], [], [.reg .grs, .reg .grt, .imm .i10]⟩,
  ⟨"tgeu", "s,t", 0x00000031#32, [.mips2], [], [.reg .grs, .reg .grt]⟩,
  ⟨"tlt", "s,t,i10", 0x00000032#32, [.mips2], [], [.reg .grs, .reg .grt, .imm .i10]⟩,
  ⟨"tlt", "s,t", 0x00000032#32, [.mips2], [], [.reg .grs, .reg .grt]⟩,
  ⟨"tltu", "s,t,i10", 0x00000033#32, [.mips2], [], [.reg .grs, .reg .grt, .imm .i10]⟩,
  ⟨"tltu", "s,t", 0x00000033#32, [.mips2], [], [.reg .grs, .reg .grt]⟩,
  ⟨"teq", "s,t,i10", 0x00000034#32, [.mips2], [], [.reg .grs, .reg .grt, .imm .i10]⟩,
  ⟨"teq", "s,t", 0x00000034#32, [.mips2], [], [.reg .grs, .reg .grt]⟩,
  ⟨"tne", "s,t,i10", 0x00000036#32, [.mips2], [], [.reg .grs, .reg .grt, .imm .i10]⟩,
  ⟨"tne", "s,t", 0x00000036#32, [.mips2], [], [.reg .grs, .reg .grt]⟩,
  ⟨"dsll", "d,t,i5", 0x00000038#32, [.mips3], [.bit64], [.reg .grd, .reg .grt, .imm .i5]⟩,
  ⟨"dsll", "d,i5", 0x00000038#32, [.mips3], [.rdt, .bit64], [.reg .grd, .imm .i5]⟩,
  ⟨"dsrl", "d,t,i5", 0x0000003A#32, [.mips3], [.bit64], [.reg .grd, .reg .grt, .imm .i5]⟩,
  ⟨"dsrl", "d,i5", 0x0000003A#32, [.mips3], [.rdt, .bit64], [.reg .grd, .imm .i5]⟩,
  ⟨"dsra", "d,t,i5", 0x0000003B#32, [.mips3], [.bit64], [.reg .grd, .reg .grt, .imm .i5]⟩,
  ⟨"dsra", "d,i5", 0x0000003B#32, [.mips3], [.rdt, .bit64], [.reg .grd, .imm .i5]⟩,
  ⟨"dsll32", "d,t,i5", 0x0000003C#32, [.mips3], [.bit64], [.reg .grd, .reg .grt, .imm .i5]⟩,
  ⟨"dsll32", "d,i5", 0x0000003C#32, [.mips3], [.rdt, .bit64], [.reg .grd, .imm .i5]⟩,
  ⟨"dsrl32", "d,t,i5", 0x0000003E#32, [.mips3], [.bit64], [.reg .grd, .reg .grt, .imm .i5]⟩,
  ⟨"dsrl32", "d,i5", 0x0000003E#32, [.mips3], [.rdt, .bit64], [.reg .grd, .imm .i5]⟩,
  ⟨"dsra32", "d,t,i5", 0x0000003F#32, [.mips3], [.bit64], [.reg .grd, .reg .grt, .imm .i5]⟩,
  ⟨"dsra32", "d,i5", 0x0000003F#32, [.mips3], [.rdt, .bit64], [.reg .grd, .imm .i5]⟩,
  ⟨"bltz", "s,i16", 0x04000000#32, [.mips1], [.ipcr, .delay, .nodelayslot], [.reg .grs, .imm .i16]⟩,
  ⟨"bgez", "s,i16", 0x04010000#32, [.mips1], [.ipcr, .delay, .nodelayslot], [.reg .grs, .imm .i16]⟩,
  ⟨"bltzl", "s,i16", 0x04020000#32, [.mips2], [.ipcr, .delay, .nodelayslot], [.reg .grs, .imm .i16]⟩,
  ⟨"bgezl", "s,i16", 0x04030000#32, [.mips2], [.ipcr, .delay, .nodelayslot], [.reg .grs, .imm .i16]⟩,
  ⟨"tgei", "s,i16", 0x04080000#32, [.mips2], [], [.reg .grs, .imm .i16]⟩,
  ⟨"tgeiu", "s,i16", 0x04090000#32, [.mips2], [], [.reg .grs, .imm .i16]⟩,
  ⟨"tlti", "s,i16", 0x040A0000#32, [.mips2], [], [.reg .grs, .imm .i16]⟩,
  ⟨"tltiu", "s,i16", 0x040B0000#32, [.mips2], [], [.reg .grs, .imm .i16]⟩,
  ⟨"teqi", "s,i16", 0x040C0000#32, [.mips2], [], [.reg .grs, .imm .i16]⟩,
  ⟨"tnei", "s,i16", 0x040E0000#32, [.mips2], [], [.reg .grs, .imm .i16]⟩,
  ⟨"bltzal", "s,i16", 0x04100000#32, [.mips1], [.ipcr, .delay, .nodelayslot], [.reg .grs, .imm .i16]⟩,
  ⟨"bgezal", "s,i16", 0x04110000#32, [.mips1], [.ipcr, .delay, .nodelayslot], [.reg .grs, .imm .i16]⟩,
  ⟨"bal", "i16", 0x04110000#32, [.mips1], [.ipcr, .delay, .nodelayslot], [.imm .i16]⟩,
  ⟨"bltzall", "s,i16", 0x04120000#32, [.mips2], [.ipcr, .delay, .nodelayslot], [.reg .grs, .imm .i16]⟩,
  ⟨"bgezall", "s,i16", 0x04130000#32, [.mips2], [.ipcr, .delay, .nodelayslot], [.reg .grs, .imm .i16]⟩,
  ⟨"mtsab", "s,i16", 0x04180000#32, [.ps2], [], [.reg .grs, .imm .i16]⟩,
  ⟨"mtsah", "s,i16", 0x04190000#32, [.ps2], [], [.reg .grs, .imm .i16]⟩,
  ⟨"mfc0", "t,z", 0x40000000#32, [.mips1, .exrsp], [], [.reg .grt, .reg .grd]⟩,
  ⟨"mfc0", "t,Rz", 0x40000000#32, [.rsp], [], [.reg .grt, .reg .grd]⟩,
  ⟨"dmfc0", "t,z", 0x40200000#32, [.mips3], [.bit64], [.reg .grt, .reg .grd]⟩,
  ⟨"mtc0", "t,z", 0x40800000#32, [.mips1, .exrsp], [], [.reg .grt, .reg .grd]⟩,
  ⟨"mtc0", "t,Rz", 0x40800000#32, [.rsp], [], [.reg .grt, .reg .grd]⟩,
  ⟨"dmtc0", "t,z", 0x40A00000#32, [.mips3], [.bit64], [.reg .grt, .reg .grd]⟩,
  ⟨"tlbr", "", 0x42000001#32, [.mips1, .exrsp], [], []⟩,
  ⟨"tlbwi", "", 0x42000002#32, [.mips1, .exrsp], [], []⟩,
  ⟨"tlbwr", "", 0x42000006#32, [.mips1, .exrsp], [], []⟩,
  ⟨"tlbp", "", 0x42000008#32, [.mips1, .exrsp], [], []⟩,
  ⟨"rfe", "", 0x42000010#32, [.psx], [], []⟩,
  ⟨"eret", "", 0x42000018#32, [.mips3], [], []⟩,
  ⟨"mfc1", "t,S", 0x44000000#32, [.mips1], [.fpu], [.reg .grt, .reg .frs]⟩]

/-- `MipsOpcodes.cpp:18-1035` `MipsOpcodes`, rows 300 to 399. -/
def opcodes3 : List Op := [
  ⟨"dmfc1", "t,S", 0x44200000#32, [.mips3], [.bit64, .dfpu], [.reg .grt, .reg .frs]⟩,
  ⟨"cfc1", "t,f", 0x44400000#32, [.mips1], [.fpu], [.reg .grt, .reg .frs]⟩,
  ⟨"mtc1", "t,S", 0x44800000#32, [.mips1], [.fpu], [.reg .grt, .reg .frs]⟩,
  ⟨"dmtc1", "t,S", 0x44A00000#32, [.mips3], [.bit64, .dfpu], [.reg .grt, .reg .frs]⟩,
  ⟨"ctc1", "t,f", 0x44C00000#32, [.mips1], [.fpu], [.reg .grt, .reg .frs]⟩,
  ⟨"bc1f", "i16", 0x45000000#32, [.mips1], [.ipcr, .delay, .nodelayslot, .fpu], [.imm .i16]⟩,
  ⟨"bc1t", "i16", 0x45010000#32, [.mips1], [.ipcr, .delay, .nodelayslot, .fpu], [.imm .i16]⟩,
  ⟨"bc1fl", "i16", 0x45020000#32, [.mips2], [.ipcr, .delay, .nodelayslot, .fpu], [.imm .i16]⟩,
  ⟨"bc1tl", "i16", 0x45030000#32, [.mips2], [.ipcr, .delay, .nodelayslot, .fpu], [.imm .i16]⟩,
  ⟨"add.s", "D,S,T", 0x46000000#32, [.mips1], [.fpu], [.reg .frd, .reg .frs, .reg .frt]⟩,
  ⟨"add.s", "S,T", 0x46000000#32, [.mips1], [.frsd, .fpu], [.reg .frs, .reg .frt]⟩,
  ⟨"sub.s", "D,S,T", 0x46000001#32, [.mips1], [.fpu], [.reg .frd, .reg .frs, .reg .frt]⟩,
  ⟨"sub.s", "S,T", 0x46000001#32, [.mips1], [.frsd, .fpu], [.reg .frs, .reg .frt]⟩,
  ⟨"mul.s", "D,S,T", 0x46000002#32, [.mips1], [.fpu], [.reg .frd, .reg .frs, .reg .frt]⟩,
  ⟨"mul.s", "S,T", 0x46000002#32, [.mips1], [.frsd, .fpu], [.reg .frs, .reg .frt]⟩,
  ⟨"div.s", "D,S,T", 0x46000003#32, [.mips1], [.fpu], [.reg .frd, .reg .frs, .reg .frt]⟩,
  ⟨"div.s", "S,T", 0x46000003#32, [.mips1], [.frsd, .fpu], [.reg .frs, .reg .frt]⟩,
  ⟨"sqrt.s", "D,S", 0x46000004#32, [.mips2], [.fpu], [.reg .frd, .reg .frs]⟩,
  ⟨"abs.s", "D,S", 0x46000005#32, [.mips1], [.fpu], [.reg .frd, .reg .frs]⟩,
  ⟨"mov.s", "D,S", 0x46000006#32, [.mips1], [.fpu], [.reg .frd, .reg .frs]⟩,
  ⟨"neg.s", "D,S", 0x46000007#32, [.mips1], [.fpu], [.reg .frd, .reg .frs]⟩,
  ⟨"round.l.s", "D,S", 0x46000008#32, [.mips3], [.dfpu], [.reg .frd, .reg .frs]⟩,
  ⟨"trunc.l.s", "D,S", 0x46000009#32, [.mips3], [.dfpu], [.reg .frd, .reg .frs]⟩,
  ⟨"ceil.l.s", "D,S", 0x4600000A#32, [.mips3], [.dfpu], [.reg .frd, .reg .frs]⟩,
  ⟨"floor.l.s", "D,S", 0x4600000B#32, [.mips3], [.dfpu], [.reg .frd, .reg .frs]⟩,
  ⟨"round.w.s", "D,S", 0x4600000C#32, [.mips2, .exps2], [.fpu], [.reg .frd, .reg .frs]⟩,
  ⟨"trunc.w.s", "D,S", 0x4600000D#32, [.mips1, .exps2], [.fpu], [.reg .frd, .reg .frs]⟩,
  ⟨"ceil.w.s", "D,S", 0x4600000E#32, [.mips2, .exps2], [.fpu], [.reg .frd, .reg .frs]⟩,
  ⟨"floor.w.s", "D,S", 0x4600000F#32, [.mips2, .exps2], [.fpu], [.reg .frd, .reg .frs]⟩,
  ⟨"rsqrt.w.s", "D,S", 0x46000016#32, [.ps2], [], [.reg .frd, .reg .frs]⟩,
  ⟨"adda.s", "S,T", 0x46000018#32, [.ps2], [], [.reg .frs, .reg .frt]⟩,
  ⟨"suba.s", "S,T", 0x46000019#32, [.ps2], [], [.reg .frs, .reg .frt]⟩,
  ⟨"mula.s", "S,T", 0x4600001A#32, [.ps2], [], [.reg .frs, .reg .frt]⟩,
  ⟨"madd.s", "D,S,T", 0x4600001C#32, [.ps2], [], [.reg .frd, .reg .frs, .reg .frt]⟩,
  ⟨"madd.s", "S,T", 0x4600001C#32, [.ps2], [.frsd], [.reg .frs, .reg .frt]⟩,
  ⟨"msub.s", "D,S,T", 0x4600001D#32, [.ps2], [], [.reg .frd, .reg .frs, .reg .frt]⟩,
  ⟨"msub.s", "S,T", 0x4600001D#32, [.ps2], [.frsd], [.reg .frs, .reg .frt]⟩,
  ⟨"madda.s", "S,T", 0x4600001E#32, [.ps2], [], [.reg .frs, .reg .frt]⟩,
  ⟨"msuba.s", "S,T", 0x4600001F#32, [.ps2], [], [.reg .frs, .reg .frt]⟩,
  ⟨"cvt.d.s", "D,S", 0x46000021#32, [.mips1], [.dfpu], [.reg .frd, .reg .frs]⟩,
  ⟨"cvt.w.s", "D,S", 0x46000024#32, [.mips1], [.fpu], [.reg .frd, .reg .frs]⟩,
  ⟨"cvt.l.s", "D,S", 0x46000025#32, [.mips3], [.dfpu], [.reg .frd, .reg .frs]⟩,
  ⟨"max.s", "D,S,T", 0x46000028#32, [.ps2], [], [.reg .frd, .reg .frs, .reg .frt]⟩,
  ⟨"min.s", "D,S,T", 0x46000029#32, [.ps2], [], [.reg .frd, .reg .frs, .reg .frt]⟩,
  ⟨"c.f.s", "S,T", 0x46000030#32, [.mips1], [.fpu], [.reg .frs, .reg .frt]⟩,
  ⟨"c.un.s", "S,T", 0x46000031#32, [.mips1, .exps2], [.fpu], [.reg .frs, .reg .frt]⟩,
  ⟨"c.eq.s", "S,T", 0x46000032#32, [.mips1], [.fpu], [.reg .frs, .reg .frt]⟩,
  ⟨"c.ueq.s", "S,T", 0x46000033#32, [.mips1, .exps2], [.fpu], [.reg .frs, .reg .frt]⟩,
  ⟨"c.olt.s", "S,T", 0x46000034#32, [.mips1, .exps2], [.fpu], [.reg .frs, .reg .frt]⟩,
  ⟨"c.lt.s", "S,T", 0x46000034#32, [.ps2], [], [.reg .frs, .reg .frt]⟩,
  ⟨"c.ult.s", "S,T", 0x46000035#32, [.mips1, .exps2], [.fpu], [.reg .frs, .reg .frt]⟩,
  ⟨"c.ole.s", "S,T", 0x46000036#32, [.mips1, .exps2], [.fpu], [.reg .frs, .reg .frt]⟩,
  ⟨"c.le.s", "S,T", 0x46000036#32, [.ps2], [], [.reg .frs, .reg .frt]⟩,
  ⟨"c.ule.s", "S,T", 0x46000037#32, [.mips1, .exps2], [.fpu], [.reg .frs, .reg .frt]⟩,
  ⟨"c.sf.s", "S,T", 0x46000038#32, [.mips1, .exps2], [.fpu], [.reg .frs, .reg .frt]⟩,
  ⟨"c.ngle.s", "S,T", 0x46000039#32, [.mips1, .exps2], [.fpu], [.reg .frs, .reg .frt]⟩,
  ⟨"c.seq.s", "S,T", 0x4600003A#32, [.mips1, .exps2], [.fpu], [.reg .frs, .reg .frt]⟩,
  ⟨"c.ngl.s", "S,T", 0x4600003B#32, [.mips1, .exps2], [.fpu], [.reg .frs, .reg .frt]⟩,
  ⟨"c.lt.s", "S,T", 0x4600003C#32, [.mips1, .exps2], [.fpu], [.reg .frs, .reg .frt]⟩,
  ⟨"c.nge.s", "S,T", 0x4600003D#32, [.mips1, .exps2], [.fpu], [.reg .frs, .reg .frt]⟩,
  ⟨"c.le.s", "S,T", 0x4600003E#32, [.mips1, .exps2], [.fpu], [.reg .frs, .reg .frt]⟩,
  ⟨"c.ngt.s", "S,T", 0x4600003F#32, [.mips1, .exps2], [.fpu], [.reg .frs, .reg .frt]⟩,
  ⟨"add.d", "D,S,T", 0x46200000#32, [.mips1], [.dfpu], [.reg .frd, .reg .frs, .reg .frt]⟩,
  ⟨"add.d", "S,T", 0x46200000#32, [.mips1], [.frsd, .dfpu], [.reg .frs, .reg .frt]⟩,
  ⟨"sub.d", "D,S,T", 0x46200001#32, [.mips1], [.dfpu], [.reg .frd, .reg .frs, .reg .frt]⟩,
  ⟨"sub.d", "S,T", 0x46200001#32, [.mips1], [.frsd, .dfpu], [.reg .frs, .reg .frt]⟩,
  ⟨"mul.d", "D,S,T", 0x46200002#32, [.mips1], [.dfpu], [.reg .frd, .reg .frs, .reg .frt]⟩,
  ⟨"mul.d", "S,T", 0x46200002#32, [.mips1], [.frsd, .dfpu], [.reg .frs, .reg .frt]⟩,
  ⟨"div.d", "D,S,T", 0x46200003#32, [.mips1], [.dfpu], [.reg .frd, .reg .frs, .reg .frt]⟩,
  ⟨"div.d", "S,T", 0x46200003#32, [.mips1], [.frsd, .dfpu], [.reg .frs, .reg .frt]⟩,
  ⟨"sqrt.d", "D,S", 0x46200004#32, [.mips2], [.dfpu], [.reg .frd, .reg .frs]⟩,
  ⟨"abs.d", "D,S", 0x46200005#32, [.mips1], [.dfpu], [.reg .frd, .reg .frs]⟩,
  ⟨"mov.d", "D,S", 0x46200006#32, [.mips1], [.dfpu], [.reg .frd, .reg .frs]⟩,
  ⟨"neg.d", "D,S", 0x46200007#32, [.mips1], [.dfpu], [.reg .frd, .reg .frs]⟩,
  ⟨"round.l.d", "D,S", 0x46200008#32, [.mips3], [.dfpu], [.reg .frd, .reg .frs]⟩,
  ⟨"trunc.l.d", "D,S", 0x46200009#32, [.mips3], [.dfpu], [.reg .frd, .reg .frs]⟩,
  ⟨"ceil.l.d", "D,S", 0x4620000A#32, [.mips3], [.dfpu], [.reg .frd, .reg .frs]⟩,
  ⟨"floor.l.d", "D,S", 0x4620000B#32, [.mips3], [.dfpu], [.reg .frd, .reg .frs]⟩,
  ⟨"round.w.d", "D,S", 0x4620000C#32, [.mips2], [.dfpu], [.reg .frd, .reg .frs]⟩,
  ⟨"trunc.w.d", "D,S", 0x4620000D#32, [.mips1], [.dfpu], [.reg .frd, .reg .frs]⟩,
  ⟨"ceil.w.d", "D,S", 0x4620000E#32, [.mips2], [.dfpu], [.reg .frd, .reg .frs]⟩,
  ⟨"floor.w.d", "D,S", 0x4620000F#32, [.mips2], [.dfpu], [.reg .frd, .reg .frs]⟩,
  ⟨"cvt.s.d", "D,S", 0x46200020#32, [.mips1], [.dfpu], [.reg .frd, .reg .frs]⟩,
  ⟨"cvt.w.d", "D,S", 0x46200024#32, [.mips1], [.dfpu], [.reg .frd, .reg .frs]⟩,
  ⟨"cvt.l.d", "D,S", 0x46200025#32, [.mips3], [.dfpu], [.reg .frd, .reg .frs]⟩,
  ⟨"c.f.d", "S,T", 0x46200030#32, [.mips1], [.dfpu], [.reg .frs, .reg .frt]⟩,
  ⟨"c.un.d", "S,T", 0x46200031#32, [.mips1], [.dfpu], [.reg .frs, .reg .frt]⟩,
  ⟨"c.eq.d", "S,T", 0x46200032#32, [.mips1], [.dfpu], [.reg .frs, .reg .frt]⟩,
  ⟨"c.ueq.d", "S,T", 0x46200033#32, [.mips1], [.dfpu], [.reg .frs, .reg .frt]⟩,
  ⟨"c.olt.d", "S,T", 0x46200034#32, [.mips1], [.dfpu], [.reg .frs, .reg .frt]⟩,
  ⟨"c.ult.d", "S,T", 0x46200035#32, [.mips1], [.dfpu], [.reg .frs, .reg .frt]⟩,
  ⟨"c.ole.d", "S,T", 0x46200036#32, [.mips1], [.dfpu], [.reg .frs, .reg .frt]⟩,
  ⟨"c.ule.d", "S,T", 0x46200037#32, [.mips1], [.dfpu], [.reg .frs, .reg .frt]⟩,
  ⟨"c.sf.d", "S,T", 0x46200038#32, [.mips1], [.dfpu], [.reg .frs, .reg .frt]⟩,
  ⟨"c.ngle.d", "S,T", 0x46200039#32, [.mips1], [.dfpu], [.reg .frs, .reg .frt]⟩,
  ⟨"c.seq.d", "S,T", 0x4620003A#32, [.mips1], [.dfpu], [.reg .frs, .reg .frt]⟩,
  ⟨"c.ngl.d", "S,T", 0x4620003B#32, [.mips1], [.dfpu], [.reg .frs, .reg .frt]⟩,
  ⟨"c.lt.d", "S,T", 0x4620003C#32, [.mips1], [.dfpu], [.reg .frs, .reg .frt]⟩,
  ⟨"c.nge.d", "S,T", 0x4620003D#32, [.mips1], [.dfpu], [.reg .frs, .reg .frt]⟩,
  ⟨"c.le.d", "S,T", 0x4620003E#32, [.mips1], [.dfpu], [.reg .frs, .reg .frt]⟩]

/-- `MipsOpcodes.cpp:18-1035` `MipsOpcodes`, rows 400 to 499. -/
def opcodes4 : List Op := [
  ⟨"c.ngt.d", "S,T", 0x4620003F#32, [.mips1], [.dfpu], [.reg .frs, .reg .frt]⟩,
  ⟨"cvt.s.w", "D,S", 0x46800020#32, [.mips1], [.fpu], [.reg .frd, .reg .frs]⟩,
  ⟨"cvt.d.w", "D,S", 0x46800021#32, [.mips1], [.dfpu], [.reg .frd, .reg .frs]⟩,
  ⟨"cvt.s.l", "D,S", 0x46A00020#32, [.mips3], [.dfpu], [.reg .frd, .reg .frs]⟩,
  ⟨"cvt.d.l", "D,S", 0x46A00021#32, [.mips3], [.dfpu], [.reg .frd, .reg .frs]⟩,
  ⟨"mfc2", "t,gs", 0x48000000#32, [.psx], [], [.reg .grt, .reg .grd]⟩,
  ⟨"mfc2", "t,RsRo", 0x48000000#32, [.rsp], [], [.reg .grt, .reg .rspvrs, .reg .rspvealt]⟩,
  ⟨"cfc2", "t,gc", 0x48400000#32, [.psx], [], [.reg .grt, .reg .grd]⟩,
  ⟨"cfc2", "t,Rc", 0x48400000#32, [.rsp], [], [.reg .grt, .reg .grd]⟩,
  ⟨"mtc2", "t,gs", 0x48800000#32, [.psx], [], [.reg .grt, .reg .grd]⟩,
  ⟨"mtc2", "t,RsRo", 0x48800000#32, [.rsp], [], [.reg .grt, .reg .rspvrs, .reg .rspvealt]⟩,
  ⟨"ctc2", "t,gc", 0x48C00000#32, [.psx], [], [.reg .grt, .reg .grd]⟩,
  ⟨"ctc2", "t,Rc", 0x48C00000#32, [.rsp], [], [.reg .grt, .reg .grd]⟩,
  ⟨"mfv", "t,vd", 0x48600000#32, [.psp], [.vfpu, .vfpuSingle], [.reg .grt, .reg .vrd]⟩,
  ⟨"mfvc", "t,vc", 0x48600080#32, [.psp], [.vfpu], [.reg .grt, .reg .vrd]⟩,
  ⟨"mtv", "t,vd", 0x48E00000#32, [.psp], [.vfpu, .vfpuSingle], [.reg .grt, .reg .vrd]⟩,
  ⟨"mtvc", "t,vc", 0x48E00080#32, [.psp], [.vfpu], [.reg .grt, .reg .vrd]⟩,
  ⟨"bvf", "jb,i16", 0x49000000#32, [.psp], [.ipcr, .delay, .nodelayslot], [.sec .branchType, .imm .i16]⟩,
  ⟨"bvf.B", "i16", 0x49000000#32, [.psp], [.ipcr, .delay, .nodelayslot], [.sec .branchType, .imm .i16]⟩,
  ⟨"bvt", "jb,i16", 0x49010000#32, [.psp], [.ipcr, .delay, .nodelayslot], [.sec .branchType, .imm .i16]⟩,
  ⟨"bvt.B", "i16", 0x49010000#32, [.psp], [.ipcr, .delay, .nodelayslot], [.sec .branchType, .imm .i16]⟩,
  ⟨"bvfl", "jb,i16", 0x49020000#32, [.psp], [.ipcr, .delay, .nodelayslot], [.sec .branchType, .imm .i16]⟩,
  ⟨"bvfl.B", "i16", 0x49020000#32, [.psp], [.ipcr, .delay, .nodelayslot], [.sec .branchType, .imm .i16]⟩,
  ⟨"bvtl", "jb,i16", 0x49030000#32, [.psp], [.ipcr, .delay, .nodelayslot], [.sec .branchType, .imm .i16]⟩,
  ⟨"bvtl.B", "i16", 0x49030000#32, [.psp], [.ipcr, .delay, .nodelayslot], [.sec .branchType, .imm .i16]⟩,
  ⟨"vadd.S", "vd,vs,vt", 0x60000000#32, [.psp], [.vfpu], [.size, .reg .vrd, .reg .vrs, .reg .vrt]⟩,
  ⟨"vsub.S", "vd,vs,vt", 0x60800000#32, [.psp], [.vfpu], [.size, .reg .vrd, .reg .vrs, .reg .vrt]⟩,
  ⟨"vsbn.s", "vd,vs,vt", 0x61000000#32, [.psp], [.vfpu, .vfpuSingle], [.reg .vrd, .reg .vrs, .reg .vrt]⟩,
  ⟨"vdiv.S", "vd,vs,vt", 0x63800000#32, [.psp], [.vfpu], [.size, .reg .vrd, .reg .vrs, .reg .vrt]⟩,
  ⟨"vmul.S", "vd,vs,vt", 0x64000000#32, [.psp], [.vfpu], [.size, .reg .vrd, .reg .vrs, .reg .vrt]⟩,
  ⟨"vdot.p", "vSd,vs,vt", 0x64800080#32, [.psp], [.vfpu, .vfpuPair], [.reg .vrd, .reg .vrs, .reg .vrt]⟩,
  ⟨"vdot.t", "vSd,vs,vt", 0x64808000#32, [.psp], [.vfpu, .vfpuTriple], [.reg .vrd, .reg .vrs, .reg .vrt]⟩,
  ⟨"vdot.q", "vSd,vs,vt", 0x64808080#32, [.psp], [.vfpu, .vfpuQuad], [.reg .vrd, .reg .vrs, .reg .vrt]⟩,
  ⟨"vscl.p", "vd,vs,vSt", 0x65000080#32, [.psp], [.vfpu, .vfpuPair], [.reg .vrd, .reg .vrs, .reg .vrt]⟩,
  ⟨"vscl.t", "vd,vs,vSt", 0x65008000#32, [.psp], [.vfpu, .vfpuTriple], [.reg .vrd, .reg .vrs, .reg .vrt]⟩,
  ⟨"vscl.q", "vd,vs,vSt", 0x65008080#32, [.psp], [.vfpu, .vfpuQuad], [.reg .vrd, .reg .vrs, .reg .vrt]⟩,
  ⟨"vhdp.p", "vSd,vs,vt", 0x66000080#32, [.psp], [.vfpu, .vfpuPair], [.reg .vrd, .reg .vrs, .reg .vrt]⟩,
  ⟨"vhdp.t", "vSd,vs,vt", 0x66008000#32, [.psp], [.vfpu, .vfpuTriple], [.reg .vrd, .reg .vrs, .reg .vrt]⟩,
  ⟨"vhdp.q", "vSd,vs,vt", 0x66008080#32, [.psp], [.vfpu, .vfpuQuad], [.reg .vrd, .reg .vrs, .reg .vrt]⟩,
  ⟨"vcrs.t", "vd,vs,vt", 0x66808000#32, [.psp], [.vfpu, .vfpuTriple], [.reg .vrd, .reg .vrs, .reg .vrt]⟩,
  ⟨"vdet.p", "vSd,vs,vt", 0x67000080#32, [.psp], [.vfpu, .vfpuPair], [.reg .vrd, .reg .vrs, .reg .vrt]⟩,
  ⟨"vcmp.S", "C,vs,vt", 0x6C000000#32, [.psp], [.vfpu], [.size, .cond, .reg .vrs, .reg .vrt]⟩,
  ⟨"vmin.S", "vd,vs,vt", 0x6D000000#32, [.psp], [.vfpu], [.size, .reg .vrd, .reg .vrs, .reg .vrt]⟩,
  ⟨"vmax.S", "vd,vs,vt", 0x6D800000#32, [.psp], [.vfpu], [.size, .reg .vrd, .reg .vrs, .reg .vrt]⟩,
  ⟨"vscmp.S", "vd,vs,vt", 0x6E800000#32, [.psp], [.vfpu], [.size, .reg .vrd, .reg .vrs, .reg .vrt]⟩,
  ⟨"vsge.S", "vd,vs,vt", 0x6F000000#32, [.psp], [.vfpu], [.size, .reg .vrd, .reg .vrs, .reg .vrt]⟩,
  ⟨"vslt.S", "vd,vs,vt", 0x6F800000#32, [.psp], [.vfpu], [.size, .reg .vrd, .reg .vrs, .reg .vrt]⟩,
  ⟨"ext", "t,s,i5,je", 0x7C000000#32, [.psp], [], [.reg .grt, .reg .grs, .imm .i5, .sec .ext]⟩,
  ⟨"ins", "t,s,i5,ji", 0x7C000004#32, [.psp], [], [.reg .grt, .reg .grs, .imm .i5, .sec .ins]⟩,
  ⟨"wsbh", "d,t", 0x7C0000A0#32, [.psp], [], [.reg .grd, .reg .grt]⟩,
  ⟨"wsbh", "d", 0x7C0000A0#32, [.psp], [], [.reg .grd]⟩,
  ⟨"wsbw", "d,t", 0x7C0000E0#32, [.psp], [], [.reg .grd, .reg .grt]⟩,
  ⟨"wsbw", "d", 0x7C0000E0#32, [.psp], [], [.reg .grd]⟩,
  ⟨"seb", "d,t", 0x7C000420#32, [.psp], [], [.reg .grd, .reg .grt]⟩,
  ⟨"seb", "d", 0x7C000420#32, [.psp], [], [.reg .grd]⟩,
  ⟨"bitrev", "d,t", 0x7C000520#32, [.psp], [], [.reg .grd, .reg .grt]⟩,
  ⟨"bitrev", "d", 0x7C000520#32, [.psp], [], [.reg .grd]⟩,
  ⟨"seh", "d,t", 0x7C000620#32, [.psp], [], [.reg .grd, .reg .grt]⟩,
  ⟨"seh", "d", 0x7C000620#32, [.psp], [], [.reg .grd]⟩,
  ⟨"vcst.S", "vd,Wc", 0xD0600000#32, [.psp], [.vfpu], [.size, .reg .vrd, .imm .i5]⟩,
  ⟨"vf2in.S", "vd,vs,i5", 0xD2000000#32, [.psp], [.vfpu], [.size, .reg .vrd, .reg .vrs, .imm .i5]⟩,
  ⟨"vf2iz.S", "vd,vs,i5", 0xD2200000#32, [.psp], [.vfpu], [.size, .reg .vrd, .reg .vrs, .imm .i5]⟩,
  ⟨"vf2iu.S", "vd,vs,i5", 0xD2400000#32, [.psp], [.vfpu], [.size, .reg .vrd, .reg .vrs, .imm .i5]⟩,
  ⟨"vf2id.S", "vd,vs,i5", 0xD2600000#32, [.psp], [.vfpu], [.size, .reg .vrd, .reg .vrs, .imm .i5]⟩,
  ⟨"vi2f.S", "vd,vs,i5", 0xD2800000#32, [.psp], [.vfpu], [.size, .reg .vrd, .reg .vrs, .imm .i5]⟩,
  ⟨"vcmovt.S", "vd,vs,i5", 0xD2A00000#32, [.psp], [.vfpu], [.size, .reg .vrd, .reg .vrs, .imm .i5]⟩,
  ⟨"vcmovf.S", "vd,vs,i5", 0xD2A80000#32, [.psp], [.vfpu], [.size, .reg .vrd, .reg .vrs, .imm .i5]⟩,
  ⟨"vwbn.S", "vd,vs,i5", 0xD3000000#32, [.psp], [.vfpu], [.size, .reg .vrd, .reg .vrs, .imm .i5]⟩,
  ⟨"vmov.S", "vd,vs", 0xD0000000#32, [.psp], [.vfpu], [.size, .reg .vrd, .reg .vrs]⟩,
  ⟨"vabs.S", "vd,vs", 0xD0010000#32, [.psp], [.vfpu], [.size, .reg .vrd, .reg .vrs]⟩,
  ⟨"vneg.S", "vd,vs", 0xD0020000#32, [.psp], [.vfpu], [.size, .reg .vrd, .reg .vrs]⟩,
  ⟨"vidt.S", "vd", 0xD0030000#32, [.psp], [.vfpu], [.size, .reg .vrd]⟩,
  ⟨"vsat0.S", "vd,vs", 0xD0040000#32, [.psp], [.vfpu], [.size, .reg .vrd, .reg .vrs]⟩,
  ⟨"vsat1.S", "vd,vs", 0xD0050000#32, [.psp], [.vfpu], [.size, .reg .vrd, .reg .vrs]⟩,
  ⟨"vzero.S", "vd", 0xD0060000#32, [.psp], [.vfpu], [.size, .reg .vrd]⟩,
  ⟨"vone.S", "vd", 0xD0070000#32, [.psp], [.vfpu], [.size, .reg .vrd]⟩,
  ⟨"vrcp.S", "vd,vs", 0xD0100000#32, [.psp], [.vfpu], [.size, .reg .vrd, .reg .vrs]⟩,
  ⟨"vrsq.S", "vd,vs", 0xD0110000#32, [.psp], [.vfpu], [.size, .reg .vrd, .reg .vrs]⟩,
  ⟨"vsin.S", "vd,vs", 0xD0120000#32, [.psp], [.vfpu], [.size, .reg .vrd, .reg .vrs]⟩,
  ⟨"vcos.S", "vd,vs", 0xD0130000#32, [.psp], [.vfpu], [.size, .reg .vrd, .reg .vrs]⟩,
  ⟨"vexp2.S", "vd,vs", 0xD0140000#32, [.psp], [.vfpu], [.size, .reg .vrd, .reg .vrs]⟩,
  ⟨"vlog2.S", "vd,vs", 0xD0150000#32, [.psp], [.vfpu], [.size, .reg .vrd, .reg .vrs]⟩,
  ⟨"vsqrt.S", "vd,vs", 0xD0160000#32, [.psp], [.vfpu], [.size, .reg .vrd, .reg .vrs]⟩,
  ⟨"vasin.S", "vd,vs", 0xD0170000#32, [.psp], [.vfpu], [.size, .reg .vrd, .reg .vrs]⟩,
  ⟨"vnrcp.S", "vd,vs", 0xD0180000#32, [.psp], [.vfpu], [.size, .reg .vrd, .reg .vrs]⟩,
  ⟨"vnsin.S", "vd,vs", 0xD01A0000#32, [.psp], [.vfpu], [.size, .reg .vrd, .reg .vrs]⟩,
  ⟨"vrexp2.S", "vd,vs", 0xD01C0000#32, [.psp], [.vfpu], [.size, .reg .vrd, .reg .vrs]⟩,
  ⟨"vrnds.S", "vd", 0xD0200000#32, [.psp], [.vfpu], [.size, .reg .vrd]⟩,
  ⟨"vrndi.S", "vd", 0xD0210000#32, [.psp], [.vfpu], [.size, .reg .vrd]⟩,
  ⟨"vrndf1.S", "vd", 0xD0220000#32, [.psp], [.vfpu], [.size, .reg .vrd]⟩,
  ⟨"vrndf2.S", "vd", 0xD0230000#32, [.psp], [.vfpu], [.size, .reg .vrd]⟩,
  ⟨"vf2h.S", "vHd,vs", 0xD0320000#32, [.psp], [.vfpu], [.size, .reg .vrd, .reg .vrs]⟩,
  ⟨"vh2f.S", "vDd,vs", 0xD0330000#32, [.psp], [.vfpu], [.size, .reg .vrd, .reg .vrs]⟩,
  ⟨"vlgb.S", "vd,vs", 0xD0370000#32, [.psp], [.vfpu], [.size, .reg .vrd, .reg .vrs]⟩,
  ⟨"vuc2ifs.S", "vQd,vs", 0xD0380000#32, [.psp], [.vfpu], [.size, .reg .vrd, .reg .vrs]⟩,
  ⟨"vc2i.S", "vQd,vs", 0xD0390000#32, [.psp], [.vfpu], [.size, .reg .vrd, .reg .vrs]⟩,
  ⟨"vus2i.S", "vDd,vs", 0xD03A0000#32, [.psp], [.vfpu], [.size, .reg .vrd, .reg .vrs]⟩,
  ⟨"vs2i.S", "vDd,vs", 0xD03B0000#32, [.psp], [.vfpu], [.size, .reg .vrd, .reg .vrs]⟩,
  ⟨"vi2uc.S", "vFd,vs", 0xD03C0000#32, [.psp], [.vfpu], [.size, .reg .vrd, .reg .vrs]⟩,
  ⟨"vi2c.S", "vFd,vs", 0xD03D0000#32, [.psp], [.vfpu], [.size, .reg .vrd, .reg .vrs]⟩]

/-- `MipsOpcodes.cpp:18-1035` `MipsOpcodes`, rows 500 to 599. -/
def opcodes5 : List Op := [
  ⟨"vi2us.S", "vHd,vs", 0xD03E0000#32, [.psp], [.vfpu], [.size, .reg .vrd, .reg .vrs]⟩,
  ⟨"vi2s.S", "vHd,vs", 0xD03F0000#32, [.psp], [.vfpu], [.size, .reg .vrd, .reg .vrs]⟩,
  ⟨"vsrt1.S", "vd,vs", 0xD0400000#32, [.psp], [.vfpu], [.size, .reg .vrd, .reg .vrs]⟩,
  ⟨"vsrt2.S", "vd,vs", 0xD0410000#32, [.psp], [.vfpu], [.size, .reg .vrd, .reg .vrs]⟩,
  ⟨"vbfy1.S", "vd,vs", 0xD0420000#32, [.psp], [.vfpu], [.size, .reg .vrd, .reg .vrs]⟩,
  ⟨"vbfy2.S", "vd,vs", 0xD0430000#32, [.psp], [.vfpu], [.size, .reg .vrd, .reg .vrs]⟩,
  ⟨"vocp.S", "vd,vs", 0xD0440000#32, [.psp], [.vfpu], [.size, .reg .vrd, .reg .vrs]⟩,
  ⟨"vsocp.S", "vd,vs", 0xD0450000#32, [.psp], [.vfpu], [.size, .reg .vrd, .reg .vrs]⟩,
  ⟨"vfad.p", "vSd,vs", 0xD0460080#32, [.psp], [.vfpu, .vfpuPair], [.reg .vrd, .reg .vrs]⟩,
  ⟨"vfad.t", "vSd,vs", 0xD0468000#32, [.psp], [.vfpu, .vfpuTriple], [.reg .vrd, .reg .vrs]⟩,
  ⟨"vfad.q", "vSd,vs", 0xD0468080#32, [.psp], [.vfpu, .vfpuQuad], [.reg .vrd, .reg .vrs]⟩,
  ⟨"vavg.p", "vSd,vs", 0xD0470080#32, [.psp], [.vfpu, .vfpuPair], [.reg .vrd, .reg .vrs]⟩,
  ⟨"vavg.t", "vSd,vs", 0xD0478000#32, [.psp], [.vfpu, .vfpuTriple], [.reg .vrd, .reg .vrs]⟩,
  ⟨"vavg.q", "vSd,vs", 0xD0478080#32, [.psp], [.vfpu, .vfpuQuad], [.reg .vrd, .reg .vrs]⟩,
  ⟨"vsrt3.S", "vd,vs", 0xD0480000#32, [.psp], [.vfpu], [.size, .reg .vrd, .reg .vrs]⟩,
  ⟨"vsrt4.S", "vd,vs", 0xD0490000#32, [.psp], [.vfpu], [.size, .reg .vrd, .reg .vrs]⟩,
  ⟨"vsgn.S", "vd,vs", 0xD04A0000#32, [.psp], [.vfpu], [.size, .reg .vrd, .reg .vrs]⟩,
  ⟨"vmfv.S", "vs,i7", 0xD0500000#32, [.psp], [.vfpu], [.size, .reg .vrs, .imm .i7]⟩,
  ⟨"vmtv.S", "vs,i7", 0xD0510000#32, [.psp], [.vfpu], [.size, .reg .vrs, .imm .i7]⟩,
  ⟨"vmfvc.S", "vs,i7", 0xD0500080#32, [.psp], [.vfpu], [.size, .reg .vrs, .imm .i7]⟩,
  ⟨"vmtvc.S", "vs,i7", 0xD0510080#32, [.psp], [.vfpu], [.size, .reg .vrs, .imm .i7]⟩,
  ⟨"vt4444.S", "vHd,vs", 0xD0590000#32, [.psp], [.vfpu], [.size, .reg .vrd, .reg .vrs]⟩,
  ⟨"vt5551.S", "vHd,vs", 0xD05A0000#32, [.psp], [.vfpu], [.size, .reg .vrd, .reg .vrs]⟩,
  ⟨"vt5650.S", "vHd,vs", 0xD05B0000#32, [.psp], [.vfpu], [.size, .reg .vrd, .reg .vrs]⟩,
  ⟨"vpfxs", "Ws", 0xDC000000#32, [.psp], [], [.imm .i20_0]⟩,
  ⟨"vpfxt", "Ws", 0xDD000000#32, [.psp], [], [.imm .i20_0]⟩,
  ⟨"vpfxd", "Wd", 0xDE000000#32, [.psp], [], [.imm .i16]⟩,
  ⟨"viim.s", "vt,i16", 0xDF000000#32, [.psp], [.vfpuSingle], [.reg .vrt, .imm .i16]⟩,
  ⟨"vfim.s", "vt,ih", 0xDF800000#32, [.psp], [.vfpuSingle], [.reg .vrt, .imm .half]⟩,
  ⟨"vmmul.S", "md,ms,mt", 0xF0000000#32, [.psp], [.vfpu, .vfpuTransposeVs], [.size, .reg .vrd, .reg .vrs, .reg .vrt]⟩,
  ⟨"vtfm2.p", "vd,ms,vt", 0xF0800080#32, [.psp], [.vfpu, .vfpuPair], [.reg .vrd, .reg .vrs, .reg .vrt]⟩,
  ⟨"vhtfm2.p", "vd,ms,vt", 0xF1000080#32, [.psp], [.vfpu, .vfpuPair], [.reg .vrd, .reg .vrs, .reg .vrt]⟩,
  ⟨"vtfm3.t", "vd,ms,vt", 0xF1008000#32, [.psp], [.vfpu, .vfpuTriple], [.reg .vrd, .reg .vrs, .reg .vrt]⟩,
  ⟨"vhtfm3.t", "vd,ms,vt", 0xF1808000#32, [.psp], [.vfpu, .vfpuTriple], [.reg .vrd, .reg .vrs, .reg .vrt]⟩,
  ⟨"vtfm4.q", "vd,ms,vt", 0xF1808080#32, [.psp], [.vfpu, .vfpuQuad], [.reg .vrd, .reg .vrs, .reg .vrt]⟩,
  ⟨"vmscl.S", "md,ms,vSt", 0xF2000000#32, [.psp], [.vfpu], [.size, .reg .vrd, .reg .vrs, .reg .vrt]⟩,
  ⟨"vcrsp.t", "vd,vs,vt", 0xF2808000#32, [.psp], [.vfpu, .vfpuTriple], [.reg .vrd, .reg .vrs, .reg .vrt]⟩,
  ⟨"vqmul.q", "vd,vs,vt", 0xF2808080#32, [.psp], [.vfpu, .vfpuQuad], [.reg .vrd, .reg .vrs, .reg .vrt]⟩,
  ⟨"vrot.S", "vd,vSs,Wr", 0xF3A00000#32, [.psp], [.vfpu], [.size, .reg .vrd, .reg .vrs, .imm .i5]⟩,
  ⟨"vmmov.S", "md,ms", 0xF3800000#32, [.psp], [.vfpu], [.size, .reg .vrd, .reg .vrs]⟩,
  ⟨"vmidt.S", "md", 0xF3830000#32, [.psp], [.vfpu], [.size, .reg .vrd]⟩,
  ⟨"vmzero.S", "md", 0xF3860000#32, [.psp], [.vfpu], [.size, .reg .vrd]⟩,
  ⟨"vmone.S", "md", 0xF3870000#32, [.psp], [.vfpu], [.size, .reg .vrd]⟩,
  ⟨"vmulf", "Rd,Rs,RtRe", 0x4A000000#32, [.rsp], [], [.reg .rspvrd, .reg .rspvrs, .reg .rspvrt, .reg .rspve]⟩,
  ⟨"vmulf", "Rs,RtRe", 0x4A000000#32, [.rsp], [.rspVrsd], [.reg .rspvrs, .reg .rspvrt, .reg .rspve]⟩,
  ⟨"vmulu", "Rd,Rs,RtRe", 0x4A000001#32, [.rsp], [], [.reg .rspvrd, .reg .rspvrs, .reg .rspvrt, .reg .rspve]⟩,
  ⟨"vmulu", "Rs,RtRe", 0x4A000001#32, [.rsp], [.rspVrsd], [.reg .rspvrs, .reg .rspvrt, .reg .rspve]⟩,
  ⟨"vrndp", "Rd,Rs,RtRe", 0x4A000002#32, [.rsp], [], [.reg .rspvrd, .reg .rspvrs, .reg .rspvrt, .reg .rspve]⟩,
  ⟨"vrndp", "Rs,RtRe", 0x4A000002#32, [.rsp], [.rspVrsd], [.reg .rspvrs, .reg .rspvrt, .reg .rspve]⟩,
  ⟨"vmulq", "Rd,Rs,RtRe", 0x4A000003#32, [.rsp], [], [.reg .rspvrd, .reg .rspvrs, .reg .rspvrt, .reg .rspve]⟩,
  ⟨"vmulq", "Rs,RtRe", 0x4A000003#32, [.rsp], [.rspVrsd], [.reg .rspvrs, .reg .rspvrt, .reg .rspve]⟩,
  ⟨"vmudl", "Rd,Rs,RtRe", 0x4A000004#32, [.rsp], [], [.reg .rspvrd, .reg .rspvrs, .reg .rspvrt, .reg .rspve]⟩,
  ⟨"vmudl", "Rs,RtRe", 0x4A000004#32, [.rsp], [.rspVrsd], [.reg .rspvrs, .reg .rspvrt, .reg .rspve]⟩,
  ⟨"vmudm", "Rd,Rs,RtRe", 0x4A000005#32, [.rsp], [], [.reg .rspvrd, .reg .rspvrs, .reg .rspvrt, .reg .rspve]⟩,
  ⟨"vmudm", "Rs,RtRe", 0x4A000005#32, [.rsp], [.rspVrsd], [.reg .rspvrs, .reg .rspvrt, .reg .rspve]⟩,
  ⟨"vmudn", "Rd,Rs,RtRe", 0x4A000006#32, [.rsp], [], [.reg .rspvrd, .reg .rspvrs, .reg .rspvrt, .reg .rspve]⟩,
  ⟨"vmudn", "Rs,RtRe", 0x4A000006#32, [.rsp], [.rspVrsd], [.reg .rspvrs, .reg .rspvrt, .reg .rspve]⟩,
  ⟨"vmudh", "Rd,Rs,RtRe", 0x4A000007#32, [.rsp], [], [.reg .rspvrd, .reg .rspvrs, .reg .rspvrt, .reg .rspve]⟩,
  ⟨"vmudh", "Rs,RtRe", 0x4A000007#32, [.rsp], [.rspVrsd], [.reg .rspvrs, .reg .rspvrt, .reg .rspve]⟩,
  ⟨"vmacf", "Rd,Rs,RtRe", 0x4A000008#32, [.rsp], [], [.reg .rspvrd, .reg .rspvrs, .reg .rspvrt, .reg .rspve]⟩,
  ⟨"vmacf", "Rs,RtRe", 0x4A000008#32, [.rsp], [.rspVrsd], [.reg .rspvrs, .reg .rspvrt, .reg .rspve]⟩,
  ⟨"vmacu", "Rd,Rs,RtRe", 0x4A000009#32, [.rsp], [], [.reg .rspvrd, .reg .rspvrs, .reg .rspvrt, .reg .rspve]⟩,
  ⟨"vmacu", "Rs,RtRe", 0x4A000009#32, [.rsp], [.rspVrsd], [.reg .rspvrs, .reg .rspvrt, .reg .rspve]⟩,
  ⟨"vrndn", "Rd,Rs,RtRe", 0x4A00000A#32, [.rsp], [], [.reg .rspvrd, .reg .rspvrs, .reg .rspvrt, .reg .rspve]⟩,
  ⟨"vrndn", "Rs,RtRe", 0x4A00000A#32, [.rsp], [.rspVrsd], [.reg .rspvrs, .reg .rspvrt, .reg .rspve]⟩,
  ⟨"vmacq", "Rd,Rs,RtRe", 0x4A00000B#32, [.rsp], [], [.reg .rspvrd, .reg .rspvrs, .reg .rspvrt, .reg .rspve]⟩,
  ⟨"vmacq", "Rs,RtRe", 0x4A00000B#32, [.rsp], [.rspVrsd], [.reg .rspvrs, .reg .rspvrt, .reg .rspve]⟩,
  ⟨"vmadl", "Rd,Rs,RtRe", 0x4A00000C#32, [.rsp], [], [.reg .rspvrd, .reg .rspvrs, .reg .rspvrt, .reg .rspve]⟩,
  ⟨"vmadl", "Rs,RtRe", 0x4A00000C#32, [.rsp], [.rspVrsd], [.reg .rspvrs, .reg .rspvrt, .reg .rspve]⟩,
  ⟨"vmadm", "Rd,Rs,RtRe", 0x4A00000D#32, [.rsp], [], [.reg .rspvrd, .reg .rspvrs, .reg .rspvrt, .reg .rspve]⟩,
  ⟨"vmadm", "Rs,RtRe", 0x4A00000D#32, [.rsp], [.rspVrsd], [.reg .rspvrs, .reg .rspvrt, .reg .rspve]⟩,
  ⟨"vmadn", "Rd,Rs,RtRe", 0x4A00000E#32, [.rsp], [], [.reg .rspvrd, .reg .rspvrs, .reg .rspvrt, .reg .rspve]⟩,
  ⟨"vmadn", "Rs,RtRe", 0x4A00000E#32, [.rsp], [.rspVrsd], [.reg .rspvrs, .reg .rspvrt, .reg .rspve]⟩,
  ⟨"vmadh", "Rd,Rs,RtRe", 0x4A00000F#32, [.rsp], [], [.reg .rspvrd, .reg .rspvrs, .reg .rspvrt, .reg .rspve]⟩,
  ⟨"vmadh", "Rs,RtRe", 0x4A00000F#32, [.rsp], [.rspVrsd], [.reg .rspvrs, .reg .rspvrt, .reg .rspve]⟩,
  ⟨"vadd", "Rd,Rs,RtRe", 0x4A000010#32, [.rsp], [], [.reg .rspvrd, .reg .rspvrs, .reg .rspvrt, .reg .rspve]⟩,
  ⟨"vadd", "Rs,RtRe", 0x4A000010#32, [.rsp], [.rspVrsd], [.reg .rspvrs, .reg .rspvrt, .reg .rspve]⟩,
  ⟨"vsub", "Rd,Rs,RtRe", 0x4A000011#32, [.rsp], [], [.reg .rspvrd, .reg .rspvrs, .reg .rspvrt, .reg .rspve]⟩,
  ⟨"vsub", "Rs,RtRe", 0x4A000011#32, [.rsp], [.rspVrsd], [.reg .rspvrs, .reg .rspvrt, .reg .rspve]⟩,
  ⟨"vsut", "Rd,Rs,RtRe", 0x4A000012#32, [.rsp], [], [.reg .rspvrd, .reg .rspvrs, .reg .rspvrt, .reg .rspve]⟩,
  ⟨"vsut", "Rs,RtRe", 0x4A000012#32, [.rsp], [.rspVrsd], [.reg .rspvrs, .reg .rspvrt, .reg .rspve]⟩,
  ⟨"vabs", "Rd,Rs,RtRe", 0x4A000013#32, [.rsp], [], [.reg .rspvrd, .reg .rspvrs, .reg .rspvrt, .reg .rspve]⟩,
  ⟨"vabs", "Rs,RtRe", 0x4A000013#32, [.rsp], [.rspVrsd], [.reg .rspvrs, .reg .rspvrt, .reg .rspve]⟩,
  ⟨"vaddc", "Rd,Rs,RtRe", 0x4A000014#32, [.rsp], [], [.reg .rspvrd, .reg .rspvrs, .reg .rspvrt, .reg .rspve]⟩,
  ⟨"vaddc", "Rs,RtRe", 0x4A000014#32, [.rsp], [.rspVrsd], [.reg .rspvrs, .reg .rspvrt, .reg .rspve]⟩,
  ⟨"vsubc", "Rd,Rs,RtRe", 0x4A000015#32, [.rsp], [], [.reg .rspvrd, .reg .rspvrs, .reg .rspvrt, .reg .rspve]⟩,
  ⟨"vsubc", "Rs,RtRe", 0x4A000015#32, [.rsp], [.rspVrsd], [.reg .rspvrs, .reg .rspvrt, .reg .rspve]⟩,
  ⟨"vaddb", "Rd,Rs,RtRe", 0x4A000016#32, [.rsp], [], [.reg .rspvrd, .reg .rspvrs, .reg .rspvrt, .reg .rspve]⟩,
  ⟨"vaddb", "Rs,RtRe", 0x4A000016#32, [.rsp], [.rspVrsd], [.reg .rspvrs, .reg .rspvrt, .reg .rspve]⟩,
  ⟨"vsubb", "Rd,Rs,RtRe", 0x4A000017#32, [.rsp], [], [.reg .rspvrd, .reg .rspvrs, .reg .rspvrt, .reg .rspve]⟩,
  ⟨"vsubb", "Rs,RtRe", 0x4A000017#32, [.rsp], [.rspVrsd], [.reg .rspvrs, .reg .rspvrt, .reg .rspve]⟩,
  ⟨"vaccb", "Rd,Rs,RtRe", 0x4A000018#32, [.rsp], [], [.reg .rspvrd, .reg .rspvrs, .reg .rspvrt, .reg .rspve]⟩,
  ⟨"vaccb", "Rs,RtRe", 0x4A000018#32, [.rsp], [.rspVrsd], [.reg .rspvrs, .reg .rspvrt, .reg .rspve]⟩,
  ⟨"vsucb", "Rd,Rs,RtRe", 0x4A000019#32, [.rsp], [], [.reg .rspvrd, .reg .rspvrs, .reg .rspvrt, .reg .rspve]⟩,
  ⟨"vsucb", "Rs,RtRe", 0x4A000019#32, [.rsp], [.rspVrsd], [.reg .rspvrs, .reg .rspvrt, .reg .rspve]⟩,
  ⟨"vsad", "Rd,Rs,RtRe", 0x4A00001A#32, [.rsp], [], [.reg .rspvrd, .reg .rspvrs, .reg .rspvrt, .reg .rspve]⟩,
  ⟨"vsad", "Rs,RtRe", 0x4A00001A#32, [.rsp], [.rspVrsd], [.reg .rspvrs, .reg .rspvrt, .reg .rspve]⟩,
  ⟨"vsac", "Rd,Rs,RtRe", 0x4A00001B#32, [.rsp], [], [.reg .rspvrd, .reg .rspvrs, .reg .rspvrt, .reg .rspve]⟩,
  ⟨"vsac", "Rs,RtRe", 0x4A00001B#32, [.rsp], [.rspVrsd], [.reg .rspvrs, .reg .rspvrt, .reg .rspve]⟩,
  ⟨"vsum", "Rd,Rs,RtRe", 0x4A00001C#32, [.rsp], [], [.reg .rspvrd, .reg .rspvrs, .reg .rspvrt, .reg .rspve]⟩]

/-- `MipsOpcodes.cpp:18-1035` `MipsOpcodes`, rows 600 to 699. -/
def opcodes6 : List Op := [
  ⟨"vsum", "Rs,RtRe", 0x4A00001C#32, [.rsp], [.rspVrsd], [.reg .rspvrs, .reg .rspvrt, .reg .rspve]⟩,
  ⟨"vsar", "Rd,Rs,RtRe", 0x4A00001D#32, [.rsp], [], [.reg .rspvrd, .reg .rspvrs, .reg .rspvrt, .reg .rspve]⟩,
  ⟨"vsar", "Rs,RtRe", 0x4A00001D#32, [.rsp], [.rspVrsd], [.reg .rspvrs, .reg .rspvrt, .reg .rspve]⟩,
  ⟨"vacc", "Rd,Rs,RtRe", 0x4A00001E#32, [.rsp], [], [.reg .rspvrd, .reg .rspvrs, .reg .rspvrt, .reg .rspve]⟩,
  ⟨"vacc", "Rs,RtRe", 0x4A00001E#32, [.rsp], [.rspVrsd], [.reg .rspvrs, .reg .rspvrt, .reg .rspve]⟩,
  ⟨"vsuc", "Rd,Rs,RtRe", 0x4A00001F#32, [.rsp], [], [.reg .rspvrd, .reg .rspvrs, .reg .rspvrt, .reg .rspve]⟩,
  ⟨"vsuc", "Rs,RtRe", 0x4A00001F#32, [.rsp], [.rspVrsd], [.reg .rspvrs, .reg .rspvrt, .reg .rspve]⟩,
  ⟨"vlt", "Rd,Rs,RtRe", 0x4A000020#32, [.rsp], [], [.reg .rspvrd, .reg .rspvrs, .reg .rspvrt, .reg .rspve]⟩,
  ⟨"vlt", "Rs,RtRe", 0x4A000020#32, [.rsp], [.rspVrsd], [.reg .rspvrs, .reg .rspvrt, .reg .rspve]⟩,
  ⟨"veq", "Rd,Rs,RtRe", 0x4A000021#32, [.rsp], [], [.reg .rspvrd, .reg .rspvrs, .reg .rspvrt, .reg .rspve]⟩,
  ⟨"veq", "Rs,RtRe", 0x4A000021#32, [.rsp], [.rspVrsd], [.reg .rspvrs, .reg .rspvrt, .reg .rspve]⟩,
  ⟨"vne", "Rd,Rs,RtRe", 0x4A000022#32, [.rsp], [], [.reg .rspvrd, .reg .rspvrs, .reg .rspvrt, .reg .rspve]⟩,
  ⟨"vne", "Rs,RtRe", 0x4A000022#32, [.rsp], [.rspVrsd], [.reg .rspvrs, .reg .rspvrt, .reg .rspve]⟩,
  ⟨"vge", "Rd,Rs,RtRe", 0x4A000023#32, [.rsp], [], [.reg .rspvrd, .reg .rspvrs, .reg .rspvrt, .reg .rspve]⟩,
  ⟨"vge", "Rs,RtRe", 0x4A000023#32, [.rsp], [.rspVrsd], [.reg .rspvrs, .reg .rspvrt, .reg .rspve]⟩,
  ⟨"vcl", "Rd,Rs,RtRe", 0x4A000024#32, [.rsp], [], [.reg .rspvrd, .reg .rspvrs, .reg .rspvrt, .reg .rspve]⟩,
  ⟨"vcl", "Rs,RtRe", 0x4A000024#32, [.rsp], [.rspVrsd], [.reg .rspvrs, .reg .rspvrt, .reg .rspve]⟩,
  ⟨"vch", "Rd,Rs,RtRe", 0x4A000025#32, [.rsp], [], [.reg .rspvrd, .reg .rspvrs, .reg .rspvrt, .reg .rspve]⟩,
  ⟨"vch", "Rs,RtRe", 0x4A000025#32, [.rsp], [.rspVrsd], [.reg .rspvrs, .reg .rspvrt, .reg .rspve]⟩,
  ⟨"vcr", "Rd,Rs,RtRe", 0x4A000026#32, [.rsp], [], [.reg .rspvrd, .reg .rspvrs, .reg .rspvrt, .reg .rspve]⟩,
  ⟨"vcr", "Rs,RtRe", 0x4A000026#32, [.rsp], [.rspVrsd], [.reg .rspvrs, .reg .rspvrt, .reg .rspve]⟩,
  ⟨"vmrg", "Rd,Rs,RtRe", 0x4A000027#32, [.rsp], [], [.reg .rspvrd, .reg .rspvrs, .reg .rspvrt, .reg .rspve]⟩,
  ⟨"vmrg", "Rs,RtRe", 0x4A000027#32, [.rsp], [.rspVrsd], [.reg .rspvrs, .reg .rspvrt, .reg .rspve]⟩,
  ⟨"vand", "Rd,Rs,RtRe", 0x4A000028#32, [.rsp], [], [.reg .rspvrd, .reg .rspvrs, .reg .rspvrt, .reg .rspve]⟩,
  ⟨"vand", "Rs,RtRe", 0x4A000028#32, [.rsp], [.rspVrsd], [.reg .rspvrs, .reg .rspvrt, .reg .rspve]⟩,
  ⟨"vnand", "Rd,Rs,RtRe", 0x4A000029#32, [.rsp], [], [.reg .rspvrd, .reg .rspvrs, .reg .rspvrt, .reg .rspve]⟩,
  ⟨"vnand", "Rs,RtRe", 0x4A000029#32, [.rsp], [.rspVrsd], [.reg .rspvrs, .reg .rspvrt, .reg .rspve]⟩,
  ⟨"vor", "Rd,Rs,RtRe", 0x4A00002A#32, [.rsp], [], [.reg .rspvrd, .reg .rspvrs, .reg .rspvrt, .reg .rspve]⟩,
  ⟨"vor", "Rs,RtRe", 0x4A00002A#32, [.rsp], [.rspVrsd], [.reg .rspvrs, .reg .rspvrt, .reg .rspve]⟩,
  ⟨"vnor", "Rd,Rs,RtRe", 0x4A00002B#32, [.rsp], [], [.reg .rspvrd, .reg .rspvrs, .reg .rspvrt, .reg .rspve]⟩,
  ⟨"vnor", "Rs,RtRe", 0x4A00002B#32, [.rsp], [.rspVrsd], [.reg .rspvrs, .reg .rspvrt, .reg .rspve]⟩,
  ⟨"vxor", "Rd,Rs,RtRe", 0x4A00002C#32, [.rsp], [], [.reg .rspvrd, .reg .rspvrs, .reg .rspvrt, .reg .rspve]⟩,
  ⟨"vxor", "Rs,RtRe", 0x4A00002C#32, [.rsp], [.rspVrsd], [.reg .rspvrs, .reg .rspvrt, .reg .rspve]⟩,
  ⟨"vnxor", "Rd,Rs,RtRe", 0x4A00002D#32, [.rsp], [], [.reg .rspvrd, .reg .rspvrs, .reg .rspvrt, .reg .rspve]⟩,
  ⟨"vnxor", "Rs,RtRe", 0x4A00002D#32, [.rsp], [.rspVrsd], [.reg .rspvrs, .reg .rspvrt, .reg .rspve]⟩,
  ⟨"vrcp", "RdRm,RtRl", 0x4A000030#32, [.rsp], [], [.reg .rspvrd, .reg .rspvde, .reg .rspvrt, .reg .rspve]⟩,
  ⟨"vrcpl", "RdRm,RtRl", 0x4A000031#32, [.rsp], [], [.reg .rspvrd, .reg .rspvde, .reg .rspvrt, .reg .rspve]⟩,
  ⟨"vrcph", "RdRm,RtRl", 0x4A000032#32, [.rsp], [], [.reg .rspvrd, .reg .rspvde, .reg .rspvrt, .reg .rspve]⟩,
  ⟨"vmov", "RdRm,RtRl", 0x4A000033#32, [.rsp], [], [.reg .rspvrd, .reg .rspvde, .reg .rspvrt, .reg .rspve]⟩,
  ⟨"vrsq", "RdRm,RtRl", 0x4A000034#32, [.rsp], [], [.reg .rspvrd, .reg .rspvde, .reg .rspvrt, .reg .rspve]⟩,
  ⟨"vrsql", "RdRm,RtRl", 0x4A000035#32, [.rsp], [], [.reg .rspvrd, .reg .rspvde, .reg .rspvrt, .reg .rspve]⟩,
  ⟨"vrsqh", "RdRm,RtRl", 0x4A000036#32, [.rsp], [], [.reg .rspvrd, .reg .rspvde, .reg .rspvrt, .reg .rspve]⟩,
  ⟨"vnop", "", 0x4A000037#32, [.rsp], [], []⟩,
  ⟨"vextt", "Rd,Rs,RtRe", 0x4A000038#32, [.rsp], [], [.reg .rspvrd, .reg .rspvrs, .reg .rspvrt, .reg .rspve]⟩,
  ⟨"vextt", "Rs,RtRe", 0x4A000038#32, [.rsp], [.rspVrsd], [.reg .rspvrs, .reg .rspvrt, .reg .rspve]⟩,
  ⟨"vextq", "Rd,Rs,RtRe", 0x4A000039#32, [.rsp], [], [.reg .rspvrd, .reg .rspvrs, .reg .rspvrt, .reg .rspve]⟩,
  ⟨"vextq", "Rs,RtRe", 0x4A000039#32, [.rsp], [.rspVrsd], [.reg .rspvrs, .reg .rspvrt, .reg .rspve]⟩,
  ⟨"vextn", "Rd,Rs,RtRe", 0x4A00003A#32, [.rsp], [], [.reg .rspvrd, .reg .rspvrs, .reg .rspvrt, .reg .rspve]⟩,
  ⟨"vextn", "Rs,RtRe", 0x4A00003A#32, [.rsp], [.rspVrsd], [.reg .rspvrs, .reg .rspvrt, .reg .rspve]⟩,
  ⟨"vinst", "Rd,Rs,RtRe", 0x4A00003C#32, [.rsp], [], [.reg .rspvrd, .reg .rspvrs, .reg .rspvrt, .reg .rspve]⟩,
  ⟨"vinst", "Rs,RtRe", 0x4A00003C#32, [.rsp], [.rspVrsd], [.reg .rspvrs, .reg .rspvrt, .reg .rspve]⟩,
  ⟨"vinsq", "Rd,Rs,RtRe", 0x4A00003D#32, [.rsp], [], [.reg .rspvrd, .reg .rspvrs, .reg .rspvrt, .reg .rspve]⟩,
  ⟨"vinsq", "Rs,RtRe", 0x4A00003D#32, [.rsp], [.rspVrsd], [.reg .rspvrs, .reg .rspvrt, .reg .rspve]⟩,
  ⟨"vinsn", "Rd,Rs,RtRe", 0x4A00003E#32, [.rsp], [], [.reg .rspvrd, .reg .rspvrs, .reg .rspvrt, .reg .rspve]⟩,
  ⟨"vinsn", "Rs,RtRe", 0x4A00003E#32, [.rsp], [.rspVrsd], [.reg .rspvrs, .reg .rspvrt, .reg .rspve]⟩,
  ⟨"vnull", "", 0x4A00003F#32, [.rsp], [], []⟩,
  ⟨"lbv", "RtRo,i7(s)", 0xC8000000#32, [.rsp], [], [.reg .rspvrt, .reg .rspvealt, .imm .i7, .reg .grs]⟩,
  ⟨"lbv", "RtRo,(s)", 0xC8000000#32, [.rsp], [], [.reg .rspvrt, .reg .rspvealt, .reg .grs]⟩,
  ⟨"lsv", "RtRo,i7(s)", 0xC8000800#32, [.rsp], [.rspHw], [.reg .rspvrt, .reg .rspvealt, .imm .i7, .reg .grs]⟩,
  ⟨"lsv", "RtRo,(s)", 0xC8000800#32, [.rsp], [.rspHw], [.reg .rspvrt, .reg .rspvealt, .reg .grs]⟩,
  ⟨"llv", "RtRo,i7(s)", 0xC8001000#32, [.rsp], [.rspW], [.reg .rspvrt, .reg .rspvealt, .imm .i7, .reg .grs]⟩,
  ⟨"llv", "RtRo,(s)", 0xC8001000#32, [.rsp], [.rspW], [.reg .rspvrt, .reg .rspvealt, .reg .grs]⟩,
  ⟨"ldv", "RtRo,i7(s)", 0xC8001800#32, [.rsp], [.rspDw], [.reg .rspvrt, .reg .rspvealt, .imm .i7, .reg .grs]⟩,
  ⟨"ldv", "RtRo,(s)", 0xC8001800#32, [.rsp], [.rspDw], [.reg .rspvrt, .reg .rspvealt, .reg .grs]⟩,
  ⟨"lqv", "RtRo,i7(s)", 0xC8002000#32, [.rsp], [.rspQw], [.reg .rspvrt, .reg .rspvealt, .imm .i7, .reg .grs]⟩,
  ⟨"lqv", "RtRo,(s)", 0xC8002000#32, [.rsp], [.rspQw], [.reg .rspvrt, .reg .rspvealt, .reg .grs]⟩,
  ⟨"lrv", "RtRo,i7(s)", 0xC8002800#32, [.rsp], [.rspQw], [.reg .rspvrt, .reg .rspvealt, .imm .i7, .reg .grs]⟩,
  ⟨"lrv", "RtRo,(s)", 0xC8002800#32, [.rsp], [.rspQw], [.reg .rspvrt, .reg .rspvealt, .reg .grs]⟩,
  ⟨"lpv", "RtRo,i7(s)", 0xC8003000#32, [.rsp], [.rspDw], [.reg .rspvrt, .reg .rspvealt, .imm .i7, .reg .grs]⟩,
  ⟨"lpv", "RtRo,(s)", 0xC8003000#32, [.rsp], [.rspDw], [.reg .rspvrt, .reg .rspvealt, .reg .grs]⟩,
  ⟨"luv", "RtRo,i7(s)", 0xC8003800#32, [.rsp], [.rspDw], [.reg .rspvrt, .reg .rspvealt, .imm .i7, .reg .grs]⟩,
  ⟨"luv", "RtRo,(s)", 0xC8003800#32, [.rsp], [.rspDw], [.reg .rspvrt, .reg .rspvealt, .reg .grs]⟩,
  ⟨"lhv", "RtRo,i7(s)", 0xC8004000#32, [.rsp], [.rspQw], [.reg .rspvrt, .reg .rspvealt, .imm .i7, .reg .grs]⟩,
  ⟨"lhv", "RtRo,(s)", 0xC8004000#32, [.rsp], [.rspQw], [.reg .rspvrt, .reg .rspvealt, .reg .grs]⟩,
  ⟨"lfv", "RtRo,i7(s)", 0xC8004800#32, [.rsp], [.rspQw], [.reg .rspvrt, .reg .rspvealt, .imm .i7, .reg .grs]⟩,
  ⟨"lfv", "RtRo,(s)", 0xC8004800#32, [.rsp], [.rspQw], [.reg .rspvrt, .reg .rspvealt, .reg .grs]⟩,
  ⟨"ltv", "RtRo,i7(s)", 0xC8005800#32, [.rsp], [.rspQw], [.reg .rspvrt, .reg .rspvealt, .imm .i7, .reg .grs]⟩,
  ⟨"ltv", "RtRo,(s)", 0xC8005800#32, [.rsp], [.rspQw], [.reg .rspvrt, .reg .rspvealt, .reg .grs]⟩,
  ⟨"sbv", "RtRo,i7(s)", 0xE8000000#32, [.rsp], [], [.reg .rspvrt, .reg .rspvealt, .imm .i7, .reg .grs]⟩,
  ⟨"sbv", "RtRo,(s)", 0xE8000000#32, [.rsp], [], [.reg .rspvrt, .reg .rspvealt, .reg .grs]⟩,
  ⟨"ssv", "RtRo,i7(s)", 0xE8000800#32, [.rsp], [.rspHw], [.reg .rspvrt, .reg .rspvealt, .imm .i7, .reg .grs]⟩,
  ⟨"ssv", "RtRo,(s)", 0xE8000800#32, [.rsp], [.rspHw], [.reg .rspvrt, .reg .rspvealt, .reg .grs]⟩,
  ⟨"slv", "RtRo,i7(s)", 0xE8001000#32, [.rsp], [.rspW], [.reg .rspvrt, .reg .rspvealt, .imm .i7, .reg .grs]⟩,
  ⟨"slv", "RtRo,(s)", 0xE8001000#32, [.rsp], [.rspW], [.reg .rspvrt, .reg .rspvealt, .reg .grs]⟩,
  ⟨"sdv", "RtRo,i7(s)", 0xE8001800#32, [.rsp], [.rspDw], [.reg .rspvrt, .reg .rspvealt, .imm .i7, .reg .grs]⟩,
  ⟨"sdv", "RtRo,(s)", 0xE8001800#32, [.rsp], [.rspDw], [.reg .rspvrt, .reg .rspvealt, .reg .grs]⟩,
  ⟨"sqv", "RtRo,i7(s)", 0xE8002000#32, [.rsp], [.rspQw], [.reg .rspvrt, .reg .rspvealt, .imm .i7, .reg .grs]⟩,
  ⟨"sqv", "RtRo,(s)", 0xE8002000#32, [.rsp], [.rspQw], [.reg .rspvrt, .reg .rspvealt, .reg .grs]⟩,
  ⟨"srv", "RtRo,i7(s)", 0xE8002800#32, [.rsp], [.rspQw], [.reg .rspvrt, .reg .rspvealt, .imm .i7, .reg .grs]⟩,
  ⟨"srv", "RtRo,(s)", 0xE8002800#32, [.rsp], [.rspQw], [.reg .rspvrt, .reg .rspvealt, .reg .grs]⟩,
  ⟨"spv", "RtRo,i7(s)", 0xE8003000#32, [.rsp], [.rspDw], [.reg .rspvrt, .reg .rspvealt, .imm .i7, .reg .grs]⟩,
  ⟨"spv", "RtRo,(s)", 0xE8003000#32, [.rsp], [.rspDw], [.reg .rspvrt, .reg .rspvealt, .reg .grs]⟩,
  ⟨"suv", "RtRo,i7(s)", 0xE8003800#32, [.rsp], [.rspDw], [.reg .rspvrt, .reg .rspvealt, .imm .i7, .reg .grs]⟩,
  ⟨"suv", "RtRo,(s)", 0xE8003800#32, [.rsp], [.rspDw], [.reg .rspvrt, .reg .rspvealt, .reg .grs]⟩,
  ⟨"shv", "RtRo,i7(s)", 0xE8004000#32, [.rsp], [.rspQw], [.reg .rspvrt, .reg .rspvealt, .imm .i7, .reg .grs]⟩,
  ⟨"shv", "RtRo,(s)", 0xE8004000#32, [.rsp], [.rspQw], [.reg .rspvrt, .reg .rspvealt, .reg .grs]⟩,
  ⟨"sfv", "RtRo,i7(s)", 0xE8004800#32, [.rsp], [.rspQw], [.reg .rspvrt, .reg .rspvealt, .imm .i7, .reg .grs]⟩,
  ⟨"sfv", "RtRo,(s)", 0xE8004800#32, [.rsp], [.rspQw], [.reg .rspvrt, .reg .rspvealt, .reg .grs]⟩,
  ⟨"swv", "RtRo,i7(s)", 0xE8005000#32, [.rsp], [.rspQw], [.reg .rspvrt, .reg .rspvealt, .imm .i7, .reg .grs]⟩,
  ⟨"swv", "RtRo,(s)", 0xE8005000#32, [.rsp], [.rspQw], [.reg .rspvrt, .reg .rspvealt, .reg .grs]⟩]

/-- `MipsOpcodes.cpp:18-1035` `MipsOpcodes`, rows 700 to 701. -/
def opcodes7 : List Op := [
  ⟨"stv", "RtRo,i7(s)", 0xE8005800#32, [.rsp], [.rspQw], [.reg .rspvrt, .reg .rspvealt, .imm .i7, .reg .grs]⟩,
  ⟨"stv", "RtRo,(s)", 0xE8005800#32, [.rsp], [.rspQw], [.reg .rspvrt, .reg .rspvealt, .reg .grs]⟩]

/-- `MipsOpcodes.cpp:18-1035` `MipsOpcodes`. -/
def opcodes : List Op :=
  opcodes0 ++ opcodes1 ++ opcodes2 ++ opcodes3 ++ opcodes4 ++ opcodes5 ++ opcodes6 ++ opcodes7

end Armips.Mips
