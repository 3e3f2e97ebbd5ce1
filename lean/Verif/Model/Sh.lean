import Verif.Model.Arm
/-!
# SuperH instructions

Models `Archs/SuperH/CShInstruction.cpp` (`Validate`, `Encode`), the table `Archs/SuperH/ShOpcodes.cpp` and the operand parser of
`Archs/SuperH/ShParser.cpp`.

* An `int` is a `BitVec 32`. Adding beyond its range and the absolute value of the smallest one are undefined behaviour.
* After an error the members keep the values of an earlier pass; since nothing is written in that case the model writes zeros.
* There is one processor, the Saturn's, which supports both instruction sets (`ShOpcodes.cpp:201-206`).
* Not modelled: `writeTempData` and `ShOpcodeFormatter`, which only produce the listing.
-/
namespace Armips.Sh
open Armips.Arm (failWith)

/-- `ShOpcodes.h:8-14`. -/
inductive Flag | imm16 | imm32 | immrel | freg | immsigned | delayed | pcrelmanual
  deriving DecidableEq, Repr

/-- `ShOpcodes.h:18-39` `ShInstructionFormat`; `none` is `SHFMT_0`. -/
inductive Format | none | n | m | nm | md | nd4 | nmd | d | d12 | nd8 | i | ni
  deriving DecidableEq, Repr

/-- `ShOpcodes.h:51-59` `tShOpcode`. -/
structure Op where
  name : String
  encoding : String
  base : BitVec 16
  format : Format
  sh2 : Bool
  flags : List Flag
  deriving DecidableEq, Repr

/-- `opcode.flags & SH_…`. -/
def Op.has (op : Op) (f : Flag) : Bool := decide (f ∈ op.flags)

/-- `ShOpcodes.cpp:3-199` `shOpcodes`, generated from the source text. -/
def opcodes : List Op := [
  ⟨"mov", "#i8,t", 0b1110000000000000#16, .ni, false, []⟩,
  ⟨"mov", "i8,t", 0b1110000000000000#16, .ni, false, []⟩,
  ⟨"mov.w", "i8,t", 0b1001000000000000#16, .nd8, false, [.imm16, .immrel]⟩,
  ⟨"mov.l", "i8,t", 0b1101000000000000#16, .nd8, false, [.imm32, .immrel]⟩,
  ⟨"mov.w", "@(i8,pc),t", 0b1001000000000000#16, .nd8, false, [.freg, .imm16, .pcrelmanual]⟩,
  ⟨"mov.l", "@(i8,pc),t", 0b1101000000000000#16, .nd8, false, [.freg, .imm32, .pcrelmanual]⟩,
  ⟨"mov", "s,t", 0b0110000000000011#16, .nm, false, []⟩,
  ⟨"mov.b", "s,@t", 0b0010000000000000#16, .nm, false, []⟩,
  ⟨"mov.w", "s,@t", 0b0010000000000001#16, .nm, false, []⟩,
  ⟨"mov.l", "s,@t", 0b0010000000000010#16, .nm, false, []⟩,
  ⟨"mov.b", "@s,t", 0b0110000000000000#16, .nm, false, []⟩,
  ⟨"mov.w", "@s,t", 0b0110000000000001#16, .nm, false, []⟩,
  ⟨"mov.l", "@s,t", 0b0110000000000010#16, .nm, false, []⟩,
  ⟨"mov.b", "s,@-t", 0b0010000000000100#16, .nm, false, []⟩,
  ⟨"mov.w", "s,@-t", 0b0010000000000101#16, .nm, false, []⟩,
  ⟨"mov.l", "s,@-t", 0b0010000000000110#16, .nm, false, []⟩,
  ⟨"mov.b", "@s+,t", 0b0110000000000100#16, .nm, false, []⟩,
  ⟨"mov.w", "@s+,t", 0b0110000000000101#16, .nm, false, []⟩,
  ⟨"mov.l", "@s+,t", 0b0110000000000110#16, .nm, false, []⟩,
  ⟨"mov.b", "r0,@(i4,t)", 0b1000000000000000#16, .nd4, false, [.freg]⟩,
  ⟨"mov.w", "r0,@(i4,t)", 0b1000000100000000#16, .nd4, false, [.imm16, .freg]⟩,
  ⟨"mov.l", "s,@(i4,t)", 0b0001000000000000#16, .nmd, false, [.imm32, .freg]⟩,
  ⟨"mov.b", "@(i4,t),r0", 0b1000010000000000#16, .nd4, false, [.freg]⟩,
  ⟨"mov.w", "@(i4,t),r0", 0b1000010100000000#16, .nd4, false, [.imm16, .freg]⟩,
  ⟨"mov.l", "@(i4,s),t", 0b0101000000000000#16, .nmd, false, [.imm32, .freg]⟩,
  ⟨"mov.b", "s,@(r0,t)", 0b0000000000000100#16, .nm, false, [.freg]⟩,
  ⟨"mov.w", "s,@(r0,t)", 0b0000000000000101#16, .nm, false, [.freg]⟩,
  ⟨"mov.l", "s,@(r0,t)", 0b0000000000000110#16, .nm, false, [.freg]⟩,
  ⟨"mov.b", "@(r0,s),t", 0b0000000000001100#16, .nm, false, [.freg]⟩,
  ⟨"mov.w", "@(r0,s),t", 0b0000000000001101#16, .nm, false, [.freg]⟩,
  ⟨"mov.l", "@(r0,s),t", 0b0000000000001110#16, .nm, false, [.freg]⟩,
  ⟨"mov.b", "r0,@(i8,gbr)", 0b1100000000000000#16, .d, false, [.freg]⟩,
  ⟨"mov.w", "r0,@(i8,gbr)", 0b1100000100000000#16, .d, false, [.imm16, .freg]⟩,
  ⟨"mov.l", "r0,@(i8,gbr)", 0b1100001000000000#16, .d, false, [.imm32, .freg]⟩,
  ⟨"mov.b", "@(i8,gbr),r0", 0b1100010000000000#16, .d, false, [.freg]⟩,
  ⟨"mov.w", "@(i8,gbr),r0", 0b1100010100000000#16, .d, false, [.imm16, .freg]⟩,
  ⟨"mov.l", "@(i8,gbr),r0", 0b1100011000000000#16, .d, false, [.imm32, .freg]⟩,
  ⟨"mova", "i8,r0", 0b1100011100000000#16, .d, false, [.imm32, .freg, .immrel]⟩,
  ⟨"mova", "@(i8,pc),r0", 0b1100011100000000#16, .d, false, [.imm32, .freg, .pcrelmanual]⟩,
  ⟨"movt", "t", 0b0000000000101001#16, .n, false, []⟩,
  ⟨"swap.b", "s,t", 0b0110000000001000#16, .nm, false, []⟩,
  ⟨"swap.w", "s,t", 0b0110000000001001#16, .nm, false, []⟩,
  ⟨"xtrct", "s,t", 0b0010000000001101#16, .nm, false, []⟩,
  ⟨"add", "s,t", 0b0011000000001100#16, .nm, false, []⟩,
  ⟨"add", "#i8,t", 0b0111000000000000#16, .ni, false, []⟩,
  ⟨"add", "i8,t", 0b0111000000000000#16, .ni, false, []⟩,
  ⟨"addc", "s,t", 0b0011000000001110#16, .nm, false, []⟩,
  ⟨"addv", "s,t", 0b0011000000001111#16, .nm, false, []⟩,
  ⟨"cmp/eq", "#i8,r0", 0b1000100000000000#16, .i, false, [.freg]⟩,
  ⟨"cmp/eq", "i8,r0", 0b1000100000000000#16, .i, false, [.freg]⟩,
  ⟨"cmp/eq", "s,t", 0b0011000000000000#16, .nm, false, []⟩,
  ⟨"cmp/hs", "s,t", 0b0011000000000010#16, .nm, false, []⟩,
  ⟨"cmp/ge", "s,t", 0b0011000000000011#16, .nm, false, []⟩,
  ⟨"cmp/hi", "s,t", 0b0011000000000110#16, .nm, false, []⟩,
  ⟨"cmp/gt", "s,t", 0b0011000000000111#16, .nm, false, []⟩,
  ⟨"cmp/pl", "t", 0b0100000000010101#16, .n, false, []⟩,
  ⟨"cmp/pz", "t", 0b0100000000010001#16, .n, false, []⟩,
  ⟨"cmp/str", "s,t", 0b0010000000001100#16, .nm, false, []⟩,
  ⟨"div1", "s,t", 0b0011000000000100#16, .nm, false, []⟩,
  ⟨"div0s", "s,t", 0b0010000000000111#16, .nm, false, []⟩,
  ⟨"div0u", "", 0b0000000000011001#16, .none, false, []⟩,
  ⟨"dmuls.l", "s,t", 0b0011000000001101#16, .nm, true, []⟩,
  ⟨"dmulu.l", "s,t", 0b0011000000000101#16, .nm, true, []⟩,
  ⟨"dt", "t", 0b0100000000010000#16, .n, true, []⟩,
  ⟨"exts.b", "s,t", 0b0110000000001110#16, .nm, false, []⟩,
  ⟨"exts.w", "s,t", 0b0110000000001111#16, .nm, false, []⟩,
  ⟨"extu.b", "s,t", 0b0110000000001100#16, .nm, false, []⟩,
  ⟨"extu.w", "s,t", 0b0110000000001101#16, .nm, false, []⟩,
  ⟨"mac.l", "@s+,@t+", 0b0000000000001111#16, .nm, true, []⟩,
  ⟨"mac.w", "@s+,@t+", 0b0100000000001111#16, .nm, false, []⟩,
  ⟨"mul.l", "s,t", 0b0000000000000111#16, .nm, true, []⟩,
  ⟨"muls.w", "s,t", 0b0010000000001111#16, .nm, false, []⟩,
  ⟨"mulu.w", "s,t", 0b0010000000001110#16, .nm, false, []⟩,
  ⟨"neg", "s,t", 0b0110000000001011#16, .nm, false, []⟩,
  ⟨"negc", "s,t", 0b0110000000001010#16, .nm, false, []⟩,
  ⟨"sub", "s,t", 0b0011000000001000#16, .nm, false, []⟩,
  ⟨"subc", "s,t", 0b0011000000001010#16, .nm, false, []⟩,
  ⟨"subv", "s,t", 0b0011000000001011#16, .nm, false, []⟩,
  ⟨"and", "s,t", 0b0010000000001001#16, .nm, false, []⟩,
  ⟨"and", "#i8,r0", 0b1100100100000000#16, .i, false, [.freg]⟩,
  ⟨"and.b", "#i8,@(r0,gbr)", 0b1100110100000000#16, .i, false, [.freg]⟩,
  ⟨"and", "i8,r0", 0b1100100100000000#16, .i, false, [.freg]⟩,
  ⟨"and.b", "i8,@(r0,gbr)", 0b1100110100000000#16, .i, false, [.freg]⟩,
  ⟨"not", "s,t", 0b0110000000000111#16, .nm, false, []⟩,
  ⟨"or", "s,t", 0b0010000000001011#16, .nm, false, []⟩,
  ⟨"or", "#i8,r0", 0b1100101100000000#16, .i, false, [.freg]⟩,
  ⟨"or.b", "#i8,@(r0,gbr)", 0b1100111100000000#16, .i, false, [.freg]⟩,
  ⟨"or", "i8,r0", 0b1100101100000000#16, .i, false, [.freg]⟩,
  ⟨"or.b", "i8,@(r0,gbr)", 0b1100111100000000#16, .i, false, [.freg]⟩,
  ⟨"tas.b", "@t", 0b0100000000011011#16, .n, false, []⟩,
  ⟨"tst", "s,t", 0b0010000000001000#16, .nm, false, []⟩,
  ⟨"tst", "#i8,r0", 0b1100100000000000#16, .i, false, [.freg]⟩,
  ⟨"tst.b", "#i8,@(r0,gbr)", 0b1100110000000000#16, .i, false, [.freg]⟩,
  ⟨"tst", "i8,r0", 0b1100100000000000#16, .i, false, [.freg]⟩,
  ⟨"tst.b", "i8,@(r0,gbr)", 0b1100110000000000#16, .i, false, [.freg]⟩,
  ⟨"xor", "s,t", 0b0010000000001010#16, .nm, false, []⟩,
  ⟨"xor", "#i8,r0", 0b1100101000000000#16, .i, false, [.freg]⟩,
  ⟨"xor.b", "#i8,@(r0,gbr)", 0b1100111000000000#16, .i, false, [.freg]⟩,
  ⟨"xor", "i8,r0", 0b1100101000000000#16, .i, false, [.freg]⟩,
  ⟨"xor.b", "i8,@(r0,gbr)", 0b1100111000000000#16, .i, false, [.freg]⟩,
  ⟨"rotl", "t", 0b0100000000000100#16, .n, false, []⟩,
  ⟨"rotr", "t", 0b0100000000000101#16, .n, false, []⟩,
  ⟨"rotcl", "t", 0b0100000000100100#16, .n, false, []⟩,
  ⟨"rotcr", "t", 0b0100000000100101#16, .n, false, []⟩,
  ⟨"shal", "t", 0b0100000000100000#16, .n, false, []⟩,
  ⟨"shar", "t", 0b0100000000100001#16, .n, false, []⟩,
  ⟨"shll", "t", 0b0100000000000000#16, .n, false, []⟩,
  ⟨"shlr", "t", 0b0100000000000001#16, .n, false, []⟩,
  ⟨"shll2", "t", 0b0100000000001000#16, .n, false, []⟩,
  ⟨"shlr2", "t", 0b0100000000001001#16, .n, false, []⟩,
  ⟨"shll8", "t", 0b0100000000011000#16, .n, false, []⟩,
  ⟨"shlr8", "t", 0b0100000000011001#16, .n, false, []⟩,
  ⟨"shll16", "t", 0b0100000000101000#16, .n, false, []⟩,
  ⟨"shlr16", "t", 0b0100000000101001#16, .n, false, []⟩,
  ⟨"bf", "i8", 0b1000101100000000#16, .d, false, [.imm16, .immrel, .immsigned]⟩,
  ⟨"bf/s", "i8", 0b1000111100000000#16, .d, true, [.imm16, .immrel, .immsigned, .delayed]⟩,
  ⟨"bt", "i8", 0b1000100100000000#16, .d, false, [.imm16, .immrel, .immsigned]⟩,
  ⟨"bt/s", "i8", 0b1000110100000000#16, .d, true, [.imm16, .immrel, .immsigned, .delayed]⟩,
  ⟨"bra", "i12", 0b1010000000000000#16, .d12, false, [.imm16, .immrel, .immsigned, .delayed]⟩,
  ⟨"bsr", "i12", 0b1011000000000000#16, .d12, false, [.imm16, .immrel, .immsigned]⟩,
  ⟨"braf", "s", 0b0000000000100011#16, .m, true, [.delayed]⟩,
  ⟨"bsrf", "s", 0b0000000000000011#16, .m, true, [.delayed]⟩,
  ⟨"jmp", "s", 0b0100000000101011#16, .m, false, [.delayed]⟩,
  ⟨"jsr", "s", 0b0100000000001011#16, .m, false, [.delayed]⟩,
  ⟨"braf", "@s", 0b0000000000100011#16, .m, true, [.delayed]⟩,
  ⟨"bsrf", "@s", 0b0000000000000011#16, .m, true, [.delayed]⟩,
  ⟨"jmp", "@s", 0b0100000000101011#16, .m, false, [.delayed]⟩,
  ⟨"jsr", "@s", 0b0100000000001011#16, .m, false, [.delayed]⟩,
  ⟨"rts", "", 0b0000000000001011#16, .none, false, [.delayed]⟩,
  ⟨"clrt", "", 0b0000000000001000#16, .none, false, []⟩,
  ⟨"clrmac", "", 0b0000000000101000#16, .none, false, []⟩,
  ⟨"ldc", "s,sr", 0b0100000000001110#16, .m, false, [.freg]⟩,
  ⟨"ldc", "s,gbr", 0b0100000000011110#16, .m, false, [.freg]⟩,
  ⟨"ldc", "s,vbr", 0b0100000000101110#16, .m, false, [.freg]⟩,
  ⟨"ldc.l", "@s+,sr", 0b0100000000000111#16, .m, false, [.freg]⟩,
  ⟨"ldc.l", "@s+,gbr", 0b0100000000010111#16, .m, false, [.freg]⟩,
  ⟨"ldc.l", "@s+,vbr", 0b0100000000100111#16, .m, false, [.freg]⟩,
  ⟨"lds", "s,mach", 0b0100000000001010#16, .m, false, [.freg]⟩,
  ⟨"lds", "s,macl", 0b0100000000011010#16, .m, false, [.freg]⟩,
  ⟨"lds", "s,pr", 0b0100000000101010#16, .m, false, [.freg]⟩,
  ⟨"lds.l", "@s+,mach", 0b0100000000000110#16, .m, false, [.freg]⟩,
  ⟨"lds.l", "@s+,macl", 0b0100000000010110#16, .m, false, [.freg]⟩,
  ⟨"lds.l", "@s+,pr", 0b0100000000100110#16, .m, false, [.freg]⟩,
  ⟨"nop", "", 0b0000000000001001#16, .none, false, []⟩,
  ⟨"rte", "", 0b0000000000101011#16, .none, false, [.delayed]⟩,
  ⟨"sett", "", 0b0000000000011000#16, .none, false, []⟩,
  ⟨"sleep", "", 0b0000000000011011#16, .none, false, []⟩,
  ⟨"stc", "sr,t", 0b0000000000000010#16, .n, false, [.freg]⟩,
  ⟨"stc", "gbr,t", 0b0000000000010010#16, .n, false, [.freg]⟩,
  ⟨"stc", "vbr,t", 0b0000000000100010#16, .n, false, [.freg]⟩,
  ⟨"stc.l", "sr,@-t", 0b0100000000000011#16, .n, false, [.freg]⟩,
  ⟨"stc.l", "gbr,@-t", 0b0100000000010011#16, .n, false, [.freg]⟩,
  ⟨"stc.l", "vbr,@-t", 0b0100000000100011#16, .n, false, [.freg]⟩,
  ⟨"sts", "mach,t", 0b0000000000001010#16, .n, false, [.freg]⟩,
  ⟨"sts", "macl,t", 0b0000000000011010#16, .n, false, [.freg]⟩,
  ⟨"sts", "pr,t", 0b0000000000101010#16, .n, false, [.freg]⟩,
  ⟨"sts.l", "mach,@-t", 0b0100000000000010#16, .n, false, [.freg]⟩,
  ⟨"sts.l", "macl,@-t", 0b0100000000010010#16, .n, false, [.freg]⟩,
  ⟨"sts.l", "pr,@-t", 0b0100000000100010#16, .n, false, [.freg]⟩,
  ⟨"trapa", "#i8", 0b1100001100000000#16, .i, false, []⟩]

/-- What the parser stored: `ShRegisterData` (`CShInstruction.h:30-39`), and `ShImmediateData` (`CShInstruction.h:41-57`) with the
number of bits of the immediate (0 for `None`). -/
structure Operands where
  grs : Nat
  grt : Nat
  bits : Nat
  imm : Expr

/-- `CShInstruction.cpp:72-74` `immRelAddr`. -/
def relBase (op : Op) (ramPos : Int) : Int := if op.has .imm32 then ramPos + 4 - (ramPos + 4) % 4 else ramPos + 4

/-- `CShInstruction.cpp:76-94` alignment, after the address of the instruction has been added to an explicit displacement. The
error is `none` for undefined behaviour. -/
def aligned (op : Op) (v : BitVec 32) (ramPos : Int) : Except (Option String) (BitVec 32) :=
  if op.has .imm16 || op.has .imm32 then
    let sum := v.toInt + (BitVec.ofInt 32 ramPos).toInt
    if op.has .pcrelmanual && !decide (-2 ^ 31 ≤ sum ∧ sum < 2 ^ 31) then .error none
    else
      let v := if op.has .pcrelmanual then BitVec.ofInt 32 sum else v
      if op.has .imm16 && decide (v.toInt % 2 ≠ 0) then .error (some "Immediate must be 2-byte aligned")
      else if op.has .imm32 && decide (v.toInt % 4 ≠ 0) then .error (some "Immediate must be 4-byte aligned")
      else .ok v
  else .ok v

/-- `CShInstruction.cpp:96-113` the distance. -/
def relative (op : Op) (bits : Nat) (v : BitVec 32) (ramPos : Int) : Except (Option String) (BitVec 32) :=
  if op.has .immrel || op.has .pcrelmanual then
    let range : Int := (2 ^ bits - 1) * (if op.has .imm32 then 4 else 2)
    let hi := if op.has .immsigned then range / 2 else range
    let lo := if op.has .immsigned then -(range / 2) else 0
    let num := (BitVec.ofInt 64 (v.toInt - relBase op ramPos)).toInt
    if num > hi ∨ num < lo then .error (some "Branch/move target out of range") else .ok (BitVec.ofInt 32 num)
  else .ok v

/-- `CShInstruction.cpp:115-118` units. -/
def scale (op : Op) (v : BitVec 32) : BitVec 32 :=
  if op.has .imm16 then v.sshiftRight 1 else if op.has .imm32 then v.sshiftRight 2 else v

/-- `CShInstruction.cpp:120-129` the last check. -/
def limited (bits : Nat) (v : BitVec 32) : Except (Option String) (BitVec 32) :=
  if v.toInt = -2 ^ 31 then .error none
  else if v.toInt.natAbs > 2 ^ bits - 1 then .error (some "Immediate value out of range")
  else .ok (v &&& BitVec.ofNat 32 (2 ^ bits - 1))

/-- `CShInstruction.cpp:72-129` the immediate, given its (truncated) value. -/
def immediate (op : Op) (bits : Nat) (v : BitVec 32) (ramPos : Int) : Except (Option String) (BitVec 32) := do
  let v ← aligned op v ramPos
  let v ← relative op bits v ramPos
  limited bits (scale op v)

/-- `Logger::queueError` and `return false` after memory was advanced, or undefined behaviour. -/
def fail : Option String → Ev (Except Bool (BitVec 32))
  | none => .ub
  | some t => failWith true t

/-- `CShInstruction.cpp:43-136` `Validate`: the final immediate, or whether memory was advanced before an error. -/
def validate (E : Env) (op : Op) (o : Operands) (c : Ctx) : Ev (Except Bool (BitVec 32)) :=
  if c.virtualAddress % 2 ≠ 0 then failWith false "opcode not aligned to word boundary"
  else if o.bits = 0 then pure (.ok 0#32)
  else do
    match ← o.imm.eval E.host (E.funcs .superH) c with
    | .int v =>
      match immediate op o.bits (BitVec.ofInt 32 v) c.virtualAddress with
      | .error t => fail t
      | .ok m => pure (.ok m)
    | _ => failWith false "Invalid immediate expression"

/-- `(registerData.….num & 0xF) << …`. -/
def reg (r sh : Nat) : BitVec 16 := BitVec.ofNat 16 (r % 16) <<< sh

/-- `CShInstruction.cpp:138-187` `Encode`. -/
def encode (op : Op) (o : Operands) (m : BitVec 32) : BitVec 16 :=
  let d := m.setWidth 16
  match op.format with
  | .none => op.base
  | .n => op.base ||| reg o.grt 8
  | .m => op.base ||| reg o.grs 8
  | .nm => op.base ||| reg o.grt 8 ||| reg o.grs 4
  | .md => op.base ||| reg o.grs 4 ||| d
  | .nd4 => op.base ||| reg o.grt 4 ||| d
  | .nmd => op.base ||| reg o.grt 8 ||| reg o.grs 4 ||| d
  | .d | .d12 | .i => op.base ||| d
  | .nd8 | .ni => op.base ||| reg o.grt 8 ||| d

/-- The instruction as the command tree sees it. -/
def outcome (op : Op) (o : Operands) : Except Bool (BitVec 32) → InstrOut
  | .error false => ⟨0, none, fun _ => [], fun _ => [], fun _ => rfl⟩
  | .error true => ⟨2, none, fun _ => [], fun _ => [(.w16, 0)], fun _ => rfl⟩
  | .ok m => ⟨2, none, fun _ => [], fun _ => [(.w16, ((encode op o m).toNat : Int))], fun _ => rfl⟩

/-- `CShInstruction` as a command. `Validate` always returns false (`CShInstruction.cpp:135`). -/
def sem (E : Env) (op : Op) (o : Operands) : InstrSem where
  run c st := do pure (outcome op o (← validate E op o c), st)
  changed _ _ := false

/-! ### The parser -/

/-- Tokens. An identifier that is in `shRegisters` (`ShParser.cpp:17-26`), with or without `@`, is `reg`; another one is `ident`;
`imm` stands for the tokens of an expression that does not begin with a register. Simplified: a name like `sr` or `@` where an
immediate is expected would be parsed as a label; here it is refused. -/
inductive Tok
  | reg (at_ : Bool) (n : Nat) | ident (s : String) | imm (e : Expr)
  | lpar | rpar | comma | hash | minus | plus

/-- `ShParser.cpp:108-127` `matchSymbol`. -/
def matchSymbol (c : Char) : List Tok → Option (List Tok)
  | .lpar :: ts => if c = '(' then some ts else none
  | .rpar :: ts => if c = ')' then some ts else none
  | .comma :: ts => if c = ',' then some ts else none
  | .hash :: ts => if c = '#' then some ts else none
  | .minus :: ts => if c = '-' then some ts else none
  | .plus :: ts => if c = '+' then some ts else none
  | _ => none

/-- `ShParser.cpp:82-86` `parseRegister`. -/
def parseRegister : List Tok → Option (Nat × List Tok)
  | .reg _ n :: ts => some (n, ts)
  | _ => none

/-- `ShParser.cpp:12-15` `shSpecialForcedRegisters`. -/
def forcedNames : List String := ["r0", "sr", "gbr", "vbr", "mach", "macl", "pr", "pc"]

/-- The token is the identifier `s`. -/
def Tok.names (s : String) : Tok → Bool
  | .reg false n => n == 0 && s == "r0"
  | .ident t => t == s
  | _ => false

/-- `ShParser.cpp:206-234` a forced register: the first of the names that the syntax continues with has to be the next token. -/
def forced (enc : List Char) (ts : List Tok) : Option (List Char × List Tok) :=
  match forcedNames.find? fun f => f.toList.isPrefixOf enc, ts with
  | some f, t :: ts => if t.names f then some (enc.drop f.length, ts) else none
  | _, _ => none

/-- `ShParser.cpp:129-154` `decodeImmediateSize`: the decimal number. -/
def size (acc : Nat) : List Char → Nat × List Char
  | c :: cs => if '0' ≤ c ∧ c ≤ '9' then size (acc * 10 + (c.toNat - 48)) cs else (acc, c :: cs)
  | [] => (acc, [])

/-- `ShParser.cpp:236-278` the switch for one item of the syntax `c :: enc`. -/
def item (c : Char) (enc : List Char) (ts : List Tok) (o : Operands) : Option (List Char × List Tok × Operands) :=
  match c with
  | 't' => (parseRegister ts).map fun (r, ts) => (enc, ts, { o with grt := r })
  | 's' => (parseRegister ts).map fun (r, ts) => (enc, ts, { o with grs := r })
  | 'i' =>
    match ts with
    | .imm e :: ts =>
      let (n, enc) := size 0 enc
      if n = 4 ∨ n = 8 ∨ n = 12 then some (enc, ts, { o with bits := n, imm := e }) else none
    | _ => none
  | '@' =>
    match ts with
    | .reg true r :: ts' =>
      match enc with
      | 't' :: enc => some (enc, ts', { o with grt := r })
      | 's' :: enc => some (enc, ts', { o with grs := r })
      | '(' :: enc => (matchSymbol '(' ts').map fun ts => (enc, ts, o)
      | '-' :: enc => (matchSymbol '-' ts').map fun ts => (enc, ts, o)
      | _ => none
    | .ident s :: ts' =>
      if s.toList.head? = some '@' then
        match enc with
        | '(' :: enc => (matchSymbol '(' ts').map fun ts => (enc, ts, o)
        | '-' :: enc => (matchSymbol '-' ts').map fun ts => (enc, ts, o)
        | _ => none
      else none
    | _ => none
  | c => (matchSymbol c ts).map fun ts => (enc, ts, o)

/-- `ShParser.cpp:194-287` `parseParameters`: the loop over the syntax, of which every step uses up at least one character. -/
def parseLoop (freg : Bool) : Nat → List Char → List Tok → Operands → Option Operands
  | 0, enc, ts, o => if enc.isEmpty && ts.isEmpty then some o else none
  | k + 1, enc, ts, o =>
    match enc with
    | [] => if ts.isEmpty then some o else none
    | c :: rest =>
      match if freg then forced (c :: rest) ts else none with
      | some (enc, ts) => parseLoop freg k enc ts o
      | none =>
        match item c rest ts o with
        | some (enc, ts, o) => parseLoop freg k enc ts o
        | none => none

/-- The operands before parsing: `reset` stores -1, of which 15 is used. -/
def noOperands : Operands := ⟨15, 15, 0, .int 0⟩

/-- `parseParameters` for a row. -/
def parseParams (op : Op) (ts : List Tok) : Option Operands :=
  parseLoop (op.has .freg) op.encoding.length op.encoding.toList ts noOperands

/-- `ShParser.cpp:289-328` `parseOpcode`: the first row with the mnemonic whose syntax fits. Simplified: a mnemonic with `/`, which is
three tokens, is one string. -/
def parseOpcode (name : String) (ts : List Tok) : Option (Op × Operands) :=
  (opcodes.filter fun op => op.name == name).findSome? fun op => (parseParams op ts).map fun o => (op, o)

end Armips.Sh
