import Verif.Model.Commands
/-!
# ARM instructions

Models `Archs/ARM/CArmInstruction.cpp` (`Validate`, `Encode`, `setPoolAddress`) and the table `Archs/ARM/ArmOpcodes.cpp`.

* An `int` is a `BitVec 32`. Left shifts of negative values wrap, as they do with every compiler in use.
  `abs(INT_MIN)` is undefined behaviour (`Fail.ub`).
* `Operands` is what the parser stored in `ArmOpcodeVariables`. A member that the parser did not set has an arbitrary
  value here.
* After an error the members keep the values of an earlier pass; since nothing is written in that case the model writes
  zeros.
* Not modelled: `writeTempData` and `FormatOpcode`/`FormatInstruction`, which only produce the listing.
-/
namespace Armips.Arm

/-- `ArmOpcodes.h:6-21`. -/
inductive Ty
  | type3 | type4 | type5 | type6 | type7 | type9 | type10 | type11 | type12 | type13 | type14 | type16 | type17 | misc
  deriving DecidableEq, Repr

/-- `ArmOpcodes.h:24-57`. -/
inductive Flag
  | arm9 | s | d | n | m | immediate | word | halfword | exchange | uncond | register | load | store | x | y | shift | pool
  | abs | branch | absimm | mrs | swi | copop | copinf | dn | dm | sign | rdeven | optimize | opmovmvn | opandbic | opcmpcmn
  | pcr | opaddsub
  deriving DecidableEq, Repr

/-- `ArmOpcodes.h:59-66` `tArmOpcode`. -/
structure Op where
  name : String
  mask : String
  encoding : BitVec 32
  type : Ty
  flags : List Flag
  deriving DecidableEq, Repr

/-- `Opcode.flags & ARM_…`. -/
def Op.has (op : Op) (f : Flag) : Bool := decide (f ∈ op.flags)

/-- `ArmOpcodes.cpp:34-253` `ArmOpcodes`, generated from the source text. -/
def opcodes : List Op := [
  ⟨"bxC", "n1", 0x012FFF10#32, .type3, [.n]⟩,
  ⟨"blxC", "n1", 0x012FFF30#32, .type3, [.arm9, .n]⟩,
  ⟨"bC", "/#I", 0x0A000000#32, .type4, [.branch, .immediate, .word]⟩,
  ⟨"blC", "/#I", 0x0B000000#32, .type4, [.branch, .immediate, .word]⟩,
  ⟨"blx", "/#I", 0xFA000000#32, .type4, [.arm9, .branch, .uncond, .immediate, .halfword, .exchange]⟩,
  ⟨"andCS", "d0,n0,m0S0", 0x00000000#32, .type5, [.register, .d, .m, .n]⟩,
  ⟨"andCS", "d0,m0S0", 0x00000000#32, .type5, [.register, .d, .m, .n, .dn]⟩,
  ⟨"andCS", "d0,n0,/#i", 0x02000000#32, .type5, [.shift, .d, .immediate, .n, .optimize, .opandbic]⟩,
  ⟨"andCS", "d0,/#i", 0x02000000#32, .type5, [.shift, .d, .immediate, .n, .dn, .optimize, .opandbic]⟩,
  ⟨"eorCS", "d0,n0,m0S0", 0x00200000#32, .type5, [.register, .d, .m, .n]⟩,
  ⟨"eorCS", "d0,m0S0", 0x00200000#32, .type5, [.register, .d, .m, .n, .dn]⟩,
  ⟨"xorCS", "d0,n0,m0S0", 0x00200000#32, .type5, [.register, .d, .m, .n]⟩,
  ⟨"xorCS", "d0,m0S0", 0x00200000#32, .type5, [.register, .d, .m, .n, .dn]⟩,
  ⟨"eorCS", "d0,n0,/#i", 0x02200000#32, .type5, [.shift, .d, .immediate, .n]⟩,
  ⟨"eorCS", "d0,/#i", 0x02200000#32, .type5, [.shift, .d, .immediate, .n, .dn]⟩,
  ⟨"xorCS", "d0,n0,/#i", 0x02200000#32, .type5, [.shift, .d, .immediate, .n]⟩,
  ⟨"xorCS", "d0,/#i", 0x02200000#32, .type5, [.shift, .d, .immediate, .n, .dn]⟩,
  ⟨"subCS", "d0,n0,m0S0", 0x00400000#32, .type5, [.register, .d, .m, .n]⟩,
  ⟨"subCS", "d0,m0S0", 0x00400000#32, .type5, [.register, .d, .m, .n, .dn]⟩,
  ⟨"subCS", "d0,n0,/#i", 0x02400000#32, .type5, [.shift, .d, .immediate, .n, .optimize, .opaddsub]⟩,
  ⟨"subCS", "d0,/#i", 0x02400000#32, .type5, [.shift, .d, .immediate, .n, .dn, .optimize, .opaddsub]⟩,
  ⟨"rsbCS", "d0,n0,m0S0", 0x00600000#32, .type5, [.register, .d, .m, .n]⟩,
  ⟨"rsbCS", "d0,m0S0", 0x00600000#32, .type5, [.register, .d, .m, .n, .dn]⟩,
  ⟨"rsbCS", "d0,n0,/#i", 0x02600000#32, .type5, [.shift, .d, .immediate, .n]⟩,
  ⟨"rsbCS", "d0,/#i", 0x02600000#32, .type5, [.shift, .d, .immediate, .n, .dn]⟩,
  ⟨"addCS", "d0,n0,m0S0", 0x00800000#32, .type5, [.register, .d, .m, .n]⟩,
  ⟨"addCS", "d0,m0S0", 0x00800000#32, .type5, [.register, .d, .m, .n, .dn]⟩,
  ⟨"addCS", "d0,n0,/#i", 0x02800000#32, .type5, [.shift, .d, .immediate, .n, .optimize, .opaddsub]⟩,
  ⟨"addCS", "d0,/#i", 0x02800000#32, .type5, [.shift, .d, .immediate, .n, .dn, .optimize, .opaddsub]⟩,
  ⟨"adcCS", "d0,n0,m0S0", 0x00A00000#32, .type5, [.register, .d, .m, .n]⟩,
  ⟨"adcCS", "d0,m0S0", 0x00A00000#32, .type5, [.register, .d, .m, .n, .dn]⟩,
  ⟨"adcCS", "d0,n0,/#i", 0x02A00000#32, .type5, [.shift, .d, .immediate, .n]⟩,
  ⟨"adcCS", "d0,/#i", 0x02A00000#32, .type5, [.shift, .d, .immediate, .n, .dn]⟩,
  ⟨"sbcCS", "d0,n0,m0S0", 0x00C00000#32, .type5, [.register, .d, .m, .n]⟩,
  ⟨"sbcCS", "d0,m0S0", 0x00C00000#32, .type5, [.register, .d, .m, .n, .dn]⟩,
  ⟨"sbcCS", "d0,n0,/#i", 0x02C00000#32, .type5, [.shift, .d, .immediate, .n]⟩,
  ⟨"sbcCS", "d0,/#i", 0x02C00000#32, .type5, [.shift, .d, .immediate, .n, .dn]⟩,
  ⟨"rscCS", "d0,n0,m0S0", 0x00E00000#32, .type5, [.register, .d, .m, .n]⟩,
  ⟨"rscCS", "d0,m0S0", 0x00E00000#32, .type5, [.register, .d, .m, .n, .dn]⟩,
  ⟨"rscCS", "d0,n0,/#i", 0x02E00000#32, .type5, [.shift, .d, .immediate, .n]⟩,
  ⟨"rscCS", "d0,/#i", 0x02E00000#32, .type5, [.shift, .d, .immediate, .n, .dn]⟩,
  ⟨"tstC", "n0,m0S0", 0x01100000#32, .type5, [.register, .m, .n]⟩,
  ⟨"tstC", "n0,/#i", 0x03100000#32, .type5, [.shift, .immediate, .n]⟩,
  ⟨"teqC", "n0,m0S0", 0x01300000#32, .type5, [.register, .m, .n]⟩,
  ⟨"teqC", "n0,/#i", 0x03300000#32, .type5, [.shift, .immediate, .n]⟩,
  ⟨"cmpC", "n0,m0S0", 0x01500000#32, .type5, [.register, .m, .n, .optimize, .opcmpcmn]⟩,
  ⟨"cmpC", "n0,/#i", 0x03500000#32, .type5, [.shift, .immediate, .n, .optimize, .opcmpcmn]⟩,
  ⟨"cmnC", "n0,m0S0", 0x01700000#32, .type5, [.register, .m, .n, .optimize, .opcmpcmn]⟩,
  ⟨"cmnC", "n0,/#i", 0x03700000#32, .type5, [.shift, .immediate, .n, .optimize, .opcmpcmn]⟩,
  ⟨"orrCS", "d0,n0,m0S0", 0x01800000#32, .type5, [.register, .d, .m, .n]⟩,
  ⟨"orrCS", "d0,m0S0", 0x01800000#32, .type5, [.register, .d, .m, .n, .dn]⟩,
  ⟨"orrCS", "d0,n0,/#i", 0x03800000#32, .type5, [.shift, .d, .immediate, .n]⟩,
  ⟨"orrCS", "d0,/#i", 0x03800000#32, .type5, [.shift, .d, .immediate, .n, .dn]⟩,
  ⟨"movCS", "d0,m0S0", 0x01A00000#32, .type5, [.register, .d, .m]⟩,
  ⟨"nop", "", 0xE1A00000#32, .type5, [.uncond]⟩,
  ⟨"movCS", "d0,/#i", 0x03A00000#32, .type5, [.shift, .d, .immediate, .optimize, .opmovmvn]⟩,
  ⟨"bicCS", "d0,n0,m0S0", 0x01C00000#32, .type5, [.register, .d, .m, .n]⟩,
  ⟨"bicCS", "d0,m0S0", 0x01C00000#32, .type5, [.register, .d, .m, .n, .dn]⟩,
  ⟨"bicCS", "d0,n0,/#i", 0x03C00000#32, .type5, [.shift, .d, .immediate, .n, .optimize, .opandbic]⟩,
  ⟨"bicCS", "d0,/#i", 0x03C00000#32, .type5, [.shift, .d, .immediate, .n, .dn, .optimize, .opandbic]⟩,
  ⟨"mvnCS", "d0,m0S0", 0x01E00000#32, .type5, [.register, .d, .m]⟩,
  ⟨"mvnCS", "d0,/#i", 0x03E00000#32, .type5, [.shift, .d, .immediate, .optimize, .opmovmvn]⟩,
  ⟨"addCS", "d1,=/#I", 0x028F0000#32, .type5, [.shift, .immediate, .d, .pcr]⟩,
  ⟨"subCS", "d1,=/#I", 0x028F0000#32, .type5, [.shift, .immediate, .d, .pcr]⟩,
  ⟨"adrCS", "d1,/#I", 0x028F0000#32, .type5, [.shift, .immediate, .d, .pcr]⟩,
  ⟨"lslCS", "d0,m0,z\x00", 0x01A00000#32, .type5, [.d, .m, .register]⟩,
  ⟨"lslCS", "d0,z\x00", 0x01A00000#32, .type5, [.d, .m, .dm, .register]⟩,
  ⟨"lsrCS", "d0,m0,z\x01", 0x01A00000#32, .type5, [.d, .m, .register]⟩,
  ⟨"lsrCS", "d0,z\x01", 0x01A00000#32, .type5, [.d, .m, .dm, .register]⟩,
  ⟨"asrCS", "d0,m0,z\x02", 0x01A00000#32, .type5, [.d, .m, .register]⟩,
  ⟨"asrCS", "d0,z\x02", 0x01A00000#32, .type5, [.d, .m, .dm, .register]⟩,
  ⟨"rorCS", "d0,m0,z\x03", 0x01A00000#32, .type5, [.d, .m, .register]⟩,
  ⟨"rorCS", "d0,z\x03", 0x01A00000#32, .type5, [.d, .m, .dm, .register]⟩,
  ⟨"msrC", "P0,m1", 0x0120F000#32, .type6, [.register, .m]⟩,
  ⟨"movC", "P0,m1", 0x0120F000#32, .type6, [.register, .m]⟩,
  ⟨"msrC", "P0,/#i", 0x0320F000#32, .type6, [.immediate, .shift]⟩,
  ⟨"movC", "P0,/#i", 0x0320F000#32, .type6, [.immediate, .shift]⟩,
  ⟨"mrsC", "d1,P1", 0x010F0000#32, .type6, [.register, .d, .mrs]⟩,
  ⟨"movC", "d1,P1", 0x010F0000#32, .type6, [.register, .d, .mrs]⟩,
  ⟨"mulCS", "d1,m1,s1", 0x00000090#32, .type7, [.d, .m, .s]⟩,
  ⟨"mulCS", "d1,s1", 0x00000090#32, .type7, [.d, .m, .s, .dm]⟩,
  ⟨"mlaCS", "d1,m1,s1,n1", 0x00200090#32, .type7, [.d, .m, .s, .n]⟩,
  ⟨"mlaCS", "d1,s1,n1", 0x00200090#32, .type7, [.d, .m, .s, .n, .dm]⟩,
  ⟨"umullCS", "n1,d1,m1,s1", 0x00800090#32, .type7, [.d, .m, .s, .n]⟩,
  ⟨"umlalCS", "n1,d1,m1,s1", 0x00A00090#32, .type7, [.d, .m, .s, .n]⟩,
  ⟨"smullCS", "n1,d1,m1,s1", 0x00C00090#32, .type7, [.d, .m, .s, .n]⟩,
  ⟨"smlalCS", "n1,d1,m1,s1", 0x00E00090#32, .type7, [.d, .m, .s, .n]⟩,
  ⟨"smlaXYC", "d1,m1,s1,n1", 0x01000080#32, .type7, [.d, .m, .s, .n, .x, .y, .arm9]⟩,
  ⟨"smlawYC", "d1,m1,s1,n1", 0x01200080#32, .type7, [.d, .m, .s, .n, .y, .arm9]⟩,
  ⟨"smulwYC", "d1,m1,s1", 0x012000A0#32, .type7, [.d, .m, .s, .y, .arm9]⟩,
  ⟨"smlalXYC", "n1,d1,m1,s1", 0x014000A0#32, .type7, [.d, .m, .s, .n, .x, .y, .arm9]⟩,
  ⟨"smulXYC", "d1,m1,s1", 0x01600080#32, .type7, [.d, .m, .s, .x, .y, .arm9]⟩,
  ⟨"strC", "d0,[n0]", 0x05800000#32, .type9, [.d, .n]⟩,
  ⟨"strC", "d0,[n0,vm1S1]W", 0x07800000#32, .type9, [.d, .n, .m, .register, .sign]⟩,
  ⟨"strC", "d0,[n0],/#j\x0c", 0x04800000#32, .type9, [.d, .n, .immediate, .abs]⟩,
  ⟨"strC", "d0,[n0],vm1S1", 0x06800000#32, .type9, [.d, .n, .register, .sign]⟩,
  ⟨"strC", "d0,[n0,/#j\x0c]W", 0x05800000#32, .type9, [.d, .n, .immediate, .abs]⟩,
  ⟨"ldrC", "d0,[n0]", 0x05900000#32, .type9, [.d, .n]⟩,
  ⟨"ldrC", "d0,[n0,vm1S1]W", 0x07900000#32, .type9, [.d, .n, .m, .register, .sign]⟩,
  ⟨"ldrC", "d0,[n0,/#j\x0c]W", 0x05900000#32, .type9, [.d, .n, .immediate, .abs]⟩,
  ⟨"ldrC", "d0,[n0],vm1S1", 0x06900000#32, .type9, [.d, .n, .register, .sign]⟩,
  ⟨"ldrC", "d0,[n0],/#j\x0c", 0x04900000#32, .type9, [.d, .n, .immediate, .abs]⟩,
  ⟨"strCb", "d0,[n0]", 0x05C00000#32, .type9, [.d, .n]⟩,
  ⟨"strCb", "d0,[n0,vm1S1]W", 0x07C00000#32, .type9, [.d, .n, .m, .register, .sign]⟩,
  ⟨"strCb", "d0,[n0,/#j\x0c]W", 0x05C00000#32, .type9, [.d, .n, .immediate, .abs]⟩,
  ⟨"strCb", "d0,[n0],vm1S1", 0x06C00000#32, .type9, [.d, .n, .register, .sign]⟩,
  ⟨"strCb", "d0,[n0],/#j\x0c", 0x04C00000#32, .type9, [.d, .n, .immediate, .abs]⟩,
  ⟨"ldrCb", "d0,[n0]", 0x05D00000#32, .type9, [.d, .n]⟩,
  ⟨"ldrCb", "d0,[n0,vm1S1]W", 0x07D00000#32, .type9, [.d, .n, .m, .register, .sign]⟩,
  ⟨"ldrCb", "d0,[n0,/#j\x0c]W", 0x05D00000#32, .type9, [.d, .n, .immediate, .abs]⟩,
  ⟨"ldrCb", "d0,[n0],vm1S1", 0x06D00000#32, .type9, [.d, .n, .register, .sign]⟩,
  ⟨"ldrCb", "d0,[n0],/#j\x0c", 0x04D00000#32, .type9, [.d, .n, .immediate, .abs]⟩,
  ⟨"strC", "d0,[n0]!", 0x05A00000#32, .type9, [.d, .n]⟩,
  ⟨"strCt", "d0,[n0]", 0x05A00000#32, .type9, [.d, .n]⟩,
  ⟨"strCt", "d0,[n0],vm1S1", 0x06A00000#32, .type9, [.d, .n, .register, .sign]⟩,
  ⟨"strCt", "d0,[n0],/#j\x0c", 0x04A00000#32, .type9, [.d, .n, .immediate, .abs]⟩,
  ⟨"ldrC", "d0,[n0]!", 0x05B00000#32, .type9, [.d, .n]⟩,
  ⟨"ldrCt", "d0,[n0]", 0x05B00000#32, .type9, [.d, .n]⟩,
  ⟨"ldrCt", "d0,[n0],vm1S1", 0x06B00000#32, .type9, [.d, .n, .register, .sign]⟩,
  ⟨"ldrCt", "d0,[n0],/#j\x0c", 0x04B00000#32, .type9, [.d, .n, .immediate, .abs]⟩,
  ⟨"strCb", "d0,[n0]!", 0x05E00000#32, .type9, [.d, .n]⟩,
  ⟨"strCbt", "d0,[n0]", 0x05E00000#32, .type9, [.d, .n]⟩,
  ⟨"strCbt", "d0,[n0],vm1S1", 0x06E00000#32, .type9, [.d, .n, .register, .sign]⟩,
  ⟨"strCbt", "d0,[n0],/#j\x0c", 0x04E00000#32, .type9, [.d, .n, .immediate, .abs]⟩,
  ⟨"ldrCb", "d0,[n0]!", 0x05F00000#32, .type9, [.d, .n]⟩,
  ⟨"ldrCbt", "d0,[n0]", 0x05F00000#32, .type9, [.d, .n]⟩,
  ⟨"ldrCbt", "d0,[n0],vm1S1", 0x06F00000#32, .type9, [.d, .n, .register, .sign]⟩,
  ⟨"ldrCbt", "d0,[n0],/#j\x0c", 0x04F00000#32, .type9, [.d, .n, .immediate, .abs]⟩,
  ⟨"ldrC", "d0,[/#j\x0c]", 0x059F0000#32, .type9, [.d, .load, .absimm, .immediate]⟩,
  ⟨"strC", "d0,[/#j\x0c]", 0x058F0000#32, .type9, [.d, .load, .absimm, .immediate]⟩,
  ⟨"ldrC", "d0,=/#i", 0x059F0000#32, .type9, [.d, .pool, .immediate]⟩,
  ⟨"pld", "[n0]", 0xF5D0F000#32, .type9, [.arm9, .uncond, .n]⟩,
  ⟨"pld", "[n0,vm1S1]", 0xF7D0F000#32, .type9, [.arm9, .uncond, .n, .m, .register, .sign]⟩,
  ⟨"pld", "[n0,/#j\x0c]", 0xF5D0F000#32, .type9, [.arm9, .uncond, .n, .immediate, .abs]⟩,
  ⟨"strCh", "d0,[n0]", 0x01C000B0#32, .type10, [.d, .n]⟩,
  ⟨"strCh", "d0,[n0,vm1]W", 0x018000B0#32, .type10, [.d, .n, .register, .m, .sign]⟩,
  ⟨"strCh", "d0,[n0,/#j\x08]W", 0x01C000B0#32, .type10, [.d, .n, .immediate, .abs]⟩,
  ⟨"strCh", "d0,[n0],vm1", 0x008000B0#32, .type10, [.d, .n, .register, .sign]⟩,
  ⟨"strCh", "d0,[n0],/#j\x08", 0x00C000B0#32, .type10, [.d, .n, .immediate, .abs]⟩,
  ⟨"strCh", "d0,[/#j\x08]", 0x01CF00B0#32, .type10, [.d, .load, .absimm, .immediate]⟩,
  ⟨"ldrCh", "d0,[n0,m1]", 0x019000B0#32, .type10, [.d, .n, .register, .m]⟩,
  ⟨"ldrCh", "d0,[n0],/#j\x08", 0x00D000B0#32, .type10, [.d, .n, .immediate, .abs]⟩,
  ⟨"ldrCh", "d0,[n0]", 0x01D000B0#32, .type10, [.d, .n]⟩,
  ⟨"ldrCh", "d0,[n0,/#j\x08]", 0x01D000B0#32, .type10, [.d, .n, .immediate, .abs]⟩,
  ⟨"ldrCsb", "d0,[n0,m1]", 0x019000D0#32, .type10, [.d, .n, .register, .m]⟩,
  ⟨"ldrCsb", "d0,[n0],/#j\x08", 0x00D000D0#32, .type10, [.d, .n, .immediate, .abs]⟩,
  ⟨"ldrCsb", "d0,[n0]", 0x01D000D0#32, .type10, [.d, .n]⟩,
  ⟨"ldrCsb", "d0,[n0,/#j\x08]", 0x01D000D0#32, .type10, [.d, .n, .immediate, .abs]⟩,
  ⟨"ldCsb", "d0,[n0,m1]", 0x019000D0#32, .type10, [.d, .n, .register, .m]⟩,
  ⟨"ldCsb", "d0,[n0]", 0x01D000D0#32, .type10, [.d, .n]⟩,
  ⟨"ldCsb", "d0,[n0,/#j\x08]", 0x01D000D0#32, .type10, [.d, .n, .immediate, .abs]⟩,
  ⟨"ldrCsh", "d0,[n0,m1]", 0x019000F0#32, .type10, [.d, .n, .register, .m]⟩,
  ⟨"ldrCsh", "d0,[n0]", 0x01D000F0#32, .type10, [.d, .n]⟩,
  ⟨"ldrCsh", "d0,[n0,/#j\x08]", 0x01D000F0#32, .type10, [.d, .n, .immediate, .abs]⟩,
  ⟨"ldCsh", "d0,[n0,m1]", 0x019000F0#32, .type10, [.d, .n, .register, .m]⟩,
  ⟨"ldCsh", "d0,[n0]", 0x01D000F0#32, .type10, [.d, .n]⟩,
  ⟨"ldCsh", "d0,[n0,/#j\x08]", 0x01D000F0#32, .type10, [.d, .n, .immediate, .abs]⟩,
  ⟨"ldrCd", "d0,[n0,m1]", 0x018000D0#32, .type10, [.d, .n, .register, .m, .arm9]⟩,
  ⟨"ldrCd", "d0,[n0]", 0x01C000D0#32, .type10, [.d, .n, .arm9]⟩,
  ⟨"ldrCd", "d0,[n0,/#j\x08]", 0x01C000D0#32, .type10, [.d, .n, .immediate, .arm9]⟩,
  ⟨"strCd", "d0,[n0,m1]", 0x018000F0#32, .type10, [.d, .n, .register, .m, .arm9]⟩,
  ⟨"strCd", "d0,[n0]", 0x01C000F0#32, .type10, [.d, .n, .arm9]⟩,
  ⟨"strCd", "d0,[n0,/#j\x08]", 0x01C000F0#32, .type10, [.d, .n, .immediate, .arm9]⟩,
  ⟨"stmCA", "/[n1/]W,/{R/}p", 0x08000000#32, .type11, [.store, .n]⟩,
  ⟨"ldmCA", "/[n1/]W,/{R/}p", 0x08100000#32, .type11, [.load, .n]⟩,
  ⟨"pushC", "/{R/}", 0x092D0000#32, .type11, []⟩,
  ⟨"popC", "/{R/}", 0x08BD0000#32, .type11, []⟩,
  ⟨"swpC", "d1,m1,[n1]", 0x01000090#32, .type12, [.d, .n, .m]⟩,
  ⟨"swpC", "d1,[n1]", 0x01000090#32, .type12, [.d, .n, .m, .dm]⟩,
  ⟨"swpCb", "d1,m1,[n1]", 0x01400090#32, .type12, [.d, .n, .m]⟩,
  ⟨"swpCb", "d1,[n1]", 0x01400090#32, .type12, [.d, .n, .m, .dm]⟩,
  ⟨"swiC", "/#j\x18", 0x0F000000#32, .type13, [.swi, .immediate]⟩,
  ⟨"bkpt", "/#j\x10", 0xE1200070#32, .type13, [.uncond, .immediate]⟩,
  ⟨"cdpC", "X,Y,D,N,M", 0x0E000000#32, .type14, [.copop]⟩,
  ⟨"cdpC", "X,Y,D,N,M,Z", 0x0E000000#32, .type14, [.copop, .copinf]⟩,
  ⟨"cdp2", "X,Y,D,N,M", 0xFE000000#32, .type14, [.arm9, .uncond, .copop]⟩,
  ⟨"cdp2", "X,Y,D,N,M,Z", 0xFE000000#32, .type14, [.arm9, .uncond, .copop, .copinf]⟩,
  ⟨"mcrC", "X,Y,d1,N,M", 0x0E000010#32, .type16, [.copop]⟩,
  ⟨"mcrC", "X,Y,d1,N,M,Z", 0x0E000010#32, .type16, [.copop, .copinf]⟩,
  ⟨"movC", "X,Y,N,M,Z,d1", 0x0E000010#32, .type16, [.copop, .copinf]⟩,
  ⟨"mcr2", "X,Y,d1,N,M", 0xFE000010#32, .type16, [.arm9, .copop]⟩,
  ⟨"mcr2", "X,Y,d1,N,M,Z", 0xFE000010#32, .type16, [.arm9, .copop, .copinf]⟩,
  ⟨"mrcC", "X,Y,d1,N,M", 0x0E100010#32, .type16, [.copop]⟩,
  ⟨"mrcC", "X,Y,d1,N,M,Z", 0x0E100010#32, .type16, [.copop, .copinf]⟩,
  ⟨"movC", "d1,X,Y,N,M,Z", 0x0E100010#32, .type16, [.copop, .copinf]⟩,
  ⟨"mrc2", "X,Y,d1,N,M", 0xFE100010#32, .type16, [.arm9, .copop]⟩,
  ⟨"mrc2", "X,Y,d1,N,M,Z", 0xFE100010#32, .type16, [.arm9, .copop, .copinf]⟩,
  ⟨"mcrrC", "X,Y,d1,n1,M", 0x0C400000#32, .type17, [.copop]⟩,
  ⟨"mrrcC", "X,Y,d1,n1,M", 0x0C500000#32, .type17, [.copop]⟩,
  ⟨"clzC", "d1,m1", 0x016F0F10#32, .misc, [.d, .m, .arm9]⟩,
  ⟨"qaddC", "d1,m1,n1", 0x01000050#32, .misc, [.d, .n, .m, .arm9]⟩,
  ⟨"qaddC", "d1,n1", 0x01000050#32, .misc, [.d, .n, .m, .arm9, .dm]⟩,
  ⟨"qsubC", "d1,m1,n1", 0x01200050#32, .misc, [.d, .n, .m, .arm9]⟩,
  ⟨"qsubC", "d1,n1", 0x01200050#32, .misc, [.d, .n, .m, .arm9, .dm]⟩,
  ⟨"qdaddC", "d1,m1,n1", 0x01400050#32, .misc, [.d, .n, .m, .arm9]⟩,
  ⟨"qdaddC", "d1,n1", 0x01400050#32, .misc, [.d, .n, .m, .arm9, .dm]⟩,
  ⟨"qdsubC", "d1,m1,n1", 0x01600050#32, .misc, [.d, .n, .m, .arm9]⟩,
  ⟨"qdsubC", "d1,n1", 0x01600050#32, .misc, [.d, .n, .m, .arm9, .dm]⟩]

/-- `ArmOpcodes.cpp:8` `LdmModes`. -/
def ldmModes : List Nat := [3, 1, 2, 0, 3, 1, 2, 0]
/-- `ArmOpcodes.cpp:9` `StmModes`. -/
def stmModes : List Nat := [3, 1, 2, 0, 0, 2, 1, 3]

/-- `Arm.h:13` `ArmArchType`. -/
inductive Version | gba | nds | threeDS | little | big
  deriving DecidableEq, Repr

/-- `CArmInstruction.h:18-28` what the parser stores about a shift. -/
structure Shift where
  /-- 0 to 4: lsl, lsr, asr, ror, rrx -/
  type : Nat
  byRegister : Bool
  reg : Nat
  amount : Expr

/-- `CArmInstruction.h:7-56` `ArmOpcodeVariables` as set by the parser. -/
structure Operands where
  c : Nat
  a : Nat
  s : Bool
  x : Bool
  y : Bool
  shift : Option Shift
  spsr : Bool
  field : Nat
  cd : Nat
  cn : Nat
  cm : Nat
  pn : Nat
  cpop : Expr
  cpinf : Expr
  rs : Nat
  rm : Nat
  rd : Nat
  rn : Nat
  psr : Bool
  writeback : Bool
  signPlus : Bool
  imm : Expr
  bitLen : Nat
  rlist : Nat

/-- How a step of `Validate` ends early. -/
inductive Fail
  | ub
  | error (text : String)
  deriving DecidableEq, Repr

/-- `CArmInstruction.cpp:41` `andval`. -/
def immMask (i : Nat) : BitVec 32 := (0xFFFFFF00#32 >>> i) ||| (0xFFFFFF00#32 <<< ((32 - i) % 32))

/-- `CArmInstruction.cpp:37-50` `getShiftedImmediate`: rotation and 8-bit value, `none` for -1. -/
def getShiftedImmediate (num : BitVec 32) : Option (Nat × BitVec 32) :=
  [0, 2, 4, 6, 8, 10, 12, 14, 16, 18, 20, 22, 24, 26, 28, 30].findSome? fun i =>
    if num &&& immMask i = 0#32 then some (i, (num <<< i) ||| (num >>> ((32 - i) % 32))) else none

/-- `CArmInstruction.cpp:85-116` the mode and amount that are encoded for a shift by a constant. -/
def shiftFinal (type : Nat) (amount : BitVec 32) : Except String (Nat × Nat) :=
  let num := amount.toInt
  let r : Except String (Nat × Int) :=
    if num = 0 ∧ type = 1 then .ok (0, num)
    else if num = 0 ∧ type = 2 then .ok (0, num)
    else if num = 0 ∧ type = 3 then .ok (0, num)
    else if num = 32 ∧ type = 1 then .ok (type, 0)
    else if num = 32 ∧ type = 2 then .ok (type, 0)
    else if num = 32 ∧ type = 0 then .error "Shift amount out of range"
    else if type = 4 then
      if num ≠ 1 then .error "Invalid shift mode" else .ok (3, 0)
    else .ok (type, num)
  match r with
  | .error s => .error s
  | .ok (mode, num) => if num > 32 ∨ num < 0 then .error "Shift amount out of range" else .ok (mode, num.toNat)

/-- `abs` of an `int`. -/
def absInt (v : BitVec 32) : Except Fail (BitVec 32) :=
  if v = 0x80000000#32 then .error .ub else .ok (if v.toInt < 0 then -v else v)

/-- Members set while the immediate is processed: `Vars.Immediate`, `negative`, `Shift.ShiftAmount`, `NewEncoding` (with
`UseNewEncoding`), `UseNewType` (the new type is always `ARM_TYPE5`) and whether a pool value was requested. -/
structure Imm where
  value : BitVec 32 := 0#32
  negative : Bool := false
  rot : Nat := 0
  encoding : Option (BitVec 32) := none
  asMov : Bool := false
  pool : Bool := false
  deriving DecidableEq, Repr

/-- `CArmInstruction.cpp:222-246` the substituted opcode and constant. -/
def substitute (op : Op) (v : BitVec 32) : BitVec 32 × BitVec 32 :=
  if op.has .opmovmvn then (op.encoding ^^^ 0x0400000#32, ~~~v)
  else if op.has .opandbic then (op.encoding ^^^ 0x1C00000#32, ~~~v)
  else if op.has .opcmpcmn then (op.encoding ^^^ 0x0200000#32, -v)
  else if op.has .opaddsub then (op.encoding ^^^ 0x0C00000#32, -v)
  else (op.encoding, v)

/-- `CArmInstruction.cpp:219-263` the rotated immediate. -/
def rotated (op : Op) (v : BitVec 32) (negative : Bool) (enc : Option (BitVec 32)) : Except Fail Imm :=
  match getShiftedImmediate v with
  | some (rot, val) => .ok { value := val, negative := negative, rot := rot, encoding := enc }
  | none =>
    if op.has .optimize then
      let (enc', v') := substitute op v
      match getShiftedImmediate v' with
      | some (rot, val) => .ok { value := val, negative := negative, rot := rot, encoding := some enc' }
      | none => .error (.error "Invalid shifted immediate")
    else .error (.error "Invalid shifted immediate")

/-- `CArmInstruction.cpp:208-217` the constant made relative to the program counter. -/
def pcRelative (op : Op) (v : BitVec 32) (ramPos : Int) : Except Fail (BitVec 32 × Option (BitVec 32)) :=
  if op.has .pcr then
    let d := BitVec.ofInt 32 (v.toInt - ((ramPos + 8) - (ramPos + 8) % 4))
    if d.toInt < 0 then
      match absInt d with
      | .error e => .error e
      | .ok a => .ok (a, some (op.encoding ^^^ 0xC00000#32))
    else .ok (d, none)
  else .ok (v, none)

/-- `CArmInstruction.cpp:198-263` the branch for `ARM_SHIFT`. -/
def immShift (op : Op) (v : BitVec 32) (ramPos : Int) : Except Fail Imm :=
  match (if op.has .abs && decide (v.toInt < 0) then (absInt v).map (·, true) else .ok (v, false)) with
  | .error e => .error e
  | .ok (v, negative) =>
    match pcRelative op v ramPos with
    | .error e => .error e
    | .ok (v, enc) => rotated op v negative enc

/-- `CArmInstruction.cpp:264-286` the branch for `ARM_POOL`. -/
def immPool (v : BitVec 32) : Imm :=
  match getShiftedImmediate v with
  | some (rot, val) => { value := val, rot := rot, encoding := some 0x03A00000#32, asMov := true }
  | none =>
    match getShiftedImmediate (~~~v) with
    | some (rot, val) => { value := val, rot := rot, encoding := some 0x03E00000#32, asMov := true }
    | none => { value := v, pool := true }

/-- `CArmInstruction.cpp:287-309` the branch for `ARM_BRANCH`. -/
def immBranch (op : Op) (v : BitVec 32) (ramPos : Int) : Except Fail Imm :=
  if op.has .halfword && decide (v &&& 1#32 ≠ 0#32) then .error (.error "Branch target must be halfword aligned")
  else if !op.has .halfword && decide (v &&& 3#32 ≠ 0#32) then .error (.error "Branch target must be word aligned")
  else
    let d := BitVec.ofInt 32 (v.toInt - ramPos - 8)
    match absInt d with
    | .error e => .error e
    | .ok a => if a.toInt ≥ 0x2000000 then .error (.error "Branch target out of range") else .ok { value := d }

/-- `CArmInstruction.cpp:310-317` the branch for `ARM_ABSIMM`. -/
def immAbsolute (bitLen : Nat) (v : BitVec 32) (ramPos : Int) : Except Fail Imm :=
  let d := BitVec.ofInt 32 (v.toInt - ramPos - 8)
  match absInt d with
  | .error e => .error e
  | .ok a => if a.toInt ≥ 2 ^ bitLen then .error (.error "Load target out of range") else .ok { value := d }

/-- `CArmInstruction.cpp:318-325` the branch for `ARM_SWI`. -/
def immSwi (version : Version) (v : BitVec 32) : Imm :=
  if (version = .gba ∨ version = .nds) ∧ v.toInt < 0xFF then { value := v <<< 16 } else { value := v }

/-- `CArmInstruction.cpp:198-330` the chain of cases. -/
def immCases (op : Op) (version : Version) (bitLen : Nat) (v : BitVec 32) (ramPos : Int) : Except Fail Imm :=
  if op.has .shift then immShift op v ramPos
  else if op.has .pool then .ok (immPool v)
  else if op.has .branch then immBranch op v ramPos
  else if op.has .absimm then immAbsolute bitLen v ramPos
  else if op.has .swi then .ok (immSwi version v)
  else if op.has .abs && decide (v.toInt < 0) then (absInt v).map fun a => { value := a, negative := true }
  else .ok { value := v }

/-- `CArmInstruction.cpp:332-340` the check of the width. -/
def checkWidth (op : Op) (bitLen : Nat) (m : Imm) : Except Fail Imm :=
  if bitLen ≠ 32 ∧ !op.has .absimm then
    match (if op.has .abs then absInt m.value else .ok m.value) with
    | .error e => .error e
    | .ok check => if check.toNat ≥ 2 ^ bitLen then .error (.error "Immediate value out of range") else .ok m
  else .ok m

/-- `CArmInstruction.cpp:192-340` processing of an immediate with the given (truncated) value. -/
def immediate (op : Op) (version : Version) (bitLen : Nat) (v : BitVec 32) (ramPos : Int) : Except Fail Imm :=
  match immCases op version bitLen v ramPos with
  | .error e => .error e
  | .ok m => checkWidth op bitLen m

/-- What `Validate` leaves behind for `Encode`: final shift type and amount, coprocessor numbers, immediate. -/
structure Final where
  shift : Option (Nat × Nat) := none
  cpop : BitVec 32 := 0#32
  cpinf : BitVec 32 := 0#32
  imm : Imm := {}
  deriving DecidableEq, Repr

/-- A register number or other small value moved to its field. -/
def fld (v sh : Nat) : BitVec 32 := BitVec.ofNat 32 v <<< sh

/-- `encoding |= x` under a condition. -/
def orIf (b : Bool) (x enc : BitVec 32) : BitVec 32 := if b then enc ||| x else enc

/-- `encoding &= ~(1 << 23)` under a condition. -/
def clearU (b : Bool) (enc : BitVec 32) : BitVec 32 := if b then enc &&& ~~~(1#32 <<< 23) else enc

/-- `CArmInstruction.cpp:149-157`: `rn` and `rm` after `ARM_DN` and `ARM_DM`. -/
def rnOf (op : Op) (o : Operands) : Nat := if op.has .dn then o.rd else o.rn
/-- See `rnOf`. -/
def rmOf (op : Op) (o : Operands) : Nat := if op.has .dm then o.rd else o.rm

/-- `CArmInstruction.cpp:507-510`. -/
def encodeBase (op : Op) (o : Operands) (f : Final) : BitVec 32 :=
  orIf o.s (1#32 <<< 20) (orIf (!op.has .uncond) (fld o.c 28) (f.imm.encoding.getD op.encoding))

/-- `CArmInstruction.cpp:512-522` the shift type. -/
def shiftType (o : Operands) (f : Final) : Nat :=
  match f.shift with
  | some (t, _) => t
  | none => match o.shift with | some s => s.type | none => 0

/-- `CArmInstruction.cpp:512-522` the shift amount. -/
def shiftAmount (f : Final) : Nat :=
  match f.shift with
  | some (_, a) => a
  | none => f.imm.rot

/-- `CArmInstruction.cpp:536-553` second operand of a data processing instruction. -/
def encodeOp2 (op : Op) (o : Operands) (f : Final) (enc : BitVec 32) : BitVec 32 :=
  if op.has .immediate then enc ||| fld (shiftAmount f) 7 ||| f.imm.value
  else if op.has .register then
    (match o.shift with
      | none => enc
      | some s =>
        (if s.byRegister then enc ||| fld s.reg 8 ||| (1#32 <<< 4) else enc ||| fld (shiftAmount f) 7) |||
          fld (shiftType o f) 5) ||| fld (rmOf op o) 0
  else enc

/-- `CArmInstruction.cpp:590-596`, `615-622`: sign and magnitude of an offset. -/
def offset (f : Final) : BitVec 32 := if f.imm.value.toInt < 0 then -f.imm.value else f.imm.value

/-- `CArmInstruction.cpp:524-676` the switch of `Encode`. -/
def encodeType (ty : Ty) (op : Op) (o : Operands) (f : Final) (enc : BitVec 32) : BitVec 32 :=
  match ty with
  | .type3 => enc ||| fld (rnOf op o) 0
  | .type4 =>
    orIf (op.has .halfword && decide (f.imm.value &&& 2#32 ≠ 0#32)) (1#32 <<< 24) enc |||
      ((f.imm.value.sshiftRight 2) &&& 0xFFFFFF#32)
  | .type5 =>
    encodeOp2 op o f (orIf (op.has .d) (fld o.rd 12) (orIf (op.has .n) (fld (rnOf op o) 16) enc))
  | .type6 =>
    if op.has .mrs then orIf o.spsr (1#32 <<< 22) enc ||| fld o.rd 12
    else
      let enc := orIf o.spsr (1#32 <<< 22) enc ||| fld o.field 16
      if op.has .register then enc ||| fld (rmOf op o) 0
      else if op.has .immediate then enc ||| fld (shiftAmount f) 7 ||| f.imm.value
      else enc
  | .type7 =>
    orIf (op.has .x && o.x) (1#32 <<< 5) (orIf (op.has .y && o.y) (1#32 <<< 6)
      (orIf (op.has .n) (fld (rnOf op o) 12) (enc ||| fld o.rd 16) ||| fld o.rs 8)) ||| fld (rmOf op o) 0
  | .type9 =>
    let enc := orIf (op.has .d) (fld o.rd 12) (orIf (op.has .n) (fld (rnOf op o) 16) (orIf o.writeback (1#32 <<< 21) enc))
    let enc := clearU (op.has .abs && f.imm.negative) (clearU (op.has .sign && !o.signPlus) enc)
    if op.has .immediate then clearU (decide (f.imm.value.toInt < 0)) enc ||| offset f
    else if op.has .register then
      (match o.shift with
        | none => enc
        | some _ => enc ||| fld (shiftAmount f) 7 ||| fld (shiftType o f) 5) ||| fld (rmOf op o) 0
    else enc
  | .type10 =>
    let enc := orIf o.writeback (1#32 <<< 21) enc ||| fld (rnOf op o) 16 ||| fld o.rd 12
    let enc := clearU (op.has .abs && f.imm.negative) (clearU (op.has .sign && !o.signPlus) enc)
    if op.has .immediate then
      clearU (decide (f.imm.value.toInt < 0)) enc ||| ((offset f &&& 0xF0#32) <<< 4) ||| (offset f &&& 0xF#32)
    else if op.has .register then enc ||| fld (rmOf op o) 0
    else enc
  | .type11 =>
    let enc :=
      if op.has .load then enc ||| fld (ldmModes.getD o.a 0) 23
      else if op.has .store then enc ||| fld (stmModes.getD o.a 0) 23
      else enc
    orIf (op.has .n) (fld (rnOf op o) 16) (orIf o.writeback (1#32 <<< 21) (orIf o.psr (1#32 <<< 22) enc)) |||
      BitVec.ofNat 32 o.rlist
  | .type12 | .misc => orIf (op.has .n) (fld (rnOf op o) 16) (enc ||| fld (rmOf op o) 0 ||| fld o.rd 12)
  | .type13 =>
    if op.has .swi then enc ||| f.imm.value
    else enc ||| (f.imm.value &&& 0xF#32) ||| (f.imm.value.sshiftRight 4 <<< 8)
  | .type14 =>
    orIf (op.has .copinf) (f.cpinf <<< 5)
      (orIf (op.has .copop) (f.cpop <<< 20) enc ||| fld o.cn 16 ||| fld o.cd 12 ||| fld o.pn 8) ||| fld o.cm 0
  | .type16 =>
    orIf (op.has .copinf) (f.cpinf <<< 5)
      (orIf (op.has .copop) (f.cpop <<< 21) enc ||| fld o.cn 16 ||| fld o.rd 12 ||| fld o.pn 8) ||| fld o.cm 0
  | .type17 => enc ||| fld (rnOf op o) 16 ||| fld o.rd 12 ||| fld o.pn 8 ||| (f.cpop <<< 4) ||| fld o.cm 0

/-- `CArmInstruction.cpp:505-679` `Encode`. -/
def encode (op : Op) (o : Operands) (f : Final) : BitVec 32 :=
  encodeType (if f.imm.asMov then .type5 else op.type) op o f (encodeBase op o f)

/-- `return false` after an error; the flag says whether memory was advanced before. -/
def failWith {α} (advanced : Bool) (text : String) : Ev (Except Bool α) := do
  Ev.queue .error text
  pure (.error advanced)

/-- `Expression.h:189-200` `evaluateInteger` into an `int`. -/
def evalInt (E : Env) (c : Ctx) (e : Expr) : Ev (Option (BitVec 32)) := do
  match ← e.eval E.host (E.funcs .arm) c with
  | .int v => pure (some (BitVec.ofInt 32 v))
  | _ => pure none

/-- `CArmInstruction.cpp:77-117` the shift. -/
def vShift (E : Env) (c : Ctx) (o : Operands) : Ev (Except Bool (Option (Nat × Nat))) :=
  match o.shift with
  | none => pure (.ok none)
  | some s =>
    if s.byRegister then pure (.ok none)
    else do
      match ← evalInt E c s.amount with
      | none => failWith false "Invalid expression"
      | some v =>
        match shiftFinal s.type v with
        | .error t => failWith false t
        | .ok r => pure (.ok (some r))

/-- `CArmInstruction.cpp:119-132` (`limit` 15), `134-147` (`limit` 7): a coprocessor number. -/
def vCop (E : Env) (c : Ctx) (present : Bool) (e : Expr) (limit : Int) : Ev (Except Bool (BitVec 32)) :=
  if present then do
    match ← evalInt E c e with
    | none => failWith false "Invalid expression"
    | some v => if v.toInt > limit then failWith false "CP number too big" else pure (.ok v)
  else pure (.ok 0#32)

/-- `CArmInstruction.cpp:171-190` the value of the immediate as an `int`. -/
def vValue (E : Env) (c : Ctx) (op : Op) (e : Expr) : Ev (Except Bool (BitVec 32)) := do
  match ← e.eval E.host (E.funcs .arm) c with
  | .int v => pure (.ok (BitVec.ofInt 32 v))
  | .float v =>
    if !op.has .shift && !op.has .pool then failWith false "Invalid expression type"
    else pure (.ok (BitVec.ofInt 32 (E.floatBits v)))
  | _ => failWith false "Invalid expression type"

/-- `CArmInstruction.cpp:168-341` the immediate. -/
def vImm (E : Env) (version : Version) (c : Ctx) (op : Op) (o : Operands) : Ev (Except Bool Imm) :=
  if op.has .immediate then do
    match ← vValue E c op o.imm with
    | .error b => pure (.error b)
    | .ok v =>
      match immediate op version o.bitLen v c.virtualAddress with
      | .error .ub => Ev.ub
      | .error (.error t) => failWith true t
      | .ok m => pure (.ok m)
  else pure (.ok {})

/-- `CArmInstruction.cpp:70-75` the check of the instruction's address. -/
def vAlign (c : Ctx) : Ev Unit :=
  if c.virtualAddress % 4 ≠ 0 then Ev.queue .warning "Opcode not word aligned" else pure ()

/-- `CArmInstruction.cpp:64-347` `Validate`. -/
def validate (E : Env) (version : Version) (op : Op) (o : Operands) (c : Ctx) : Ev (Except Bool Final) := do
  vAlign c
  match ← vShift E c o with
  | .error b => pure (.error b)
  | .ok sh =>
    match ← vCop E c (op.has .copop) o.cpop 15 with
    | .error b => pure (.error b)
    | .ok cpop =>
      match ← vCop E c (op.has .copinf) o.cpinf 7 with
      | .error b => pure (.error b)
      | .ok cpinf =>
        if op.has .rdeven && o.rd % 2 == 1 then failWith false "rd must be even"
        else
          match ← vImm E version c op o with
          | .error b => pure (.error b)
          | .ok m => pure (.ok { shift := sh, cpop := cpop, cpinf := cpinf, imm := m })

/-- `CArmInstruction.cpp:54` the offset of a pool word. -/
def poolPos (ramPos address : Int) : BitVec 32 :=
  BitVec.ofInt 32 (address - (BitVec.ofInt 64 (ramPos + 8) &&& 0xFFFFFFFD#64).toInt)

/-- `CArmInstruction.cpp:55` `abs(pos) > 4095`, counting the undefined case as out of range. -/
def poolFar (ramPos address : Int) : Bool := decide ((poolPos ramPos address).toInt.natAbs > 4095)

/-- `CArmInstruction.cpp:52-62` `setPoolAddress`: the immediate afterwards. -/
def poolImm (ramPos : Int) (m : Imm) : Option Int → Imm
  | none => m
  | some a => if !m.pool || poolFar ramPos a then m else { m with value := poolPos ramPos a }

/-- The instruction as the command tree sees it. -/
def outcome (op : Op) (o : Operands) (ramPos : Int) : Except Bool Final → InstrOut
  | .error false => ⟨0, none, fun _ => [], fun _ => [], fun _ => rfl⟩
  | .error true => ⟨4, none, fun _ => [], fun _ => [(.w32, 0)], fun _ => rfl⟩
  | .ok f =>
    { size := 4
      pool := if f.imm.pool then some f.imm.value.toInt else none
      poolDiags := fun a => if poolFar ramPos a then [{ type := .error, text := "Literal pool out of range" }] else []
      words := fun a => [(.w32, (encode op o { f with imm := poolImm ramPos f.imm a }).toNat)]
      size_eq := fun _ => rfl }

/-- `CArmInstruction` as a command. `Validate` always returns false (`CArmInstruction.cpp:346`). -/
def sem (E : Env) (version : Version) (op : Op) (o : Operands) : InstrSem where
  run c st := do pure (outcome op o c.virtualAddress (← validate E version op o c), st)
  changed _ _ := false

end Armips.Arm
