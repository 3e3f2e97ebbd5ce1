import Verif.Spec.ArmSample
import Verif.Spec.Thumb
/-! Concrete THUMB instructions, to show that hypotheses of theorems are met. They stand at `Sample.ctx`, address 0x8000010. -/
namespace Armips.Sample
open Armips.Thumb

/-- Rows of the table. -/
def trow (name mask : String) : Op :=
  (opcodes.find? fun op => op.name == name && op.mask == mask).getD ⟨"", "", 0#32, 0, []⟩

/-- All registers r0, immediate 0. -/
def tplain : Operands where
  rd := 0
  rs := 0
  rn := 0
  ro := 0
  imm := .int 0
  bitLen := 0
  rlist := 0
  stale := 0x1234#32

/-- `add r1,r2,-3` -/
def tadd : Operands := { tplain with rd := 1, rs := 2, imm := .int (-3), bitLen := 3 }
/-- `ldr r1,[r2,124]` -/
def tldr : Operands := { tplain with rd := 1, rs := 2, imm := .int 124, bitLen := 5 }
/-- `mov r8,r3` -/
def tmov : Operands := { tplain with rd := 8, rs := 3 }
/-- `lsr r1,32` -/
def tlsr : Operands := { tplain with rd := 1, imm := .int 32, bitLen := 5 }
/-- `beq 0x8000000` -/
def tbeq : Operands := { tplain with imm := .int 0x8000000, bitLen := 8 }
/-- `bl 0x8100000` -/
def tbl : Operands := { tplain with imm := .int 0x8100000, bitLen := 22 }
/-- `ldr r1,[0x8000020]` -/
def tpc : Operands := { tplain with rd := 1, imm := .int 0x8000020, bitLen := 32 }
/-- `ldr r1,=0x12345678` -/
def tpool : Operands := { tplain with rd := 1, imm := .int 0x12345678, bitLen := 32 }
/-- `push {r1,r4,lr}` -/
def tpush : Operands := { tplain with rlist := 0x4012 }
/-- `stmia [r0]!,{r1,r4}` -/
def tstm : Operands := { tplain with rlist := 0x12 }

end Armips.Sample
