import Verif.Spec.ArmOperands
import Verif.Spec.Sample
/-! Concrete ARM instructions, to show that hypotheses of theorems are met. -/
namespace Armips.Sample
open Armips.Arm

/-- Rows of the table. -/
def row (name mask : String) : Op :=
  (opcodes.find? fun op => op.name == name && op.mask == mask).getD ⟨"", "", 0#32, .misc, []⟩

/-- Always executed, all registers r0, immediate 0. -/
def plain : Operands where
  c := 14
  a := 0
  s := false
  x := false
  y := false
  shift := none
  spsr := false
  field := 0
  cd := 0
  cn := 0
  cm := 0
  pn := 0
  cpop := .int 0
  cpinf := .int 0
  rs := 0
  rm := 0
  rd := 0
  rn := 0
  psr := false
  writeback := false
  signPlus := true
  imm := .int 0
  bitLen := 32
  rlist := 0

/-- Address 0x8000010 of the output file. -/
def ctx : Ctx where
  label _ _ _ := none
  file := some (0x8000010, 0x8000000, lit "out")
  endianness := .little
  readFile _ := none
  isArm := true
  isThumb := false

def idle : ArchState := {}

/-- `cmp r1,-1` -/
def cmp1 : Operands := { plain with rn := 1, imm := .int (-1) }
/-- `addeqs r2,r3,0xFF000000` -/
def add1 : Operands := { plain with c := 0, s := true, rd := 2, rn := 3, imm := .int 0xFF000000 }
/-- `bl 0x8000000` -/
def bl1 : Operands := { plain with imm := .int 0x8000000 }
/-- `blx 0x8000102` -/
def blx1 : Operands := { plain with c := 0, imm := .int 0x8000102 }

end Armips.Sample
