import Verif.Spec.ArmSample
import Verif.Spec.Mips
/-! Concrete MIPS instructions, to show that hypotheses of theorems are met. They stand at `Sample.ctx`, address 0x8000010. -/
namespace Armips.Sample
open Armips.Mips

/-! Rows of the table. -/
def rAddiu : Op := ⟨"addiu", "t,s,i16", 0x24000000#32, [.mips1], [.ignorertd], [.reg .grt, .reg .grs, .imm .i16]⟩
def rAddu : Op := ⟨"addu", "d,s,t", 0x00000021#32, [.mips1], [], [.reg .grd, .reg .grs, .reg .grt]⟩
def rIns : Op := ⟨"ins", "t,s,i5,ji", 0x7C000004#32, [.psp], [], [.reg .grt, .reg .grs, .imm .i5, .sec .ins]⟩
def rSeb : Op := ⟨"seb", "d", 0x7C000420#32, [.psp], [], [.reg .grd]⟩
def rVcmovt : Op := ⟨"vcmovt.S", "vd,vs,i5", 0xD2A00000#32, [.psp], [.vfpu], [.size, .reg .vrd, .reg .vrs, .imm .i5]⟩
def rVcmovf : Op := ⟨"vcmovf.S", "vd,vs,i5", 0xD2A80000#32, [.psp], [.vfpu], [.size, .reg .vrd, .reg .vrs, .imm .i5]⟩
def rVmtvc : Op := ⟨"vmtvc.S", "vs,i7", 0xD0510080#32, [.psp], [.vfpu], [.size, .reg .vrs, .imm .i7]⟩
def rLw : Op := ⟨"lw", "t,i16(s)", 0x8C000000#32, [.mips1], [.delayrt, .ignorertd], [.reg .grt, .imm .i16, .reg .grs]⟩
def rBeq : Op := ⟨"beq", "s,t,i16", 0x10000000#32, [.mips1], [.ipcr, .delay, .nodelayslot], [.reg .grs, .reg .grt, .imm .i16]⟩
def rJ : Op := ⟨"j", "i26", 0x08000000#32, [.mips1], [.ipca, .delay, .nodelayslot], [.imm .i26]⟩
def rMfc2 : Op := ⟨"mfc2", "t,gs", 0x48000000#32, [.psx], [], [.reg .grt, .reg .grd]⟩

set_option maxRecDepth 10000 in
theorem rows_mem : ∀ op ∈ [rAddiu, rAddu, rIns, rSeb, rVcmovt, rVcmovf, rVmtvc, rLw, rBeq, rJ, rMfc2], op ∈ opcodes := by decide +kernel

/-- The registers in some roles. -/
def regs (l : List (Slot × Nat)) (s : Slot) : Option Nat := (l.find? fun x => x.1 == s).map (·.2)

/-- No operands. -/
def mplain : Operands where
  regs _ := none
  imm := none
  immValue := 0#32
  sec := none
  secValue := 0#32
  size := none
  cond := none

/-- The PlayStation with repair of load delays. -/
def psx : Config := ⟨.psx, true, false⟩
/-- The PSP. -/
def psp : Config := ⟨.psp, false, false⟩

/-- `addiu a0,a1,imm` -/
def maddiu (v : Int) : Operands := { mplain with regs := regs [(.grt, 4), (.grs, 5)], imm := some (.int v) }
/-- `addu v0,a0,a1` -/
def maddu : Operands := { mplain with regs := regs [(.grd, 2), (.grs, 4), (.grt, 5)] }
/-- `lw a0,8(a1)` -/
def mlw : Operands := { mplain with regs := regs [(.grt, 4), (.grs, 5)], imm := some (.int 8) }
/-- `beq a0,a1,target` -/
def mbeq (v : Int) : Operands := { mplain with regs := regs [(.grs, 4), (.grt, 5)], imm := some (.int v) }
/-- `j target` -/
def mj (v : Int) : Operands := { mplain with imm := some (.int v) }
/-- `mfc2 a0,…` -/
def mmfc2 : Operands := { mplain with regs := regs [(.grt, 4), (.grd, 9)] }
/-- `ins a0,a1,pos,size` -/
def mins (pos size : Int) : Operands :=
  { mplain with regs := regs [(.grt, 4), (.grs, 5)], imm := some (.int pos), sec := some (.int size) }
/-- `seb a0` -/
def mseb : Operands := { mplain with regs := regs [(.grd, 4)] }
/-- `vcmovt.p` and `vcmovf.p` with registers 1 and 2 and a number of a condition. -/
def mvcmov (cc : Int) : Operands :=
  { mplain with regs := regs [(.vrd, 1), (.vrs, 2)], size := some 1, imm := some (.int cc) }
/-- `vmtvc` with a size. -/
def mvmtvc (size : Nat) : Operands := { mplain with regs := regs [(.vrs, 2)], size := some size, imm := some (.int 3) }

/-- Whether the operands are those of the row (`Spec.Mips.Valid`). -/
def validCheck (op : Op) (o : Operands) : Bool :=
  ([Slot.grs, .grt, .grd, .frs, .frt, .frd, .ps2vrs, .ps2vrt, .ps2vrd, .rspvrs, .rspvrt, .rspvrd, .rspve, .rspvde, .rspvealt,
      .vrs, .vrt, .vrd].all fun s =>
    ((o.regs s).isSome == op.syms.contains (.reg s)) &&
      (match o.regs s with | some n => decide (n < 2 ^ Spec.Mips.regBits (op.has .vfpu6bit) s) | none => true)) &&
  ((o.size.isSome == op.syms.contains .size) && (match o.size with | some n => decide (n < 4) | none => true)) &&
  ((o.cond.isSome == op.syms.contains .cond) && (match o.cond with | some n => decide (n < 16) | none => true)) &&
  (!op.syms.contains (.sec .branchType) || (o.sec.isNone && decide (o.secValue.toNat ≤ 5)))

end Armips.Sample
