import Verif.Spec.Mips
/-!
# Facts about the table of MIPS instructions
-/
namespace Armips.Mips
open Spec Spec.Mips

/-- Two parts of a word do not share a bit. -/
def apart (p q : Piece) : Bool := p.lo + p.len ≤ q.lo || q.lo + q.len ≤ p.lo

/-- The parts of a word are apart from each other. -/
def allApart : List Piece → Bool
  | [] => true
  | p :: r => r.all (apart p) && allApart r

/-- Instructions with a fixed bit in the place of an operand. -/
def odd : List String := ["vcmovf.S", "vmfvc.S", "vmtvc.S"]

/-- The parts of the word and the fixed bits. -/
def piecesOk (op : Op) : Bool :=
  (pieces op).all (fun p => p.lo + p.len ≤ 32 && (odd.contains op.name || field op.encoding p.lo p.len == 0)) &&
    allApart (pieces op)

/-- At most one short form, of a register that is not written; the one it stands for is written. -/
def shortOk (op : Op) : Bool :=
  match shortForms op with
  | [] => true
  | [x] => !op.syms.contains (.reg x.1) && op.syms.contains (.reg x.2)
  | _ => false

/-- One immediate of each kind. -/
def immOk (op : Op) : Bool :=
  op.syms.all fun y =>
    match y with
    | .imm t => primType op.syms == some t
    | .sec t => secType op.syms == some t
    | _ => true

/-- The numbers of bits of an operand that a part of the word holds. -/
def held (op : Op) (it : Item) (n : Nat) : Bool :=
  (List.range n).all fun i => (pieces op).any fun p => p.item == it && p.src ≤ i && i < p.src + p.len

/-- All bits of the operands are held. An immediate whose lowest two bits are not stored is a multiple of four. -/
def heldOk (op : Op) : Bool :=
  op.syms.all fun y =>
    match y with
    | .reg s => held op (.reg s) (regBits (op.has .vfpu6bit) s)
    | .imm t =>
      if op.has .vfpuMixed then (t == .i16) && op.has .immaligned && (pieces op).contains ⟨.imm, 2, 14, 2⟩
      else held op .imm t.bits
    | .sec .branchType => held op .sec 3
    | .sec _ => held op .sec 5
    | .cond => held op .cond 4
    | .size => op.fixedSize || held op .size 2

/-- The flags of the table agree with the lists of mnemonics. -/
def namesOk (op : Op) : Bool :=
  op.has .ipcr == branches.contains op.name && op.has .ipca == jumps.contains op.name &&
    op.has .negimm == subtractions.contains op.name && op.has .immaligned == (aligned.contains op.name && (primType op.syms).isSome) &&
    (op.has .rspHw || op.has .rspW || op.has .rspDw || op.has .rspQw) == (rspScale op.name).isSome &&
    (rspScale op.name == none || rspScale op.name == some (rspShift op)) &&
    (!op.has .ipcr || (primType op.syms == some .i16 && !op.has .vfpu && !op.has .vfpuMixed)) &&
    (!op.has .ipca || (primType op.syms == some .i26 && !op.has .vfpu && !op.has .vfpuMixed)) &&
    (!op.has .vfpuMixed || !op.has .vfpu) && ((rspScale op.name).isNone || primType op.syms != some .half) &&
    (!op.has .negimm || primType op.syms == some .i16)

/-- The parts of a layout agree with the parts of the word. -/
def contentOk (op : Op) (lo len : Nat) : Content → Bool
  | .num n => field op.encoding lo len == n && (pieces op).all fun p => apart p ⟨.imm, lo, len, 0⟩
  | .reg s => op.syms.contains (.reg s) &&
      regBits (op.has .vfpu6bit) s == len &&
      ((pieces op).contains ⟨.reg s, lo, len, 0⟩ ||
        (shortForms op).any fun x => x.2 == s && (pieces op).contains ⟨.reg x.1, lo, len, 0⟩)
  | .imm => (pieces op).contains ⟨.imm, lo, len, 0⟩ &&
      (match primType op.syms with | some t => t.bits == len | none => false)
  | .sec => (pieces op).contains ⟨.sec, lo, len, 0⟩ &&
      (match secType op.syms with | some .branchType => len == 3 | some _ => len == 5 | none => false)

/-- The short forms of the permutations, which the table gets wrong. -/
def wrong (op : Op) : Bool := op.mask == "d" && (permutations.any fun x => x.1 == op.name)

/-- Instructions of the VFPU: those with a vector register and the three prefixes. -/
def vfpuOp (op : Op) : Bool :=
  op.syms.contains (.reg .vrs) || op.syms.contains (.reg .vrt) || op.syms.contains (.reg .vrd) ||
    ["vpfxs", "vpfxt", "vpfxd"].contains op.name

/-- The layout agrees with the parts of the word, and covers it. -/
def layoutOk (op : Op) : Bool :=
  match layout op with
  | none => vfpuOp op || op.name == "rsqrt.w.s"
  | some l => wrong op || (l.all (fun x => contentOk op x.1 x.2.1 x.2.2) && Covers 32 (l.map fun x => (x.1, x.2.1, 0)))

/-- All facts about a row. -/
def rowOk (op : Op) : Bool :=
  piecesOk op && shortOk op && immOk op && heldOk op && namesOk op && layoutOk op

set_option maxRecDepth 10000 in
theorem table_ok : ∀ op ∈ opcodes, rowOk op = true := by decide +kernel

set_option maxRecDepth 10000 in
/-- The odd instructions are of the VFPU. -/
theorem odd_layout : ∀ op ∈ opcodes, !odd.contains op.name || (layout op).isNone = true := by decide +kernel

end Armips.Mips
