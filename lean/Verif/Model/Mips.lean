import Verif.Model.Arm
import Verif.Model.HalfFloat
import Verif.Model.MipsTable
/-!
# MIPS instructions

Models `Archs/MIPS/CMipsInstruction.cpp` (`Validate`, `Encode`), the part of `Archs/MIPS/MipsParser.cpp` that says which
operand each letter of the syntax sets, and `mipsArchs`.

* An `int` is a `BitVec 32`. Negating or taking the absolute value of the smallest one is undefined behaviour.
* `Operands` is what the parser read. A register member that was not set (`num == -1`) is `none`.
* `Config` holds the members of the global `Mips` object that do not change during validation.
* Not modelled: `writeTempData` and `MipsOpcodeFormatter`, which only produce the listing; the names of registers in the
  texts of warnings.
-/
namespace Armips.Mips
open Armips.Arm (fld orIf failWith)

/-- `MipsParser.cpp:1345-1368` the letter after `v`. -/
def vfpuLetter : Char → List Sym
  | 's' => [.reg .vrs]
  | 't' => [.reg .vrt]
  | 'd' => [.reg .vrd]
  | 'c' => [.reg .vrd]
  | _ => []

/-- `MipsParser.cpp:1372-1388` the letter after `m`. -/
def matrixLetter : Char → List Sym
  | 's' => [.reg .vrs]
  | 't' => [.reg .vrt]
  | 'd' => [.reg .vrd]
  | _ => []

/-- `MipsParser.cpp:1392-1405` the letter after `V`. -/
def ps2Letter : Char → List Sym
  | 't' => [.reg .ps2vrt]
  | 'd' => [.reg .ps2vrd]
  | 's' => [.reg .ps2vrs]
  | _ => []

/-- `MipsParser.cpp:1408-1421` the letter after `g`. -/
def gteLetter : Char → List Sym
  | 't' => [.reg .grt]
  | 's' => [.reg .grd]
  | 'c' => [.reg .grd]
  | _ => []

/-- `MipsParser.cpp:1428-1459` the letter after `R`. -/
def rspLetter : Char → List Sym
  | 'z' => [.reg .grd]
  | 'c' => [.reg .grd]
  | 't' => [.reg .rspvrt]
  | 'd' => [.reg .rspvrd]
  | 's' => [.reg .rspvrs]
  | 'e' => [.reg .rspve]
  | 'l' => [.reg .rspve]
  | 'm' => [.reg .rspvde]
  | 'o' => [.reg .rspvealt]
  | _ => []

/-- `MipsParser.cpp:1466-1487` the letter after `j`. -/
def secLetter : Char → List Sym
  | 'c' => [.sec .cacheOp]
  | 'e' => [.sec .ext]
  | 'i' => [.sec .ins]
  | 'b' => [.sec .branchType]
  | _ => []

/-- `MipsParser.cpp:1493-1515` the letter after `W`. -/
def argLetter : Char → List Sym
  | 's' => [.imm .i20_0]
  | 'd' => [.imm .i16]
  | 'c' => [.imm .i5]
  | 'r' => [.imm .i5]
  | _ => []

/-- `MipsParser.cpp:1262-1526` `parseParameters`: the operands in the order in which they are written. Punctuation and `wb`
set nothing; a forced register (`r` and its number) sets nothing. `1104-1146` `decodeImmediateSize`. -/
def scan : List Char → List Sym
  | [] => []
  | 't' :: r => .reg .grt :: scan r
  | 'd' :: r => .reg .grd :: scan r
  | 's' :: r => .reg .grs :: scan r
  | 'T' :: r => .reg .frt :: scan r
  | 'D' :: r => .reg .frd :: scan r
  | 'S' :: r => .reg .frs :: scan r
  | 'f' :: r => .reg .frs :: scan r
  | 'z' :: r => .reg .grd :: scan r
  | 'v' :: 'S' :: k :: r => vfpuLetter k ++ scan r
  | 'v' :: 'H' :: k :: r => vfpuLetter k ++ scan r
  | 'v' :: 'D' :: k :: r => vfpuLetter k ++ scan r
  | 'v' :: 'F' :: k :: r => vfpuLetter k ++ scan r
  | 'v' :: 'Q' :: k :: r => vfpuLetter k ++ scan r
  | 'v' :: k :: r => vfpuLetter k ++ scan r
  | 'm' :: k :: r => matrixLetter k ++ scan r
  | 'V' :: k :: r => ps2Letter k ++ scan r
  | 'g' :: k :: r => gteLetter k ++ scan r
  | 'r' :: _ :: r => scan r
  | 'R' :: k :: r => rspLetter k ++ scan r
  | 'i' :: 'h' :: r => .imm .half :: scan r
  | 'i' :: '5' :: r => .imm .i5 :: scan r
  | 'i' :: '7' :: r => .imm .i7 :: scan r
  | 'i' :: '1' :: '0' :: r => .imm .i10 :: scan r
  | 'i' :: '1' :: '6' :: r => .imm .i16 :: scan r
  | 'i' :: '2' :: '0' :: r => .imm .i20 :: scan r
  | 'i' :: '2' :: '5' :: r => .imm .i25 :: scan r
  | 'i' :: '2' :: '6' :: r => .imm .i26 :: scan r
  | 'j' :: k :: r => secLetter k ++ scan r
  | 'C' :: r => .cond :: scan r
  | 'W' :: k :: r => argLetter k ++ scan r
  | _ :: r => scan r

/-- `MipsParser.cpp:1181-1207` `decodeOpcode`: in a name, `S` stands for a vector size and `B` for a branch condition, which
is a secondary immediate. -/
def nameSyms : List Char → List Sym
  | [] => []
  | 'S' :: r => .size :: nameSyms r
  | 'B' :: r => .sec .branchType :: nameSyms r
  | _ :: r => nameSyms r

/-- `immediate.primary.type`; `none` for `MipsImmediateType::None`. -/
def primType : List Sym → Option ImmType
  | [] => none
  | .imm t :: _ => some t
  | _ :: r => primType r

/-- `immediate.secondary.type`; `none` for `MipsImmediateType::None`. -/
def secType : List Sym → Option SecType
  | [] => none
  | .sec t :: _ => some t
  | _ :: r => secType r

/-- What the parser stored: `MipsRegisterData` before `setOmittedRegisters`, `MipsImmediateData` (the expression, or the
value when the operand is not an expression), `vfpuSize` given by the name, `vectorCondition`. -/
structure Operands where
  regs : Slot → Option Nat
  imm : Option Expr
  immValue : BitVec 32
  sec : Option Expr
  secValue : BitVec 32
  size : Option Nat
  cond : Option Nat

/-- `Mips.h:7` `MipsArchType`. -/
inductive Version
  | psx | n64 | ps2 | psp | rsp | invalid
  deriving DecidableEq, Repr

/-- `Mips.h:30-43`: `GetVersion`, `GetFixLoadDelay`, and the instruction's own copy of `GetIgnoreDelay`
(`CMipsInstruction.cpp:11-18`). -/
structure Config where
  version : Version
  fixLoadDelay : Bool
  ignoreDelay : Bool
  deriving DecidableEq, Repr

/-- `MipsOpcodes.cpp:1040-1053` `mipsArchs`: sets, excluded sets and features. -/
def Version.supports : Version → List Set × List Set × List Flag
  | .psx => ([.mips1, .psx], [.expsx], [])
  | .n64 => ([.mips1, .mips2, .mips3], [.exn64], [.bit64, .fpu, .dfpu])
  | .ps2 => ([.mips1, .mips2, .mips3, .ps2], [.exps2], [.bit64, .fpu])
  | .psp => ([.mips1, .mips2, .mips3, .psp], [.expsp], [.fpu])
  | .rsp => ([.mips1, .rsp], [.exrsp], [])
  | .invalid => ([], [], [])

/-- `MipsParser.cpp:1553-1563` `parseOpcode`: the rows that this version of the architecture has. -/
def Op.available (v : Version) (op : Op) : Bool :=
  op.archs.any v.supports.1.contains && !op.archs.any v.supports.2.1.contains &&
    ([Flag.bit64, .fpu, .dfpu].all fun f => !op.has f || v.supports.2.2.contains f)

/-- `MipsParser.cpp:1209-1230` `setOmittedRegisters`. -/
def omitted (op : Op) (r : Slot → Option Nat) : Slot → Option Nat :=
  let r := if op.has .rsd then fun s => if s = .grd then r .grs else r s else r
  let r := if op.has .rst then fun s => if s = .grt then r .grs else r s else r
  let r := if op.has .rdt then fun s => if s = .grt then r .grd else r s else r
  let r := if op.has .frsd then fun s => if s = .frd then r .frs else r s else r
  if op.has .rspVrsd then fun s => if s = .rspvrd then r .rspvrs else r s else r

/-- `CMipsInstruction.cpp:26-48` `getImmediateBits`. -/
def ImmType.bits : ImmType → Nat
  | .i5 => 5
  | .i7 => 7
  | .i10 => 10
  | .i16 | .half => 16
  | .i20 | .i20_0 => 20
  | .i25 => 25
  | .i26 => 26

/-- `CMipsInstruction.cpp:137-142` the scale of an offset of the vector unit. -/
def rspShift (op : Op) : Nat :=
  if op.has .rspHw then 1 else if op.has .rspW then 2 else if op.has .rspDw then 3 else if op.has .rspQw then 4 else 0

/-- `CMipsInstruction.cpp:115-150` adjustment of the primary immediate. The error is `none` for undefined behaviour. -/
def adjust (op : Op) (v : BitVec 32) (ramPos : Int) : Except (Option String) (BitVec 32) :=
  if op.has .negimm then
    if v = BitVec.intMin 32 then .error none else .ok (-v)
  else if op.has .ipca then .ok (v.sshiftRight 2 &&& 0x3FFFFFF#32)
  else if op.has .ipcr then
    let num := BitVec.ofInt 32 (v.toInt - ramPos - 4)
    if num.toInt > 0x20000 ∨ num.toInt < -0x20000 then .error (some "Branch target out of range")
    else .ok (num.sshiftRight 2)
  else if op.has .rspHw || op.has .rspW || op.has .rspDw || op.has .rspQw then
    if v &&& BitVec.ofNat 32 (2 ^ rspShift op - 1) ≠ 0#32 then .error (some "Offset must be aligned")
    else .ok (v.sshiftRight (rspShift op))
  else .ok v

/-- `CMipsInstruction.cpp:152-162` the range check, with `std::abs`. -/
def checkBits (bits : Nat) (v : BitVec 32) : Except (Option String) (BitVec 32) :=
  if v = BitVec.intMin 32 then .error none
  else if v.toInt.natAbs > 2 ^ bits - 1 then .error (some "Immediate value out of range")
  else .ok (v &&& BitVec.ofNat 32 (2 ^ bits - 1))

/-- `CMipsInstruction.cpp:106-162` the primary immediate, given its value. -/
def primary (op : Op) (t : ImmType) (v : BitVec 32) (ramPos : Int) : Except (Option String) (BitVec 32) :=
  if op.has .immaligned && decide (v.toInt % 4 ≠ 0) then .error (some "Immediate must be word aligned")
  else
    match adjust op v ramPos with
    | .error e => .error e
    | .ok v => checkBits t.bits v

/-- `CMipsInstruction.cpp:179-202` the secondary immediate, given its value and the final primary value. -/
def secondary (t : SecType) (v prim : BitVec 32) : Except (Option String) (BitVec 32) :=
  match t with
  | .cacheOp => if v.toNat > 0x1F then .error (some "Immediate value out of range") else .ok v
  | .branchType => .ok v
  | .ext | .ins =>
    if v.toInt > 32 ∨ v = 0#32 then .error (some "Immediate value out of range")
    else if v = BitVec.intMin 32 then .error none
    else .ok (if t = .ins then v - 1#32 + prim else v - 1#32)

/-- The bit fields of a `double` (`Util.cpp:89-111`). -/
def dbl (f : F64) : Half.Dbl := ⟨f.toNat / 2 ^ 63, f.toNat / 2 ^ 52 % 2 ^ 11, f.toNat % 2 ^ 52⟩

/-- `CMipsInstruction.cpp:50-67` `immediateToHalfFloat`, and `Expression::evaluateInteger` (`Core/Expression.h:189-200`). -/
def immValue (E : Env) (c : Ctx) (t : ImmType) (e : Expr) : Ev (Option (BitVec 32)) := do
  match ← e.eval E.host (E.funcs .mips) c with
  | .int v => pure (some (if t = .half then BitVec.ofNat 32 (Half.toHalfFloat (dbl (E.host.ofInt v))) else BitVec.ofInt 32 v))
  | .float v => pure (if t = .half then some (BitVec.ofNat 32 (Half.toHalfFloat (dbl v))) else none)
  | _ => pure none

/-- `Expression::evaluateInteger`. -/
def secValue (E : Env) (c : Ctx) (e : Expr) : Ev (Option (BitVec 32)) := do
  match ← e.eval E.host (E.funcs .mips) c with
  | .int v => pure (some (BitVec.ofInt 32 v))
  | _ => pure none

/-- An error, or undefined behaviour. -/
def orFail {α : Type} : Except (Option String) α → Ev (Except Bool α)
  | .ok a => pure (.ok a)
  | .error none => .ub
  | .error (some t) => failWith false t

/-- `CMipsInstruction.cpp:84-163` the primary immediate. -/
def vPrimary (E : Env) (op : Op) (o : Operands) (c : Ctx) : Ev (Except Bool (BitVec 32)) :=
  match primType op.syms with
  | none => pure (.ok 0#32)
  | some t =>
    match o.imm with
    | none => orFail (primary op t o.immValue c.virtualAddress)
    | some e => do
      match ← immValue E c t e with
      | none => failWith false "Invalid immediate expression"
      | some v => orFail (primary op t v c.virtualAddress)

/-- `CMipsInstruction.cpp:165-203` the secondary immediate. -/
def vSecondary (E : Env) (op : Op) (o : Operands) (c : Ctx) (prim : BitVec 32) : Ev (Except Bool (BitVec 32)) :=
  match secType op.syms with
  | none => pure (.ok 0#32)
  | some t =>
    match o.sec with
    | none => orFail (secondary t o.secValue prim)
    | some e => do
      match ← secValue E c e with
      | none => failWith false "Invalid immediate expression"
      | some v => orFail (secondary t v prim)

/-- `Mips.h:39` `hasLoadDelay`. -/
def Config.hasLoadDelay (cfg : Config) : Bool := cfg.version == .psx

/-- `registerData.g….num != -1 && registerData.g….num == Mips.GetLoadDelayRegister()`. -/
def delayed (st : ArchState) : Option Nat → Bool
  | none => false
  | some n => (n : Int) == st.loadDelayRegister

/-- `CMipsInstruction.cpp:206-224` whether a register may not be available yet. -/
def hazard (cfg : Config) (op : Op) (r : Slot → Option Nat) (st : ArchState) : Bool :=
  cfg.hasLoadDelay && st.loadDelay && !cfg.ignoreDelay &&
    (delayed st (r .grd) || delayed st (r .grs) || (delayed st (r .grt) && !op.has .ignorertd))

/-- `CMipsInstruction.cpp:206-237` the warnings and errors about delays. -/
def vDelay (cfg : Config) (op : Op) (r : Slot → Option Nat) (st : ArchState) : Ev Unit := do
  if hazard cfg op r st then Ev.queue .warning "register may not be available due to load delay" else pure ()
  if hazard cfg op r st && cfg.fixLoadDelay then Ev.queue .notice "added nop to ensure correct behavior" else pure ()
  if op.has .nodelayslot && st.delaySlot && !cfg.ignoreDelay then
    Ev.queue .error "This instruction can't be in a delay slot"
  else pure ()

/-- `CMipsInstruction.cpp:239-243` the state after the instruction. -/
def nextState (cfg : Config) (op : Op) (r : Slot → Option Nat) (st : ArchState) : ArchState :=
  let st := { st with delaySlot := op.has .delay }
  if cfg.hasLoadDelay then
    { st with loadDelay := op.has .delayrt, loadDelayRegister := match r .grt with | some n => (n : Int) | none => -1 }
  else st

/-- What `Validate` leaves behind: `addNop`, `immediateData.primary.value`, `immediateData.secondary.value`. -/
structure Checked where
  nop : Bool
  prim : BitVec 32
  sec : BitVec 32
  deriving DecidableEq, Repr

/-- `CMipsInstruction.cpp:70-248` `Validate`, without the new state. -/
def validate (E : Env) (cfg : Config) (op : Op) (o : Operands) (c : Ctx) (st : ArchState) : Ev (Except Bool Checked) :=
  if c.virtualAddress % 4 ≠ 0 then failWith false "opcode not aligned to word boundary"
  else do
    match ← vPrimary E op o c with
    | .error b => pure (.error b)
    | .ok prim =>
      match ← vSecondary E op o c prim with
      | .error b => pure (.error b)
      | .ok sec =>
        vDelay cfg op (omitted op o.regs) st
        pure (.ok ⟨hazard cfg op (omitted op o.regs) st && cfg.fixLoadDelay, prim, sec⟩)

/-- `if (registerData.….num != -1) encoding |= …`. -/
def orReg (r : Option Nat) (f : Nat → BitVec 32) (enc : BitVec 32) : BitVec 32 :=
  match r with
  | none => enc
  | some n => enc ||| f n

/-- `CMipsInstruction.cpp:251-274` the registers of `encodeNormal`. -/
def encodeRegs (op : Op) (r : Slot → Option Nat) (enc : BitVec 32) : BitVec 32 :=
  let enc := orReg (r .grs) (fun n => fld (n % 32) 21) enc
  let enc := orReg (r .grt) (fun n => fld (n % 32) 16) enc
  let enc := orReg (r .grd) (fun n => fld (n % 32) 11) enc
  let enc := orReg (r .frt) (fun n => fld (n % 32) 16) enc
  let enc := orReg (r .frs) (fun n => fld (n % 32) 11) enc
  let enc := orReg (r .frd) (fun n => fld (n % 32) 6) enc
  let enc := orReg (r .ps2vrt) (fun n => fld n 16) enc
  let enc := orReg (r .ps2vrs) (fun n => fld n 21) enc
  let enc := orReg (r .ps2vrd) (fun n => fld n 6) enc
  let enc := orReg (r .rspvrt) (fun n => fld (n % 32) 16) enc
  let enc := orReg (r .rspvrs) (fun n => fld (n % 32) 11) enc
  let enc := orReg (r .rspvrd) (fun n => fld (n % 32) 6) enc
  let enc := orReg (r .rspve) (fun n => fld (n % 16) 21) enc
  let enc := orReg (r .rspvde) (fun n => fld (n % 16) 11) enc
  let enc := orReg (r .rspvealt) (fun n => fld (n % 16) 7) enc
  if op.has .vfpuMixed then enc else orReg (r .vrt) (fun n => fld n 16) enc

/-- `CMipsInstruction.cpp:276-294`. -/
def primBits (t : Option ImmType) (v : BitVec 32) : BitVec 32 :=
  match t with
  | some .i5 | some .i10 | some .i20 => v <<< 6
  | some .i16 | some .i25 | some .i26 | some .i20_0 | some .i7 | some .half => v
  | none => 0#32

/-- `CMipsInstruction.cpp:296-311`. -/
def secBits (t : Option SecType) (v : BitVec 32) : BitVec 32 :=
  match t with
  | some .cacheOp => v <<< 16
  | some .ext | some .ins => v <<< 11
  | some .branchType => v <<< 18
  | none => 0#32

/-- `CMipsInstruction.cpp:249-321` `encodeNormal`. -/
def encodeNormal (op : Op) (r : Slot → Option Nat) (prim sec : BitVec 32) : BitVec 32 :=
  let enc := encodeRegs op r op.encoding ||| primBits (primType op.syms) prim ||| secBits (secType op.syms) sec
  if op.has .vfpuMixed then orReg (r .vrt) (fun n => fld (n / 32) 0 ||| fld (n % 32) 16) enc else enc

/-- `CMipsInstruction.cpp:331` a size given by a flag. -/
def Op.fixedSize (op : Op) : Bool :=
  op.has .vfpuPair || op.has .vfpuSingle || op.has .vfpuTriple || op.has .vfpuQuad

/-- `CMipsInstruction.cpp:331-335`. -/
def sizeBits (n : Nat) : BitVec 32 :=
  (if n % 2 = 1 then 1#32 <<< 7 else 0#32) ||| (if n / 2 % 2 = 1 then 1#32 <<< 15 else 0#32)

/-- `CMipsInstruction.cpp:339-349`. -/
def vfpuPrimBits (t : Option ImmType) (v : BitVec 32) : BitVec 32 :=
  match t with
  | some .i5 => v <<< 16
  | some .i7 => v
  | _ => 0#32

/-- `CMipsInstruction.cpp:323-352` `encodeVfpu`. -/
def encodeVfpu (op : Op) (r : Slot → Option Nat) (size cond : Option Nat) (prim : BitVec 32) : BitVec 32 :=
  let enc := orReg cond (fun n => fld n 0) op.encoding
  let enc := orReg (r .vrd) (fun n => fld n 0) enc
  let enc := orReg (r .vrs) (fun n => fld n 8) enc
  let enc := orReg (r .vrt) (fun n => fld n 16) enc
  let enc := if op.fixedSize then enc else orReg size sizeBits enc
  let enc := orReg (r .grt) (fun n => fld n 16) enc
  enc ||| vfpuPrimBits (primType op.syms) prim

/-- `CMipsInstruction.cpp:359-362`. -/
def encode (op : Op) (o : Operands) (k : Checked) : BitVec 32 :=
  if op.has .vfpu then encodeVfpu op (omitted op o.regs) o.size o.cond k.prim
  else encodeNormal op (omitted op o.regs) k.prim k.sec

/-- `CMipsInstruction.cpp:354-363` `Encode`. -/
def written (op : Op) (o : Operands) (k : Checked) : List (BitVec 32) :=
  if k.nop then [0#32, encode op o k] else [encode op o k]

/-- `CMipsInstruction.cpp:320`, `351`, `357` `writeU32`. -/
def unit (w : BitVec 32) : Width × Int := (.w32, w.toNat)

/-- `CMipsInstruction.cpp:246` the number of bytes. -/
def size (k : Checked) : Nat := if k.nop then 8 else 4

theorem unitsSize_written (op : Op) (o : Operands) (k : Checked) : unitsSize ((written op o k).map unit) = size k := by
  unfold written size
  cases k.nop <;> rfl

/-- The instruction as the command tree sees it. After an error nothing is reserved (`CMipsInstruction.cpp:81` and others). -/
def outcome (op : Op) (o : Operands) : Except Bool Checked → InstrOut
  | .error _ => ⟨0, none, fun _ => [], fun _ => [], fun _ => rfl⟩
  | .ok k =>
    { size := size k
      pool := none
      poolDiags := fun _ => []
      words := fun _ => (written op o k).map unit
      size_eq := fun _ => unitsSize_written op o k }

/-- The state that `Validate` leaves: unchanged after an error. -/
def stateAfter (cfg : Config) (op : Op) (o : Operands) (st : ArchState) : Except Bool Checked → ArchState
  | .error _ => st
  | .ok _ => nextState cfg op (omitted op o.regs) st

/-- `CMipsInstruction` as a command. `CMipsInstruction.cpp:72-75`, `243-244`: the result of `Validate` says whether `addNop`
changed; after an error it is false. -/
def sem (E : Env) (cfg : Config) (op : Op) (o : Operands) : InstrSem where
  run c st := do
    let r ← validate E cfg op o c st
    pure (outcome op o r, stateAfter cfg op o st r)
  changed old new :=
    new.size ≠ 0 && ((match old with | some x => x.size == 8 | none => false) != (new.size == 8))

end Armips.Mips
