import Verif.Spec.Bytes
/-!
# Importing object files

Models `Core/ELF/ElfRelocator.cpp` (`relocateFile`, `relocate`) and the relocators of the architectures
(`MipsElfRelocator.cpp:12-78`, `ArmElfRelocator.cpp:12-170`, `ShElfRelocator.cpp:12-41`).

* The starting point is the parsed object file: sections, relocation entries, symbols. `Model/Object.lean` reads it. Constructor stubs
  are not modelled.
* Contents are lists of bytes. `getDoubleWord` and `replaceDoubleWord` are used as C44 describes them.
* Undefined behaviour (overflow of an `int`, an alignment of zero, copying beyond the end of the output) is the outcome `none`.
  Addresses are integers: 64-bit sums are assumed not to overflow.
-/
namespace Armips.Elf

/-- `ElfFile.h:113-123` `RelocationData` without `symbolAddress`, which has been added to `relocationBase`. -/
structure RelocData where
  offset : Int
  base : Int
  opcode : BitVec 32
  addend : Int
  symbolType : Nat
  symbolInfo : Int

/-- `ElfRelocator.h:14-19` `RelocationAction`. -/
structure Action where
  offset : Int
  value : BitVec 32
  deriving DecidableEq, Repr

/-- The effects of one call: the result, the relocator's state, the actions that were appended and the errors. -/
structure Step (σ : Type) where
  ok : Bool
  state : σ
  actions : List Action
  errors : List String

/-- `ElfTypes.h:111-113`. -/
def sttObject : Nat := 1
/-- `ElfTypes.h:113`. -/
def sttFunc : Nat := 2

/-- The value fits an `int`. -/
def inInt (v : Int) : Bool := decide (-2 ^ 31 ≤ v ∧ v < 2 ^ 31)

/-! ### MIPS -/

/-- `MipsElfRelocator.h:33-39` `Hi16Entry`. -/
structure Hi16 where
  offset : Int
  base : Int
  opcode : BitVec 32

/-- `MipsElfRelocator.cpp:25-28` one entry of the right symbol: the new word. -/
def hi16Word (hi : Hi16) (lo : BitVec 32) : Option (BitVec 32) :=
  let addend := ((hi.opcode &&& 0xFFFF#32) <<< 16).toInt + ((lo &&& 0xFFFF#32).setWidth 16).toInt
  if inInt addend then
    let full := addend + hi.base
    let carry : Int := if full / 2 ^ 15 % 2 = 1 then 1 else 0
    some ((hi.opcode &&& 0xffff0000#32) ||| (BitVec.ofInt 32 (full / 2 ^ 16 + carry) &&& 0xFFFF#32))
  else none

/-- `MipsElfRelocator.cpp:12-33` `processHi16Entries`. -/
def processHi16 (lo : BitVec 32) (base : Int) : List Hi16 → Option (Step Unit)
  | [] => some ⟨true, (), [], []⟩
  | hi :: rest =>
    if hi.base ≠ base then do
      let s ← processHi16 lo base rest
      some ⟨false, (), s.actions, "Mismatched R_MIPS_HI16 with R_MIPS_LO16 of a different symbol" :: s.errors⟩
    else do
      let w ← hi16Word hi lo
      let s ← processHi16 lo base rest
      some ⟨s.ok, (), ⟨hi.offset, w⟩ :: s.actions, s.errors⟩

/-- `MipsElfRelocator.cpp:35-63` `relocateOpcode`. -/
def mipsStep (type : Nat) (d : RelocData) (q : List Hi16) : Option (Step (List Hi16)) :=
  match type with
  | 4 => some ⟨true, q, [⟨d.offset, (d.opcode &&& 0xFC000000#32) |||
      (((d.opcode &&& 0x03FFFFFF#32) + BitVec.ofInt 32 (d.base / 4)) &&& 0x03FFFFFF#32)⟩], []⟩
  | 2 => some ⟨true, q, [⟨d.offset, d.opcode + BitVec.ofInt 32 d.base⟩], []⟩
  | 5 => some ⟨true, q ++ [⟨d.offset, d.base, d.opcode⟩], [⟨d.offset, d.opcode⟩], []⟩
  | 6 => do
    let s ← processHi16 d.opcode d.base q
    let w := (d.opcode &&& 0xffff0000#32) ||| (((d.opcode &&& 0xffff#32) + BitVec.ofInt 32 d.base) &&& 0xffff#32)
    some ⟨s.ok, [], s.actions ++ [⟨d.offset, w⟩], s.errors⟩
  | _ => some ⟨false, q, [], ["Unknown MIPS relocation type"]⟩

/-- `MipsElfRelocator.cpp:65-71` `finish`. -/
def mipsFinish : List Hi16 → Option (Step (List Hi16))
  | [] => some ⟨true, [], [], []⟩
  | hi :: rest => do
    let s ← processHi16 0#32 hi.base (hi :: rest)
    some ⟨s.ok, [], s.actions, s.errors⟩

/-! ### ARM -/

/-- `ArmElfRelocator.cpp:12-15` `signExtend`. Simplified: shifting out of an `int` is not an error. -/
def signExtend (v : BitVec 32) (n : Nat) : BitVec 32 := (v <<< (32 - n)).sshiftRight (32 - n)

/-- `value = (s+a) - p` in `int`s. -/
def distance (s a p : BitVec 32) : Option Int :=
  if inInt (s.toInt + a.toInt) && inInt (s.toInt + a.toInt - p.toInt) then some (s.toInt + a.toInt - p.toInt) else none

/-- `errors.emplace_back(...); return false;`. -/
def armFail (t : String) : Option (Step Unit) := some ⟨false, (), [], [t]⟩

/-- `ArmElfRelocator.cpp:49-91` `R_ARM_THM_CALL`. -/
def thmCall (arm9 : Bool) (t : Bool) (d : RelocData) : Option (Step Unit) := do
  let first := d.opcode &&& 0xFFFF#32
  let second := (d.opcode >>> 16) &&& 0xFFFF#32
  let a := signExtend ((((first &&& 0x7FF#32) <<< 11) ||| (second &&& 0x7FF#32)) <<< 1) 23
  let value ← distance (BitVec.ofInt 32 d.base) a (BitVec.ofInt 32 d.offset)
  if t && decide (d.base % 2 ≠ 0) then armFail "Branch target must be halfword aligned"
  else if !t && !arm9 then armFail "Cannot call ARM function from THUMB code without stub"
  else if !t && decide (d.base % 4 ≠ 0) then armFail "Branch target must be word aligned"
  else if value = -2 ^ 31 then none
  else if value.natAbs ≥ 0x400000 then armFail "Branch target out of range"
  else
    let first := first &&& 0xF800#32
    let second := if t then second &&& 0xF800#32 else 0xE800#32
    let v := BitVec.ofInt 32 (value / 2)
    let first := first ||| ((v.sshiftRight 11) &&& 0x7FF#32)
    let second := second ||| (v &&& 0x7FF#32)
    some ⟨true, (), [⟨d.offset, first ||| (second <<< 16)⟩], []⟩

/-- `ArmElfRelocator.cpp:92-147` `R_ARM_CALL` and `R_ARM_JUMP24`. -/
def armCall (arm9 : Bool) (t jump : Bool) (d : RelocData) : Option (Step Unit) := do
  let cond := (d.opcode >>> 28) &&& 0xF#32
  let a := signExtend ((d.opcode &&& 0xFFFFFF#32) <<< 2) 26
  let value ← distance (BitVec.ofInt 32 d.base) a (BitVec.ofInt 32 d.offset)
  if t && decide (d.base % 2 ≠ 0) then armFail "Branch target must be halfword aligned"
  else if t && jump then armFail "Cannot jump from ARM to THUMB without link"
  else if t && !arm9 then armFail "Cannot call THUMB function from ARM code without stub"
  else if t && cond != 0xE#32 then armFail "Cannot convert conditional bl into blx"
  else if !t && decide (d.base % 4 ≠ 0) then armFail "Branch target must be word aligned"
  else if value = -2 ^ 31 then none
  else if value.natAbs ≥ 0x2000000 then armFail "Branch target out of range"
  else
    let op := if t then (if value / 2 % 2 = 1 then 0xFB000000#32 else 0xFA000000#32) else d.opcode &&& 0xFF000000#32
    some ⟨true, (), [⟨d.offset, op ||| (BitVec.ofInt 32 (value / 4) &&& 0xFFFFFF#32)⟩], []⟩

/-- `ArmElfRelocator.cpp:36-156` `relocateOpcode`. -/
def armStep (arm9 : Bool) (type : Nat) (d : RelocData) (_ : Unit) : Option (Step Unit) :=
  let t : Bool := d.symbolType = sttFunc && d.symbolInfo ≠ 0
  match type with
  | 2 | 38 => some ⟨true, (), [⟨d.offset, (d.opcode + BitVec.ofInt 32 d.base) ||| (if t then 1#32 else 0#32)⟩], []⟩
  | 10 => thmCall arm9 t d
  | 28 => armCall arm9 t false d
  | 29 => armCall arm9 t true d
  | _ => armFail "Unknown ARM relocation type"

/-! ### SuperH -/

/-- `ShElfRelocator.cpp:12-35` `relocateOpcode`. -/
def shStep (type : Nat) (d : RelocData) (_ : Unit) : Option (Step Unit) :=
  match type with
  | 1 => some ⟨true, (), [⟨d.offset, d.opcode + BitVec.ofInt 32 (d.base + d.addend)⟩], []⟩
  | 2 => some ⟨true, (), [⟨d.offset, d.opcode + BitVec.ofInt 32 (d.base - d.offset + d.addend)⟩], []⟩
  | _ => some ⟨false, (), [], ["Unknown SuperH relocation type"]⟩

/-! ### Files -/

/-- `ElfRelocator.h:27-36` `IElfRelocator`: `isDummyRelocationType`, `setSymbolAddress` (address and info), `relocateOpcode`, `finish`. -/
structure Machine where
  State : Type
  init : State
  dummy : Nat → Bool
  symbol : Int → Nat → Int × Int
  step : Nat → RelocData → State → Option (Step State)
  finish : State → Option (Step State)

/-- `MipsElfRelocator`. -/
def mips : Machine := ⟨List Hi16, [], fun _ => false, fun a _ => (a, 0), mipsStep, mipsFinish⟩

/-- `ArmElfRelocator`; `setSymbolAddress` is `ArmElfRelocator.cpp:160-170`. -/
def arm (arm9 : Bool) : Machine :=
  ⟨Unit, (), fun t => t == 40, fun a t => if t = sttFunc then (a - a % 2, a % 2) else (a, 0), armStep arm9,
    fun _ => some ⟨true, (), [], []⟩⟩

/-- `ShElfRelocator`. -/
def sh : Machine := ⟨Unit, (), fun _ => false, fun a _ => (a, 0), shStep, fun _ => some ⟨true, (), [], []⟩⟩

/-- A relocation entry (`ElfTypes.h:266-280`), read by `ElfRelocator.cpp:280-289`. -/
structure Rel where
  offset : Nat
  type : Nat
  sym : Nat
  addend : Int

/-- A symbol (`ElfTypes.h:236-246`). The name is `none` if `st_name` is 0. -/
structure Sym where
  name : Option String
  value : Nat
  size : Nat
  type : Nat
  shndx : Nat

/-- `ElfRelocatorSection` with what is used of its `ElfSection`. -/
structure Section where
  index : Nat
  size : Nat
  align : Nat
  nobits : Bool
  data : List Byte
  rels : List Rel

/-- A label of the assembler: value, `isData`, info. -/
structure Ext where
  value : Int
  isData : Bool
  info : Int

/-- `ElfRelocatorFile`: `sections`, all symbols by number, and the exported ones. -/
structure File where
  endian : Endianness
  sections : List Section
  syms : Nat → Sym
  exported : List Sym

/-- `ElfRelocator.cpp:304-305` the loop that aligns an address (`a % n` is 0 after it); the alignment may not be 0. -/
def alignUp (a : Int) (n : Nat) : Option Int := if n = 0 then none else some (a + (-a) % n)

/-- `ElfRelocator.cpp:296-312` addresses of the sections, and the end. -/
def layout : Int → List Section → Option (List (Nat × Int) × Int)
  | a, [] => some ([], a)
  | a, s :: l => do
    let p ← alignUp a s.align
    let (r, e) ← layout (p + s.size) l
    some ((s.index, p) :: r, e)

/-- `relocationOffsets[index]`: 0 if there is no entry (`std::map::operator[]`). -/
def offsetOf (m : List (Nat × Int)) (i : Nat) : Int := (m.lookup i).getD 0

/-- `ByteArray::getDoubleWord`. -/
def getWord (e : Endianness) (d : List Byte) (p : Nat) : BitVec 32 :=
  if p + 4 ≤ d.length then BitVec.ofNat 32 (fromBytes e ((d.drop p).take 4)) else -1#32

/-- `ByteArray::replaceDoubleWord`. -/
def putWord (e : Endianness) (d : List Byte) (p : Int) (w : BitVec 32) : List Byte :=
  if 0 ≤ p ∧ p + 4 ≤ d.length then d.take p.toNat ++ toBytes e 4 w.toNat ++ d.drop (p.toNat + 4) else d

/-- `ElfRelocator.cpp:355-398` what a relocation refers to, or the error. A warning is marked by `false`. -/
def relocData (M : Machine) (f : File) (ext : String → Option Ext) (m : List (Nat × Int)) (s : Section) (r : Rel) :
    Except (Bool × String) RelocData :=
  let sym := f.syms r.sym
  if r.sym = 0 then .error (false, "Invalid symbol num")
  else
    let a := M.symbol sym.value sym.type
    let d : RelocData := ⟨r.offset + offsetOf m s.index, 0, getWord f.endian s.data r.offset, r.addend, sym.type, a.2⟩
    if sym.shndx = 0 then
      match sym.name with
      | none => .error (true, "Symbol without a name")
      | some n =>
        match ext n with
        | none => .error (true, "Undefined external symbol")
        | some l => .ok { d with base := l.value % 2 ^ 32, symbolType := if l.isData then sttObject else sttFunc, symbolInfo := l.info }
    else .ok { d with base := offsetOf m sym.shndx + a.1 }

/-- The result of relocating: whether all went well, the state of the relocator, the actions, the errors and the warnings. -/
structure Outcome (σ : Type) where
  ok : Bool
  state : σ
  actions : List Action
  errors : List String
  warnings : List String

/-- `ElfRelocator.cpp:343-411` the loop over the relocations. -/
def relocLoop (M : Machine) (f : File) (ext : String → Option Ext) (m : List (Nat × Int)) (s : Section) :
    M.State → List Rel → Option (Outcome M.State)
  | q, [] => some ⟨true, q, [], [], []⟩
  | q, r :: l =>
    if M.dummy r.type then relocLoop M f ext m s q l
    else
      match relocData M f ext m s r with
      | .error (e, t) => do
        let o ← relocLoop M f ext m s q l
        some { o with ok := false, errors := if e then t :: o.errors else o.errors, warnings := if e then o.warnings else t :: o.warnings }
      | .ok d => do
        let x ← M.step r.type d q
        let o ← relocLoop M f ext m s x.state l
        some { o with ok := x.ok && o.ok, actions := x.actions ++ o.actions, errors := (if x.ok then [] else x.errors) ++ o.errors }

/-- `ElfRelocator.cpp:339-432` one section with its relocations: the new contents. The state of the relocator lives on.
Simplified: without a relocation section `finish` is not called; nothing is pending then. -/
def relocSection (M : Machine) (f : File) (ext : String → Option Ext) (m : List (Nat × Int)) (s : Section) (q : M.State) :
    Option (List Byte × Outcome M.State) := do
  let o ← relocLoop M f ext m s q s.rels
  let x ← M.finish o.state
  let as := o.actions ++ x.actions
  some (as.foldl (fun d a => putWord f.endian d (a.offset - offsetOf m s.index) a.value) s.data,
    ⟨o.ok && x.ok, x.state, as, o.errors ++ (if x.ok then [] else x.errors), o.warnings⟩)

/-- `ElfRelocator.cpp:434-435` the copy. -/
def copyTo (out : List Byte) (p : Int) (d : List Byte) : Option (List Byte) :=
  if 0 ≤ p ∧ p + d.length ≤ out.length then some (out.take p.toNat ++ d ++ out.drop (p.toNat + d.length)) else none

/-- `ElfRelocator.cpp:317-436` the loop over the sections, on the part of the output that belongs to this file. -/
def loadSections (M : Machine) (f : File) (ext : String → Option Ext) (m : List (Nat × Int)) (start : Int) :
    M.State → List Byte → List Section → Option (List Byte × Outcome M.State)
  | q, out, [] => some (out, ⟨true, q, [], [], []⟩)
  | q, out, s :: l =>
    if s.nobits then loadSections M f ext m start q out l
    else do
      let (d, o) ← relocSection M f ext m s q
      let out ← copyTo out (offsetOf m s.index - start) d
      let (out, o') ← loadSections M f ext m start o.state out l
      some (out, { o' with ok := o.ok && o'.ok, errors := o.errors ++ o'.errors, warnings := o.warnings ++ o'.warnings })

/-- `ElfRelocator.cpp:438-466` addresses of the exported symbols; common symbols are appended to the output. -/
def placeSymbols (m : List (Nat × Int)) : Int → List Sym → Option (List Int × Int)
  | a, [] => some ([], a)
  | a, s :: l =>
    if s.shndx = 0xFFF1 then do
      let (r, e) ← placeSymbols m a l
      some ((s.value : Int) :: r, e)
    else if s.shndx = 0xFFF2 then do
      let p ← alignUp a s.value
      let (r, e) ← placeSymbols m (p + s.size) l
      some (p :: r, e)
    else do
      let (r, e) ← placeSymbols m a l
      some ((s.value + offsetOf m s.shndx : Int) :: r, e)

/-- What importing a file gives. -/
structure Imported (σ : Type) where
  out : List Byte
  stop : Int
  sections : List (Nat × Int)
  symbols : List Int
  result : Outcome σ

/-- `ElfRelocator.cpp:291-469` `relocateFile`. The values of the exported symbols have been prepared by `exportSymbols`. -/
def relocateFile (M : Machine) (ext : String → Option Ext) (start : Int) (f : File) (q : M.State) : Option (Imported M.State) := do
  let (m, stop) ← layout start f.sections
  let (out, o) ← loadSections M f ext m start q (List.replicate (stop - start).toNat 0) f.sections
  let (syms, stop') ← placeSymbols m stop f.exported
  some ⟨out ++ List.replicate (stop' - stop).toNat 0, stop', m, syms, o⟩

/-- `ElfRelocator.cpp:471-492` `relocate`: all files, one after the other. -/
def relocate (M : Machine) (ext : String → Option Ext) : Int → M.State → List File → Option (List Byte × List (Imported M.State))
  | _, _, [] => some ([], [])
  | a, q, f :: l => do
    let x ← relocateFile M ext a f q
    let (out, r) ← relocate M ext x.stop x.result.state l
    some (x.out ++ out, x :: r)

end Armips.Elf
