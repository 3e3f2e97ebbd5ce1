import Verif.Model.Elf
import Verif.Spec.ElfFile
/-!
# ELF files

Models `Core/ELF/ElfFile.cpp` (loading and saving), `Archs/MIPS/MipsElfFile.cpp` (an ELF file as the output of the assembler)
and the reading of object files in `Core/ELF/ElfRelocator.cpp:99-219`, `281-289`.

* Contents are lists of bytes; the operations of `ByteArray` are used as C44 describes them.
* `none` is undefined behaviour: reading outside of the file, overflow of an `int`, writing outside of a segment's data. Memory
  that `ByteArray` allocates beyond the size of a file counts as outside.
* `std::sort` does not say how it orders equal elements: the sorting functions are parameters (`Sorts`).
* Errors are counted, whether they are queued or printed at once.
* The functions that look for a section by name are not modelled; nothing calls them.
-/
namespace Armips.ElfFile
open Armips.Elf (getWord putWord)

/-- `ElfTypes.h:187-203` `Elf32_Ehdr`. -/
structure Ehdr where
  ident : List Byte
  type : BitVec 16
  machine : BitVec 16
  version : BitVec 32
  entry : BitVec 32
  phoff : BitVec 32
  shoff : BitVec 32
  flags : BitVec 32
  ehsize : BitVec 16
  phentsize : BitVec 16
  phnum : BitVec 16
  shentsize : BitVec 16
  shnum : BitVec 16
  shstrndx : BitVec 16
  deriving DecidableEq

/-- `ElfTypes.h:206-218` `Elf32_Shdr`. -/
structure Shdr where
  name : BitVec 32
  type : BitVec 32
  flags : BitVec 32
  addr : BitVec 32
  offset : BitVec 32
  size : BitVec 32
  link : BitVec 32
  info : BitVec 32
  align : BitVec 32
  entsize : BitVec 32
  deriving DecidableEq

/-- `ElfTypes.h:221-231` `Elf32_Phdr`. -/
structure Phdr where
  type : BitVec 32
  offset : BitVec 32
  vaddr : BitVec 32
  paddr : BitVec 32
  filesz : BitVec 32
  memsz : BitVec 32
  flags : BitVec 32
  align : BitVec 32
  deriving DecidableEq

/-- `ElfFile.h:58-85` `ElfSection` without its owner. -/
structure Sec where
  hdr : Shdr
  name : List Byte := []
  data : List Byte := []
  deriving DecidableEq

/-- `ElfFile.h:87-111` `ElfSegment`; sections are numbers. -/
structure Seg where
  hdr : Phdr
  data : List Byte
  sections : List Nat := []
  paddrSection : Option Nat := none
  deriving DecidableEq

/-- `ElfFile.h:8` `ElfPart`. -/
inductive Part | segmentTable | sectionTable | segments | segmentless
  deriving DecidableEq, Repr

/-- `ElfFile.h:13-55` `ElfFile`. `secs` is total for convenience: only the first `nsecs` are meant. -/
structure File where
  hdr : Ehdr
  segs : List Seg
  nsecs : Nat
  secs : Nat → Sec
  less : List Nat
  order : List Part
  symTab : Option Nat
  strTab : Option Nat

/-- The sorting functions of the C++ library: of the parts, and of sections by their offset. -/
structure Sorts where
  parts : List (Nat × Part) → List (Nat × Part)
  secs : (Nat → Nat) → List Nat → List Nat

/-- What `std::sort` guarantees: a sorted arrangement of the same elements. -/
structure Sorts.Lawful (S : Sorts) : Prop where
  parts_perm : ∀ l, (S.parts l).Perm l
  parts_sorted : ∀ l, (S.parts l).Pairwise fun a b => a.1 ≤ b.1
  secs_perm : ∀ f l, (S.secs f l).Perm l
  secs_sorted : ∀ f l, (S.secs f l).Pairwise fun a b => f a ≤ f b

/-- `ElfFile.h:23-26` `getEndianness`. -/
def endian (h : Ehdr) : Endianness := if h.ident[5]? = some 2#8 then .big else .little

/-- `ByteArray::getWord`, converted to 16 bits. -/
def getHalf (e : Endianness) (d : List Byte) (p : Nat) : BitVec 16 :=
  if p + 2 ≤ d.length then BitVec.ofNat 16 (fromBytes e ((d.drop p).take 2)) else -1#16

/-- `ByteArray::replaceWord`. -/
def putHalf (e : Endianness) (d : List Byte) (p : Nat) (w : BitVec 16) : List Byte :=
  if p + 2 ≤ d.length then d.take p ++ toBytes e 2 w.toNat ++ d.drop (p + 2) else d

/-- `ElfFile.cpp:286-303` `loadElfHeader`. -/
def readEhdr (d : List Byte) : Option Ehdr :=
  if d.length < 16 then none
  else
    let e : Endianness := if d[5]? = some 2#8 then .big else .little
    some {
      ident := d.take 16
      type := getHalf e d 0x10
      machine := getHalf e d 0x12
      version := getWord e d 0x14
      entry := getWord e d 0x18
      phoff := getWord e d 0x1C
      shoff := getWord e d 0x20
      flags := getWord e d 0x24
      ehsize := getHalf e d 0x28
      phentsize := getHalf e d 0x2A
      phnum := getHalf e d 0x2C
      shentsize := getHalf e d 0x2E
      shnum := getHalf e d 0x30
      shstrndx := getHalf e d 0x32 }

/-- `ElfFile.cpp:323-334` `loadProgramHeader`. -/
def readPhdr (e : Endianness) (d : List Byte) (p : Nat) : Phdr where
  type := getWord e d (p + 0x00)
  offset := getWord e d (p + 0x04)
  vaddr := getWord e d (p + 0x08)
  paddr := getWord e d (p + 0x0C)
  filesz := getWord e d (p + 0x10)
  memsz := getWord e d (p + 0x14)
  flags := getWord e d (p + 0x18)
  align := getWord e d (p + 0x1C)

/-- `ElfFile.cpp:336-349` `loadSectionHeader`. -/
def readShdr (e : Endianness) (d : List Byte) (p : Nat) : Shdr where
  name := getWord e d (p + 0x00)
  type := getWord e d (p + 0x04)
  flags := getWord e d (p + 0x08)
  addr := getWord e d (p + 0x0C)
  offset := getWord e d (p + 0x10)
  size := getWord e d (p + 0x14)
  link := getWord e d (p + 0x18)
  info := getWord e d (p + 0x1C)
  align := getWord e d (p + 0x20)
  entsize := getWord e d (p + 0x24)

/-- `ByteArray::mid` with a length that is not negative. -/
def mid (d : List Byte) (start len : Nat) : Option (List Byte) :=
  if start ≥ d.length then some []
  else if start + len ≤ d.length then some ((d.drop start).take len) else none

/-- `ElfFile.cpp:367-378` the segments. -/
def loadSegs (d : List Byte) (h : Ehdr) : Nat → Option (List Seg)
  | 0 => some []
  | n + 1 => do
    let l ← loadSegs d h n
    let p := readPhdr (endian h) d (h.phoff.toNat + n * h.phentsize.toNat)
    let x ← mid d p.offset.toNat p.filesz.toNat
    some (l ++ [⟨p, x, [], none⟩])

/-- `ElfFile.cpp:80-103` `isSectionPartOf`: the result, and whether an error is printed. -/
def partOf (p : Phdr) (s : Shdr) : Option (Bool × Bool) :=
  let start := s.offset.toInt
  let size := if s.type = 8#32 then 0 else s.size.toInt
  if start + size < -2 ^ 31 ∨ start + size ≥ 2 ^ 31 then none
  else
    let segEnd := (p.offset + p.filesz).toInt
    if start < p.offset.toInt ∨ start > segEnd then some (false, false)
    else if start = segEnd then some (decide (size = 0), false)
    else if start + size > segEnd then some (false, true)
    else some (true, false)

/-- `ElfFile.cpp:391-400` the first segment that the section is part of, and the number of errors. -/
def findOwner (s : Shdr) : List Seg → Option (Option Nat × Nat)
  | [] => some (none, 0)
  | g :: l => do
    let r ← partOf g.hdr s
    if r.1 then some (some 0, 0)
    else
      let x ← findOwner s l
      some (x.1.map (· + 1), (if r.2 then 1 else 0) + x.2)

/-- `ElfFile.cpp:105-117` `addSection`, for the segment. -/
def addSection (j : Nat) (s : Shdr) (g : Seg) : Seg :=
  { g with
    sections := g.sections ++ [j]
    paddrSection := if g.hdr.paddr ≠ 0 ∧ s.offset = g.hdr.paddr then some j else g.paddrSection }

/-- Replacing one section. -/
def setSec (secs : Nat → Sec) (j : Nat) (s : Sec) : Nat → Sec := fun k => if k = j then s else secs k

/-- What `load` has found so far. -/
structure Loading where
  segs : List Seg
  secs : Nat → Sec
  less : List Nat := []
  symTab : Option Nat := none
  strTab : Option Nat := none
  errors : Nat := 0

/-- `ElfFile.cpp:33-37` `setOwner`: the offset becomes relative to the segment. -/
def rebase (s : Shdr) (g : Seg) : Shdr := { s with offset := s.offset - g.hdr.offset }

/-- `ElfFile.cpp:383-426` one section. The position is a 32-bit sum of `e_shoff` and an `int`. -/
def loadSection (d : List Byte) (h : Ehdr) (j : Nat) (st : Loading) : Option Loading :=
  if j * h.shentsize.toNat ≥ 2 ^ 31 then none
  else
    let s := readShdr (endian h) d ((h.shoff.toNat + j * h.shentsize.toNat) % 2 ^ 32)
    match findOwner s st.segs with
    | none => none
    | some (some k, n) =>
      some { st with
        segs := st.segs.modify k (addSection j s)
        secs := setSec st.secs j ⟨(st.segs[k]?.map (rebase s)).getD s, [], []⟩
        errors := st.errors + n }
    | some (none, n) =>
      match (if s.type = 8#32 ∨ s.type = 0#32 then some [] else mid d s.offset.toNat s.size.toNat) with
      | none => none
      | some x =>
        some { st with
          secs := setSec st.secs j ⟨s, [], x⟩
          less := st.less ++ [j]
          symTab := if s.type = 2#32 then some j else st.symTab
          strTab := if s.type = 3#32 ∧ (st.strTab = none ∨ j ≠ h.shstrndx.toNat) then some j else st.strTab
          errors := st.errors + n }

/-- `ElfFile.cpp:380-427` the loop over the sections. -/
def loadSections (d : List Byte) (h : Ehdr) : Nat → Loading → Option Loading
  | 0, st => some st
  | n + 1, st => do
    let st ← loadSections d h n st
    loadSection d h n st

/-- The least of some numbers and a start value. -/
def least (start : Nat) (l : List Nat) : Nat := l.foldl min start

/-- `ElfFile.cpp:220-273` `determinePartOrder`. -/
def partOrder (S : Sorts) (d : List Byte) (h : Ehdr) (segs : List Seg) (secs : Nat → Sec) (less : List Nat) : List Part :=
  let firstSegment := least d.length (segs.map fun g => g.hdr.offset.toNat)
  let used := less.filter fun j =>
    decide ((secs j).hdr.type ≠ 0#32) && !(decide ((secs j).hdr.offset = 0#32 ∧ (secs j).hdr.size = 0#32))
  let firstSection := least d.length (used.map fun j => (secs j).hdr.offset.toNat)
  (S.parts [(h.phoff.toNat, .segmentTable), (h.shoff.toNat, .sectionTable), (firstSegment, .segments),
    (firstSection, .segmentless)]).map (·.2)

/-- A C string in the file. -/
def cString (d : List Byte) (p : Int) : Option (List Byte) :=
  if p < 0 then none
  else
    let r := d.drop p.toNat
    if 0#8 ∈ r then some (r.takeWhile (· ≠ 0#8)) else none

/-- `ElfFile.cpp:206-217` the names of the sections. -/
def nameLoop (d : List Byte) (table : BitVec 32) : Nat → (Nat → Sec) → Option (Nat → Sec)
  | 0, secs => some secs
  | n + 1, secs => do
    let secs ← nameLoop d table n secs
    let s := secs n
    if s.hdr.type = 0#32 then some secs
    else
      let x ← cString d (table + s.hdr.name).toInt
      some (setSec secs n { s with name := x })

/-- `ElfFile.cpp:190-218` `loadSectionNames`. -/
def loadNames (d : List Byte) (h : Ehdr) (n : Nat) (secs : Nat → Sec) : Option (Nat → Sec) :=
  if h.shstrndx = 0#16 then some secs
  else if h.shstrndx.toNat ≥ n then none
  else
    let t := (secs h.shstrndx.toNat).hdr
    let table := (d.drop t.offset.toNat).take t.size.toNat
    let bad := fun b : Byte => (b ≠ 0#8 ∧ b.toNat < 0x20) ∨ b.toNat > 0x7F
    if table.any (fun b => decide (bad b)) then some secs
    else if t.offset.toNat + t.size.toNat > d.length ∧ t.size ≠ 0#32 then none
    else nameLoop d t.offset n secs

/-- `ElfFile.cpp:359-443` `load`: the file and the number of errors. An empty file is not loaded (`ElfFile.cpp:351-357`); the
caller reports it. -/
def load (S : Sorts) (sort : Bool) (d : List Byte) : Option (File × Nat) := do
  let h ← readEhdr d
  let segs ← loadSegs d h h.phnum.toNat
  let st ← loadSections d h h.shnum.toNat { segs := segs, secs := fun _ => ⟨⟨0, 0, 0, 0, 0, 0, 0, 0, 0, 0⟩, [], []⟩ }
  let order := partOrder S d h segs st.secs st.less
  let secs ← loadNames d h h.shnum.toNat st.secs
  let byOffset := S.secs fun j => (secs j).hdr.offset.toNat
  some ({
    hdr := h
    segs := if sort then st.segs.map fun g => { g with sections := byOffset g.sections } else st.segs
    nsecs := h.shnum.toNat
    secs := secs
    less := if sort then byOffset st.less else st.less
    order := order
    symTab := st.symTab
    strTab := st.strTab }, st.errors)

/-! ### Saving -/

/-- `ByteArray::alignSize`. -/
def alignSize (d : List Byte) (n : Nat) : List Byte :=
  if n = 0 then d else d ++ List.replicate ((n - d.length % n) % n) 0#8

/-- `(Elf32_Off) output.size()`. -/
def offsetHere (d : List Byte) : BitVec 32 := BitVec.ofNat 32 d.length

/-- `ElfFile.cpp:70-73` `setOffsetBase`. -/
def addBase (base : BitVec 32) (s : Sec) : Sec := { s with hdr := { s.hdr with offset := s.hdr.offset + base } }

/-- `ElfFile.cpp:119-147` `ElfSegment::writeData`. -/
def writeSegment (out : List Byte) (secs : Nat → Sec) (g : Seg) : List Byte × (Nat → Sec) × Seg :=
  match g.sections with
  | [] =>
    let out := alignSize out g.hdr.align.toNat
    (out, secs, { g with hdr := { g.hdr with
      paddr := if g.hdr.offset = g.hdr.paddr then offsetHere out else g.hdr.paddr
      offset := offsetHere out } })
  | j :: _ =>
    let out := alignSize out (max (secs j).hdr.align.toInt 16).toNat
    let base := offsetHere out
    let secs := g.sections.foldl (fun secs k => setSec secs k (addBase base (secs k))) secs
    (out ++ g.data, secs, { g with hdr := { g.hdr with
      offset := base
      paddr := match g.paddrSection with
        | none => g.hdr.paddr
        | some k => (secs k).hdr.offset } })

/-- `ElfFile.cpp:466-471` all segments. -/
def writeSegments : List Byte → (Nat → Sec) → List Seg → List Byte × (Nat → Sec) × List Seg
  | out, secs, [] => (out, secs, [])
  | out, secs, g :: l =>
    let x := writeSegment out secs g
    let y := writeSegments x.1 x.2.1 l
    (y.1, y.2.1, x.2.2 :: y.2.2)

/-- `ElfFile.cpp:54-68` `ElfSection::writeData`. The provisional offset of NOBITS sections is overwritten. -/
def writeSection (out : List Byte) (s : Sec) : List Byte × Sec :=
  if s.hdr.type = 0#32 then (out, s)
  else
    let out := if s.hdr.align ≠ -1#32 then alignSize out s.hdr.align.toNat else out
    (out ++ s.data, { s with hdr := { s.hdr with offset := offsetHere out } })

/-- `ElfFile.cpp:472-477` all sections without a segment. -/
def writeSections : List Byte → (Nat → Sec) → List Nat → List Byte × (Nat → Sec)
  | out, secs, [] => (out, secs)
  | out, secs, j :: l =>
    let x := writeSection out (secs j)
    writeSections x.1 (setSec secs j x.2) l

/-- `ElfFile.cpp:454-478` one part. -/
def writePart (x : List Byte × File) (p : Part) : List Byte × File :=
  let (out, f) := x
  match p with
  | .segmentTable =>
    let out := alignSize out 4
    (out ++ List.replicate (f.segs.length * f.hdr.phentsize.toNat) 0#8, { f with hdr := { f.hdr with phoff := offsetHere out } })
  | .sectionTable =>
    let out := alignSize out 4
    (out ++ List.replicate (f.nsecs * f.hdr.shentsize.toNat) 0#8, { f with hdr := { f.hdr with shoff := offsetHere out } })
  | .segments =>
    let y := writeSegments out f.secs f.segs
    (y.1, { f with secs := y.2.1, segs := y.2.2 })
  | .segmentless =>
    let y := writeSections out f.secs f.less
    (y.1, { f with secs := y.2 })

/-- Words one after the other. -/
def putWords (e : Endianness) (d : List Byte) (p : Nat) : List (BitVec 32) → List Byte
  | [] => d
  | w :: l => putWords e (putWord e d p w) (p + 4) l

/-- Halfwords one after the other. -/
def putHalves (e : Endianness) (d : List Byte) (p : Nat) : List (BitVec 16) → List Byte
  | [] => d
  | w :: l => putHalves e (putHalf e d p w) (p + 2) l

/-- `ElfFile.cpp:305-321` `writeHeader`. The output has at least 52 bytes. -/
def writeEhdr (e : Endianness) (d : List Byte) (h : Ehdr) : List Byte :=
  let d := h.ident ++ d.drop h.ident.length
  let d := putHalves e d 0x10 [h.type, h.machine]
  let d := putWords e d 0x14 [h.version, h.entry, h.phoff, h.shoff, h.flags]
  putHalves e d 0x28 [h.ehsize, h.phentsize, h.phnum, h.shentsize, h.shnum, h.shstrndx]

/-- `ElfFile.cpp:149-159` `ElfSegment::writeHeader`. -/
def writePhdr (e : Endianness) (d : List Byte) (p : Nat) (h : Phdr) : List Byte :=
  putWords e d p [h.type, h.offset, h.vaddr, h.paddr, h.filesz, h.memsz, h.flags, h.align]

/-- `ElfFile.cpp:39-51` `ElfSection::writeHeader`. -/
def writeShdr (e : Endianness) (d : List Byte) (p : Nat) (h : Shdr) : List Byte :=
  putWords e d p [h.name, h.type, h.flags, h.addr, h.offset, h.size, h.link, h.info, h.align, h.entsize]

/-- `ElfFile.cpp:484-488` the segment table, from entry `i` on. -/
def writePhdrs (e : Endianness) (h : Ehdr) (d : List Byte) (i : Nat) : List Seg → List Byte
  | [] => d
  | g :: l => writePhdrs e h (writePhdr e d (h.phoff.toNat + i * h.phentsize.toNat) g.hdr) (i + 1) l

/-- `ElfFile.cpp:490-494` the first `n` entries of the section table. -/
def writeShdrs (e : Endianness) (h : Ehdr) (secs : Nat → Sec) (d : List Byte) : Nat → List Byte
  | 0 => d
  | n + 1 => writeShdr e (writeShdrs e h secs d n) (h.shoff.toNat + n * h.shentsize.toNat) (secs n).hdr

/-- `ElfFile.cpp:445-497` `save`: the bytes written to the file, and the object afterwards. -/
def save (f : File) : List Byte × File :=
  let x := f.order.foldl writePart (List.replicate 52 0#8, f)
  let e := endian x.2.hdr
  let d := writeEhdr e x.1 x.2.hdr
  let d := writePhdrs e x.2.hdr d 0 x.2.segs
  (writeShdrs e x.2.hdr x.2.secs d x.2.nsecs, x.2)

/-! ### The file as output of the assembler -/

/-- `MipsElfFile.h:7-38` `MipsElfFile`: -1 is "none". `sectionOffset` is not initialised: `none`. -/
structure Output where
  elf : File
  segment : Option Nat := none
  section_ : Option Nat := none
  sectionOffset : Option Int := none
  errors : Nat := 0

/-- The first element that satisfies a condition, with its number. -/
def firstWith {α : Type} (p : α → Bool) : List α → Option (Nat × α)
  | [] => none
  | x :: l => if p x then some (0, x) else (firstWith p l).map fun r => (r.1 + 1, r.2)

/-- The number and the start of the first section of a segment that contains the address (`MipsElfFile.cpp:92-106`,
`129-143`). -/
def sectionAt (secs : Nat → Sec) (segStart a : Int) (l : List Nat) : Option (Nat × Int) :=
  (firstWith (fun j => decide (segStart + (secs j).hdr.offset.toNat ≤ a ∧
      a < segStart + (secs j).hdr.offset.toNat + (secs j).hdr.size.toNat)) l).map fun r =>
    (r.1, segStart + (secs r.2).hdr.offset.toNat)

/-- `MipsElfFile.cpp:81-116` `seekVirtual`. -/
def seekVirtual (o : Output) (a : Int) : Output × Bool :=
  match firstWith (fun g : Seg => decide ((g.hdr.vaddr.toNat : Int) ≤ a ∧ a < g.hdr.vaddr.toNat + g.hdr.filesz.toNat)) o.elf.segs with
  | none => ({ o with errors := o.errors + 1 }, false)
  | some (i, g) =>
    match sectionAt o.elf.secs g.hdr.vaddr.toNat a g.sections with
    | none => ({ o with errors := o.errors + 1 }, false)
    | some (l, start) => ({ o with segment := some i, section_ := some l, sectionOffset := some (a - start) }, true)

/-- `MipsElfFile.cpp:118-170` `seekPhysical`. -/
def seekPhysical (o : Output) (a : Int) : Output × Bool :=
  match firstWith (fun g : Seg => decide ((g.hdr.offset.toNat : Int) ≤ a ∧ a < g.hdr.offset.toNat + g.hdr.filesz.toNat)) o.elf.segs with
  | some (i, g) =>
    match sectionAt o.elf.secs g.hdr.offset.toNat a g.sections with
    | none => ({ o with errors := o.errors + 1 }, false)
    | some (l, start) => ({ o with segment := some i, section_ := some l, sectionOffset := some (a - start) }, true)
  | none =>
    match sectionAt o.elf.secs 0 a o.elf.less with
    | some (l, start) => ({ o with segment := none, section_ := some l, sectionOffset := some (a - start) }, true)
    | none => ({ o with segment := none, section_ := none, errors := o.errors + 1 }, false)

/-- The segment and the current section in it; a number out of range is undefined behaviour. -/
def current (o : Output) (i : Nat) : Option (Seg × Sec) := do
  let g ← o.elf.segs[i]?
  let l ← o.section_
  let j ← g.sections[l]?
  some (g, o.elf.secs j)

/-- `MipsElfFile.cpp:39-52` `getVirtualAddress`. The sum of address and offset has 32 bits. -/
def getVirtualAddress (o : Output) : Option (Output × Int) :=
  match o.segment with
  | none => some ({ o with errors := o.errors + 1 }, -1)
  | some i => do
    let (g, s) ← current o i
    let x ← o.sectionOffset
    some (o, (g.hdr.vaddr + s.hdr.offset).toNat + x)

/-- `MipsElfFile.cpp:54-72` `getPhysicalAddress`. -/
def getPhysicalAddress (o : Output) : Option (Output × Int) :=
  match o.segment with
  | some i => do
    let (g, s) ← current o i
    some (o, (g.hdr.offset + s.hdr.offset).toNat)
  | none =>
    match o.section_ with
    | some l => do
      let j ← o.elf.less[l]?
      some (o, (o.elf.secs j).hdr.offset.toNat)
    | none => some ({ o with errors := o.errors + 1 }, -1)

/-- `ElfFile.cpp:177-183` `writeToData`. -/
def writeToData (g : Seg) (p : Int) (bs : List Byte) : Option Seg :=
  if bs = [] then some g
  else if 0 ≤ p ∧ p + bs.length ≤ g.data.length then
    some { g with data := g.data.take p.toNat ++ bs ++ g.data.drop (p.toNat + bs.length) }
  else none

/-- `MipsElfFile.cpp:178-199` `write`. -/
def write (o : Output) (bs : List Byte) : Option (Output × Bool) :=
  match o.segment with
  | some i => do
    let (g, s) ← current o i
    let x ← o.sectionOffset
    let g' ← writeToData g (s.hdr.offset.toNat + x) bs
    some ({ o with elf := { o.elf with segs := o.elf.segs.set i g' }, sectionOffset := some (x + bs.length) }, true)
  | none =>
    match o.section_ with
    | some _ => some (o, false)
    | none => some ({ o with errors := o.errors + 1 }, false)

/-- `MipsElfFile.cpp:201-227` `load`, on the contents of a file: `none` inside if it is refused. -/
def openFile (S : Sorts) (d : List Byte) : Option (Option Output) :=
  if d = [] then some none
  else do
    let (f, n) ← load S true d
    if f.hdr.type ≠ 2#16 then some none
    else
      let o : Output := { elf := f, errors := n }
      match f.segs with
      | [] => some (some o)
      | g :: _ => some (some (seekVirtual o g.hdr.vaddr.toNat).1)

/-- What directives ask of the active file: `.org` seeks a virtual address, `.orga` a position in the file
(`CDirectiveFile.cpp:171-182`), everything that is assembled is written (`FileManager.cpp:278-289`). -/
def call (o : Output) : Spec.Elf32.Op → Option Output
  | .org a => some (seekVirtual o a).1
  | .orga a => some (seekPhysical o a).1
  | .emit bs => (write o bs).map (·.1)

/-- Several calls. -/
def calls (o : Output) : List Spec.Elf32.Op → Option Output
  | [] => some o
  | c :: l => (call o c).bind fun o => calls o l

/-! ### Object files -/

/-- `ElfFile.cpp:499-505` `getSymbolCount`. -/
def symbolCount (f : File) : Nat :=
  match f.symTab with
  | none => 0
  | some j => (f.secs j).hdr.size.toNat / 16

/-- `ElfFile.cpp:525-531` `getStrTableString`: a string without end is undefined behaviour. -/
def strTableString (f : File) (p : Nat) : Option (List Byte) := do
  let j ← f.strTab
  cString (f.secs j).data p

/-- `ElfTypes.h:234-242` `Elf32_Sym`. -/
structure SymEntry where
  name : BitVec 32
  value : BitVec 32
  size : BitVec 32
  info : Byte
  other : Byte
  shndx : BitVec 16

/-- `ElfFile.cpp:507-523` `getSymbol`. -/
def getSymbol (f : File) (i : Nat) : Option SymEntry := do
  let j ← f.symTab
  let d := (f.secs j).data
  let e := endian f.hdr
  let a ← d[i * 16 + 0xC]?
  let b ← d[i * 16 + 0xD]?
  some ⟨getWord e d (i * 16), getWord e d (i * 16 + 4), getWord e d (i * 16 + 8), a, b, getHalf e d (i * 16 + 0xE)⟩

end Armips.ElfFile
