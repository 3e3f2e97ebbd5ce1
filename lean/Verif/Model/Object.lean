import Verif.Model.ElfFile
import Verif.Spec.Object
/-!
# Reading archives and object files

Models `Core/ELF/ElfRelocator.cpp:31-219` (`loadArArchive`, `init`), the reading of relocations and symbols in
`ElfRelocator.cpp:280-289`, `343-389`, and the addresses that `exportSymbols` prepares (`246-250`). The result is the starting
point of `Elf.relocate`.

* `none` is undefined behaviour: reading outside of the file.
* Simplified: what is read again in each pass (relocations, symbols) is read once. A relocation beyond 2 GB, a section of 2 GB or more
  and a size in an archive that is not a decimal number of at most 31 bits are the outcome `none`.
* Not modelled: constructor sections, and the labels that `exportSymbols` defines (their names and addresses are given).
-/
namespace Armips.Object
open Armips.Elf (Machine Section Rel Sym getWord)
open Armips.ElfFile (Sorts symbolCount strTableString getSymbol)

/-- `ElfRelocator.cpp:25-29` `ArFileEntry`. -/
structure Entry where
  name : List Byte
  data : List Byte
  deriving DecidableEq

/-- `"!<arch>\n"`. -/
def arMagic : List Byte := [0x21, 0x3C, 0x61, 0x72, 0x63, 0x68, 0x3E, 0x0A]
/-- `"\x7F""ELF"`. -/
def elfMagic : List Byte := [0x7F, 0x45, 0x4C, 0x46]

/-- `ElfRelocator.cpp:54-63` the size of a member. -/
def arSize : List Byte → Nat → Option Nat
  | [], n => some n
  | b :: l, n =>
    if b = 0x20#8 then some n
    else if 0x30 ≤ b.toNat ∧ b.toNat ≤ 0x39 ∧ n * 10 + (b.toNat - 0x30) < 2 ^ 31 then arSize l (n * 10 + (b.toNat - 0x30))
    else none

/-- `ElfRelocator.cpp:68-84` the name of a member. -/
def arName (l : List Byte) : List Byte :=
  let n := l.takeWhile (· ≠ 0x20#8)
  let n := if n.length < l.length ∧ n.getLast? = some 0x2F#8 then n.dropLast else n
  n.takeWhile (· ≠ 0#8)

/-- `ElfRelocator.cpp:47-94` the loop over the members, on the rest of the file. The first number bounds the steps; a header takes 60
bytes, so the length of the file is enough. Headers are at even positions, so that the padding depends on the size alone. -/
def arLoop : Nat → List Byte → Option (List Entry)
  | 0, r => if r = [] then some [] else none
  | fuel + 1, r =>
    if r = [] then some []
    else if r.length < 64 then none
    else do
      let n ← arSize ((r.drop 48).take 10) 0
      let body := r.drop 60
      if body.take 4 = elfMagic then
        if n ≤ body.length then
          let l ← arLoop fuel (body.drop (n + n % 2))
          some (⟨arName (r.take 16), body.take n⟩ :: l)
        else none
      else arLoop fuel (body.drop (n + n % 2))

/-- `ElfRelocator.cpp:31-97` `loadArArchive`. A file that cannot be read is empty. -/
def loadArchive (fileName d : List Byte) : Option (List Entry) :=
  if d.length < 8 ∨ d.take 8 ≠ arMagic then
    if d.length < 4 ∨ d.take 4 ≠ elfMagic then some [] else some [⟨fileName, d⟩]
  else arLoop d.length (d.drop 8)

/-- `ElfRelocator.cpp:280-289` `loadRelocation`, and `ElfTypes.h:249-280` the parts of `r_info`. -/
def readRel (e : Endianness) (rela : Bool) (d : List Byte) (p : Nat) : Option Rel :=
  let offset := getWord e d p
  let info := getWord e d (p + 4)
  if offset.toNat ≥ 2 ^ 31 then none
  else some ⟨offset.toNat, (info &&& 0xFF#32).toNat, (info >>> 8).toNat, if rela then (getWord e d (p + 8)).toInt else 0⟩

/-- `ElfRelocator.cpp:343-347` the relocations of a section, from a position on. -/
def readRels (e : Endianness) (rela : Bool) (d : List Byte) : Nat → Nat → Option (List Rel)
  | 0, _ => some []
  | n + 1, p => do
    let r ← readRel e rela d p
    let l ← readRels e rela d n (p + if rela then 12 else 8)
    some (r :: l)

/-- `ElfRelocator.cpp:166-178` the section with the relocations of section `s`. `getInfo` has 16 bits. -/
def findRels (f : ElfFile.File) (s : Nat) : Option Nat :=
  f.less.find? fun k =>
    ((f.secs k).hdr.type = 9#32 || (f.secs k).hdr.type = 4#32) && ((f.secs k).hdr.info.setWidth 16).toNat = s

/-- `ElfRelocator.cpp:339-347` the relocations of section `s`. The loop runs while the position is less than the size. -/
def relsOf (f : ElfFile.File) (s : Nat) : Option (List Rel) :=
  match findRels f s with
  | none => some []
  | some k =>
    let rela : Bool := (f.secs k).hdr.type = 4#32
    let n := if rela then 12 else 8
    readRels (ElfFile.endian f.hdr) rela (f.secs k).data (((f.secs k).hdr.size.toNat + (n - 1)) / n) 0

/-- `ElfRelocator.cpp:151-193` one section; `s` is its place among those without segment. -/
def objSection (f : ElfFile.File) (s j : Nat) : Option (Option Section) :=
  let x := f.secs j
  if x.hdr.flags &&& 2#32 = 0#32 then some none
  else if ¬ (x.hdr.type = 1#32 ∨ x.hdr.type = 8#32 ∨ x.hdr.type = 14#32) then some none
  else if x.hdr.size.toNat ≥ 2 ^ 31 then none
  else do
    let nobits : Bool := x.hdr.type = 8#32
    let rels ← (if nobits then some [] else relsOf f s)
    some (some ⟨s, x.hdr.size.toNat, x.hdr.align.toNat, nobits, x.data, rels⟩)

/-- The loop over the sections. -/
def objSections (f : ElfFile.File) : Nat → List Nat → Option (List Section)
  | _, [] => some []
  | s, j :: l => do
    let x ← objSection f s j
    let r ← objSections f (s + 1) l
    some (x.toList ++ r)

/-- `ElfRelocator.cpp:361-389` the symbol of a relocation. The name is only looked at if the symbol is not defined. -/
def relSym (f : ElfFile.File) (i : Nat) : Option Sym := do
  let y ← getSymbol f i
  let name ← (if y.shndx = 0#16 ∧ y.name ≠ 0#32 then (strTableString f y.name.toNat).map some else some none)
  some ⟨name.map Spec.Obj.label, y.value.toNat, y.size.toNat, (y.info &&& 0xF#8).toNat, y.shndx.toNat⟩

/-- `ElfRelocator.cpp:195-213` one exported symbol, and `246-250` its address. -/
def objSymbol (M : Machine) (f : ElfFile.File) (i : Nat) : Option (Option Sym) := do
  let y ← getSymbol f i
  if (y.info >>> 4 = 1#8 ∨ y.info >>> 4 = 2#8) ∧ y.shndx ≠ 0#16 then do
    let name ← strTableString f y.name.toNat
    let type := (y.info &&& 0xF#8).toNat
    some (some ⟨some (Spec.Obj.label name), (M.symbol y.value.toNat type).1.toNat, y.size.toNat, type, y.shndx.toNat⟩)
  else some none

/-- The loop over the symbols. -/
def objSymbols (M : Machine) (f : ElfFile.File) : Nat → Option (List Sym)
  | 0 => some []
  | n + 1 => do
    let l ← objSymbols M f n
    let x ← objSymbol M f n
    some (l ++ x.toList)

/-- Why an import is refused. -/
inductive Refusal | library | type | machine | endianness | segments
  deriving DecidableEq, Repr

/-- `ElfRelocator.cpp:115-216` one object file. `machine` is `expectedMachine` and `e` the byte order of the architecture. The
relocations of a section without contents are not read. -/
def objectFile (S : Sorts) (M : Machine) (machine : BitVec 16) (e : Endianness) (d : List Byte) : Option (Except Refusal Elf.File) := do
  let (f, _) ← ElfFile.load S false d
  if f.hdr.type ≠ 1#16 then some (.error .type)
  else if f.hdr.machine ≠ machine then some (.error .machine)
  else if ElfFile.endian f.hdr ≠ e then some (.error .endianness)
  else if f.segs.length ≠ 0 then some (.error .segments)
  else do
    let sections ← objSections f 0 f.less
    let exported ← objSymbols M f (symbolCount f)
    if sections.all fun s => s.rels.all fun r => M.dummy r.type || r.sym = 0 || (relSym f r.sym).isSome then
      some (.ok ⟨e, sections, fun i => (relSym f i).getD ⟨none, 0, 0, 0, 0⟩, exported⟩)
    else none

/-- The loop over the files of an archive. -/
def objectFiles (S : Sorts) (M : Machine) (machine : BitVec 16) (e : Endianness) : List Entry → Option (Except Refusal (List Elf.File))
  | [] => some (.ok [])
  | x :: l => do
    match ← objectFile S M machine e x.data with
    | .error r => some (.error r)
    | .ok f =>
      match ← objectFiles S M machine e l with
      | .error r => some (.error r)
      | .ok fs => some (.ok (f :: fs))

/-- `ElfRelocator.cpp:99-219` `init`. -/
def init (S : Sorts) (M : Machine) (machine : BitVec 16) (e : Endianness) (fileName d : List Byte) :
    Option (Except Refusal (List Elf.File)) := do
  let l ← loadArchive fileName d
  if l = [] then some (.error .library) else objectFiles S M machine e l

end Armips.Object
