import Verif.Spec.Bytes
/-!
# ELF files as the standard describes them

How a reader of an ELF file (32 bit) finds headers, segments and sections. Positions and numbers are those of the "Tool Interface
Standard" tables: the file header has 52 bytes; program headers have eight words; section headers have ten.
-/
namespace Armips.Spec.Elf32

/-- Byte order: byte 5 of the identification is 2 for big endian. -/
def order (d : List Byte) : Endianness := if d[5]? = some 2#8 then .big else .little

/-- Bytes of the file. -/
def bytes (d : List Byte) (p n : Nat) : List Byte := (d.drop p).take n

/-- 16-bit number at a position. -/
def half (d : List Byte) (p : Nat) : Nat := fromBytes (order d) (bytes d p 2)
/-- 32-bit number at a position. -/
def word (d : List Byte) (p : Nat) : Nat := fromBytes (order d) (bytes d p 4)

/-- Position of the program headers, their size and number. -/
def phoff (d : List Byte) : Nat := word d 28
def phentsize (d : List Byte) : Nat := half d 42
def phnum (d : List Byte) : Nat := half d 44
/-- Position of the section headers, their size and number. -/
def shoff (d : List Byte) : Nat := word d 32
def shentsize (d : List Byte) : Nat := half d 46
def shnum (d : List Byte) : Nat := half d 48

/-- Fields of a program header. -/
inductive PField | type | offset | vaddr | paddr | filesz | memsz | flags | align
  deriving DecidableEq
/-- Their place. -/
def PField.place : PField → Nat
  | .type => 0 | .offset => 4 | .vaddr => 8 | .paddr => 12 | .filesz => 16 | .memsz => 20 | .flags => 24 | .align => 28

/-- Fields of a section header. -/
inductive SField | name | type | flags | addr | offset | size | link | info | align | entsize
  deriving DecidableEq
/-- Their place. -/
def SField.place : SField → Nat
  | .name => 0 | .type => 4 | .flags => 8 | .addr => 12 | .offset => 16 | .size => 20 | .link => 24 | .info => 28
  | .align => 32 | .entsize => 36

/-- A field of segment `i`. -/
def seg (d : List Byte) (i : Nat) (f : PField) : Nat := word d (phoff d + i * phentsize d + f.place)
/-- A field of section `j`. -/
def sec (d : List Byte) (j : Nat) (f : SField) : Nat := word d (shoff d + j * shentsize d + f.place)

/-- Type NULL, and type NOBITS: a section without bytes in the file. -/
def null : Nat := 0
def nobits : Nat := 8

/-- Number of bytes of a section in the file. -/
def fileSize (d : List Byte) (j : Nat) : Nat := if sec d j .type = nobits then 0 else sec d j .size

/-- Contents of a segment, and of a section. -/
def segBytes (d : List Byte) (i : Nat) : List Byte := bytes d (seg d i .offset) (seg d i .filesz)
def secBytes (d : List Byte) (j : Nat) : List Byte := bytes d (sec d j .offset) (fileSize d j)

/-- Section `j` lies in segment `i`; at the very end only an empty one does. -/
def Inside (d : List Byte) (i j : Nat) : Prop :=
  seg d i .offset ≤ sec d j .offset ∧
    (sec d j .offset < seg d i .offset + seg d i .filesz ∧ sec d j .offset + fileSize d j ≤ seg d i .offset + seg d i .filesz ∨
     sec d j .offset = seg d i .offset + seg d i .filesz ∧ fileSize d j = 0)

instance (d i j) : Decidable (Inside d i j) := inferInstanceAs (Decidable (_ ∧ _))

/-- Segment `i` is the first one that section `j` lies in. -/
def Owner (d : List Byte) (i j : Nat) : Prop := i < phnum d ∧ Inside d i j ∧ ∀ k < i, ¬ Inside d k j

/-- A file whose header, tables, segments and sections lie in the file. -/
structure WellFormed (d : List Byte) : Prop where
  header : 52 ≤ d.length
  small : d.length < 2 ^ 31
  phentry : phnum d = 0 ∨ 32 ≤ phentsize d
  shentry : shnum d = 0 ∨ 40 ≤ shentsize d
  phtable : phoff d + phnum d * phentsize d ≤ d.length
  shtable : shoff d + shnum d * shentsize d ≤ d.length
  segments : ∀ i < phnum d, seg d i .offset + seg d i .filesz ≤ d.length
  sections : ∀ j < shnum d, sec d j .offset + fileSize d j ≤ d.length

/-! ### Working in an ELF file

Directives choose a place by its address in memory (`org`) or in the file (`orga`); what is assembled goes there. Addresses are
those of the file that was opened. -/

/-- The address lies in the bytes of segment `i`, which starts at the given field. -/
def Covers (d : List Byte) (start : PField) (a : Int) (i : Nat) : Prop :=
  (seg d i start : Int) ≤ a ∧ a < seg d i start + seg d i .filesz

/-- Segment `i` is the first that the address lies in. -/
def SegAt (d : List Byte) (start : PField) (a : Int) (i : Nat) : Prop :=
  i < phnum d ∧ Covers d start a i ∧ ∀ k < i, ¬ Covers d start a k

/-- The address lies in a section of segment `i`. -/
def SecAt (d : List Byte) (start : PField) (a : Int) (i : Nat) : Prop :=
  ∃ j < shnum d, Owner d i j ∧ seg d i start + ((sec d j .offset - seg d i .offset : Nat) : Int) ≤ a ∧
    a < seg d i start + (sec d j .offset - seg d i .offset : Nat) + sec d j .size

/-- The file position lies in a section outside of all segments. -/
def FreeAt (d : List Byte) (a : Int) : Prop :=
  ∃ j < shnum d, (∀ i < phnum d, ¬ Inside d i j) ∧ (sec d j .offset : Int) ≤ a ∧ a < sec d j .offset + sec d j .size

/-- Where the next byte goes: nowhere, to a byte of a segment, or into a section that has no segment. -/
inductive Place | nowhere | segment (i p : Nat) | free

/-- Contents of the segments, the current place, and the number of errors. -/
structure Image where
  contents : Nat → List Byte
  place : Place
  errors : Nat

inductive Op | org (a : Int) | orga (a : Int) | emit (bs : List Byte)

/-- Bytes replaced from a position on. -/
def overwrite (c : List Byte) (p : Nat) (bs : List Byte) : List Byte := c.take p ++ bs ++ c.drop (p + bs.length)

/-- One directive. Writing outside of a segment has no meaning. -/
inductive Step (d : List Byte) : Image → Op → Image → Prop
  | org {m a i} : SegAt d .vaddr a i → SecAt d .vaddr a i →
      Step d m (.org a) { m with place := .segment i (a - seg d i .vaddr).toNat }
  | orgError {m a} : (¬ ∃ i, SegAt d .vaddr a i ∧ SecAt d .vaddr a i) → Step d m (.org a) { m with errors := m.errors + 1 }
  | orga {m a i} : SegAt d .offset a i → SecAt d .offset a i →
      Step d m (.orga a) { m with place := .segment i (a - seg d i .offset).toNat }
  | orgaHole {m a i} : SegAt d .offset a i → ¬ SecAt d .offset a i → Step d m (.orga a) { m with errors := m.errors + 1 }
  | orgaFree {m a} : (¬ ∃ i, SegAt d .offset a i) → FreeAt d a → Step d m (.orga a) { m with place := .free }
  | orgaError {m a} : (¬ ∃ i, SegAt d .offset a i) → ¬ FreeAt d a →
      Step d m (.orga a) { m with place := .nowhere, errors := m.errors + 1 }
  | emit {C i p n bs} : p + bs.length ≤ (C i).length →
      Step d ⟨C, .segment i p, n⟩ (.emit bs) ⟨fun k => if k = i then overwrite (C i) p bs else C k, .segment i (p + bs.length), n⟩
  | emitFree {C n bs} : Step d ⟨C, .free, n⟩ (.emit bs) ⟨C, .free, n⟩
  | emitNowhere {C n bs} : Step d ⟨C, .nowhere, n⟩ (.emit bs) ⟨C, .nowhere, n + 1⟩

/-- Several directives. -/
inductive Steps (d : List Byte) : Image → List Op → Image → Prop
  | nil {m} : Steps d m [] m
  | cons {m m' m'' o l} : Step d m o m' → Steps d m' l m'' → Steps d m (o :: l) m''

end Armips.Spec.Elf32
