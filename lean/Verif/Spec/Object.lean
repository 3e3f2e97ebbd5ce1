import Verif.Spec.ElfFile
/-!
# Archives and object files as the standards describe them

An archive is the line `!<arch>` and members, each with a header of 60 bytes. An object file is an ELF file of type 1 (`REL`)
without segments. Sections, relocations and symbols are found as in `Spec.Elf32`.
-/
namespace Armips.Spec.Obj
open Armips.Spec.Elf32

/-! ### Archives -/

/-- Characters as bytes. -/
def ascii (s : String) : List Byte := s.toList.map fun c => BitVec.ofNat 8 c.toNat

/-- Filled up with spaces. -/
def field (n : Nat) (s : List Byte) : List Byte := s ++ List.replicate (n - s.length) 0x20#8

/-- Decimal digits of a number. -/
def decimal (n : Nat) : List Byte := ascii (toString n)

/-- A member: the name field, what the header says about date, owner and mode, and the contents. -/
structure Member where
  name : List Byte
  middle : List Byte
  data : List Byte

/-- A member can be written: the name field takes 16 bytes, the date, owner, group and mode 32 bytes; the size has at most ten
digits. -/
structure Member.Valid (m : Member) : Prop where
  name : m.name.length = 16
  middle : m.middle.length = 32
  size : m.data.length < 10 ^ 10

/-- Header and contents; the next member begins at an even position. -/
def Member.bytes (m : Member) : List Byte :=
  m.name ++ m.middle ++ field 10 (decimal m.data.length) ++ [0x60#8, 0x0A#8] ++ m.data ++ List.replicate (m.data.length % 2) 0x0A#8

/-- The archive with these members. -/
def archive (ms : List Member) : List Byte := ascii "!<arch>\n" ++ ms.flatMap Member.bytes

/-- The name field for a file name: filled up with spaces, in archives of System V after a slash. -/
def Names (field16 name : List Byte) : Prop := field16 = field 16 name ∨ field16 = field 16 (name ++ [0x2F#8])

/-- A file name that fits into the field without losing its end. -/
def Short (name : List Byte) : Prop := name.length ≤ 14 ∧ 0#8 ∉ name ∧ 0x20#8 ∉ name ∧ name.getLast? ≠ some 0x2F#8

/-- The contents begin like an ELF file. -/
def IsElf (d : List Byte) : Prop := d.take 4 = 0x7F#8 :: ascii "ELF"
instance (d) : Decidable (IsElf d) := inferInstanceAs (Decidable (_ = _))

/-! ### Object files -/

/-- A lower case letter for an upper case letter. -/
def lower (b : Byte) : Byte := if 0x41 ≤ b.toNat ∧ b.toNat ≤ 0x5A then b + 0x20#8 else b

/-- The label that belongs to a name in an object file. Labels do not distinguish upper and lower case. -/
def label (s : List Byte) : String := String.ofList (s.map fun b => Char.ofNat (lower b).toNat)

/-- The section belongs to the program: it occupies memory (flag 2), and it is PROGBITS, NOBITS or INIT_ARRAY. -/
def Loadable (d : List Byte) (j : Nat) : Prop :=
  sec d j .flags / 2 % 2 = 1 ∧ (sec d j .type = 1 ∨ sec d j .type = 8 ∨ sec d j .type = 14)
instance (d j) : Decidable (Loadable d j) := inferInstanceAs (Decidable (_ ∧ _))

/-- Section `k` holds relocations (REL or RELA) of section `j`. -/
def Relocates (d : List Byte) (k j : Nat) : Prop := (sec d k .type = 9 ∨ sec d k .type = 4) ∧ sec d k .info = j
instance (d k j) : Decidable (Relocates d k j) := inferInstanceAs (Decidable (_ ∧ _))

/-- Size of one relocation. -/
def relSize (d : List Byte) (k : Nat) : Nat := if sec d k .type = 4 then 12 else 8
/-- Number of relocations. -/
def relCount (d : List Byte) (k : Nat) : Nat := sec d k .size / relSize d k

/-- A 32-bit number in two's complement. -/
def signed32 (n : Nat) : Int := if n < 2 ^ 31 then n else n - 2 ^ 32

/-- Fields of relocation `i`: position in the section, kind, number of the symbol, and the addend. -/
def relOffset (d : List Byte) (k i : Nat) : Nat := word d (sec d k .offset + i * relSize d k)
def relInfo (d : List Byte) (k i : Nat) : Nat := word d (sec d k .offset + i * relSize d k + 4)
def relType (d : List Byte) (k i : Nat) : Nat := relInfo d k i % 256
def relSym (d : List Byte) (k i : Nat) : Nat := relInfo d k i / 256
def relAddend (d : List Byte) (k i : Nat) : Int :=
  if sec d k .type = 4 then signed32 (word d (sec d k .offset + i * relSize d k + 8)) else 0

/-- Fields of symbol `i` of the symbol table `t`. -/
def symCount (d : List Byte) (t : Nat) : Nat := sec d t .size / 16
def symName (d : List Byte) (t i : Nat) : Nat := word d (sec d t .offset + i * 16)
def symValue (d : List Byte) (t i : Nat) : Nat := word d (sec d t .offset + i * 16 + 4)
def symSize (d : List Byte) (t i : Nat) : Nat := word d (sec d t .offset + i * 16 + 8)
def symInfo (d : List Byte) (t i : Nat) : Nat := fromBytes (order d) (bytes d (sec d t .offset + i * 16 + 12) 1)
def symType (d : List Byte) (t i : Nat) : Nat := symInfo d t i % 16
def symBind (d : List Byte) (t i : Nat) : Nat := symInfo d t i / 16
def symSection (d : List Byte) (t i : Nat) : Nat := half d (sec d t .offset + i * 16 + 14)

/-- The symbol is defined here and visible elsewhere: bound as global or weak. -/
def Exported (d : List Byte) (t i : Nat) : Prop := (symBind d t i = 1 ∨ symBind d t i = 2) ∧ symSection d t i ≠ 0
instance (d t i) : Decidable (Exported d t i) := inferInstanceAs (Decidable (_ ∧ _))

/-- The string at position `p` of the string table `u`. -/
def StringAt (d : List Byte) (u p : Nat) (s : List Byte) : Prop :=
  p + s.length < sec d u .size ∧ bytes d (sec d u .offset + p) (s.length + 1) = s ++ [0#8] ∧ 0#8 ∉ s

/-- Number of the section that holds the names of the sections. -/
def shstrndx (d : List Byte) : Nat := half d 50

/-- The kind of an object file: a relocatable file of the machine and byte order, without segments. -/
def Kind (machine : Nat) (e : Endianness) (d : List Byte) : Prop :=
  half d 16 = 1 ∧ half d 18 = machine ∧ order d = e ∧ phnum d = 0
instance (m e d) : Decidable (Kind m e d) := inferInstanceAs (Decidable (_ ∧ _))

/-- `t` is the symbol table, the only one. -/
def SymTab (d : List Byte) (t : Nat) : Prop := t < shnum d ∧ sec d t .type = 2 ∧ ∀ k < shnum d, sec d k .type = 2 → k = t

/-- The symbol table names `u` as the table of its names, and there is no other string table but that of the section names. -/
def StrTab (d : List Byte) (t u : Nat) : Prop :=
  u < shnum d ∧ sec d t .link = u ∧ sec d u .type = 3 ∧ ∀ k < shnum d, sec d k .type = 3 → k = u ∨ k = shstrndx d

/-- The parts lie in the file; tables of relocations belong to sections and hold whole relocations. -/
structure Readable (d : List Byte) : Prop where
  wellFormed : WellFormed d
  relocations : ∀ k < shnum d, sec d k .type = 9 ∨ sec d k .type = 4 → sec d k .info < shnum d ∧ relSize d k ∣ sec d k .size

/-- Section `k` is the first that holds relocations of section `j`. -/
def RelTable (d : List Byte) (k j : Nat) : Prop := k < shnum d ∧ Relocates d k j ∧ ∀ k' < k, ¬ Relocates d k' j
instance (d k j) : Decidable (RelTable d k j) := inferInstanceAs (Decidable (_ ∧ _ ∧ ∀ k' < k, _))

/-- Address of a symbol in its section. In ARM code (`thumb`) the lowest bit of a function (type 2) marks Thumb code. -/
def symAddress (thumb : Bool) (type value : Nat) : Nat := if thumb = true ∧ type = 2 then value - value % 2 else value

/-- A string table whose last string ends. -/
def Ends (d : List Byte) (u : Nat) : Prop := sec d u .size ≠ 0 ∧ d[sec d u .offset + sec d u .size - 1]? = some 0#8

/-- All that an object file needs so that it can be read: names are in the string tables, relocations concern existing symbols. -/
structure Complete (d : List Byte) (t u : Nat) : Prop where
  readable : Readable d
  symTab : SymTab d t
  strTab : StrTab d t u
  sectionNames : shstrndx d ≠ 0 → shstrndx d < shnum d ∧ sec d (shstrndx d) .type = 3 ∧ Ends d (shstrndx d) ∧
    ∀ j < shnum d, sec d j .type ≠ null → sec d j .name < sec d (shstrndx d) .size
  strings : Ends d u
  symbolNames : ∀ i < symCount d t, symName d t i < sec d u .size
  sizes : ∀ j < shnum d, Loadable d j → sec d j .size < 2 ^ 31
  symbols : ∀ j < shnum d, Loadable d j → ∀ k < shnum d, RelTable d k j → ∀ i < relCount d k, relOffset d k i < 2 ^ 31 ∧ relSym d k i < symCount d t

end Armips.Spec.Obj
