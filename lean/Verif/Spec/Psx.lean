import Verif.Model.Psx
import Verif.Spec.Elf
import Verif.Spec.Object
/-!
# Libraries and object files of the PlayStation: the format

An object file begins with `LNK`, 2, 0x2E, 7 and consists of records. A library begins with `LIB`, 1 and consists of entries. Numbers
are little-endian. `Psx.File`, `Psx.Segment`, `Psx.Reloc` and `Psx.Sym` hold what has been read.
-/
namespace Armips.Spec.Psx
open Armips.Psx

/-- A string: its length and its bytes. -/
def str (s : List Byte) : List Byte := BitVec.ofNat 8 s.length :: s

/-- What a relocation refers to: a symbol or a position in a segment, both by number. -/
inductive Place where
  | symbol (id : Nat)
  | segment (id pos : Nat)
  deriving DecidableEq

/-- Its bytes. -/
def Place.bytes : Place → List Byte
  | symbol i => 0x02#8 :: toLE 2 i
  | segment i p => [0x2C#8, 0x04#8] ++ toLE 2 i ++ [0x00#8] ++ toLE 4 p

/-- A number that is added to the address. -/
inductive Shift where
  | none
  | plus (n : Nat)
  | minus (n : Nat)
  deriving DecidableEq

/-- Its bytes. -/
def Shift.bytes : Shift → List Byte
  | none => []
  | plus n => [0x2C#8, 0x00#8] ++ toLE 4 n
  | minus n => [0x2E#8, 0x00#8] ++ toLE 4 n

/-- Its value. -/
def Shift.value : Shift → Int
  | none => 0
  | plus n => n
  | minus n => -n

/-- The records. What is not read is in `rest`. -/
inductive Record where
  | segment (id : Nat) (name : List Byte)
  | group (rest name : List Byte)
  | source (rest name : List Byte)
  | select (id : Nat)
  | data (bytes : List Byte)
  | zeroes (n : Nat)
  | reloc (kind : Kind) (offset : Nat) (shift : Shift) (place : Place)
  | internal (segment offset : Nat) (name : List Byte)
  | external (id : Nat) (name : List Byte)
  | bss (id segment size : Nat) (name : List Byte)
  | internalId (id segment offset : Nat) (name : List Byte)
  | function (segment offset : Nat) (rest name : List Byte)
  | other (tag : Byte) (rest : List Byte)

/-- The byte for a kind of relocation. -/
def kindByte : Kind → Byte
  | .word => 0x10#8 | .call => 0x4A#8 | .upper => 0x52#8 | .lower => 0x54#8

/-- The bytes of a record. -/
def Record.bytes : Record → List Byte
  | segment i n => 0x10#8 :: (toLE 4 i ++ 8#8 :: str n)
  | group r n => 0x14#8 :: (r ++ str n)
  | source r n => 0x1C#8 :: (r ++ str n)
  | select i => 0x06#8 :: toLE 2 i
  | data b => 0x02#8 :: (toLE 2 b.length ++ b)
  | zeroes n => 0x08#8 :: toLE 2 n
  | reloc k o s p => 0x0A#8 :: kindByte k :: (toLE 2 o ++ s.bytes ++ p.bytes)
  | internal s o n => 0x12#8 :: (toLE 2 s ++ toLE 4 o ++ str n)
  | external i n => 0x0E#8 :: (toLE 2 i ++ str n)
  | bss i s z n => 0x30#8 :: (toLE 2 i ++ toLE 2 s ++ toLE 4 z ++ str n)
  | internalId i s o n => 0x0C#8 :: (toLE 2 i ++ toLE 2 s ++ toLE 4 o ++ str n)
  | function s o r n => 0x4A#8 :: (toLE 2 s ++ toLE 4 o ++ r ++ str n)
  | other t r => t :: r

/-- The object file with these records. -/
def object (l : List Record) : List Byte := [0x4C#8, 0x4E#8, 0x4B#8, 0x02#8, 0x2E#8, 0x07#8] ++ l.flatMap Record.bytes

/-- A number fits a place. -/
def Place.Fits : Place → Prop
  | symbol i => i < 2 ^ 16
  | segment i p => i < 2 ^ 16 ∧ p < 2 ^ 31

/-- The number fits. -/
def Shift.Fits : Shift → Prop
  | none => True
  | plus n => n < 2 ^ 31
  | minus n => n < 2 ^ 31

/-- The numbers fit into their fields, and have the same value as 32-bit numbers with a sign; other records have the length they need. -/
def Record.Fits : Record → Prop
  | segment i n => i < 2 ^ 31 ∧ n.length < 256
  | group r n => r.length = 3 ∧ n.length < 256
  | source r n => r.length = 2 ∧ n.length < 256
  | select i => i < 2 ^ 16
  | data b => b.length < 2 ^ 16
  | zeroes n => n < 2 ^ 16
  | reloc _ o s p => o < 2 ^ 16 ∧ s.Fits ∧ p.Fits
  | internal s o n => s < 2 ^ 16 ∧ o < 2 ^ 31 ∧ n.length < 256
  | external i n => i < 2 ^ 16 ∧ n.length < 256
  | bss i s z n => i < 2 ^ 16 ∧ s < 2 ^ 16 ∧ z < 2 ^ 31 ∧ n.length < 256
  | internalId i s o n => i < 2 ^ 16 ∧ s < 2 ^ 16 ∧ o < 2 ^ 31 ∧ n.length < 256
  | function s o r n => s < 2 ^ 16 ∧ o < 2 ^ 31 ∧ r.length = 22 ∧ n.length < 256
  | other t r => (t = 0x4C#8 ∧ r.length = 10) ∨ (t = 0x3C#8 ∧ r.length = 2) ∨ (t = 0x00#8 ∧ r.length = 0) ∨ (t = 0x32#8 ∧ r.length = 2) ∨
      (t = 0x3A#8 ∧ r.length = 8)

/-- The segments that the records define: number and name. -/
def defined : List Record → List (Nat × List Byte)
  | [] => []
  | .segment i n :: l => (i, n) :: defined l
  | _ :: l => defined l

/-- The contents of segment `id`: data and zeroes that follow while it is the selected one, `sel`. -/
def contents (id : Nat) : Option Nat → List Record → List Byte
  | _, [] => []
  | _, .select j :: l => contents id (some j) l
  | sel, .data b :: l => (if sel = some id then b else []) ++ contents id sel l
  | sel, .zeroes n :: l => (if sel = some id then List.replicate n 0#8 else []) ++ contents id sel l
  | sel, _ :: l => contents id sel l

/-- What a relocation record says; `part` is the position of the data it belongs to. -/
def relocOf (k : Kind) (part o : Nat) (s : Shift) : Place → Reloc
  | .symbol i => ⟨k, .symbol, part + o, i, 0, s.value⟩
  | .segment i p => ⟨k, .segment, part + o, i, p, s.value⟩

/-- The relocations of segment `id`, in their order. The offset in a record counts from the beginning of the last data record, which is
at `part`; `size` is the size of the segment so far. -/
def relocs (id : Nat) : Option Nat → (size part : Nat) → List Record → List Reloc
  | _, _, _, [] => []
  | _, z, p, .select j :: l => relocs id (some j) z p l
  | sel, z, p, .data b :: l => if sel = some id then relocs id sel (z + b.length) z l else relocs id sel z p l
  | sel, z, p, .zeroes n :: l => if sel = some id then relocs id sel (z + n) p l else relocs id sel z p l
  | sel, z, p, .reloc k o s x :: l => if sel = some id then relocOf k p o s x :: relocs id sel z p l else relocs id sel z p l
  | sel, z, p, _ :: l => relocs id sel z p l

/-- The symbols, in their order. -/
def symbols : List Record → List Sym
  | [] => []
  | .internal s o n :: l => ⟨.internal, n, s, o, 0, 0⟩ :: symbols l
  | .external i n :: l => ⟨.external, n, 0, 0, i, 0⟩ :: symbols l
  | .bss i s z n :: l => ⟨.bss, n, s, 0, i, z⟩ :: symbols l
  | .internalId i s o n :: l => ⟨.internalId, n, s, o, i, 0⟩ :: symbols l
  | .function s o _ n :: l => ⟨.function, n, s, o, 0, 0⟩ :: symbols l
  | _ :: l => symbols l

/-- What the object holds. -/
def meaning (l : List Record) : File :=
  ⟨(defined l).map fun x => ⟨x.1, x.2, contents x.1 none l, relocs x.1 none 0 0 l⟩, symbols l⟩

/-- The order of the records makes sense: a segment is defined before it is selected; one is selected before data; data of the selected
segment come before relocations. `ids` are the segments so far, `sel` the selected one, `fed` says that it has got data. -/
def Ordered : List Nat → Option Nat → Bool → List Record → Prop
  | _, _, _, [] => True
  | ids, sel, fed, .segment i _ :: l => i ∉ ids ∧ Ordered (ids ++ [i]) sel fed l
  | ids, _, _, .select j :: l => j ∈ ids ∧ Ordered ids (some j) false l
  | ids, sel, _, .data _ :: l => sel ≠ none ∧ Ordered ids sel true l
  | ids, sel, fed, .zeroes _ :: l => sel ≠ none ∧ Ordered ids sel fed l
  | ids, sel, fed, .reloc .. :: l => fed = true ∧ Ordered ids sel fed l
  | ids, sel, fed, _ :: l => Ordered ids sel fed l

/-- An object: the fields fit, the order makes sense. -/
structure Valid (l : List Record) : Prop where
  fits : ∀ r ∈ l, r.Fits
  ordered : Ordered [] none false l

/-! ### Libraries -/

/-- An entry of a library: its name, the names it exports, and the object. -/
structure Member where
  name : List Byte
  exports : List (List Byte)
  data : List Byte

/-- The list of exported names. -/
def Member.directory (m : Member) : List Byte := m.exports.flatMap str ++ [0#8]

/-- Number of bytes: name and size take 20, the names and the object follow. -/
def Member.size (m : Member) : Nat := 20 + m.directory.length + m.data.length

/-- The entry: the name filled up with spaces to 16 bytes, the size, the names, the object. -/
def Member.bytes (m : Member) : List Byte :=
  m.name ++ List.replicate (16 - m.name.length) 0x20#8 ++ toLE 4 m.size ++ m.directory ++ m.data

/-- It can be written like this. -/
structure Member.Valid (m : Member) : Prop where
  name : m.name.length ≤ 16 ∧ 0x20#8 ∉ m.name
  exports : ∀ n ∈ m.exports, n ≠ [] ∧ n.length < 256
  size : m.size < 2 ^ 31

/-- The library with these entries. -/
def library (l : List Member) : List Byte := [0x4C#8, 0x49#8, 0x42#8, 0x01#8] ++ l.flatMap Member.bytes

/-! ### Placing -/

/-- The file with the relocations of each segment in the order in which they are applied. -/
def ready (f : File) : File := ⟨f.segments.map Segment.sorted, f.symbols⟩

/-- The first address from `a` on that is divisible by 4. -/
def next4 (a : Int) : Int := if a % 4 = 0 then a else a + (4 - a % 4)

/-- The address of the `i`-th segment: the segments follow each other, each but the first at the next multiple of 4. -/
def segAddress (a : Int) : List Segment → Nat → Int
  | s :: l, i + 1 => segAddress (next4 (a + s.data.length)) l i
  | _, _ => a

/-- The address behind all of them. -/
def segEnd (a : Int) (l : List Segment) : Int := segAddress a l l.length

/-- `a` is the address of the segment with the number `id` in a file at `start`. -/
def SegmentAt (start : Int) (f : File) (id a : Int) : Prop :=
  ∃ i s, f.segments[i]? = some s ∧ s.id = id ∧ a = segAddress start f.segments i

/-- Variables without contents (BSS) follow the segments, each but the first at the next multiple of 4; the address behind these. -/
def bssEnd (a : Int) : List Sym → Int
  | [] => a
  | s :: l => bssEnd (if s.kind = .bss then next4 (a + s.size) else a) l

/-- `a` is the address of the `k`-th symbol of a file at `start`; an external one is a label. -/
def SymbolAt (labels : Labels) (start : Int) (f : File) (k : Nat) (a : Int) : Prop :=
  ∃ s, f.symbols[k]? = some s ∧
    match s.kind with
    | .internal | .function | .internalId => ∃ b, SegmentAt start f s.segment b ∧ a = b + s.offset
    | .bss => a = bssEnd (segEnd start f.segments) (f.symbols.take k)
    | .external => labels (s.name.map Obj.lower) = some a

/-- The kinds of symbols that relocations refer to. -/
def Numbered (s : Sym) : Prop := s.kind = .internalId ∨ s.kind = .bss ∨ s.kind = .external
instance (s) : Decidable (Numbered s) := inferInstanceAs (Decidable (_ ∨ _ ∨ _))

/-- `a` is the address that a relocation means. -/
def Refers (labels : Labels) (start : Int) (f : File) (r : Reloc) (a : Int) : Prop :=
  match r.ref with
  | .segment => ∃ b, SegmentAt start f r.id b ∧ a = b + r.pos + r.rel
  | .symbol => ∃ k s b, f.symbols[k]? = some s ∧ Numbered s ∧ s.id = r.id ∧ SymbolAt labels start f k b ∧ a = b + r.rel

/-- Numbers and names say what is meant: no two segments and no two symbols have the same number, no two symbols the same label. -/
structure Distinct (f : File) : Prop where
  segments : (f.segments.map (·.id)).Nodup
  numbers : ((f.symbols.filter (fun s => Numbered s)).map (·.id)).Nodup
  names : (f.symbols.map fun s => s.name.map Obj.lower).Nodup

/-- The relocations of a segment concern different words inside of it. -/
def Separate (s : Segment) : Prop :=
  (∀ r ∈ s.relocs, 0 ≤ r.offset ∧ r.offset + 4 ≤ s.data.length) ∧
    s.relocs.Pairwise fun r r' => r.offset + 4 ≤ r'.offset ∨ r'.offset + 4 ≤ r.offset

/-- Two relocations refer to the same symbol, or the same position of a segment. -/
def SameRef (a b : Reloc) : Prop := a.ref = b.ref ∧ a.id = b.id ∧ a.pos = b.pos
instance (a b) : Decidable (SameRef a b) := inferInstanceAs (Decidable (_ ∧ _ ∧ _))

/-- The 32-bit word at a position. -/
def wordAt (d : List Byte) (p : Int) : BitVec 32 := BitVec.ofNat 32 (fromLE ((d.drop p.toNat).take 4))

/-- Importing the file at `start` succeeds; `out` is what it becomes. -/
def Placed (labels : Labels) (start : Int) (f : File) (r : Result) : Prop :=
  relocateFile labels start (ready f) = some r ∧ r.ok = true

end Armips.Spec.Psx
