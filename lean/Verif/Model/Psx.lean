import Verif.Model.Elf
import Verif.Model.Crc
/-!
# Libraries and object files of the PlayStation

Models `Archs/MIPS/PsxRelocator.cpp` (`.importobj` and `.importlib` for files that begin with `LNK` or `LIB`).

* A file is a list of bytes. Reading goes on with the bytes that are left; `data[pos+k]` is byte `k` of them.
* Undefined behaviour is an outcome of its own: reading outside of a file with `operator[]`, `memcmp` or `memcpy`, using a segment
  that does not exist, overflow of an `int`. Memory that `ByteArray` allocates beyond the size of a file counts as outside.
* Members that the code does not set are 0; it does not use them. `PsxRelocation::filePos` is left out, nothing uses it.
* Names of symbols are taken to be valid names of labels. `init` prints an error for others, and for labels that are defined elsewhere.
* The relocator for MIPS is that of `Model/Elf.lean`.
-/
namespace Armips.Psx
open Armips.Elf (RelocData Action Step Hi16 Outcome mipsStep mipsFinish getWord putWord copyTo inInt)

/-- What becomes of reading: undefined behaviour; a loop without end; a position before the current one, from where the model does not
follow; `false`; a value. -/
inductive Res (α : Type) where
  | undef
  | endless
  | backwards
  | refused
  | ok (a : α)

/-- The next step of reading. -/
def Res.bind {α β : Type} : Res α → (α → Res β) → Res β
  | undef, _ => undef
  | endless, _ => endless
  | backwards, _ => backwards
  | refused, _ => refused
  | ok a, f => f a

instance : Monad Res where
  pure := Res.ok
  bind := Res.bind

/-- `PsxRelocator.h:13` `PsxRelocationType`. -/
inductive Kind where
  | word | upper | lower | call
  deriving DecidableEq, Repr

/-- `PsxRelocator.h:14` `PsxRelocationRefType`. -/
inductive Ref where
  | symbol | segment
  deriving DecidableEq, Repr

/-- `PsxRelocator.h:16-25` `PsxRelocation`. -/
structure Reloc where
  kind : Kind
  ref : Ref
  offset : Int
  id : Int
  pos : Int
  rel : Int
  deriving DecidableEq, Repr

/-- `PsxRelocator.h:27-33` `PsxSegment`. -/
structure Segment where
  id : Int
  name : List Byte
  data : List Byte
  relocs : List Reloc
  deriving DecidableEq, Repr

/-- `PsxRelocator.h:36` `PsxSymbolType`. -/
inductive SymKind where
  | internal | internalId | external | bss | function
  deriving DecidableEq, Repr

/-- `PsxRelocator.h:38-47` `PsxSymbol` without the label, which is found by its name. -/
structure Sym where
  kind : SymKind
  name : List Byte
  segment : Int
  offset : Int
  id : Int
  size : Int
  deriving DecidableEq, Repr

/-- `PsxRelocator.h:49-54` `PsxRelocatorFile` without the name. -/
structure File where
  segments : List Segment
  symbols : List Sym
  deriving DecidableEq, Repr

/-! ### Reading -/

/-- `ByteArray.h:36-47` `getWord` at the beginning of what is left: -1 beyond the end. -/
def word16 (r : List Byte) : Int := if 2 ≤ r.length then (fromLE (r.take 2) : Int) else -1

/-- `ByteArray.h:49-60` `getDoubleWord` there, an `int`. -/
def word32 (r : List Byte) : Int := (getWord .little r 0).toInt

/-- `PsxRelocator.cpp:21` `psxObjectFileMagicNum`. -/
def objMagic : List Byte := [0x4C#8, 0x4E#8, 0x4B#8, 0x02#8, 0x2E#8, 0x07#8]

/-- `PsxRelocator.cpp:40` `"LIB\x01"`. -/
def libMagic : List Byte := [0x4C#8, 0x49#8, 0x42#8, 0x01#8]

/-- `PsxRelocator.cpp:15-19` `PsxLibEntry`. -/
structure Entry where
  name : List Byte
  data : List Byte
  deriving DecidableEq, Repr

/-- `PsxRelocator.cpp:56-61` the loop over the names in the directory: the number of bytes including the zero that ends it. -/
def skipNames : Nat → List Byte → Option Nat
  | 0, _ => none
  | fuel + 1, r =>
    match r with
    | [] => none
    | b :: t => if b = 0#8 then some 1 else (skipNames fuel (t.drop b.toNat)).map (· + (1 + b.toNat))

/-- `ByteArray.cpp:125-139` `mid` with the `int` length; `none` if it copies from beyond the end. -/
def mid (d : List Byte) (start : Nat) (len : Int) : Option (List Byte) :=
  if start ≥ d.length then some []
  else
    let n := if len < 0 then d.length - start else len.toNat
    if start + n ≤ d.length then some ((d.drop start).take n) else none

/-- `PsxRelocator.cpp:43-67` the loop over the entries. Byte 20 of an entry is always read; an entry with the size 0 is read again and
again. -/
def libLoop : Nat → List Byte → Res (List Entry)
  | _, [] => .ok []
  | 0, _ => .undef
  | fuel + 1, r =>
    if r.length ≤ 20 then .undef
    else
      let size := word32 (r.drop 16)
      match skipNames r.length (r.drop 20) with
      | none => .undef
      | some k =>
        match mid r (20 + k) (size - (20 + k)) with
        | none => .undef
        | some d =>
          if size = 0 then .endless
          else if size < 0 then .backwards
          else (libLoop fuel (r.drop size.toNat)).bind fun l => .ok (⟨(r.take 16).takeWhile fun b => b ≠ 0x20#8, d⟩ :: l)

/-- `PsxRelocator.cpp:23-70` `loadPsxLibrary` for the contents of a file with the name. -/
def loadLibrary (name d : List Byte) : Res (List Entry) :=
  if d = [] then .ok []
  else if d.length < 6 then .undef
  else if d.take 6 = objMagic then .ok [⟨name, d⟩]
  else if d.take 4 ≠ libMagic then .ok []
  else libLoop d.length (d.drop 4)

/-- `PsxRelocator.cpp:72-83` `loadString`: the string and what is left behind it. -/
def loadString : List Byte → Res (List Byte × List Byte)
  | [] => .undef
  | n :: r => if n.toNat ≤ r.length then .ok (r.take n.toNat, r.drop n.toNat) else .undef

/-- `PsxRelocator.cpp:198-247` what a relocation refers to, from `checkothertype`. -/
def readRef : Nat → Reloc → List Byte → Res (Reloc × List Byte)
  | 0, _, _ => .undef
  | fuel + 1, x, r =>
    match r with
    | [] => .undef
    | t :: r =>
      if t = 0x02#8 then .ok ({ x with ref := .symbol, id := word16 r }, r.drop 2)
      else if t = 0x2C#8 then
        match r with
        | [] => .undef
        | u :: r =>
          if u = 0x00#8 then readRef fuel { x with ref := .segment, rel := word32 r } (r.drop 4)
          else if u = 0x04#8 then
            match r.drop 2 with
            | [] => .undef
            | z :: r' =>
              if z ≠ 0x00#8 then .refused
              else .ok ({ x with ref := .segment, id := word16 r, pos := word32 r' }, r'.drop 4)
          else .refused
      else if t = 0x2E#8 then
        match r with
        | [] => .undef
        | u :: r =>
          if u = 0x00#8 then
            if word32 r = -2 ^ 31 then .undef
            else readRef fuel { x with ref := .segment, rel := -word32 r } (r.drop 4)
          else .refused
      else .refused

/-- `PsxRelocator.cpp:171-195` the types of relocations. -/
def kindOf (b : Byte) : Option Kind :=
  if b = 0x10#8 then some .word
  else if b = 0x4A#8 then some .call
  else if b = 0x52#8 then some .upper
  else if b = 0x54#8 then some .lower
  else none

/-- The local variables of `parseObject`: the file, `activeSegment` (`none` for -1) and `lastSegmentPartStart`. -/
structure St where
  segments : List Segment
  symbols : List Sym
  active : Option Nat
  last : Int
  deriving DecidableEq, Repr

/-- `segments[activeSegment]` is changed; there has to be one. -/
def St.edit (st : St) (f : Segment → Segment) : Res St :=
  match st.active with
  | none => .undef
  | some i =>
    match st.segments[i]? with
    | none => .undef
    | some s => .ok { st with segments := st.segments.set i (f s) }

/-- The size of `segments[activeSegment]`. -/
def St.size (st : St) : Res Nat :=
  match st.active with
  | none => .undef
  | some i =>
    match st.segments[i]? with
    | none => .undef
    | some s => .ok s.data.length

/-- `PsxRelocator.cpp:252-302` a record of a symbol: `n` bytes and a string. -/
def readSym (st : St) (r : List Byte) (n : Nat) (f : List Byte → Sym) : Res (St × List Byte) :=
  (loadString (r.drop n)).bind fun x => .ok ({ st with symbols := st.symbols ++ [f x.1] }, x.2)

/-- `PsxRelocator.cpp:162-251` a relocation; `r` begins behind the tag. -/
def readReloc (st : St) (r : List Byte) : Res (St × List Byte) :=
  match r with
  | [] => .undef
  | t :: r =>
    match kindOf t with
    | none => .refused
    | some k =>
      if r.length ≤ 2 then .undef
      else
        (readRef r.length ⟨k, .symbol, word16 r + st.last, 0, 0, 0⟩ (r.drop 2)).bind fun x =>
          (st.edit fun s => { s with relocs := s.relocs ++ [x.1] }).bind fun st => .ok (st, x.2)

/-- `PsxRelocator.cpp:99-320` one record: `t` is its first byte, `r` what follows. -/
def readRecord (st : St) (t : Byte) (r : List Byte) : Res (St × List Byte) :=
  if t = 0x10#8 then
    match r.drop 4 with
    | [] => .undef
    | z :: r' =>
      if z ≠ 8#8 then .refused
      else (loadString r').bind fun x => .ok ({ st with segments := st.segments ++ [⟨word32 r, x.1, [], []⟩] }, x.2)
  else if t = 0x14#8 then
    match r[3]? with
    | none => .undef
    | some n => .ok (st, r.drop (n.toNat + 4))
  else if t = 0x1C#8 then
    match r[2]? with
    | none => .undef
    | some n => .ok (st, r.drop (n.toNat + 3))
  else if t = 0x06#8 then .ok ({ st with active := st.segments.findIdx? fun s => s.id = word16 r }, r.drop 2)
  else if t = 0x02#8 then
    match mid r 2 (word16 r) with
    | none => .undef
    | some d =>
      st.size.bind fun n => (st.edit fun s => { s with data := s.data ++ d }).bind fun st =>
        .ok ({ st with last := n }, r.drop (2 + word16 r).toNat)
  else if t = 0x08#8 then
    if word16 r < 0 then .undef
    else (st.edit fun s => { s with data := s.data ++ List.replicate (word16 r).toNat 0#8 }).bind fun st => .ok (st, r.drop 2)
  else if t = 0x0A#8 then readReloc st r
  else if t = 0x12#8 then readSym st r 6 fun n => ⟨.internal, n, word16 r, word32 (r.drop 2), 0, 0⟩
  else if t = 0x0E#8 then readSym st r 2 fun n => ⟨.external, n, 0, 0, word16 r, 0⟩
  else if t = 0x30#8 then readSym st r 8 fun n => ⟨.bss, n, word16 (r.drop 2), 0, word16 r, word32 (r.drop 4)⟩
  else if t = 0x0C#8 then readSym st r 8 fun n => ⟨.internalId, n, word16 (r.drop 2), word32 (r.drop 4), word16 r, 0⟩
  else if t = 0x4A#8 then readSym st r 28 fun n => ⟨.function, n, word16 r, word32 (r.drop 2), 0, 0⟩
  else if t = 0x4C#8 then .ok (st, r.drop 10)
  else if t = 0x3C#8 then .ok (st, r.drop 2)
  else if t = 0x00#8 then .ok (st, r)
  else if t = 0x32#8 then .ok (st, r.drop 2)
  else if t = 0x3A#8 then .ok (st, r.drop 8)
  else .refused

/-- `PsxRelocator.cpp:97-323` the loop over the records. -/
def objLoop : Nat → St → List Byte → Res File
  | _, st, [] => .ok ⟨st.segments, st.symbols⟩
  | 0, _, _ => .undef
  | fuel + 1, st, t :: r => (readRecord st t r).bind fun x => objLoop fuel x.1 x.2

/-- `PsxRelocator.cpp:85-324` `parseObject`. -/
def parseObject (d : List Byte) : Res File :=
  if d.length < 6 then .undef
  else if d.take 6 ≠ objMagic then .refused
  else objLoop d.length ⟨[], [], none, -1⟩ (d.drop 6)

/-- `PsxRelocator.h:13-14` the order of the enumerators. -/
def Kind.rank : Kind → Int
  | .word => 0 | .upper => 1 | .lower => 2 | .call => 3
/-- `PsxRelocator.h:14`. -/
def Ref.rank : Ref → Int
  | .symbol => 0 | .segment => 1

/-- `PsxRelocator.cpp:347-360` not `tie(b) < tie(a)`. -/
def Reloc.le (a b : Reloc) : Bool :=
  decide (a.ref.rank < b.ref.rank ∨ a.ref.rank = b.ref.rank ∧ (a.id < b.id ∨ a.id = b.id ∧ (a.pos < b.pos ∨ a.pos = b.pos ∧
    a.kind.rank ≤ b.kind.rank)))

/-- `PsxRelocator.cpp:344-363` `std::stable_sort` of the relocations of a segment. -/
def Segment.sorted (s : Segment) : Segment := { s with relocs := s.relocs.mergeSort Reloc.le }

/-- `PsxRelocator.cpp:336-388` the objects are read one after the other. -/
def readAll : List Entry → Res (List File)
  | [] => .ok []
  | e :: l => (parseObject e.data).bind fun f => (readAll l).bind fun fs => .ok ({ f with segments := f.segments.map Segment.sorted } :: fs)

/-- `PsxRelocator.cpp:326-391` `init`; no entries are `false`. -/
def init (name d : List Byte) : Res (List File) :=
  (loadLibrary name d).bind fun l => if l = [] then .refused else readAll l

/-! ### Placing and relocating -/

/-- The value of a sum of `int`s, unless it overflows. -/
def chk (v : Int) : Option Int := if inInt v then some v else none

/-- `PsxRelocator.cpp:408-409`, `436-437` `while (a % 4) a++;`. -/
def up4 (a : Int) : Int := a + (-a) % 4

/-- `PsxRelocator.cpp:399-410` addresses of the segments (`relocationOffsets`), in the order of assignment, and the end. -/
def layout : Int → List Segment → Option (List (Int × Int) × Int)
  | a, [] => some ([], a)
  | a, s :: l => do
    let n ← chk s.data.length
    let e ← chk (a + n)
    let e ← chk (up4 e)
    let (m, z) ← layout e l
    some ((s.id, a) :: m, z)

/-- `std::map::operator[]` after these assignments: the last one counts, 0 if there is none. -/
def at0 (m : List (Int × Int)) (i : Int) : Int := (m.reverse.lookup i).getD 0

/-- `PsxRelocator.cpp:368-369` names of labels are in lower case. -/
def lowered (n : List Byte) : List Byte := n.map fun b => if 0x41#8 ≤ b ∧ b ≤ 0x5A#8 then b + 0x20#8 else b

/-- Values of the labels that are defined. -/
abbrev Labels := List Byte → Option Int

/-- `setValue` and `setDefined`. -/
def Labels.set (l : Labels) (n : List Byte) (v : Int) : Labels := fun x => if x = lowered n then some v else l x

/-- The variables of the loop over the symbols: `relocationAddress`, the labels, `symbolOffsets` in the order of assignment, `!error`. -/
structure Placed where
  addr : Int
  labels : Labels
  syms : List (Int × Int)
  ok : Bool

/-- `PsxRelocator.cpp:416-449` one symbol. A label holds 64 bits; the value of an external one is cut to an `int`. -/
def symStep (m : List (Int × Int)) (p : Placed) (s : Sym) : Option Placed :=
  match s.kind with
  | .internal | .function => do
    let v ← chk (at0 m s.segment + s.offset)
    some { p with labels := p.labels.set s.name v }
  | .internalId => do
    let v ← chk (at0 m s.segment + s.offset)
    some { p with labels := p.labels.set s.name v, syms := p.syms ++ [(s.id, v)] }
  | .bss => do
    let e ← chk (p.addr + s.size)
    let e ← chk (up4 e)
    some { p with addr := e, labels := p.labels.set s.name p.addr, syms := p.syms ++ [(s.id, p.addr)] }
  | .external =>
    match p.labels (lowered s.name) with
    | none => some { p with ok := false }
    | some v => some { p with syms := p.syms ++ [(s.id, (BitVec.ofInt 32 v).toInt)] }

/-- `PsxRelocator.cpp:412-450` all symbols. -/
def placeSyms (m : List (Int × Int)) : Placed → List Sym → Option Placed
  | p, [] => some p
  | p, s :: l => do
    let p ← symStep m p s
    placeSyms m p l

/-- `PsxRelocator.cpp:485-499` the relocation types of MIPS (`MipsElfRelocator.h:8-15`). -/
def Kind.mips : Kind → Nat
  | .word => 2 | .upper => 5 | .lower => 6 | .call => 4

/-- `PsxRelocator.cpp:467-480` what the relocator is told. Simplified: a negative offset (a relocation before all data) counts as
undefined even if the segment has less than three bytes. -/
def relocData (m syms : List (Int × Int)) (d : List Byte) (r : Reloc) : Option RelocData :=
  if r.offset < 0 then none
  else
    match r.ref with
    | .symbol => do
      let b ← chk (at0 syms r.id + r.rel)
      some ⟨r.offset, b, getWord .little d r.offset.toNat, 0, 0, 0⟩
    | .segment => do
      let b ← chk (at0 m r.id + r.pos)
      let b ← chk (b + r.rel)
      some ⟨r.offset, b, getWord .little d r.offset.toNat, 0, 0, 0⟩

/-- `PsxRelocator.cpp:464-509` the loop over the relocations. -/
def relocLoop (m syms : List (Int × Int)) (d : List Byte) : List Hi16 → List Reloc → Option (Outcome (List Hi16))
  | q, [] => some ⟨true, q, [], [], []⟩
  | q, r :: l => do
    let x ← relocData m syms d r
    let s ← mipsStep r.kind.mips x q
    let o ← relocLoop m syms d s.state l
    some { o with ok := s.ok && o.ok, actions := s.actions ++ o.actions, errors := (if s.ok then [] else s.errors) ++ o.errors }

/-- `PsxRelocator.cpp:461-526` one segment: the new contents, whether all went well, and the errors. Nothing is pending before, and nothing
is pending after `finish`. -/
def relocSegment (m syms : List (Int × Int)) (s : Segment) : Option (List Byte × Bool × List String) := do
  let o ← relocLoop m syms s.data [] s.relocs
  let x ← mipsFinish o.state
  some ((o.actions ++ x.actions).foldl (fun d a => putWord .little d a.offset a.value) s.data, o.ok && x.ok,
    o.errors ++ (if x.ok then [] else x.errors))

/-- `PsxRelocator.cpp:458-530` the loop over the segments, on the part of the output that belongs to this file. -/
def loadSegments (m syms : List (Int × Int)) (start : Int) : List Byte → List Segment → Option (List Byte × Bool × List String)
  | out, [] => some (out, true, [])
  | out, s :: l => do
    let (d, ok, es) ← relocSegment m syms s
    let out ← copyTo out (at0 m s.id - start) d
    let (out, ok', es') ← loadSegments m syms start out l
    some (out, ok && ok', es ++ es')

/-- What relocating a file gives: the part of the output, the address after it, the labels, the result and the errors. -/
structure Result where
  out : List Byte
  stop : Int
  labels : Labels
  ok : Bool
  errors : List String

/-- `PsxRelocator.cpp:393-533` `relocateFile`. -/
def relocateFile (labels : Labels) (start : Int) (f : File) : Option Result := do
  let (m, stop) ← layout start f.segments
  let p ← placeSyms m ⟨stop, labels, [], true⟩ f.symbols
  if !p.ok then some ⟨[], p.addr, p.labels, false, ["Undefined external symbol"]⟩
  else if p.addr < start then none
  else do
    let (out, ok, es) ← loadSegments m p.syms start (List.replicate (p.addr - start).toNat 0#8) f.segments
    some ⟨out, p.addr, p.labels, ok, es⟩

/-- `PsxRelocator.cpp:544-548` all files, one after the other. -/
def relocateFiles : Labels → Int → List File → Option Result
  | labels, a, [] => some ⟨[], a, labels, true, []⟩
  | labels, a, f :: l => do
    let x ← relocateFile labels a f
    let y ← relocateFiles x.labels x.stop l
    some ⟨x.out ++ y.out, y.stop, y.labels, x.ok && y.ok, x.errors ++ y.errors⟩

/-- `PsxRelocator.cpp:535-556` `relocate` and `580-586` `Validate` at the virtual address `a`: the result, the number of bytes by which
the memory advances, and whether another pass is wanted; `old` is the output of the pass before. -/
def validate (labels : Labels) (a : Int) (old : List Byte) (fs : List File) : Option (Result × Int × Bool) := do
  let start := (BitVec.ofInt 32 a).toInt
  let x ← relocateFiles labels start fs
  some (x, x.stop - start, Crc.getCrc32 old ≠ Crc.getCrc32 x.out)

end Armips.Psx
