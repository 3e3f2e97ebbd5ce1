import Verif.Model.Commands
import Verif.Spec.OutputFile
/-!
# What a successful assembly produces

A reference semantics of the command tree in a single walk: all labels already have their final values, and each command says
which bytes it puts where. There are no passes, no flags and no stored members. A rule has no premise about diagnostics
except that evaluations reported no error.

`Lays P inBlock c R R' vs` reads: command `c`, started at position `R`, ends at `R'`; `vs` are the commands executed on the way
(including those in taken branches, areas, macros), with the position before and after.
-/
namespace Armips.Spec.Layout
open Armips Spec.Out Table

/-- What happens to the files on disk. -/
inductive Event
  | create (path : String) (content : List Byte)
  | write (path : String) (position : Nat) (bytes : List Byte)

/-- Replace the bytes from `pos` on; a file that is too short is first extended with zeros. Writing nothing changes
nothing. -/
def overwrite (content : List Byte) (pos : Nat) (bytes : List Byte) : List Byte :=
  if bytes = [] then content
  else content.take pos ++ List.replicate (pos - content.length) 0#8 ++ bytes ++ content.drop (pos + bytes.length)

def Event.apply (d : String → Option (List Byte)) : Event → String → Option (List Byte)
  | .create p c => fun q => if q = p then some c else d q
  | .write p pos bs => fun q => if q = p then some (overwrite ((d p).getD []) pos bs) else d q

/-- The disk after a history of events, oldest first. -/
def after (d : String → Option (List Byte)) (es : List Event) : String → Option (List Byte) := es.foldl Event.apply d

/-- What is fixed during the walk: the final symbol table, the initial disk, the declared output files, the addresses
of the words requested from literal pools and the final state of areas. -/
structure Params where
  env : Env
  syms : SymTab
  disk : String → Option (List Byte)
  files : Nat → AFile
  poolAddr : Nat → Option Int
  alloc : Alloc

/-- A position in the walk. `seenEndian` is what the function `endianness()` answers, `endian` the byte order of the output:
they differ only before the first architecture directive. -/
structure Pos where
  file : Option (Nat × Cursor)
  out : List Event
  seenEndian : Endianness
  endian : Endianness
  arch : ArchId
  archSt : ArchState
  table : Tbl
  alloc : Alloc
  pending : List PoolEntry
  requests : Nat

/-- The current address; -1 when no file is open. -/
def Pos.virt (R : Pos) : Int := match R.file with | none => -1 | some (_, c) => c.virt
def Pos.phys (R : Pos) : Int := match R.file with | none => -1 | some (_, c) => c.phys

/-- What expressions see. -/
def ctx (P : Params) (R : Pos) : Ctx where
  label n f s :=
    match P.syms.getLabel n f s with
    | (_, none) => none
    | (t, some i) => t.labels[i]?
  file := R.file.map fun x => (x.2.virt, x.2.header, P.env.pathStr (P.files x.1).fileName)
  endianness := R.seenEndian
  readFile p := P.disk (P.env.path p)
  isArm := decide (R.arch = .arm) && !P.env.thumb
  isThumb := P.env.thumb

/-- No diagnostic is an error. -/
def NoErrors (ds : List Diag) : Prop := ∀ d ∈ ds, d.type ≠ .error ∧ d.type ≠ .fatalError

/-- The expression has value `v` here. -/
def Evals (P : Params) (R : Pos) (e : Expr) (v : Value) : Prop :=
  ∃ ds, e.eval P.env.host (P.env.funcs R.arch) (ctx P R) = .ok v ds ∧ NoErrors ds

/-- An optional integer operand with its default. -/
def Operand (P : Params) (R : Pos) (e : Option Expr) (default v : Int) : Prop :=
  match e with
  | none => v = default
  | some e => Evals P R e (.int v)

/-- Moving to a physical position of the open file. -/
def Seeks (R : Pos) (p : Int) (R' : Pos) : Prop :=
  ∃ i c, ∃ n : Nat, R.file = some (i, c) ∧ (n : Int) = p ∧ R' = { R with file := some (i, { c with phys := n }) }

/-- Moving to a virtual address of the open file. -/
def SeeksVirtual (R : Pos) (a : Int) (R' : Pos) : Prop :=
  ∃ i c, R.file = some (i, c) ∧ Seeks R (a - c.header) R'

/-- Moving by `n` bytes. -/
def Skips (R : Pos) (n : Int) (R' : Pos) : Prop := Seeks R (R.phys + n) R'

/-- Putting bytes at the current position of the open file and moving behind them. -/
def Emits (P : Params) (R : Pos) (bs : List Byte) (R' : Pos) : Prop :=
  ∃ i c, R.file = some (i, c) ∧
    R' = { R with
      file := some (i, { c with phys := c.phys + bs.length })
      out := R.out ++ [.write (P.files i).fileName c.phys bs] }

/-- A new section begins: an architecture is selected, and load delays are forgotten. -/
def NewSection (R R' : Pos) : Prop :=
  R.arch ≠ .invalid ∧ R' = { R with archSt := if R.arch = .mips then {} else R.archSt }

/-- The label has the value of its expression or the current address. -/
def Labels (P : Params) (R : Pos) (id : Nat) (value : Option Expr) : Prop :=
  ∃ l, P.syms.labels[id]? = some l ∧ l.defined = true ∧
    match value with
    | some e => Evals P R e (.int l.value)
    | none => l.value = R.virt ∧ l.physicalValue = some R.phys

/-- Opening file `i`: it starts at position 0 with the declared header size; it is emptied, copied or kept. -/
def Opens (P : Params) (R : Pos) (i : Nat) (R' : Pos) : Prop :=
  ∃ es, R' = { R with file := some (i, ⟨0, (P.files i).originalHeaderSize⟩), out := R.out ++ es } ∧
    match (P.files i).mode with
    | .create => es = [.create (P.files i).fileName []]
    | .open_ => es = [] ∧ (after P.disk R.out (P.files i).fileName).isSome
    | .copy original => ∃ c, after P.disk R.out original = some c ∧ es = [.create (P.files i).fileName c]

/-- An integer as `n` bytes, modulo 2^(8n). -/
def intBytes (e : Endianness) (n : Nat) (v : Int) : List Byte := toBytes e n (v % 2 ^ (8 * n)).toNat

def unitBytes (e : Endianness) (us : List (Width × Int)) : List Byte := us.flatMap fun u => intBytes e u.1.bytes u.2

/-- The integers that a value stands for in an integer or float data directive. -/
def DataUnits (E : Env) (mode : DataMode) (v : Value) (us : List Int) : Prop :=
  match v, mode with
  | .str s, .u8 | .str s, .u16 | .str s, .u32 | .str s, .u64 | .str s, .ascii =>
    (∀ b ∈ s, b.toNat < 0x80) ∧ us = s.map fun b => (b.toNat : Int)
  | .int n, .u8 | .int n, .u16 | .int n, .u32 | .int n, .u64 | .int n, .ascii => us = [n]
  | .float f, .u32 | .float f, .float => us = [E.floatBits f]
  | .float f, .u64 | .float f, .double => us = [f.toInt]
  | .int n, .float => us = [E.floatBitsInt n]
  | .int n, .double => us = [(E.host.ofInt n).toInt]
  | _, _ => False

/-- The bytes that a value stands for in a string directive with table `t`. -/
def TextBytes (t : Tbl) (v : Value) (bs : List Byte) : Prop :=
  match v with
  | .int n => bs = [BitVec.ofInt 8 n]
  | .str s => (t.encodeString s false = .ok bs ∧ (bs = [] → s = [])) ∨ (s = [] ∧ bs = [])
  | _ => False

/-- Every entry evaluates and stands for its part of the list. -/
inductive Entries (P : Params) (R : Pos) {α : Type} (stands : Value → List α → Prop) : List Expr → List α → Prop
  | nil : Entries P R stands [] []
  | cons {e es v x xs} : Evals P R e v → stands v x → Entries P R stands es xs → Entries P R stands (e :: es) (x ++ xs)

/-- The bytes of a data directive. -/
def DataBytes (P : Params) (R : Pos) (mode : DataMode) (entries : List Expr) (terminate : Bool) (bs : List Byte) : Prop :=
  match mode with
  | .sjis | .custom =>
    let t := if mode = .sjis then P.env.sjis else R.table
    ∃ xs term, Entries P R (TextBytes t) entries xs ∧
      (if terminate then t.entryBytes t.termination = some term else term = []) ∧ bs = xs ++ term
  | .float | .double =>
    ∃ us, Entries P R (DataUnits P.env mode) entries us ∧ bs = us.flatMap (intBytes R.endian mode.width.bytes)
  | _ =>
    ∃ us, Entries P R (DataUnits P.env mode) entries us ∧
      bs = (us ++ if terminate then [0] else []).flatMap (intBytes R.endian mode.width.bytes)

/-- `values` are the words of a literal pool at `address` serving the requests: each request has a word with its value
at the address given to it, without an error, and each word serves a request. -/
def Serves (P : Params) (address : Int) (pending : List PoolEntry) (values : List Int) : Prop :=
  (∀ e ∈ pending, ∃ k : Nat, values[k]? = some e.value ∧ P.poolAddr e.request = some (address + 4 * k) ∧
    NoErrors (e.diags (address + 4 * k))) ∧
  ∀ v ∈ values, ∃ e ∈ pending, e.value = v

/-- Whether a conditional takes its first block. -/
def Decides (P : Params) (R : Pos) (kind : CondKind) (b : Bool) : Prop :=
  match kind with
  | .if_ e => ∃ v, Evals P R e (.int v) ∧ b = decide (v ≠ 0)
  | .ifdef id => ∃ l, P.syms.labels[id]? = some l ∧ b = l.defined
  | .ifndef id => ∃ l, P.syms.labels[id]? = some l ∧ b = !l.defined

/-- Padding: to the next multiple of a power of two, or as many bytes as asked for. -/
def Padding (mode : AlignMode) (virt phys value n : Int) : Prop :=
  match mode with
  | .virtual => (∃ k : Nat, value = 2 ^ k) ∧ value ∣ virt + n ∧ 0 ≤ n ∧ n < value + (if virt < 0 then value else 0)
  | .physical => (∃ k : Nat, value = 2 ^ k) ∧ value ∣ phys + n ∧ 0 ≤ n ∧ n < value
  | .fill => n = value ∧ 0 ≤ n

/-- An area begins at the given address, or where it stands. -/
def AreaStart (P : Params) (R : Pos) (position : Option Expr) (p : Int) (R1 : Pos) : Prop :=
  match position with
  | none => p = R.virt ∧ R1 = R
  | some e => ∃ R0, Evals P R e (.int p) ∧ NewSection R R0 ∧ SeeksVirtual R0 p R1

/-- The part of an area of `size` bytes at `p` behind its content: with a fill value it is filled up, except for the space
taken by automatically placed blocks; without one, only a shared area is skipped to its end. -/
def AreaRest (P : Params) (R2 : Pos) (fill : Option Expr) (shared : Bool) (p size f : Int) (R4 : Pos) : Prop :=
  match fill with
  | some _ => ∃ R3,
    Skips R2 (P.alloc.subAreaUsage ⟨(R2.file.elim 0 fun x => (x.1 : Int) + 1), p⟩) R3 ∧
    R3.virt ≤ p + size ∧
    Emits P R3 (List.replicate (p + size - R3.virt).toNat (BitVec.ofInt 8 f)) R4
  | none => if shared then Skips R2 (p + size - R2.virt) R4 else R4 = R2

/-- The registration of an area with the allocator; an old registration may be dropped first. -/
def Registers (a : Alloc) (file position size content : Int) (fill shared : Bool) (a' : Alloc) : Prop :=
  ∃ a1, (a1 = a ∨ ∃ f p s, a1 = a.forgetArea f p s) ∧
    a' = if size = 0 then a1 else a1.setArea file position size content fill shared

/-- A command that was executed. -/
structure Visit where
  cmd : Cmd
  before : Pos
  after : Pos

/-- The walk. -/
inductive Lays (P : Params) : Bool → Cmd → Pos → Pos → List Visit → Prop
  | nil {b R} : Lays P b .nil R R []
  | cons {b c rest R R1 R' v1 v2} :
    Lays P b c R R1 v1 → Lays P b rest R1 R' v2 → Lays P b (.cons c rest) R R' (v1 ++ v2)
  | label {b id value R} : Labels P R id value → Lays P b (.label id value) R R [⟨.label id value, R, R⟩]
  | function {b id content R R' vs} : Labels P R id none → Lays P true content R R' vs →
    Lays P b (.function id content) R R' (⟨.function id content, R, R'⟩ :: vs)
  | openFile {i R R1 R'} : NewSection R R1 → Opens P R1 i R' →
    Lays P false (.openFile i) R R' [⟨.openFile i, R, R'⟩]
  | closeFile {R R1} : NewSection R R1 →
    Lays P false .closeFile R { R1 with file := none } [⟨.closeFile, R, { R1 with file := none }⟩]
  | org {b e a R R1 R'} : Evals P R e (.int a) → NewSection R R1 → SeeksVirtual R1 a R' →
    Lays P b (.position true e) R R' [⟨.position true e, R, R'⟩]
  | orga {b e p R R1 R'} : Evals P R e (.int p) → NewSection R R1 → Seeks R1 p R' →
    Lays P b (.position false e) R R' [⟨.position false e, R, R'⟩]
  | incbin {b file fileSize startE sizeE start asked size bs R R1 R'} :
    Operand P R startE 0 start → (startE.isSome → start ≤ fileSize) →
    Operand P R sizeE (fileSize - start) asked →
    size = min asked (fileSize - start) →
    (size = 0 ∧ bs = [] ∨
      ∃ content, Layout.after P.disk R.out file = some content ∧ 0 ≤ start ∧ 0 < size ∧ start + size ≤ content.length ∧
        bs = (content.drop start.toNat).take size.toNat) →
    NewSection R R1 → Emits P R1 bs R' →
    Lays P b (.incbin file fileSize startE sizeE) R R' [⟨.incbin file fileSize startE sizeE, R, R'⟩]
  | align {b mode e fill value f n R R1 R'} :
    Evals P R e (.int value) → Padding mode R.virt R.phys value n →
    (fill.isSome → Operand P R fill 0 f) →
    NewSection R R1 → Emits P R1 (List.replicate n.toNat (if fill.isSome then BitVec.ofInt 8 f else 0#8)) R' →
    Lays P b (.align mode e fill) R R' [⟨.align mode e fill, R, R'⟩]
  | skip {b e n R R1 R'} : Evals P R e (.int n) → NewSection R R1 → Skips R1 n R' →
    Lays P b (.skip e) R R' [⟨.skip e, R, R'⟩]
  | headerSize {b e h i c R R'} : Evals P R e (.int h) → R.file = some (i, c) →
    R' = { R with file := some (i, { c with header := h }) } →
    Lays P b (.headerSize e) R R' [⟨.headerSize e, R, R'⟩]
  | data {b mode entries t bs R R'} : DataBytes P R mode entries t bs → Emits P R bs R' →
    Lays P b (.data mode entries t) R R' [⟨.data mode entries t, R, R'⟩]
  | table {b t R} : Lays P b (.table t) R { R with table := t } [⟨.table t, R, { R with table := t }⟩]
  | area {b shared sizeE fill position content p size f R R1 R2 R4 R' a' vs} :
    AreaStart P R position p R1 →
    Evals P R1 sizeE (.int size) → 0 ≤ size →
    Operand P R1 fill 0 f →
    Lays P true content R1 R2 vs →
    R2.virt - p ≤ size →
    AreaRest P R2 fill shared p size f R4 →
    Registers R2.alloc (R2.file.elim 0 fun x => (x.1 : Int) + 1) p size (R2.virt - p) fill.isSome shared a' →
    R4.file.isSome → R' = { R4 with alloc := a' } →
    Lays P b (.area shared sizeE fill position content) R R' (⟨.area shared sizeE fill position content, R, R'⟩ :: vs)
  | autoRegion {b minE maxE content mn mx p size R R1 R2 R3 R' a' vs} :
    Operand P R minE (-1) mn → Operand P R maxE (-1) mx →
    R.alloc.allocateSubArea (R.file.elim 0 fun x => (x.1 : Int) + 1) p mn mx size = (a', some p) →
    NewSection { R with alloc := a' } R1 → SeeksVirtual R1 p R2 →
    Lays P true content R2 R3 vs → R3.virt - p = size → SeeksVirtual R3 R.virt R' →
    Lays P b (.autoRegion minE maxE content) R R' (⟨.autoRegion minE maxE content, R, R'⟩ :: vs)
  | cond {b kind x y t R R' vs} : Decides P R kind t → Lays P b (if t then x else y) R R' vs →
    Lays P b (.cond kind x y) R R' (⟨.cond kind x y, R, R'⟩ :: vs)
  | arch {b a e R R'} : R' = { R with arch := a, seenEndian := e, endian := e } →
    Lays P b (.arch a e) R R' [⟨.arch a e, R, R'⟩]
  | message {b t e v R} : Evals P R e v → v ≠ .invalid → t ≠ .error →
    Lays P b (.message t e) R R [⟨.message t e, R, R⟩]
  | mipsMacro {b x y content R R' vs} : Lays P b content R R' vs →
    Lays P b (.mipsMacro x y content) R R' (⟨.mipsMacro x y content, R, R'⟩ :: vs)
  | instr {b sem out as ds R R1 R'} :
    sem.run (ctx P R) R.archSt = .ok (out, as) ds → NoErrors ds →
    R1 = { R with
      archSt := as
      pending := R.pending ++ (match out.pool with | none => [] | some v => [⟨R.requests, v, out.poolDiags⟩])
      requests := R.requests + (if out.pool.isSome then 1 else 0) } →
    Emits P R1 (unitBytes R.endian (out.words (if out.pool.isSome then P.poolAddr R.requests else none))) R' →
    Lays P b (.instr sem) R R' [⟨.instr sem, R, R'⟩]
  | pool {b values pools R R1 R'} : Serves P R.virt R.pending values →
    Emits P { R with pending := [] } (values.flatMap (intBytes R.endian 4)) R1 →
    R' = { R1 with alloc := { R.alloc with pools := pools } } →
    Lays P b .pool R R' [⟨.pool, R, R'⟩]

/-- The command defines label `i`. -/
def definesLabel (i : Nat) (v : Visit) : Bool :=
  match v.cmd with
  | .label id _ => id == i
  | .function id _ => id == i
  | _ => false

/-- The position before the first command. The architecture, table and areas are those left by the previous pass. -/
structure Begins (R : Pos) : Prop where
  file : R.file = none
  out : R.out = []
  seenEndian : R.seenEndian = .little
  archSt : R.archSt = {}
  pending : R.pending = []
  requests : R.requests = 0
  blocks : R.alloc.subs = []

/-- What the walk after a successful run takes as fixed: the final labels, pool addresses and areas, and the initial
disk and declarations of files. -/
def finalParams (E : Env) (initial final : St) : Params where
  env := E
  syms := final.syms
  disk := initial.fm.disk
  files := initial.fm.files
  poolAddr := final.poolAddr
  alloc := final.alloc

/-- A program run from `initial` with final state `final` behaved like the walk: it begins at the start, all requests to
literal pools were served, and the final disk is the initial one changed by the history of the walk. Before the first
architecture directive the byte order is the one the last such directive selects. -/
structure Assembled (E : Env) (c : Cmd) (initial final : St) (R R' : Pos) (vs : List Visit) : Prop where
  begins : Begins R
  endian : R.endian = R'.seenEndian
  lays : Lays (finalParams E initial final) false c R R' vs
  served : R'.pending = []
  disk : final.fm.disk = after initial.fm.disk R'.out
  areas : final.alloc = R'.alloc

/-- Event `e` replaces the byte at position `a` of file `p`. -/
def Event.touches (p : String) (a : Nat) : Event → Prop
  | .create q _ => q = p
  | .write q pos bs => q = p ∧ pos ≤ a ∧ a < pos + bs.length

/-- The executed command is an instruction that asks for a word of the literal pool. -/
def Requests (P : Params) (v : Visit) (e : PoolEntry) : Prop :=
  ∃ sem out as ds value, v.cmd = .instr sem ∧ sem.run (ctx P v.before) v.before.archSt = .ok (out, as) ds ∧
    out.pool = some value ∧ e = ⟨v.before.requests, value, out.poolDiags⟩

/-- The values of a list of expressions. -/
inductive EvalsAll (P : Params) (R : Pos) : List Expr → List Value → Prop
  | nil : EvalsAll P R [] []
  | cons {e v es vals} : Evals P R e v → EvalsAll P R es vals → EvalsAll P R (e :: es) (v :: vals)

/-- The bytes `bs` were written to file `p` from position `pos` on between the two positions of the walk. -/
def Wrote (R R' : Pos) (p : String) (pos : Nat) (bs : List Byte) : Prop := R'.out = R.out ++ [.write p pos bs]

end Armips.Spec.Layout
