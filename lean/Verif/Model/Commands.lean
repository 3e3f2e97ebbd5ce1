import Verif.Model.Allocations
import Verif.Model.EncodingTable
import Verif.Model.Expression
import Verif.Model.FileManager
import Verif.Model.FunctionRegistry
/-!
# Commands

Models the command tree that the parser hands to `encodeAssembly`: `Validate` and `Encode` of the classes in
`Commands/*.cpp`, of `ArchitectureCommand`, `ArmPoolCommand` and `MipsMacroCommand`.

* A command is split into its immutable part (`Cmd`) and the members that `Validate` updates (`Cmd.Mem`).
* `none` is undefined behaviour (or an abort) in the C++ program.
* An instruction is an arbitrary function of the evaluation context and the architecture's state (`InstrSem`); the
  architectures' own models say which function. It may request a word of the literal pool.
* Not modelled: memory mode (`Global.memoryMode`), object file import, ELF files as output, and the members only used for
  the symbol and temp files. `applyFileInfo` only affects the text of diagnostics.
* 64-bit addresses and sizes are unbounded integers except where stated.
-/
namespace Armips
open Table

/-- Width of an integer written by `FileManager::writeU8/16/32/64`. -/
inductive Width | w8 | w16 | w32 | w64
  deriving DecidableEq, Repr

def Width.bytes : Width → Nat
  | .w8 => 1 | .w16 => 2 | .w32 => 4 | .w64 => 8

/-- `Mips.h` `LoadDelay`, `LoadDelayRegister`, `DelaySlot`. -/
structure ArchState where
  loadDelay : Bool := false
  loadDelayRegister : Int := 0
  delaySlot : Bool := false
  deriving DecidableEq, Repr

/-- Sum of the widths of units to write. -/
def unitsSize (l : List (Width × Int)) : Nat := (l.map fun u => u.1.bytes).sum

/-- Outcome of validating an instruction: what `Encode` will write once the literal pool's slot is known. -/
structure InstrOut where
  /-- Argument of `advanceMemory`. -/
  size : Nat
  /-- Value given to `addPoolValue` (`Arm.cpp:73-80`). -/
  pool : Option Int
  /-- Diagnostics of `setPoolAddress`, given the address. -/
  poolDiags : Int → List Diag
  /-- What `Encode` writes, given the address passed to `setPoolAddress`. -/
  words : Option Int → List (Width × Int)
  /-- Whatever the address, exactly `size` bytes are written. -/
  size_eq : ∀ a, unitsSize (words a) = size

/-- An instruction: `Validate` as a function of the context and the architecture's state, and the value it returns
given the previous outcome. -/
structure InstrSem where
  run : Ctx → ArchState → Ev (InstrOut × ArchState)
  changed : Option InstrOut → InstrOut → Bool

/-- `CDirectiveFile.h:75` `CDirectiveAlignFill::Mode`. -/
inductive AlignMode | physical | virtual | fill
  deriving DecidableEq, Repr

/-- `CDirectiveData.h:19` `EncodingMode` without `Invalid`. -/
inductive DataMode | u8 | u16 | u32 | u64 | ascii | float | double | sjis | custom
  deriving DecidableEq, Repr

/-- `CDirectiveMessage.h:10`. -/
inductive MsgType | warning | error | notice
  deriving DecidableEq, Repr

/-- `CDirectiveConditional.h:10-15` with its operand; labels are referred to by index. -/
inductive CondKind
  | if_ (e : Expr)
  | ifdef (label : Nat)
  | ifndef (label : Nat)

/-- The immutable part of the command tree. A `CommandSequence` is built from `nil` and `cons`; an absent `else` block is
`nil`. `Dummy`, `Invalid`, `.sym` and state commands do nothing and are left out. -/
inductive Cmd
  | nil
  | cons (c rest : Cmd)
  | label (id : Nat) (value : Option Expr)
  | function (id : Nat) (content : Cmd)
  | openFile (file : Nat)
  | closeFile
  | position (virtual : Bool) (e : Expr)
  | incbin (file : String) (fileSize : Int) (start size : Option Expr)
  | align (mode : AlignMode) (value : Expr) (fill : Option Expr)
  | skip (e : Expr)
  | headerSize (e : Expr)
  | data (mode : DataMode) (entries : List Expr) (terminate : Bool)
  | table (t : Tbl)
  | area (shared : Bool) (size : Expr) (fill position : Option Expr) (content : Cmd)
  | autoRegion (min max : Option Expr) (content : Cmd)
  | cond (kind : CondKind) (ifBlock elseBlock : Cmd)
  | arch (a : ArchId) (e : Endianness)
  | message (t : MsgType) (e : Expr)
  | mipsMacro (dontWarnDelaySlot ignoreLoadDelay : Bool) (content : Cmd)
  | instr (sem : InstrSem)
  | pool

/-- `CDirectiveArea.h:17-27`. -/
structure AreaMem where
  position : Int := 0
  areaSize : Int := 0
  contentSize : Int := 0
  fillValue : Byte := 0#8
  fileID : Int := 0

/-- `CDirectiveArea.h:42-49`, initialised at `CDirectiveArea.cpp:177-184`. -/
structure AutoMem where
  resetPosition : Int := 0
  position : Int := -1
  contentSize : Int := 0
  fileID : Int := 0

/-- The members of a command that `Validate` updates: for a label its `defined` flag, for a position its position, for
`.incbin` start and size, for `.align` and `.fill` `finalSize` and `fillByte`, for data `normalData` and `customData`, for a
conditional `previousResult`, for a literal pool `position` and `values`, and so on. An instruction also has the number of
its pool request. -/
def Cmd.Mem : Cmd → Type
  | .nil => Unit
  | .cons c rest => c.Mem × rest.Mem
  | .label _ _ => Bool
  | .function _ content => Bool × content.Mem
  | .openFile _ => Unit
  | .closeFile => Unit
  | .position _ _ => Int
  | .incbin _ _ _ _ => Int × Int
  | .align _ _ _ => Int × Byte
  | .skip _ => Int
  | .headerSize _ => Int
  | .data _ _ _ => List Int × List Byte
  | .table _ => Unit
  | .area _ _ _ _ content => AreaMem × content.Mem
  | .autoRegion _ _ content => AutoMem × content.Mem
  | .cond _ a b => Bool × a.Mem × b.Mem
  | .arch _ _ => Unit
  | .message _ _ => Unit
  | .mipsMacro _ _ content => content.Mem
  | .instr _ => Option InstrOut × Nat
  | .pool => Int × List Int

/-- The members after construction. -/
def Cmd.init : (c : Cmd) → c.Mem
  | .nil => ()
  | .cons c rest => (c.init, rest.init)
  | .label _ _ => false
  | .function _ content => (false, content.init)
  | .openFile _ => ()
  | .closeFile => ()
  | .position _ _ => (0 : Int)
  | .incbin _ _ _ _ => ((0 : Int), (0 : Int))
  | .align _ _ _ => ((0 : Int), 0#8)
  | .skip _ => (0 : Int)
  | .headerSize _ => (0 : Int)
  | .data _ _ _ => ([], [])
  | .table _ => ()
  | .area _ _ _ _ content => ({}, content.init)
  | .autoRegion _ _ content => ({}, content.init)
  | .cond _ a b => (false, a.init, b.init)
  | .arch _ _ => ()
  | .message _ _ => ()
  | .mipsMacro _ _ content => content.init
  | .instr _ => (none, 0)
  | .pool => ((-1 : Int), [])

/-- What does not change during assembly. -/
structure Env where
  host : Host
  /-- The function registry while an architecture is current (`Registry.updateArchitecture`). -/
  funcs : ArchId → Funcs
  /-- `getFullPathName`. -/
  path : Str → String
  /-- `u8string()` of a path. -/
  pathStr : String → Str
  /-- `Arm.GetThumbMode()`, which only the parser changes. -/
  thumb : Bool
  /-- `getFloatBits((float) x)` of a double. -/
  floatBits : F64 → Int
  /-- `getFloatBits((float) v)` of an integer. -/
  floatBitsInt : Int → Int
  /-- The table built by `encodeSjis` (`CDirectiveData.cpp:198-227`). -/
  sjis : Tbl

/-- `Arm.h` `ArmPoolEntry`: the requesting instruction is identified by the number of its request in this pass. -/
structure PoolEntry where
  request : Nat
  value : Int
  diags : Int → List Diag

/-- The global state that commands act on. `poolAddr` holds the addresses given to `setPoolAddress`, by request number. -/
structure St where
  fm : FM
  syms : SymTab
  alloc : Alloc := {}
  arch : ArchId := .invalid
  archSt : ArchState := {}
  table : Tbl := .empty
  pool : List PoolEntry := []
  poolCount : Nat := 0
  poolAddr : Nat → Option Int := fun _ => none

namespace St

def queueError (st : St) (t : ErrorType) (s : String) : St := { st with fm := st.fm.queueError t s }
def printError (st : St) (t : ErrorType) (s : String) : St := { st with fm := st.fm.printError t s }

/-- Reporting the diagnostics of an evaluation. -/
def report (st : St) (ds : List Diag) : St :=
  ds.foldl (fun st d => if d.printed then st.printError d.type d.text else st.queueError d.type d.text) st

/-- What an evaluation sees of the global state. -/
def ctx (E : Env) (st : St) : Ctx where
  label n f s :=
    match st.syms.getLabel n f s with
    | (_, none) => none
    | (t, some i) => t.labels[i]?
  file := st.fm.active.map fun i =>
    ((st.fm.files i).virtualAddress, (st.fm.files i).headerSize, E.pathStr (st.fm.files i).fileName)
  endianness := st.fm.endianness
  readFile p := st.fm.disk (E.path p)
  isArm := decide (st.arch = .arm) && !E.thumb
  isThumb := E.thumb

/-- `Expression::evaluate`. -/
def eval (E : Env) (st : St) (e : Expr) : Option (St × Value) :=
  match e.eval E.host (E.funcs st.arch) (st.ctx E) with
  | .ub => none
  | .ok v ds => some (st.report ds, v)

/-- `Expression.h:189-200` `evaluateInteger`: `none` inside if it returns false. -/
def evalInt (E : Env) (st : St) (e : Expr) : Option (St × Option Int) :=
  match st.eval E e with
  | none => none
  | some (st, .int v) => some (st, some v)
  | some (st, _) => some (st, none)

/-- `if (exp.isLoaded()) { if (!exp.evaluateInteger(dest)) … }`, with the value kept when there is no expression. -/
def evalIntOpt (E : Env) (st : St) (e : Option Expr) (old : Int) : Option (St × Option Int) :=
  match e with
  | none => some (st, some old)
  | some e => st.evalInt E e

/-- `Architecture::current().NextSection()`: `Architecture.cpp:76-79`, `Arm.cpp:67-70`, `Mips.cpp:41-46`, `SuperH.cpp`. -/
def nextSection (st : St) : St :=
  match st.arch with
  | .invalid => st.printError .fatalError "No architecture specified"
  | .mips => { st with archSt := {} }
  | _ => st

def liftFM (st : St) (r : FM × Bool) : St := { st with fm := r.1 }

def advance (st : St) (n : Int) : St := st.liftFM (st.fm.advanceMemory n)
def seekVirtual (st : St) (a : Int) : St := st.liftFM (st.fm.seekVirtual a)
def seekPhysical (st : St) (a : Int) : St := st.liftFM (st.fm.seekPhysical a)
def virt (st : St) : Int := st.fm.getVirtualAddress
def phys (st : St) : Int := st.fm.getPhysicalAddress

def label (st : St) (i : Nat) : Option Label := st.syms.labels[i]?

end St

/-- `(int8_t) v` stored as an `unsigned char`. -/
def toByte (v : Int) : Byte := BitVec.ofInt 8 v

/-- `CAssemblerLabel.cpp:43-91` `Validate`; a dangling label index is a null pointer. -/
def validateLabel (E : Env) (id : Nat) (value : Option Expr) (defined : Bool) (st : St) : Option (Bool × St × Bool) :=
  match st.label id with
  | none => none
  | some l =>
    if !defined ∧ l.defined then some (defined, st.queueError .error "Label already defined", false)
    else
      let st := if defined then st else { st with syms := st.syms.modifyLabel id fun l => { l with defined := true } }
      let result := !defined
      match value with
      | some e =>
        match st.evalInt E e with
        | none => none
        | some (st, none) => some (true, st.printError .error "Invalid expression", result)
        | some (st, some v) =>
          if l.value ≠ v then
            some (true, { st with syms := st.syms.modifyLabel id fun l => { l with value := v } }, true)
          else some (true, st, result)
      | none =>
        let st1 := if l.value ≠ st.virt then
            { st with syms := st.syms.modifyLabel id fun l => { l with value := st.virt } } else st
        let st2 := if l.physicalValue ≠ some st.phys then
            { st1 with syms := st1.syms.modifyLabel id fun l => { l with physicalValue := some st.phys } } else st1
        some (true, st2, result || decide (l.value ≠ st.virt) || decide (l.physicalValue ≠ some st.phys))

/-- `CDirectiveFile.cpp:64-94` `Validate` for `.open`/`.create`. -/
def validateOpen (noFileChange : Bool) (i : Nat) (st : St) : St :=
  if noFileChange then st.queueError .error "Cannot open new file"
  else
    let st := st.nextSection
    st.liftFM (st.fm.openFile i true)

/-- `CDirectiveFile.cpp:64-94` `Validate` for `.close`. -/
def validateClose (noFileChange : Bool) (st : St) : St :=
  if noFileChange then st.queueError .error "Cannot close file"
  else
    let st := st.nextSection
    { st with fm := st.fm.closeFile }

/-- `CDirectiveFile.cpp:170-181` `CDirectivePosition::exec`. -/
def execPosition (virtual : Bool) (p : Int) (st : St) : St := if virtual then st.seekVirtual p else st.seekPhysical p

/-- `CDirectiveFile.cpp:183-196` `CDirectivePosition::Validate`. -/
def validatePosition (E : Env) (virtual : Bool) (e : Expr) (old : Int) (st : St) : Option (Int × St) :=
  match st.evalInt E e with
  | none => none
  | some (st, none) => some (old, st.queueError .fatalError "Invalid position")
  | some (st, some p) => some (p, execPosition virtual p st.nextSection)

/-- `CDirectiveFile.cpp:235-276` `CDirectiveIncbin::Validate`. -/
def validateIncbin (E : Env) (fileSize : Int) (startE sizeE : Option Expr) (old : Int × Int) (st : St) :
    Option ((Int × Int) × St) :=
  match st.evalIntOpt E startE 0 with
  | none => none
  | some (st, none) => some (old, st.queueError .error "Invalid position expression")
  | some (st, some start) =>
    if startE.isSome ∧ start > fileSize then some ((start, old.2), st.queueError .error "Start position past end of file")
    else
      match st.evalIntOpt E sizeE (fileSize - start) with
      | none => none
      | some (st, none) => some ((start, old.2), st.queueError .error "Invalid size expression")
      | some (st, some size) =>
        let r := if start + size > fileSize then
            (st.queueError .warning "Read size truncated due to file size", fileSize - start) else (st, size)
        some ((start, r.2), r.1.nextSection.advance r.2)

/-- `ByteArray.cpp:141-163` `fromFile`, for a file with the given contents. Sizes and comparisons are unsigned: a negative
start or end is beyond the end of the file. A negative size with a valid end allocates almost 2^64 bytes: `none`. -/
def fromFile (content : Option (List Byte)) (start size : Int) : Option (List Byte) :=
  match content with
  | none => some []
  | some c =>
    if start < 0 ∨ start ≥ c.length then some []
    else if size = 0 ∨ start + size < 0 ∨ start + size > c.length then some (c.drop start.toNat)
    else if size < 0 then none
    else some ((c.drop start.toNat).take size.toNat)

/-- `CDirectiveFile.cpp:278-290` `CDirectiveIncbin::Encode`. The result of `(int) data.size()` for 2^31 bytes or more depends on
the implementation: `none`. -/
def encodeIncbin (file : String) (start size : Int) (m : FM) : Option FM :=
  if size = 0 then some m
  else
    match fromFile (m.disk file) start size with
    | none => none
    | some data =>
      if data.length ≥ 2 ^ 31 then none
      else if (data.length : Int) ≠ size then some (m.printError .error "Could not read file")
      else some (m.write data).1

/-- `Common.cpp:102-106` `isPowerOfTwo` on 64-bit integers; `n-1` overflows for the least one: `none`. There are no
integers outside the 64-bit range. -/
def isPowerOfTwo (n : Int) : Option Bool :=
  if n = 0 then some false
  else if n = -(2 ^ 63) ∨ ¬ InI64 n then none
  else some ((BitVec.ofInt 64 n &&& BitVec.ofInt 64 (n - 1)) = 0#64)

/-- `CDirectiveFile.cpp:346-361` the final size; C++ `%` truncates. -/
def alignSize (mode : AlignMode) (value virt phys : Int) : Option Int :=
  let pad := fun address : Int =>
    let mod := address.tmod value
    if mod = 0 then some 0 else if InI64 (value - mod) then some (value - mod) else none
  match mode with
  | .virtual => pad virt
  | .physical => pad phys
  | .fill => some value

/-- `CDirectiveFile.cpp:327-378` `CDirectiveAlignFill::Validate`. A constant size is an integer expression here. -/
def validateAlign (E : Env) (mode : AlignMode) (e : Expr) (fill : Option Expr) (old : Int × Byte) (st : St) :
    Option ((Int × Byte) × St × Bool) :=
  match st.evalInt E e with
  | none => none
  | some (st, none) => some (old, st.queueError .fatalError "Invalid size or alignment", false)
  | some (st, some value) =>
    match (if mode = .fill then some true else isPowerOfTwo value) with
    | none => none
    | some false => some (old, st.queueError .error "Invalid alignment", false)
    | some true =>
      match alignSize mode value st.virt st.phys with
      | none => none
      | some finalSize =>
        match fill with
        | some f =>
          match st.evalInt E f with
          | none => none
          | some (st, none) => some ((finalSize, old.2), st.printError .fatalError "Invalid fill value", false)
          | some (st, some v) =>
            some ((finalSize, toByte v), st.nextSection.advance finalSize, decide (old.1 ≠ finalSize))
        | none => some ((finalSize, old.2), st.nextSection.advance finalSize, decide (old.1 ≠ finalSize))

/-- `CDirectiveFile.cpp:386-392` the loop and the last write of `CDirectiveAlignFill::Encode`; `fuel` bounds the number of
iterations and is chosen large enough by the caller. -/
def fillLoop (b : Byte) : Nat → Nat → FM → FM
  | 0, n, m => (m.write (List.replicate n b)).1
  | fuel + 1, n, m =>
    if n > 128 then fillLoop b fuel (n - 128) (m.write (List.replicate 128 b)).1
    else (m.write (List.replicate n b)).1

/-- `CDirectiveFile.cpp:380-393` `CDirectiveAlignFill::Encode`. A negative size makes `memset` write outside the buffer. -/
def encodeFill (size : Int) (b : Byte) (m : FM) : Option FM :=
  if size < 0 then none else some (fillLoop b size.toNat size.toNat m)

/-- `CDirectiveFile.cpp:431-448` `CDirectiveSkip::Validate`. -/
def validateSkip (E : Env) (e : Expr) (old : Int) (st : St) : Option (Int × St) :=
  match st.evalInt E e with
  | none => none
  | some (st, none) => some (old, st.queueError .fatalError "Invalid skip length")
  | some (st, some v) => some (v, st.nextSection.advance v)

/-- `CDirectiveFile.cpp:482-494` `CDirectiveHeaderSize::Validate`. -/
def validateHeaderSize (E : Env) (e : Expr) (old : Int) (st : St) : Option (Int × St) :=
  match st.evalInt E e with
  | none => none
  | some (st, none) => some (old, st.queueError .fatalError "Invalid header size")
  | some (st, some v) => (st.fm.execHeaderSize v).map fun m => (v, { st with fm := m })

/-- `CDirectiveData.cpp:117-139` `getUnitSize`, as the width used by `Encode`. -/
def DataMode.width : DataMode → Width
  | .u8 | .ascii | .sjis | .custom => .w8
  | .u16 => .w16
  | .u32 | .float => .w32
  | .u64 | .double => .w64

/-- `CDirectiveData.cpp:268-302` one iteration of `encodeNormal` for a valid value. -/
def normalElem (E : Env) (mode : DataMode) (v : Value) (st : St) : St × List Int :=
  match v with
  | .str s =>
    (if s.any (fun c => c.toNat ≥ 0x80) then st.queueError .error "Non-ASCII character in data directive" else st,
      s.map fun c => c.toInt)
  | .int v => (st, [v])
  | .float f =>
    match mode with
    | .u32 => (st, [E.floatBits f])
    | .u64 => (st, [f.toInt])
    | _ => (st.queueError .error "Invalid expression type", [])
  | .invalid => (st.queueError .error "Invalid expression", [])

/-- `CDirectiveData.cpp:234-259` one iteration of `encodeFloat`. -/
def floatElem (E : Env) (mode : DataMode) (v : Value) (st : St) : St × List Int :=
  match v, mode with
  | .int v, .float => (st, [E.floatBitsInt v])
  | .int v, .double => (st, [(E.host.ofInt v).toInt])
  | .float f, .float => (st, [E.floatBits f])
  | .float f, .double => (st, [f.toInt])
  | .invalid, _ => (st.queueError .error "Invalid expression", [])
  | _, _ => (st.queueError .error "Invalid expression type", [])

/-- `CDirectiveData.cpp:168-188` one iteration of `encodeCustom`. -/
def customElem (t : Tbl) (v : Value) (st : St) : Option (St × List Byte) :=
  match v with
  | .int v => some (st, [BitVec.ofInt 8 v])
  | .str s =>
    match t.encodeString s false with
    | .ub => none
    | .fail => some (if s.isEmpty then st else st.queueError .error "Failed to encode", [])
    | .ok b => some (if b.isEmpty ∧ !s.isEmpty then st.queueError .error "Failed to encode" else st, b)
  | .float _ => some (st.queueError .error "Invalid expression type", [])
  | .invalid => some (st.queueError .error "Invalid expression", [])

/-- The loops of `encodeNormal` and `encodeFloat`. -/
def dataLoop (E : Env) (elem : Value → St → St × List Int) : List Expr → St → Option (St × List Int)
  | [], st => some (st, [])
  | e :: es, st =>
    match st.eval E e with
    | none => none
    | some (st, v) =>
      match dataLoop E elem es (elem v st).1 with
      | none => none
      | some (st', rest) => some (st', (elem v st).2 ++ rest)

/-- The loop of `encodeCustom`. -/
def customLoop (E : Env) (t : Tbl) : List Expr → St → Option (St × List Byte)
  | [], st => some (st, [])
  | e :: es, st =>
    match st.eval E e with
    | none => none
    | some (st, v) =>
      match customElem t v st with
      | none => none
      | some (st, b) =>
        match customLoop E t es st with
        | none => none
        | some (st', rest) => some (st', b ++ rest)

/-- `CDirectiveData.cpp:191-195`, `EncodingTable.cpp:227-240`: the termination of a custom string. -/
def termination (t : Tbl) (terminate : Bool) : Option (List Byte) :=
  if terminate then t.entryBytes t.termination else some []

/-- `CDirectiveData.cpp:141-161` `getDataSize`. -/
def dataSize (mode : DataMode) (d : List Int × List Byte) : Nat :=
  match mode with
  | .sjis | .custom => d.2.length
  | _ => d.1.length * mode.width.bytes

/-- `CDirectiveData.cpp:163-309` the encoding functions, `316-338` their choice, with the members they leave alone. -/
def encodeEntries (E : Env) (mode : DataMode) (entries : List Expr) (terminate : Bool) (old : List Int × List Byte)
    (st : St) : Option ((List Int × List Byte) × St) :=
  match mode with
  | .sjis | .custom =>
    let t := if mode = .sjis then E.sjis else st.table
    match customLoop E t entries st with
    | none => none
    | some (st, b) =>
      match termination t terminate with
      | none => none
      | some x => some ((old.1, b ++ x), st)
  | .float | .double =>
    match dataLoop E (floatElem E mode) entries st with
    | none => none
    | some (st, l) => some ((l, old.2), st)
  | _ =>
    match dataLoop E (normalElem E mode) entries st with
    | none => none
    | some (st, l) => some ((l ++ (if terminate then [0] else []), old.2), st)

/-- `CDirectiveData.cpp:311-342` `CDirectiveData::Validate`. -/
def validateData (E : Env) (mode : DataMode) (entries : List Expr) (terminate : Bool) (old : List Int × List Byte)
    (st : St) : Option ((List Int × List Byte) × St × Bool) :=
  match encodeEntries E mode entries terminate old st with
  | none => none
  | some (d, st) => some (d, st.advance (dataSize mode d), decide (dataSize mode old ≠ dataSize mode d))

/-- `writeU8` … `writeU64` of a converted integer. -/
def writeUnit (m : FM) (u : Width × Int) : FM :=
  match u.1 with
  | .w8 => (m.writeU8 (BitVec.ofInt 8 u.2)).1
  | .w16 => (m.writeU16 (BitVec.ofInt 16 u.2)).1
  | .w32 => (m.writeU32 (BitVec.ofInt 32 u.2)).1
  | .w64 => (m.writeU64 (BitVec.ofInt 64 u.2)).1

def writeUnits (m : FM) (l : List (Width × Int)) : FM := l.foldl writeUnit m

/-- `CDirectiveData.cpp:344-383` `CDirectiveData::Encode`. -/
def encodeData (mode : DataMode) (d : List Int × List Byte) (m : FM) : FM :=
  match mode with
  | .sjis | .custom => (m.write d.2).1
  | _ => writeUnits m (d.1.map fun v => (mode.width, v))

/-- `CDirectiveConditional.cpp:39-65` `evaluate`; a dangling label index is a null pointer. -/
def evalCond (E : Env) (kind : CondKind) (st : St) : Option (St × Bool) :=
  match kind with
  | .if_ e =>
    match st.evalInt E e with
    | none => none
    | some (st, none) => some (st.queueError .error "Invalid conditional expression", false)
    | some (st, some v) => some (st, v ≠ 0)
  | .ifdef i => (st.label i).map fun l => (st, l.defined)
  | .ifndef i => (st.label i).map fun l => (st, !l.defined)

/-- `CDirectiveMessage.cpp:12-34` `Validate`; the text is not modelled. -/
def validateMessage (E : Env) (t : MsgType) (e : Expr) (st : St) : Option St :=
  match st.eval E e with
  | none => none
  | some (st, .invalid) => some (st.queueError .error "Invalid expression")
  | some (st, _) =>
    some (match t with
      | .warning => st.queueError .warning "message"
      | .error => st.queueError .error "message"
      | .notice => st.queueError .notice "message")

/-- `Architecture.cpp:37-43` `ArchitectureCommand::Validate`. -/
def validateArch (a : ArchId) (e : Endianness) (st : St) : St :=
  { st with arch := a, fm := { st.fm with endianness := e } }

/-- `CArmInstruction.cpp`, `CThumbInstruction.cpp`, `CMipsInstruction.cpp`, `CShInstruction.cpp`: `Validate`, as given by the
instruction's semantics. -/
def validateInstr (E : Env) (sem : InstrSem) (old : Option InstrOut × Nat) (st : St) :
    Option ((Option InstrOut × Nat) × St × Bool) :=
  match sem.run (st.ctx E) st.archSt with
  | .ub => none
  | .ok (out, as) ds =>
    let st := { st.report ds with archSt := as }
    let st' := match out.pool with
      | none => st
      | some v => { st with pool := st.pool ++ [PoolEntry.mk st.poolCount v out.poolDiags], poolCount := st.poolCount + 1 }
    some ((some out, st.poolCount), st'.advance out.size, sem.changed old.1 out)

/-- Index of the first occurrence of a value (`usedValues.find`, `Pool.cpp:59-65`). -/
def firstIndex (v : Int) : List Int → Option Nat
  | [] => none
  | x :: xs => if x = v then some 0 else (firstIndex v xs).map (· + 1)

/-- `Pool.cpp:56-65` the index of the word for a value, given the words so far. -/
def poolIndex (dedup : Bool) (v : Int) (values : List Int) : Nat :=
  match (if dedup then firstIndex v values else none) with
  | some i => i
  | none => values.length

/-- `Pool.cpp:67-71` the words after a request. -/
def poolPush (dedup : Bool) (v : Int) (values : List Int) : List Int :=
  if poolIndex dedup v values = values.length then values ++ [v] else values

/-- `Pool.cpp:54-75` one iteration of the loop over the requests: words so far and state. -/
def poolStep (dedup : Bool) (position : Int) (acc : List Int × St) (e : PoolEntry) : List Int × St :=
  (poolPush dedup e.value acc.1,
    St.report { acc.2 with
      poolAddr := fun r => if r = e.request then some (position + poolIndex dedup e.value acc.1 * 4) else acc.2.poolAddr r }
      (e.diags (position + poolIndex dedup e.value acc.1 * 4)))

/-- `Pool.cpp:43-82` `ArmPoolCommand::Validate`. -/
def validatePool (passes : Nat) (old : Int × List Int) (st : St) : (Int × List Int) × St × Bool :=
  let f := st.fm.getOpenFileID
  let st := { st with fm := f.1 }
  let st := if old.1 ≠ -1 then { st with alloc := st.alloc.forgetPool f.2 old.1 (old.2.length * 4) } else st
  let position := st.virt
  let r := st.pool.foldl (poolStep (decide (passes < 10)) position) ([], st)
  let st := { r.2 with pool := [] }.advance (r.1.length * 4)
  ((position, r.1), { st with alloc := st.alloc.setPool f.2 position (r.1.length * 4) },
    decide (old.2.length ≠ r.1.length))

/-- `CDirectiveArea.cpp:34-46` the position of an area. -/
def areaPosition (E : Env) (position : Option Expr) (st : St) : Option (St × Option Int) :=
  match position with
  | none => some (st, some st.virt)
  | some e =>
    match st.evalInt E e with
    | none => none
    | some (st, none) => some (st.queueError .error "Invalid position expression", none)
    | some (st, some p) => some (st.nextSection.seekVirtual p, some p)

/-- `CDirectiveArea.cpp:77-101` the part of `Validate` after the content, given the old members. -/
def areaEnd (shared : Bool) (hasFill : Bool) (old : AreaMem) (position areaSize : Int) (fillValue : Byte) (st : St)
    (result : Bool) : AreaMem × St × Bool :=
  let contentSize := st.virt - position
  let st := if areaSize < contentSize then st.queueError .error "Area overflowed" else st
  let st := if hasFill || shared then st.advance (areaSize - contentSize) else st
  let result := result || decide (areaSize ≠ old.areaSize ∨ contentSize ≠ old.contentSize)
  let f := st.fm.getOpenFileID
  let st := { st with fm := f.1 }
  let st := if (old.fileID ≠ f.2 ∨ old.position ≠ position ∨ areaSize = 0) ∧ old.areaSize ≠ 0 then
      { st with alloc := st.alloc.forgetArea old.fileID old.position old.areaSize } else st
  let st := if areaSize ≠ 0 then
      { st with alloc := st.alloc.setArea f.2 position areaSize contentSize hasFill shared } else st
  (⟨position, areaSize, contentSize, fillValue, f.2⟩, st, result)

/-- `CDirectiveArea.cpp:121-130` the padding: the loop over 64-byte blocks, with fuel as in `fillLoop`. -/
def areaFillLoop (b : Byte) : Nat → Nat → FM → FM
  | 0, _, m => m
  | fuel + 1, n, m =>
    if n > 0 then areaFillLoop b fuel (n - min 64 n) (m.write (List.replicate (min 64 n) b)).1 else m

/-- `CDirectiveArea.cpp:115-134` the part of `Encode` after the content. A negative `writeSize` is almost 2^64 as a `size_t`
and fills the disk: `none`. -/
def encodeAreaEnd (shared : Bool) (hasFill : Bool) (alloc : Alloc) (a : AreaMem) (m : FM) : Option FM :=
  if hasFill then
    let sub := alloc.subAreaUsage ⟨a.fileID, a.position⟩
    let m := if sub ≠ 0 then (m.advanceMemory sub).1 else m
    let writeSize := a.areaSize - a.contentSize - sub
    if writeSize < 0 then none else some (areaFillLoop a.fillValue writeSize.toNat writeSize.toNat m)
  else if shared then some (m.advanceMemory (a.areaSize - a.contentSize)).1
  else some m

/-- `CDirectiveArea.cpp:221-246` choosing the place of an `.autoregion`: `none` inside if `Validate` returns early, with its
return value. -/
def autoPlace (E : Env) (min max : Option Expr) (mem : AutoMem) (st : St) : Option (St × Except Bool (Int × Int)) :=
  match st.evalIntOpt E min (-1) with
  | none => none
  | some (st, none) => some (st.queueError .error "Invalid range expression for .autoregion", .error false)
  | some (st, some mn) =>
    match st.evalIntOpt E max (-1) with
    | none => none
    | some (st, none) => some (st.queueError .error "Invalid range expression for .autoregion", .error false)
    | some (st, some mx) =>
      let f := st.fm.getOpenFileID
      let st := { st with fm := f.1 }
      match st.alloc.allocateSubArea f.2 mem.position mn mx mem.contentSize with
      | (a, none) =>
        some (({ st with alloc := a }).queueError .error "No space available for .autoregion", .error a.canTrimSpace)
      | (a, some p) => some ({ st with alloc := a }, .ok (p, f.2))

/-- `Validate` of a command: new members, new state and the returned "revalidate" flag. `passes` and `noFileChange` are the
members of `ValidateState`. -/
def validate (E : Env) (passes : Nat) : (c : Cmd) → Bool → c.Mem → St → Option (c.Mem × St × Bool)
  | .nil, _, m, st => some (m, st, false)
  | .cons c rest, nf, (m1, m2), st =>
    -- `CommandSequence.cpp:9-21`
    match validate E passes c nf m1 st with
    | none => none
    | some (m1, st, r1) =>
      match validate E passes rest nf m2 st with
      | none => none
      | some (m2, st, r2) => some ((m1, m2), st, r1 || r2)
  | .label id value, _, m, st => validateLabel E id value m st
  | .function id content, _, (m1, m2), st =>
    -- `CAssemblerLabel.cpp:123-139`
    match validateLabel E id none m1 st with
    | none => none
    | some (m1, st, r1) =>
      match validate E passes content true m2 st with
      | none => none
      | some (m2, st, r2) => some ((m1, m2), st, r1 || r2)
  | .openFile i, nf, m, st => some (m, validateOpen nf i st, false)
  | .closeFile, nf, m, st => some (m, validateClose nf st, false)
  | .position v e, _, m, st => (validatePosition E v e m st).map fun r => (r.1, r.2, false)
  | .incbin _ fileSize start size, _, m, st => (validateIncbin E fileSize start size m st).map fun r => (r.1, r.2, false)
  | .align mode e fill, _, m, st => validateAlign E mode e fill m st
  | .skip e, _, m, st => (validateSkip E e m st).map fun r => (r.1, r.2, false)
  | .headerSize e, _, m, st => (validateHeaderSize E e m st).map fun r => (r.1, r.2, false)
  | .data mode entries t, _, m, st => validateData E mode entries t m st
  | .table t, _, m, st => some (m, { st with table := t }, false)
  | .area shared size fill position content, _, (a, m), st =>
    -- `CDirectiveArea.cpp:28-102`
    match areaPosition E position st with
    | none => none
    | some (st, none) => some ((a, m), st, false)
    | some (st, some p) =>
      match st.evalInt E size with
      | none => none
      | some (st, none) => some (({ a with position := p }, m), st.queueError .error "Invalid size expression", false)
      | some (st, some n) =>
        if n < 0 then some (({ a with position := p, areaSize := n }, m), st.queueError .error "Negative area size", false)
        else
          match st.evalIntOpt E fill 0 with
          | none => none
          | some (st, none) =>
            some (({ a with position := p, areaSize := n }, m), st.queueError .error "Invalid fill expression", false)
          | some (st, some f) =>
            match validate E passes content true m st with
            | none => none
            | some (m, st, r) =>
              let x := areaEnd shared fill.isSome a p n (if fill.isSome then toByte f else a.fillValue) st r
              some ((x.1, m), x.2)
  | .autoRegion min max content, _, (a, m), st =>
    -- `CDirectiveArea.cpp:197-263`
    let reset := st.virt
    if passes < 1 then
      match validate E passes content true m st with
      | none => none
      | some (m, st, _) =>
        some (({ a with resetPosition := reset, position := reset, contentSize := st.virt - reset }, m),
          st.seekVirtual reset, true)
    else
      match autoPlace E min max a st with
      | none => none
      | some (st, .error r) => some (({ a with resetPosition := reset }, m), st, r)
      | some (st, .ok (p, f)) =>
        match validate E passes content true m (st.nextSection.seekVirtual p) with
        | none => none
        | some (m, st, r) =>
          let contentSize := st.virt - p
          some (((⟨reset, p, contentSize, f⟩ : AutoMem), m), st.seekVirtual reset,
            r || decide (p ≠ a.position ∨ contentSize ≠ a.contentSize))
  | .cond kind a b, nf, (prev, m1, m2), st =>
    -- `CDirectiveConditional.cpp:67-86`, `Encode` `88-97`
    match evalCond E kind st with
    | none => none
    | some (st, true) =>
      match validate E passes a nf m1 st with
      | none => none
      | some (m1, st, r) => some ((true, m1, m2), st, decide (prev ≠ true) || r)
    | some (st, false) =>
      match validate E passes b nf m2 st with
      | none => none
      | some (m2, st, r) => some ((false, m1, m2), st, decide (prev ≠ false) || r)
  | .arch a e, _, m, st => some (m, validateArch a e st, false)
  | .message t e, _, m, st => (validateMessage E t e st).map fun st => (m, st, false)
  | .mipsMacro dontWarn ignoreDelay content, nf, m, st =>
    -- `MipsMacros.cpp:20-39`
    match validate E passes content nf m st with
    | none => none
    | some (m, st', r) =>
      let st1 := if !ignoreDelay ∧ st'.archSt.delaySlot ∧ st'.virt - st.virt > 4 ∧ !dontWarn then
          st'.queueError .warning "Macro with multiple opcodes used inside a delay slot" else st'
      let st2 := if st'.virt = st.virt then st1.queueError .warning "Empty macro content" else st1
      some (m, st2, r)
  | .instr sem, _, m, st => validateInstr E sem m st
  | .pool, _, m, st => some (validatePool passes m st)

/-- `NextSection()` during `Encode`: only the invalid architecture has a visible effect. -/
def encodeNextSection (G : St) (m : FM) : FM :=
  match G.arch with
  | .invalid => m.printError .fatalError "No architecture specified"
  | _ => m

/-- `Encode` of a command. `G` is the global state after the last pass, whose allocations, pool addresses and current
architecture no longer change. -/
def encode (G : St) : (c : Cmd) → c.Mem → FM → Option FM
  | .nil, _, f => some f
  | .cons c rest, (m1, m2), f =>
    match encode G c m1 f with
    | none => none
    | some f => encode G rest m2 f
  | .label _ _, _, f => some f
  | .function _ content, (_, m), f => encode G content m f
  | .openFile i, _, f => some (f.openFile i false).1
  | .closeFile, _, f => some f.closeFile
  | .position v _, p, f =>
    -- `CDirectiveFile.cpp:198-202`
    some (let f := encodeNextSection G f; if v then (f.seekVirtual p).1 else (f.seekPhysical p).1)
  | .incbin file _ _ _, (start, size), f => encodeIncbin file start size f
  | .align _ _ _, (size, b), f => encodeFill size b f
  | .skip _, v, f => some ((encodeNextSection G f).advanceMemory v).1
  | .headerSize _, v, f => f.execHeaderSize v
  | .data mode _ _, d, f => some (encodeData mode d f)
  | .table _, _, f => some f
  | .area shared _ fill position content, (a, m), f =>
    -- `CDirectiveArea.cpp:104-134`
    let f := if position.isSome then ((encodeNextSection G f).seekVirtual a.position).1 else f
    match encode G content m f with
    | none => none
    | some f => encodeAreaEnd shared fill.isSome G.alloc a f
  | .autoRegion _ _ content, (a, m), f =>
    -- `CDirectiveArea.cpp:265-271`
    match encode G content m ((encodeNextSection G f).seekVirtual a.position).1 with
    | none => none
    | some f => some (f.seekVirtual a.resetPosition).1
  | .cond _ a b, (prev, m1, m2), f => if prev then encode G a m1 f else encode G b m2 f
  | .arch _ e, _, f => some { f with endianness := e }
  | .message _ _, _, f => some f
  | .mipsMacro _ _ content, m, f => encode G content m f
  | .instr _, (out, request), f =>
    match out with
    | none => none
    | some out => some (writeUnits f (out.words (if out.pool.isSome then G.poolAddr request else none)))
  | .pool, (_, values), f => some (writeUnits f (values.map fun v => (.w32, v)))

end Armips
