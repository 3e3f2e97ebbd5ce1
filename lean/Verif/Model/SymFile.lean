import Verif.Model.TextFile
/-!
# The symbol file

Models `Core/SymbolData.{h,cpp}`. Names are lists of bytes, addresses are `int64_t`, files are numbered instead of identified by pointers.

* `none` is an index out of range.
* `addFileName` is not used by anything and not modelled.
* A `std::set` is a list without duplicates; its order has no effect since the entries are sorted afterwards.
* That the file cannot be opened for writing is not modelled.
-/
namespace Armips.SymFile
open TextFile (Out openWrite write writeLine close)

/-- `SymbolData.h:71` `DataType`. -/
inductive DataType
  | data8 | data16 | data32 | data64 | ascii
  deriving DecidableEq, Repr

/-- `SymbolData.h:55-61` `SymDataModule`: symbols are address and name, functions address and size, data address, size and type. -/
structure Module where
  file : Option Nat
  symbols : List (Int × List Nat)
  functions : List (Int × Nat)
  data : List (Int × Nat × DataType)
  deriving DecidableEq, Repr

/-- `SymbolData.h:89-98` the members of `SymbolData`; `func = none` is -1. `errs` counts the errors given to the logger. -/
structure State where
  enabled : Bool
  modules : List Module
  cur : Nat
  func : Option Nat
  errs : Nat
  deriving DecidableEq, Repr

/-- `SymbolData.cpp:14-26` `clear`. -/
def State.start : State := ⟨true, [⟨none, [], [], []⟩], 0, none, 0⟩

/-- The calls of the class. -/
inductive Op
  | enable (b : Bool)
  | label (address : Int) (name : List Nat)
  | data (address : Int) (size : Nat) (type : DataType)
  | startModule (file : Nat)
  | endModule (file : Nat)
  | startFunction (address : Int)
  | endFunction (address : Int)
  deriving DecidableEq, Repr

/-- `(size_t) (address-func.address)`. -/
def span (a b : Int) : Nat := ((b - a) % 2 ^ 64).toNat

/-- `SymbolData.cpp:127-144` `addLabel`. -/
def addLabel (m : Module) (a : Int) (name : List Nat) : Module :=
  if (a, name) ∈ m.symbols then m else { m with symbols := m.symbols ++ [(a, name)] }

/-- `SymbolData.cpp:146-156` `addData`. -/
def addData (m : Module) (a : Int) (size : Nat) (t : DataType) : Module :=
  if (a, size, t) ∈ m.data then m else { m with data := m.data ++ [(a, size, t)] }

/-- `SymbolData.cpp:224-235` `endFunction`. -/
def endFunction (s : State) (b : Int) : Option State :=
  match s.func with
  | none => some { s with errs := s.errs + 1 }
  | some i =>
    match s.modules[s.cur]? with
    | none => none
    | some m =>
      match m.functions[i]? with
      | none => none
      | some f => some { s with
          modules := s.modules.set s.cur { m with functions := m.functions.set i (f.1, span f.1 b) }
          func := none }

/-- The calls: `SymbolData.h:80` `setEnabled`, `SymbolData.cpp:127-222`. -/
def step (s : State) : Op → Option State
  | .enable b => some { s with enabled := b }
  | .label a name => if s.enabled then
      (s.modules[s.cur]?).map fun m => { s with modules := s.modules.set s.cur (addLabel m a name) } else some s
  | .data a size t => if s.enabled then
      (s.modules[s.cur]?).map fun m => { s with modules := s.modules.set s.cur (addData m a size t) } else some s
  | .startModule f =>
    match s.modules.findIdx? (fun m => m.file = some f) with
    | some i => some { s with cur := i }
    | none => some { s with modules := s.modules ++ [⟨some f, [], [], []⟩], cur := s.modules.length }
  | .endModule f =>
    (s.modules[s.cur]?).map fun m =>
      if m.file ≠ some f then s
      else if s.cur = 0 then { s with errs := s.errs + 1 }
      else if s.func ≠ none then { s with errs := s.errs + 1, func := none, cur := 0 }
      else { s with cur := 0 }
  | .startFunction a =>
    (if s.func ≠ none then endFunction s a else some s).bind fun s =>
      (s.modules[s.cur]?).map fun m =>
        { s with func := some m.functions.length, modules := s.modules.set s.cur { m with functions := m.functions ++ [(a, 0)] } }
  | .endFunction b => endFunction s b

/-- A sequence of calls. -/
def run (s : State) : List Op → Option State
  | [] => some s
  | o :: os => (step s o).bind fun s => run s os

/-! ### Writing -/

/-- The code of an upper-case hexadecimal digit. -/
def hexDigit (d : Nat) : Nat := if d < 10 then 48 + d else 55 + d

/-- `%0wX` of a number below 2^64: at least `w` digits. -/
def hex (w n : Nat) : List Nat :=
  let ds := (List.range 16).reverse.map fun i => n / 16 ^ i % 16
  (ds.drop (min (16 - w) (ds.takeWhile (· = 0)).length)).map hexDigit

/-- `::tolower` in the C locale. -/
def toLower (c : Nat) : Nat := if 65 ≤ c ∧ c ≤ 90 then c + 32 else c

/-- `SymbolData.cpp:53-61` the size of the first function at an address. -/
def symbolSize (m : Module) (a : Int) : Nat :=
  match m.functions.find? fun f => f.1 = a with
  | some f => f.2
  | none => 0

/-- `SymbolData.cpp:51-74` the entry of a symbol. -/
def symbolText (version : Nat) (m : Module) (a : Int) (name : List Nat) : List Nat :=
  let size := symbolSize m a
  let text := if size ≠ 0 ∧ version ≥ 2 then name ++ 44 :: hex 8 size else name
  if version = 1 then text.map toLower else text

/-- `SymbolData.cpp:82-97` the prefix of a data entry. -/
def dataPrefix : DataType → List Nat
  | .data8 => [46, 98, 121, 116, 58]
  | .data16 => [46, 119, 114, 100, 58]
  | .data32 => [46, 100, 98, 108, 58]
  | .data64 => [46, 100, 98, 108, 58]
  | .ascii => [46, 97, 115, 99, 58]

/-- `SymbolData.cpp:45-102` the entries of a module. -/
def moduleEntries (version : Nat) (m : Module) : List (Int × List Nat) :=
  (m.symbols.map fun s => (s.1, symbolText version m s.1 s.2)) ++
    m.data.map fun d => (d.1, dataPrefix d.2.2 ++ hex 4 d.2.1)

/-- `<=` of `std::string`. -/
def textLe : List Nat → List Nat → Bool
  | [], _ => true
  | _ :: _, [] => false
  | a :: s, b :: t => decide (a < b) || (decide (a = b) && textLe s t)

/-- `SymbolData.cpp:28-39` `NocashSymEntry::operator<`, as `<=`. -/
def entryLe (x y : Int × List Nat) : Bool := if x.1 ≠ y.1 then decide (x.1 < y.1) else textLe x.2 y.2

/-- `SymbolData.cpp:115` one line. -/
def line (e : Int × List Nat) : List Nat := hex 8 (e.1 % 2 ^ 64).toNat ++ 32 :: e.2 ++ [10]

/-- Insertion into a sorted list. -/
def insert (e : Int × List Nat) : List (Int × List Nat) → List (Int × List Nat)
  | [] => [e]
  | x :: l => if entryLe e x then e :: x :: l else x :: insert e l

/-- `SymbolData.cpp:104` `std::sort`. Entries that are neither smaller nor greater are equal, so every sorting algorithm gives the same. -/
def sorted (version : Nat) (s : State) : List (Int × List Nat) := (s.modules.flatMap (moduleEntries version)).foldr insert []

/-- `SymbolData.cpp:41-120` `writeNocashSym`: the content of the file. -/
def output (version : Nat) (s : State) : List Nat :=
  let o := writeLine (openWrite true) [48, 48, 48, 48, 48, 48, 48, 48, 32, 48]
  let o := (sorted version s).foldl (fun o e => write o (line e)) o
  close (write o [0x1A])

end Armips.SymFile
