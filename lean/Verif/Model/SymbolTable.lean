import Verif.Spec.Str
/-!
# Symbol table

Models `Core/SymbolTable.{h,cpp}`. `std::map<SymbolKey,…>` is a function from keys; it is only ever used by key.
Labels are objects shared by reference: the model refers to them by their index in the `labels` vector.
File and section numbers are unbounded integers (`int` in the code).
-/
namespace Armips

/-- `SymbolTable.h:15-29` `SymbolKey`: the constructor lowers the name. -/
structure SymbolKey where
  name : Str
  file : Int
  section_ : Int
  deriving DecidableEq, Repr

/-- `SymbolTable.h:33-66` `Label` (name and the fields used by the assembler; `data` and `info` are only hints for the
symbol file and for THUMB state). -/
structure Label where
  name : Str
  value : Int := 0
  physicalValue : Option Int := none
  defined : Bool := false
  section_ : Int := 0
  deriving DecidableEq, Repr

/-- `SymbolTable.h:94-99` `SymbolInfo`. -/
inductive SymbolInfo
  | label (index : Nat)
  | equation (index : Nat)
  deriving DecidableEq, Repr

/-- `SymbolTable.h:101-105`; `generatedLabels` is only used for the symbol file. -/
structure SymTab where
  symbols : SymbolKey → Option SymbolInfo := fun _ => none
  labels : List Label := []
  equationsCount : Nat := 0
  uniqueCount : Nat := 0

namespace SymTab

/-- `SymbolTable.cpp:39-45` `clear`. -/
def clear (_ : SymTab) : SymTab := {}

/-- `SymbolTable.cpp:10` `validSymbolCharacters`. -/
def validSymbolCharacters : Str := lit "ABCDEFGHIJKLMNOPQRSTUVWXYZabcdefghijklmnopqrstuvwxyz0123456789_."

/-- `strchr(validSymbolCharacters, c) != nullptr`: `strchr` also finds the terminating zero. -/
def isSymbolChar (c : Byte) : Bool := validSymbolCharacters.contains c || c == 0#8

/-- `SymbolTable.cpp:109-137` `isValidSymbolName`. `string[start]` at the end of the string is the terminating zero. -/
def isValidSymbolName (s : Str) : Bool :=
  if s.isEmpty || s == lit "@" || s == lit "@@" then false
  else
    let start := if s.head? == some (chr '@') then (if s.length > 1 && s[1]? == some (chr '@') then 2 else 1) else 0
    let c := (s[start]?).getD 0#8
    if 48 ≤ c.toNat ∧ c.toNat ≤ 57 then false
    else (s.drop start).all isSymbolChar

/-- `SymbolTable.cpp:139-146` `isValidSymbolCharacter`. -/
def isValidSymbolCharacter (c : Byte) (first : Bool) : Bool :=
  let n := c.toNat
  (97 ≤ n && n ≤ 122) || (65 ≤ n && n ≤ 90) || (!first && 48 ≤ n && n ≤ 57) || n == 95 || n == 46 || n == 64

/-- `SymbolTable.cpp:47-63` `setFileSectionValues`. `symbol.string()[0]` of an empty string is the terminating zero. -/
def setFileSectionValues (symbol : Str) (file section_ : Int) : Int × Int :=
  if symbol[0]? = some (chr '@') then
    if symbol[1]? ≠ some (chr '@') then (file, -1) else (-1, section_)
  else (-1, -1)

/-- The key of a symbol: `SymbolTable.cpp:71-72` with the `SymbolKey` constructor `SymbolTable.h:17-23`. -/
def key (symbol : Str) (file section_ : Int) : SymbolKey :=
  let fs := setFileSectionValues symbol file section_
  ⟨symbol.map lower, fs.1, fs.2⟩

def setSymbol (t : SymTab) (k : SymbolKey) (i : SymbolInfo) : SymTab :=
  { t with symbols := fun k' => if k' = k then some i else t.symbols k' }

/-- `SymbolTable.cpp:65-95` `getLabel`: index of the label, `none` for the null pointer. -/
def getLabel (t : SymTab) (symbol : Str) (file section_ : Int) : SymTab × Option Nat :=
  if !isValidSymbolName symbol then (t, none)
  else
    let k := key symbol file section_
    match t.symbols k with
    | none =>
      let s := if k.section_ = section_ then section_ else section_ + 1
      let l : Label := { name := symbol, section_ := s }
      ({ t.setSymbol k (.label t.labels.length) with labels := t.labels ++ [l] }, some t.labels.length)
    | some (.equation _) => (t, none)
    | some (.label i) => (t, some i)

/-- `SymbolTable.cpp:97-107` `symbolExists`. -/
def symbolExists (t : SymTab) (symbol : Str) (file section_ : Int) : Bool :=
  isValidSymbolName symbol && (t.symbols (key symbol file section_)).isSome

/-- `SymbolTable.cpp:148-164` `addEquation`. -/
def addEquation (t : SymTab) (name : Str) (file section_ : Int) (ref : Nat) : SymTab × Bool :=
  if !isValidSymbolName name then (t, false)
  else if t.symbolExists name file section_ then (t, false)
  else ({ t.setSymbol (key name file section_) (.equation ref) with equationsCount := t.equationsCount + 1 }, true)

/-- `SymbolTable.cpp:166-177` `findEquation`. -/
def findEquation (t : SymTab) (name : Str) (file section_ : Int) : Option Nat :=
  match t.symbols (key name file section_) with
  | some (.equation i) => some i
  | _ => none

/-- `SymbolTable.cpp:180-188` `getUniqueLabelName`. -/
def getUniqueLabelName (t : SymTab) (local_ : Bool) : SymTab × Str :=
  let name := lit "__armips_label_" ++ fmt08x t.uniqueCount ++ lit "__"
  ({ t with uniqueCount := t.uniqueCount + 1 }, if local_ then lit "@@" ++ name else name)

/-- `SymbolTable.h:78` `isLocalSymbol`. -/
def isLocalSymbol (s : Str) : Bool := s[0]? == some (chr '@') && s[1]? == some (chr '@')

/-- Update of a label through its pointer. -/
def modifyLabel (t : SymTab) (i : Nat) (f : Label → Label) : SymTab := { t with labels := t.labels.modify i f }

/-- `SymbolTable.cpp:190-207` `addLabels`, threading `Global.Section`. -/
def addLabels (t : SymTab) (file section_ : Int) : List (Str × Int) → SymTab × Int
  | [] => (t, section_)
  | (name, value) :: rest =>
    match t.getLabel name file section_ with
    | (t, none) => t.addLabels file section_ rest
    | (t, some i) =>
      let section' := if isLocalSymbol name then section_ else section_ + 1
      (t.modifyLabel i fun l => { l with defined := true, value := value }).addLabels file section' rest

/-- `SymbolTable.cpp:214-222` the loop of `findSection`: (smallestBefore, smallestDiff). -/
def findSectionStep (address : Int) (acc : Int × Int) (l : Label) : Int × Int :=
  let diff := address - l.value
  if diff ≥ 0 ∧ diff < acc.2 then (l.section_, diff) else acc

/-- `SymbolTable.cpp:209-225` `findSection`. -/
def findSection (t : SymTab) (address : Int) : Int :=
  (t.labels.foldl (findSectionStep address) (-1, 0x7FFFFFFF)).1

/-- Calls made on a symbol table between two `clear`s. -/
inductive Op
  | getLabel (name : Str) (file section_ : Int)
  | addEquation (name : Str) (file section_ : Int) (ref : Nat)
  | getUniqueLabelName (local_ : Bool)
  | modifyLabel (i : Nat) (value : Int) (physical : Option Int) (defined : Bool)
  | addLabels (file section_ : Int) (defs : List (Str × Int))
  deriving DecidableEq, Repr

/-- Execution of one call. `modifyLabel` stands for the setters of `Label`. -/
def step (t : SymTab) : Op → SymTab
  | .getLabel n f s => (t.getLabel n f s).1
  | .addEquation n f s r => (t.addEquation n f s r).1
  | .getUniqueLabelName l => (t.getUniqueLabelName l).1
  | .modifyLabel i v p d => t.modifyLabel i fun l => { l with value := v, physicalValue := p, defined := d }
  | .addLabels f s defs => (t.addLabels f s defs).1

def run (t : SymTab) (ops : List Op) : SymTab := ops.foldl step t

end SymTab
end Armips
