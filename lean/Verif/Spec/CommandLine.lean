import Verif.Spec.Literal
import Verif.Spec.Symbols
import Verif.Model.CommandLine
/-!
# How a command line is written, and what it means

Taken from the model: the record of the settings and the functions of the file system.
-/
namespace Armips.Spec.CommandLine

/-- One thing said on the command line. -/
inductive Item
  | temp (file : List Char)
  | sym (file : List Char)
  | sym2 (file : List Char)
  | errorOnWarning
  | stat
  | time
  | root (dir : List Char)
  | equ (name value : List Char)
  | strequ (name value : List Char)
  | label (name value : List Char)
  | file (name : List Char)
  deriving DecidableEq

/-- The arguments that say it. -/
def Item.args : Item → List (List Char)
  | .temp f => ["-temp".toList, f]
  | .sym f => ["-sym".toList, f]
  | .sym2 f => ["-sym2".toList, f]
  | .errorOnWarning => ["-erroronwarning".toList]
  | .stat => ["-stat".toList]
  | .time => ["-time".toList]
  | .root d => ["-root".toList, d]
  | .equ n v => ["-equ".toList, n, v]
  | .strequ n v => ["-strequ".toList, n, v]
  | .label n v => ["-definelabel".toList, n, v]
  | .file f => [f]

/-- The file it names. -/
def Item.fileName : Item → Option (List Char)
  | .file f => some f
  | _ => none

/-- The directory it changes to. -/
def Item.dir : Item → Option (List Char)
  | .root d => some d
  | _ => none

/-- The equation it defines: name and text of the value. -/
def Item.equation : Item → Option (List Char × List Char)
  | .equ n v => some (n, v)
  | .strequ n v => some (n, "\"".toList ++ v ++ "\"".toList)
  | _ => none

/-- The label it defines. -/
def Item.definition : Item → Option (List Char × List Char)
  | .label n v => some (n, v)
  | _ => none

/-- The temporary file it asks for. -/
def Item.tempName : Item → Option (List Char)
  | .temp f => some f
  | _ => none

/-- The symbol file it asks for, with the version. -/
def Item.symName : Item → Option (List Char × Nat)
  | .sym f => some (f, 1)
  | .sym2 f => some (f, 2)
  | _ => none

/-- An item that can be written before `--`: names of files do not begin with `-`. -/
def Item.Plain : Item → Prop
  | .file f => f.head? ≠ some '-'
  | _ => True

/-- The arguments `args` say `items`: one after the other, or with names of files behind `--`. -/
def Says (items : List Item) (args : List (List Char)) : Prop :=
  ((∀ i ∈ items, i.Plain) ∧ args = items.flatMap Item.args) ∨
  ∃ front files, items = front ++ files.map .file ∧ (∀ i ∈ front, i.Plain) ∧ args = front.flatMap Item.args ++ "--".toList :: files

/-- The directory after a list of changes, with `enter` to change it; `none` if one cannot be entered. -/
def walk (enter : δ → List Char → Option δ) (d : δ) (dirs : List (List Char)) : Option δ := dirs.foldlM enter d

/-- The bytes of a text. -/
def asBytes (l : List Char) : Str := l.map fun c => BitVec.ofNat 8 c.toNat

/-- Two lists of the same length that agree one by one. -/
inductive OneByOne (R : α → β → Prop) : List α → List β → Prop
  | nil : OneByOne R [] []
  | cons {a b l m} : R a b → OneByOne R l m → OneByOne R (a :: l) (b :: m)

/-- What a list of items means, `value` telling which texts are numbers: the last of several files for the same purpose counts, equations and labels are
kept in their order, and there is exactly one file to assemble (empty arguments before it do
not count), as it is called in the directory changed to. Names are valid, and none is defined
twice. -/
structure Means (W : Armips.CommandLine.World δ) (dir : δ) (value : List Char → BitVec 64 → Prop) (items : List Item)
    (s : Armips.CommandLine.Settings δ) : Prop where
  input : ∃ empty f, items.filterMap Item.fileName = empty ++ [f] ∧ (∀ e ∈ empty, e = []) ∧ f ≠ [] ∧ s.input = W.absolute s.dir f ∧
    W.exists_ s.dir s.input = true
  dir : walk W.enter dir (items.filterMap Item.dir) = some s.dir
  temp : s.temp = (items.filterMap Item.tempName).getLast?.getD []
  sym : (s.sym, s.symVersion) = (items.filterMap Item.symName).getLast?.getD ([], 0)
  errorOnWarning : s.errorOnWarning = decide (Item.errorOnWarning ∈ items)
  stat : s.showStats = decide (Item.stat ∈ items)
  equs : s.equs = (items.filterMap Item.equation).map fun e => (asBytes e.1, e.2)
  equNames : (s.equs.map (·.1)).Nodup ∧ ∀ e ∈ s.equs, Sym.ValidName e.1
  labels : OneByOne (fun (d : List Char × List Char) (l : Str × BitVec 64) => l.1 = asBytes d.1 ∧ value d.2 l.2)
    (items.filterMap Item.definition) s.labels
  labelNames : (s.labels.map (·.1)).Nodup ∧ ∀ l ∈ s.labels, Sym.ValidName l.1

end Armips.Spec.CommandLine
