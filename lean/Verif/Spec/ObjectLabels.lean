import Verif.Model.ObjectLabels
import Verif.Spec.Symbols
/-!
# The labels of imported object files: what the statements need

`find L n f s` is what a use of the name `n` in file `f` and section `s` gets: value, whether it is data, info.
-/
namespace Armips.Spec.ObjLabels
open Armips.ObjLabels Armips.Elf Armips.Spec.Sym

/-- The symbols of some files. -/
def symbolsOf (objs : List Obj) : List Symb := (objs.map (·.symbols)).flatten

/-- What a label that stands for a symbol says, at an address: the address, whether it is data (ELF symbol type 1), and the mark of the
architecture (Thumb or not). -/
def says (M : Machine) (s : Symb) (a : Int) : Ext := ⟨a, s.type == 1, (M.symbol s.value s.type).2⟩

/-- The name is used for an exported symbol. -/
def Taken (objs : List Obj) (n : Str) (f c : Int) : Prop := ∃ s ∈ symbolsOf objs, SameSymbol s.name (-1) (-1) n f c

/-- The names can be defined: valid, different from each other even ignoring upper and lower case, no equations, and not defined yet. -/
structure Free (L : Labels) (l : List Symb) : Prop where
  valid : ∀ s ∈ l, ValidName s.name
  distinct : l.Pairwise fun a b => ¬ SameText a.name b.name
  noEqu : ∀ s ∈ l, L.tab.findEquation s.name (-1) (-1) = none
  undefined : ∀ s ∈ l, find L s.name (-1) (-1) = none

/-- The rest of the assembler does not set the labels of the import. `addLabels` (labels from the command line) comes before the import. -/
def Foreign (ptrs : List Nat) : Event → Prop
  | .pass _ => True
  | .other (.modifyLabel i _ _ _) => i ∉ ptrs
  | .other (.addLabels _ _ _) => False
  | .other _ => True

/-- The pointers to the labels of an import. -/
def pointers (objs : List (Obj × List (Option Nat))) : List Nat := (objs.map fun p => p.2.filterMap id).flatten

/-- There is a pass among the events. -/
def HasPass (l : List Event) : Prop := ∃ a, Event.pass a ∈ l

end Armips.Spec.ObjLabels
