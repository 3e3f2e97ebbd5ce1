import Verif.Model.SymbolTable
import Verif.Model.Object
/-!
# The labels of imported object files

Models `Core/ELF/ElfRelocator.cpp:223-270` (`exportSymbols`), the use of labels in `372-392`, their update in `438-466`, the change
detection of `471-492` (`relocate`), and `Commands/CDirectiveFile.cpp:514-545` (`DirectiveObjImport`).

* Simplified: whether the data changed is decided on the data itself, not on its checksum.
* Simplified: looking up the label of an undefined symbol does not create an undefined label.
* Not modelled: constructor stubs and the labels of their sections.
-/
namespace Armips.ObjLabels
open Armips.Elf (Machine Section Sym Ext Imported relocateFile)

/-- The symbol table, and for each label `isData` and the info (`SymbolTable.h:33-66`). -/
structure Labels where
  tab : SymTab
  hint : Nat → Bool × Int

/-- `ElfRelocatorSymbol` (`ElfRelocator.h:62-71`) as `init` leaves it. -/
structure Symb where
  name : Str
  value : Nat
  size : Nat
  type : Nat
  shndx : Nat
  deriving DecidableEq

/-- `ElfRelocatorFile` as `init` leaves it. -/
structure Obj where
  endian : Endianness
  sections : List Section
  syms : Nat → Sym
  symbols : List Symb

/-- `ElfRelocator.cpp:255-259` the address that is kept of a symbol. -/
def prepare (M : Machine) (s : Symb) : Sym :=
  ⟨some (Spec.Obj.label s.name), (M.symbol s.value s.type).1.toNat, s.size, s.type, s.shndx⟩

/-- The file as `relocateFile` sees it. -/
def Obj.file (M : Machine) (o : Obj) : Elf.File := ⟨o.endian, o.sections, o.syms, o.symbols.map (prepare M)⟩

/-- What the label behind a pointer says, if it is defined. -/
def look (L : Labels) (i : Nat) : Option Ext :=
  match L.tab.labels[i]? with
  | none => none
  | some l => if l.defined then some ⟨l.value, (L.hint i).1, (L.hint i).2⟩ else none

/-- The label that a name denotes in a file and a section, if it is defined. -/
def find (L : Labels) (n : Str) (file section_ : Int) : Option Ext :=
  match (L.tab.getLabel n file section_).2 with
  | none => none
  | some i => look L i

/-- `ElfRelocator.cpp:372-392` the label an object file refers to. -/
def ext (L : Labels) (n : String) : Option Ext := find L (lit n) (-1) (-1)

/-- `ElfRelocator.cpp:231-265` one symbol: the labels, the pointer that is kept and whether there was no error. -/
def exportSymbol (M : Machine) (L : Labels) (s : Symb) : Labels × Option Nat × Bool :=
  match L.tab.getLabel (s.name.map lower) (-1) (-1) with
  | (t, none) => ({ L with tab := t }, none, false)
  | (t, some i) =>
    if ((t.labels[i]?).map (·.defined)).getD false then ({ L with tab := t }, some i, false)
    else
      (⟨t.modifyLabel i fun l => { l with value := 0, defined := true },
        fun k => if k = i then (s.type == Elf.sttObject, (M.symbol s.value s.type).2) else L.hint k⟩, some i, true)

/-- The symbols of a file. -/
def exportSymbols (M : Machine) (L : Labels) : List Symb → Labels × List (Option Nat) × Bool
  | [] => (L, [], true)
  | s :: l =>
    let (L, p, ok) := exportSymbol M L s
    let (L, ps, ok') := exportSymbols M L l
    (L, p :: ps, ok && ok')

/-- `ElfRelocator.cpp:223-270` `exportSymbols`: each file with the pointers of its symbols. -/
def exportFiles (M : Machine) (L : Labels) : List Obj → Labels × List (Obj × List (Option Nat)) × Bool
  | [] => (L, [], true)
  | o :: l =>
    let (L, ps, ok) := exportSymbols M L o.symbols
    let (L, r, ok') := exportFiles M L l
    (L, (o, ps) :: r, ok && ok')

/-- `ElfRelocator.cpp:461-462` the new values of the labels. -/
def setValues (L : Labels) : List (Option Nat) → List Int → Labels
  | some i :: ps, v :: vs => setValues { L with tab := L.tab.modifyLabel i fun l => { l with value := v } } ps vs
  | none :: ps, _ :: vs => setValues L ps vs
  | _, _ => L

/-- `ElfRelocator.cpp:479-483` the loop over the files. Each file sees the labels that the files before it have set. -/
def passFiles (M : Machine) : Labels → Int → M.State → List (Obj × List (Option Nat)) →
    Option (Labels × List Byte × List (Imported M.State))
  | L, _, _, [] => some (L, [], [])
  | L, a, q, (o, ps) :: l => do
    let x ← relocateFile M (ext L) a (o.file M) q
    let (L, out, r) ← passFiles M (setValues L ps x.symbols) x.stop x.result.state l
    some (L, x.out ++ out, x :: r)

/-- What the relocator remembers from one pass to the next: `relocatedAddress` of each symbol and `outputData`. In the beginning the
addresses are not initialised (`ElfRelocator.h:62-71`). -/
structure Memory where
  addresses : List (List Int)
  data : List Byte
  deriving DecidableEq

/-- `ElfRelocator.cpp:471-492` `relocate` with `464-465`: the labels, what is remembered, and whether something changed. Nothing is
pending in the relocator between two passes. -/
def pass (M : Machine) (objs : List (Obj × List (Option Nat))) (start : Int) (L : Labels) (R : Memory) : Option (Labels × Memory × Bool) := do
  let (L, out, r) ← passFiles M L start M.init objs
  let adr := r.map (·.symbols)
  some (L, ⟨adr, out⟩, decide (adr ≠ R.addresses ∨ out ≠ R.data))

/-- What happens after the import directive has been read: passes over the import, and calls of the symbol table by the rest of the
assembler. -/
inductive Event
  | pass (start : Int)
  | other (op : SymTab.Op)

/-- The effect of an event. -/
def event (M : Machine) (objs : List (Obj × List (Option Nat))) (x : Labels × Memory) : Event → Option (Labels × Memory)
  | .pass start => do
    let (L, R, _) ← pass M objs start x.1 x.2
    some (L, R)
  | .other op => some ({ x.1 with tab := x.1.tab.step op }, x.2)

/-- The effect of some events. -/
def events (M : Machine) (objs : List (Obj × List (Option Nat))) (x : Labels × Memory) : List Event → Option (Labels × Memory)
  | [] => some x
  | e :: l => do
    let y ← event M objs x e
    events M objs y l

/-! ### From the file -/

/-- `ElfRelocator.cpp:195-213` one exported symbol. -/
def rawSymbol (f : ElfFile.File) (i : Nat) : Option (Option Symb) := do
  let y ← ElfFile.getSymbol f i
  if (y.info >>> 4 = 1#8 ∨ y.info >>> 4 = 2#8) ∧ y.shndx ≠ 0#16 then do
    let name ← ElfFile.strTableString f y.name.toNat
    some (some ⟨name, y.value.toNat, y.size.toNat, (y.info &&& 0xF#8).toNat, y.shndx.toNat⟩)
  else some none

/-- The loop over the symbols. -/
def rawSymbols (f : ElfFile.File) : Nat → Option (List Symb)
  | 0 => some []
  | n + 1 => do
    let l ← rawSymbols f n
    let x ← rawSymbol f n
    some (l ++ x.toList)

end Armips.ObjLabels
