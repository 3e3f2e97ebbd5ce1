import Verif.Model.SymFile
/-!
# What belongs in the symbol file

The history of calls determines what was registered: labels, functions and data, each with the module (file) it belongs to.
-/
namespace Armips.Spec.Sym
open SymFile (Op DataType)

/-- What the calls so far mean. -/
structure View where
  /-- Labels and data are recorded. -/
  on : Bool := true
  /-- The current module; `none` is outside of all modules. -/
  cur : Option Nat := none
  labels : List (Option Nat × Int × List Nat) := []
  data : List (Option Nat × Int × Nat × DataType) := []
  /-- Functions that have ended: module, address, size. -/
  closed : List (Option Nat × Int × Nat) := []
  /-- The function that has begun but not ended: module, address. -/
  opened : Option (Option Nat × Int) := none

/-- The open function with its size. -/
def View.close (v : View) (size : Int → Nat) : List (Option Nat × Int × Nat) :=
  match v.opened with
  | some (f, a) => [(f, a, size a)]
  | none => []

/-- All functions; one that has not ended has size 0. -/
def View.functions (v : View) : List (Option Nat × Int × Nat) := v.closed ++ v.close fun _ => 0

/-- The meaning of a call. -/
def View.next (v : View) : Op → View
  | .enable b => { v with on := b }
  | .label a n => if v.on then { v with labels := v.labels ++ [(v.cur, a, n)] } else v
  | .data a s t => if v.on then { v with data := v.data ++ [(v.cur, a, s, t)] } else v
  | .startModule f => { v with cur := some f }
  | .endModule f => if v.cur = some f then { v with cur := none, closed := v.closed ++ v.close fun _ => 0, opened := none } else v
  | .startFunction a => { v with closed := v.closed ++ v.close fun b => ((a - b) % 2 ^ 64).toNat, opened := some (v.cur, a) }
  | .endFunction a => { v with closed := v.closed ++ v.close fun b => ((a - b) % 2 ^ 64).toNat, opened := none }

/-- The meaning of all calls. -/
def view (ops : List Op) : View := ops.foldl View.next {}

/-- No module is opened inside of a function. -/
def Calm (ops : List Op) : Prop := ∀ a f b, ops = a ++ .startModule f :: b → (view a).opened = none

/-- A line of the file comes before another: lower address, or same address and lower text. -/
def Before (x y : Int × List Nat) : Prop := x.1 < y.1 ∨ (x.1 = y.1 ∧ x.2 ≤ y.2)

/-- The size noted at a label: the one of the first function of the module that begins there. -/
def View.sizeAt (v : View) (module : Option Nat) (a : Int) : Nat :=
  match v.functions.find? fun f => f.1 = module ∧ f.2.1 = a with
  | some f => f.2.2
  | none => 0

/-- A letter in lower case. -/
def lower (c : Nat) : Nat := if 65 ≤ c ∧ c ≤ 90 then c + 32 else c

/-- What the file says about a label; `num w n` is the number `n` with at least `w` digits. -/
def View.labelText (v : View) (num : Nat → Nat → List Nat) (version : Nat) (l : Option Nat × Int × List Nat) : List Nat :=
  if version = 1 then l.2.2.map lower
  else if version = 0 ∨ v.sizeAt l.1 l.2.1 = 0 then l.2.2
  else l.2.2 ++ [44] ++ num 8 (v.sizeAt l.1 l.2.1)

/-- What the file says about data: `.byt:`, `.wrd:`, `.dbl:` or `.asc:`, and the size. -/
def dataText (num : Nat → Nat → List Nat) (d : Nat × DataType) : List Nat :=
  (match d.2 with
    | .data8 => ".byt:" | .data16 => ".wrd:" | .data32 => ".dbl:" | .data64 => ".dbl:" | .ascii => ".asc:").toList.map Char.toNat ++ num 4 d.1

/-- `num` writes numbers below 2^64: upper case hexadecimal digits with the right value, `w` of them if that is enough, else without leading zeros. -/
def IsNum (num : Nat → Nat → List Nat) (hexValue : List Nat → Nat) : Prop := ∀ w n, w ≤ 16 → n < 2 ^ 64 →
  hexValue (num w n) = n ∧ w ≤ (num w n).length ∧ (∀ c ∈ num w n, (48 ≤ c ∧ c ≤ 57) ∨ (65 ≤ c ∧ c ≤ 70)) ∧
  (w < (num w n).length → (num w n)[0]? ≠ some 48)

/-- Value of a text of hexadecimal digits. -/
def hexValue (ds : List Nat) : Nat := ds.foldl (fun v d => 16 * v + (if d < 58 then d - 48 else d - 55)) 0

end Armips.Spec.Sym
