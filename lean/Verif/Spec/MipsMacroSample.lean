import Verif.Spec.MipsMacros
import Verif.Spec.MipsSample
/-! Concrete macros, to show that hypotheses of theorems are met. They stand at address 0x8000. -/
namespace Armips.Sample
open Armips.Mips

/-- `hi`, `lo` and `abs` as the assembler registers them. -/
def mfuncs : Funcs := fun n =>
  if n = lit "lo" then some ⟨.builtin .lo, 1, 1, .safe⟩
  else if n = lit "hi" then some ⟨.builtin .hi, 1, 1, .safe⟩
  else if n = lit "abs" then some ⟨.builtin .abs, 1, 1, .safe⟩ else none

def menv : Env := { env with funcs := fun _ => mfuncs }

/-- The made-up labels: `@@@a`, then others. -/
def mlabel (n : Nat) : MacroLabel := ⟨n, lit "__a" ++ List.replicate n (chr 'b'), -1, -1⟩

def mparse (cfg : Config) : ParseEnv := ⟨menv, cfg, mlabel⟩

/-- A file is open, and the names `__a` to `__abb` are known. -/
def mst : St where
  fm := {
    active := some 0
    files := fun _ => { mode := .create, originalHeaderSize := 0, headerSize := 0, virtualAddress := 0x8000, stream := some 0, fileName := "" }
    disk := fun _ => some [] }
  syms := {
    symbols := fun k => if k = SymTab.key (lit "__a") (-1) (-1) then some (.label 0) else none
    labels := List.replicate 4 ⟨lit "__a", 0, none, false, 0⟩ }
  arch := .mips

end Armips.Sample
