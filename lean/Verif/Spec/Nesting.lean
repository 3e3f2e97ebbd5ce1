import Verif.Model.Nesting
/-!
# Specification of conditional assembly
-/
namespace Armips.Spec.Nesting
open Armips.Nesting

/-- The commands that a source stands for, in order, when `ρ` gives the values of the conditions that are not known beforehand: of each
conditional the part that its condition selects; for a macro call or an include the commands of what is called. -/
inductive Means (W : Nat → Prog) (ρ : Nat → Bool) : Prog → List Nat → Prop
  | nil : Means W ρ .nil []
  | cmd {c rest cs} : Means W ρ rest cs → Means W ρ (.cmd c rest) (c :: cs)
  | known_then {t e rest cs ds} : Means W ρ t cs → Means W ρ rest ds → Means W ρ (.known true t e rest) (cs ++ ds)
  | known_else {t e rest cs ds} : Means W ρ e cs → Means W ρ rest ds → Means W ρ (.known false t e rest) (cs ++ ds)
  | unknown_then {i t e rest cs ds} : ρ i = true → Means W ρ t cs → Means W ρ rest ds → Means W ρ (.unknown i t e rest) (cs ++ ds)
  | unknown_else {i t e rest cs ds} : ρ i = false → Means W ρ e cs → Means W ρ rest ds → Means W ρ (.unknown i t e rest) (cs ++ ds)
  | block {k b rest cs ds} : Means W ρ b cs → Means W ρ rest ds → Means W ρ (.block k b rest) (cs ++ ds)
  | call {s rest cs ds} : Means W ρ (W s) cs → Means W ρ rest ds → Means W ρ (.call s rest) (cs ++ ds)
  | incl {s rest cs ds} : Means W ρ (W s) cs → Means W ρ rest ds → Means W ρ (.incl s rest) (cs ++ ds)

/-- The commands that are carried out. -/
def run (ρ : Nat → Bool) : Out → List Nat
  | .nil => []
  | .cmd c rest => c :: run ρ rest
  | .cond i t e rest => (if ρ i then run ρ t else run ρ e) ++ run ρ rest
  | .block _ b rest => run ρ b ++ run ρ rest
  | .group b rest => run ρ b ++ run ρ rest
  | .source b rest => run ρ b ++ run ρ rest

/-- How deep files and macros are nested in the commands. -/
def sources : Out → Nat
  | .nil => 0
  | .cmd _ rest => sources rest
  | .cond _ t e rest => max (max (sources t) (sources e)) (sources rest)
  | .block _ b rest => max (sources b) (sources rest)
  | .group b rest => max (sources b) (sources rest)
  | .source b rest => max (sources b + 1) (sources rest)

/-- How deep blocks and conditionals are nested. -/
def blocks : Out → Nat
  | .nil => 0
  | .cmd _ rest => blocks rest
  | .cond _ t e rest => max (max (blocks t) (blocks e) + 1) (blocks rest)
  | .block _ b rest => max (blocks b + 1) (blocks rest)
  | .group b rest => max (blocks b) (blocks rest)
  | .source b rest => max (blocks b) (blocks rest)

/-- `Enters tr un p s tr' un'`: while `p` is parsed, the source `s` is entered. An include is entered unless it is inside a false conditional;
a macro call also there, if a conditional around it is not known beforehand. `tr`, `un`: no conditional around is false, one is not known. -/
inductive Enters : Bool → Bool → Prog → Nat → Bool → Bool → Prop
  | cmd {tr un c rest s a b} : Enters tr un rest s a b → Enters tr un (.cmd c rest) s a b
  | known_then {tr un v t e rest s a b} : Enters (tr && v) un t s a b → Enters tr un (.known v t e rest) s a b
  | known_else {tr un v t e rest s a b} : Enters (tr && !v) un e s a b → Enters tr un (.known v t e rest) s a b
  | known_rest {tr un v t e rest s a b} : Enters tr un rest s a b → Enters tr un (.known v t e rest) s a b
  | unknown_then {tr un i t e rest s a b} : Enters tr true t s a b → Enters tr un (.unknown i t e rest) s a b
  | unknown_else {tr un i t e rest s a b} : Enters tr true e s a b → Enters tr un (.unknown i t e rest) s a b
  | unknown_rest {tr un i t e rest s a b} : Enters tr un rest s a b → Enters tr un (.unknown i t e rest) s a b
  | block {tr un k p rest s a b} : Enters tr un p s a b → Enters tr un (.block k p rest) s a b
  | block_rest {tr un k p rest s a b} : Enters tr un rest s a b → Enters tr un (.block k p rest) s a b
  | call {tr un s rest} : tr = true ∨ un = true → Enters tr un (.call s rest) s tr un
  | call_rest {tr un q rest s a b} : Enters tr un rest s a b → Enters tr un (.call q rest) s a b
  | incl {un s rest} : Enters true un (.incl s rest) s true un
  | incl_rest {tr un q rest s a b} : Enters tr un rest s a b → Enters tr un (.incl q rest) s a b

/-- From the source `s`, at least `n` further sources are entered, one inside another. -/
inductive Deep (W : Nat → Prog) : Nat → Bool → Bool → Nat → Prop
  | zero {tr un s} : Deep W 0 tr un s
  | succ {n tr un s s' tr' un'} : Enters tr un (W s) s' tr' un' → Deep W n tr' un' s' → Deep W (n + 1) tr un s

end Armips.Spec.Nesting
