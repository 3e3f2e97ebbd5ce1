import Verif.Model.ExprParse
import Verif.Spec.Symbols
/-!
# Specification of text replacement
-/
namespace Armips.Spec.Expand
open ExprParse (Tok)

/-- `ts'` is `ts` with every name that has a value replaced by the value, again and again until none is left. -/
inductive Expansion (value : Str → Option (List Tok)) : List Tok → List Tok → Prop
  | nil : Expansion value [] []
  | keep {t ts ts'} : (∀ n, t = .ident n → value n = none) → Expansion value ts ts' → Expansion value (t :: ts) (t :: ts')
  | subst {n v v' ts ts'} : value n = some v → Expansion value v v' → Expansion value ts ts' → Expansion value (.ident n :: ts) (v' ++ ts')

/-- A definition `name equ value` in a file and a section. -/
structure Def where
  name : Str
  file : Int
  section_ : Int
  value : List Tok

/-- A name without capital letters, as every name in a source file is read. -/
def Small (n : Str) : Prop := ∀ b ∈ n, ¬(65 ≤ b.toNat ∧ b.toNat ≤ 90)

/-- Tokens whose names have no capital letters. -/
def SmallToks (ts : List Tok) : Prop := ∀ n, .ident n ∈ ts → Small n

/-- What the definitions say about a name. -/
def meaning (ds : List Def) (n : Str) : Option (List Tok) := (ds.find? fun d => d.name = n).map Def.value

/-- The part of a line that belongs to the value of an equ: all up to a separator. -/
def upToSeparator (ts : List Tok) : List Tok := ts.takeWhile fun t => decide (t ≠ .separator)

/-- A token of the content of a macro, with the arguments of a call put in for the parameters. -/
def putIn (args : List (Str × List Tok)) : Tok → List Tok
  | .ident n => (args.lookup n).getD [.ident n]
  | t => [t]

end Armips.Spec.Expand
