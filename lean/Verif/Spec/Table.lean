import Verif.Spec.Bytes
/-!
# Longest-match text encoding

A table is a list of (text, bytes) definitions, later ones overriding earlier ones for the same text.
-/
namespace Armips.Spec
open Armips

abbrev TextTable := List (List Byte × List Byte)

/-- The bytes currently defined for a text: those of its last definition. -/
def TextTable.defined (t : TextTable) (k : List Byte) : Option (List Byte) :=
  ((t.filter fun e => e.1 = k).getLast?).map (·.2)

/-- `k` is the longest defined text that `s` begins with, and `b` its bytes. -/
def LongestMatch (t : TextTable) (s k b : List Byte) : Prop :=
  t.defined k = some b ∧ k <+: s ∧ ∀ k' b', t.defined k' = some b' → k' <+: s → k'.length ≤ k.length

/-- Left-to-right longest-match encoding; `none` means that at some point no defined text matches. -/
inductive Greedy (t : TextTable) : List Byte → Option (List Byte) → Prop
  | nil : Greedy t [] (some [])
  | step {s k b o} : s ≠ [] → LongestMatch t s k b → Greedy t (s.drop k.length) o → Greedy t s (o.map (b ++ ·))
  | fail {s} : s ≠ [] → (∀ k b, t.defined k = some b → ¬ k <+: s) → Greedy t s none

end Armips.Spec
