import Verif.Spec.Str
/-!
# Specification of symbol names and scopes
-/
namespace Armips.Spec.Sym

/-- The scope of a name is told by its prefix. -/
inductive Kind | global | static_ | local_
  deriving DecidableEq, Repr

def kind : Str → Kind
  | a :: b :: _ => if a = chr '@' then (if b = chr '@' then .local_ else .static_) else .global
  | [a] => if a = chr '@' then .static_ else .global
  | [] => .global

/-- Equal letters up to case. -/
def SameLetter (x y : Byte) : Prop :=
  x = y ∨ (65 ≤ x.toNat ∧ x.toNat ≤ 90 ∧ y.toNat = x.toNat + 32) ∨ (65 ≤ y.toNat ∧ y.toNat ≤ 90 ∧ x.toNat = y.toNat + 32)

/-- Equal names up to case. -/
inductive SameText : Str → Str → Prop
  | nil : SameText [] []
  | cons {x y : Byte} {xs ys : Str} : SameLetter x y → SameText xs ys → SameText (x :: xs) (y :: ys)

/-- Two uses of a name, each in a file and a section, denote the same symbol. -/
def SameSymbol (n₁ : Str) (f₁ s₁ : Int) (n₂ : Str) (f₂ s₂ : Int) : Prop :=
  SameText n₁ n₂ ∧
  match kind n₁ with
  | .global => True
  | .static_ => f₁ = f₂
  | .local_ => s₁ = s₂

def Letter (b : Byte) : Prop := (65 ≤ b.toNat ∧ b.toNat ≤ 90) ∨ (97 ≤ b.toNat ∧ b.toNat ≤ 122)
def Digit (b : Byte) : Prop := 48 ≤ b.toNat ∧ b.toNat ≤ 57
def Extra (b : Byte) : Prop := b = chr '_' ∨ b = chr '.'

/-- A valid name: an optional `@` or `@@`, then a letter, underscore or dot, then letters, digits, underscores, dots. -/
def ValidName (s : Str) : Prop :=
  ∃ (pre : Str) (c : Byte) (rest : Str), (pre = [] ∨ pre = [chr '@'] ∨ pre = [chr '@', chr '@']) ∧
    s = pre ++ c :: rest ∧ (Letter c ∨ Extra c) ∧ ∀ x ∈ rest, Letter x ∨ Digit x ∨ Extra x

/-- A label, as far as section lookup is concerned. -/
structure Mark where
  value : Int
  section_ : Int

/-- `r` is the section of the first label that is closest to `address` from below (less than 2^31-1 away). -/
def SectionOf (marks : List Mark) (address r : Int) : Prop :=
  (∃ (before : List Mark) (m : Mark) (after : List Mark), marks = before ++ m :: after ∧
      m.value ≤ address ∧ address - m.value < 2 ^ 31 - 1 ∧ r = m.section_ ∧
      (∀ x ∈ before, x.value ≤ address → x.value < m.value) ∧
      (∀ x ∈ after, x.value ≤ address → x.value ≤ m.value)) ∨
  ((∀ x ∈ marks, x.value ≤ address → 2 ^ 31 - 1 ≤ address - x.value) ∧ r = -1)

end Armips.Spec.Sym
