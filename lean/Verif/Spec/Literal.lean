/-!
# Integer literal grammar

The literals documented for armips: decimal, `0x..`/`..h`, `0o..`/`..o`, `0b..`/`..b`, case-insensitive.
-/
namespace Armips.Spec

/-- Value of an alphanumeric digit. -/
def digitValue (c : Char) : Option Nat :=
  if '0' ≤ c ∧ c ≤ '9' then some (c.toNat - '0'.toNat)
  else if 'a' ≤ c ∧ c ≤ 'z' then some (c.toNat - 'a'.toNat + 10)
  else if 'A' ≤ c ∧ c ≤ 'Z' then some (c.toNat - 'A'.toNat + 10)
  else none

/-- The digits of `ds` are all valid in base `b`, and denote `n` (positional notation, most significant first). -/
inductive Digits (b : Nat) : List Char → Nat → Prop
  | nil : Digits b [] 0
  | snoc {ds n c d} : Digits b ds n → digitValue c = some d → d < b → Digits b (ds ++ [c]) (n * b + d)

/-- How a token is read: a base and the digits that remain after removing the prefix or suffix. -/
inductive Reading : List Char → Nat → List Char → Prop
  | hexPrefix {x ds} : x = 'x' ∨ x = 'X' → Reading ('0' :: x :: ds) 16 ds
  | octPrefix {x ds} : x = 'o' ∨ x = 'O' → Reading ('0' :: x :: ds) 8 ds
  /-- `0b..` is binary unless the token ends in `h`, which makes it hexadecimal (`0b1h` is 0xB1). -/
  | binPrefix {x ds} : x = 'b' ∨ x = 'B' → (∀ c, (x :: ds).getLast? = some c → c ≠ 'h' ∧ c ≠ 'H') →
      Reading ('0' :: x :: ds) 2 ds
  | hexSuffix {ds x} : x = 'h' ∨ x = 'H' →
      (∀ p rest, ds ++ [x] = '0' :: p :: rest → p ≠ 'x' ∧ p ≠ 'X' ∧ p ≠ 'o' ∧ p ≠ 'O') → Reading (ds ++ [x]) 16 ds
  | octSuffix {ds x} : x = 'o' ∨ x = 'O' →
      (∀ p rest, ds ++ [x] = '0' :: p :: rest → p ≠ 'x' ∧ p ≠ 'X' ∧ p ≠ 'o' ∧ p ≠ 'O' ∧ p ≠ 'b' ∧ p ≠ 'B') →
      Reading (ds ++ [x]) 8 ds
  | binSuffix {ds x} : x = 'b' ∨ x = 'B' →
      (∀ p rest, ds ++ [x] = '0' :: p :: rest → p ≠ 'x' ∧ p ≠ 'X' ∧ p ≠ 'o' ∧ p ≠ 'O' ∧ p ≠ 'b' ∧ p ≠ 'B') →
      Reading (ds ++ [x]) 2 ds
  | decimal {ds} : ds ≠ [] → (∀ x, ds.getLast? = some x → x ≠ 'h' ∧ x ≠ 'H' ∧ x ≠ 'o' ∧ x ≠ 'O' ∧ x ≠ 'b' ∧ x ≠ 'B') →
      (∀ p rest, ds = '0' :: p :: rest → p ≠ 'x' ∧ p ≠ 'X' ∧ p ≠ 'o' ∧ p ≠ 'O' ∧ p ≠ 'b' ∧ p ≠ 'B') → Reading ds 10 ds

/-- A token denotes `n`. -/
def Denotes (tok : List Char) (n : Nat) : Prop := ∃ b ds, Reading tok b ds ∧ Digits b ds n

end Armips.Spec
