import Verif.Model.ArmParse
import Verif.Spec.ArmOperands
/-!
# Mnemonics and register lists of ARM

The condition table is that of the architecture manual (section "The condition field"), with the synonyms `hs` and `lo`.
-/
namespace Armips.Spec.Arm
open ArmParse (Tok Vars)

/-- Condition suffixes and their numbers. -/
def conditions : List (String × Nat) := [
  ("eq", 0), ("ne", 1), ("cs", 2), ("hs", 2), ("cc", 3), ("lo", 3), ("mi", 4), ("pl", 5), ("vs", 6), ("vc", 7),
  ("hi", 8), ("ls", 9), ("ge", 10), ("lt", 11), ("gt", 12), ("le", 13), ("al", 14)]

/-- Addressing modes of block transfers. -/
def modes : List (String × Mode) := [
  ("ib", .ib), ("ia", .ia), ("db", .db), ("da", .da), ("ed", .ed), ("fd", .fd), ("ea", .ea), ("fa", .fa)]

/-- How a mnemonic follows a pattern of the opcode table, and which settings it makes: `C` stands for a condition or nothing (always), `S` for an
optional `s`, `A` for an addressing mode, `X` and `Y` for `t` or `b`; everything else stands for itself. -/
inductive Reads : List Char → List Char → Vars → Vars → Prop
  | done (v) : Reads [] [] v v
  | cond {e n v v'} (suffix : String) (k : Nat) : (suffix, k) ∈ conditions → Reads e n { v with c := k } v' → Reads ('C' :: e) (suffix.toList ++ n) v v'
  | always {e n v v'} : Reads e n { v with c := 14 } v' → Reads ('C' :: e) n v v'
  | flags {e n v v'} : Reads e n { v with s := true } v' → Reads ('S' :: e) ('s' :: n) v v'
  | noFlags {e n v v'} : Reads e n { v with s := false } v' → Reads ('S' :: e) n v v'
  | mode {e n v v'} (suffix : String) (k : Nat) : k < 8 → (suffix, modeOf k) ∈ modes → Reads e n { v with a := k } v' →
      Reads ('A' :: e) (suffix.toList ++ n) v v'
  | top {e n v v'} : Reads e n { v with x := true } v' → Reads ('X' :: e) ('t' :: n) v v'
  | bottom {e n v v'} : Reads e n { v with x := false } v' → Reads ('X' :: e) ('b' :: n) v v'
  | top' {e n v v'} : Reads e n { v with y := true } v' → Reads ('Y' :: e) ('t' :: n) v v'
  | bottom' {e n v v'} : Reads e n { v with y := false } v' → Reads ('Y' :: e) ('b' :: n) v v'
  | itself {e n v v'} (ch : Char) : ch ∉ ['C', 'S', 'A', 'X', 'Y'] → Reads e n v v' → Reads (ch :: e) (ch :: n) v v'

/-! ### Register lists -/

/-- Names of the registers. -/
def registerName (s : String) (n : Nat) : Prop :=
  (n < 16 ∧ s = "r" ++ toString n) ∨ (s = "sp" ∧ n = 13) ∨ (s = "lr" ∧ n = 14) ∨ (s = "pc" ∧ n = 15)

/-- An item of a list: a register or a range of registers. -/
inductive Item
  | one (name : String) (n : Nat)
  | range (name name' : String) (a b : Nat)

/-- The names are registers, ranges do not go down. -/
def Item.Ok : Item → Prop
  | .one s n => registerName s n
  | .range s t a b => registerName s a ∧ registerName t b ∧ a ≤ b

/-- The registers it stands for. -/
def Item.Has (r : Nat) : Item → Prop
  | .one _ n => r = n
  | .range _ _ a b => a ≤ r ∧ r ≤ b

/-- How it is written. -/
def Item.tokens : Item → List Tok
  | .one s _ => [.ident s]
  | .range s t _ _ => [.ident s, .minus, .ident t]

/-- How a list is written. -/
def listTokens : List Item → List Tok
  | [] => []
  | [i] => i.tokens
  | i :: is => i.tokens ++ .comma :: listTokens is

/-- What follows does not belong to the list. -/
def Ends (ts : List Tok) : Prop := ts.head? ≠ some .comma ∧ ts.head? ≠ some .minus

end Armips.Spec.Arm
