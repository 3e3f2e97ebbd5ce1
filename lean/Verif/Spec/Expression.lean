import Verif.Model.Expression
import Verif.Spec.Bit
/-!
# What the operators of the expression language mean on 64-bit integers, and when folding is allowed
-/
namespace Armips

/-- `r` is the result of `a op b` and `w` the warning given, for the operators on integers. -/
def Spec.IntResult (op : BinOp) (a b r : Int) (w : Option String) : Prop :=
  match op with
  | .add => r = a + b ∧ w = none
  | .sub => r = a - b ∧ w = none
  | .mult => r = a * b ∧ w = none
  | .div =>
    if b = 0 then r = -1 ∧ w = some "Integer division by zero in expression"
    else if a = -(2 ^ 63) ∧ b = -1 then r = -(2 ^ 63) ∧ w = some "Division overflow in expression"
    else w = none ∧ ∃ rest, a = b * r + rest ∧ -(b.natAbs : Int) < rest ∧ rest < b.natAbs ∧ (0 ≤ a → 0 ≤ rest) ∧ (a ≤ 0 → rest ≤ 0)
  | .mod =>
    if b = 0 then r = a ∧ w = some "Integer division by zero in expression"
    else if a = -(2 ^ 63) ∧ b = -1 then r = 0 ∧ w = some "Division overflow in expression"
    else w = none ∧ ∃ q, a = b * q + r ∧ -(b.natAbs : Int) < r ∧ r < b.natAbs ∧ (0 ≤ a → 0 ≤ r) ∧ (a ≤ 0 → r ≤ 0)
  | .leftShift => (∃ k, r = a * 2 ^ b.toNat + k * 2 ^ 64) ∧ w = none
  | .rightShift => (∃ k, r = (a % 2 ^ 64) / 2 ^ b.toNat + k * 2 ^ 64) ∧ w = none
  | .less => r = (if a < b then 1 else 0) ∧ w = none
  | .greater => r = (if a > b then 1 else 0) ∧ w = none
  | .lessEqual => r = (if a ≤ b then 1 else 0) ∧ w = none
  | .greaterEqual => r = (if a ≥ b then 1 else 0) ∧ w = none
  | .equal => r = (if a = b then 1 else 0) ∧ w = none
  | .notEqual => r = (if a ≠ b then 1 else 0) ∧ w = none
  | .bitAnd => (∀ i < 64, Spec.bit r i = (Spec.bit a i && Spec.bit b i)) ∧ w = none
  | .bitOr => (∀ i < 64, Spec.bit r i = (Spec.bit a i || Spec.bit b i)) ∧ w = none
  | .xor => (∀ i < 64, Spec.bit r i = (Spec.bit a i ^^ Spec.bit b i)) ∧ w = none
  | .logAnd => r = (if a ≠ 0 ∧ b ≠ 0 then 1 else 0) ∧ w = none
  | .logOr => r = (if a ≠ 0 ∨ b ≠ 0 then 1 else 0) ∧ w = none

/-- C++ leaves the operation undefined outside of this range. -/
def Spec.InRange (op : BinOp) (a b : Int) : Prop :=
  match op with
  | .add => InI64 (a + b)
  | .sub => InI64 (a - b)
  | .mult => InI64 (a * b)
  | .leftShift | .rightShift => 0 ≤ b ∧ b < 64
  | _ => True

mutual
/-- The names of the functions an expression calls. -/
def Expr.calls : Expr → List Str
  | .un _ a => a.calls
  | .bin _ a b => a.calls ++ b.calls
  | .cond a b d => a.calls ++ b.calls ++ d.calls
  | .toString_ a => a.calls
  | .call n args => n :: args.calls
  | _ => []
def Args.calls : Args → List Str
  | .nil => []
  | .cons e r => e.calls ++ r.calls
end

/-- What folding may rely on: files do not appear or vanish, they keep their contents (only needed outside of
conditional blocks), and the ARM/THUMB mode is the same. -/
structure Stable (inBlock : Bool) (c₀ c : Ctx) : Prop where
  exist : ∀ n, (c₀.readFile n).isSome = (c.readFile n).isSome
  content : inBlock = false → c₀.readFile = c.readFile
  arm : c₀.isArm = c.isArm
  thumb : c₀.isThumb = c.isThumb

end Armips
