import Verif.Model.ExprParse
/-!
# How expressions are written

The precedence table, and which token sequences write an expression. Nothing here is taken from the parser but the tokens.
-/
namespace Armips.Spec.ExprParse
open Armips.ExprParse (Tok Env)

/-- The binary operators: how they are written and how strongly they bind. A smaller number binds more strongly. -/
def symbol : BinOp → Tok × Nat
  | .mult => (.mult, 2) | .div => (.div, 2) | .mod => (.mod, 2)
  | .add => (.plus, 3) | .sub => (.minus, 3)
  | .leftShift => (.leftShift, 4) | .rightShift => (.rightShift, 4)
  | .less => (.less, 5) | .greater => (.greater, 5) | .lessEqual => (.lessEqual, 5) | .greaterEqual => (.greaterEqual, 5)
  | .equal => (.equal, 6) | .notEqual => (.notEqual, 6)
  | .bitAnd => (.bitAnd, 7)
  | .xor => (.caret, 8)
  | .bitOr => (.bitOr, 9)
  | .logAnd => (.logAnd, 10)
  | .logOr => (.logOr, 11)

/-- The operators in front of an operand. -/
def prefixed : Tok → Expr → Option Expr
  | .minus, e => some (.un .neg e)
  | .tilde, e => some (.un .bitNot e)
  | .exclamation, e => some (.un .logNot e)
  | .degree, e => some (.toString_ e)
  | .plus, e => some e
  | _, _ => none

/-- The parameters of a call. -/
def toArgs : List Expr → Args
  | [] => .nil
  | e :: es => .cons e (toArgs es)

/-- Texts with commas between them. -/
def commas : List (List Tok) → List Tok
  | [] => []
  | [t] => t
  | t :: ts => t ++ .comma :: commas ts

/-- `Writes E r e ts`: the tokens `ts` write the expression `e`, with operators outside of parentheses of strength at most `r`. Strength 0 are
operands, 1 is a prefix operator, 2 to 11 are the binary operators, 12 is the conditional operator. -/
inductive Writes (E : Env) : Nat → Expr → List Tok → Prop
  | int (v : Int) : Writes E 0 (.int v) [.int v]
  | float (v : F64) : Writes E 0 (.float v) [.float v]
  | str (s : Str) : Writes E 0 (.str s) [.str s]
  | here : Writes E 0 .memoryPos [.ident (lit ".")]
  | ident (n : Str) : n ≠ lit "." → Writes E 0 (.ident n E.file E.section_) [.ident n]
  | paren {e ts} : Writes E 12 e ts → Writes E 0 e (.lparen :: ts ++ [.rparen])
  | call (n : Str) (args : List (Expr × List Tok)) : E.isFn n = true → (∀ x ∈ args, Writes E 12 x.1 x.2) →
      Writes E 0 (.call n (toArgs (args.map (·.1)))) (.ident n :: .lparen :: commas (args.map (·.2)) ++ [.rparen])
  | pre {t e e' ts} : prefixed t e = some e' → Writes E 0 e ts → Writes E 1 e' (t :: ts)
  | binary (op : BinOp) {a b ta tb} : Writes E (symbol op).2 a ta → Writes E ((symbol op).2 - 1) b tb →
      Writes E (symbol op).2 (.bin op a b) (ta ++ (symbol op).1 :: tb)
  | conditional {a b c ta tb tc} : Writes E 11 a ta → Writes E 12 b tb → Writes E 12 c tc →
      Writes E 12 (.cond a b c) (ta ++ .question :: tb ++ .colon :: tc)
  | weaker {r e ts} : r < 12 → Writes E r e ts → Writes E (r + 1) e ts

/-- What may follow an expression of strength `r`: no operator that would go on with it. -/
def Stops (r : Nat) (rest : List Tok) : Prop :=
  (∀ op, rest.head? = some (symbol op).1 → r < (symbol op).2) ∧ (r = 12 → rest.head? ≠ some .question)

/-- The name of a function at the end of an expression must not be followed by a parenthesis. -/
def NoCall (E : Env) (ts rest : List Tok) : Prop := ∀ i n, ts = i ++ [.ident n] → E.isFn n = true → rest.head? ≠ some .lparen

/-- How a prefix operator is written. -/
def unSymbol : UnOp → Tok
  | .neg => .minus | .logNot => .exclamation | .bitNot => .tilde

/-- Parentheses if they are needed. -/
def wrap (b : Bool) (ts : List Tok) : List Tok := if b then .lparen :: ts ++ [.rparen] else ts

mutual
/-- An expression that can be written: names belong to the place where it stands and calls are calls of functions. -/
def Writable (E : Env) : Expr → Prop
  | .invalid => False
  | .int _ => True
  | .float _ => True
  | .ident n f s => n ≠ lit "." ∧ f = E.file ∧ s = E.section_
  | .str _ => True
  | .memoryPos => True
  | .un _ a => Writable E a
  | .bin _ a b => Writable E a ∧ Writable E b
  | .cond a b c => Writable E a ∧ Writable E b ∧ Writable E c
  | .toString_ a => Writable E a
  | .call n args => E.isFn n = true ∧ WritableArgs E args
/-- The same for all parameters. -/
def WritableArgs (E : Env) : Args → Prop
  | .nil => True
  | .cons e r => Writable E e ∧ WritableArgs E r
end

mutual
/-- The expression with parentheses only where the table of strengths requires them. -/
def short (r : Nat) : Expr → List Tok
  | .invalid => []
  | .int v => [.int v]
  | .float v => [.float v]
  | .ident n _ _ => [.ident n]
  | .str s => [.str s]
  | .memoryPos => [.ident (lit ".")]
  | .un op a => wrap (decide (r < 1)) (unSymbol op :: short 0 a)
  | .bin op a b => wrap (decide (r < (symbol op).2)) (short (symbol op).2 a ++ (symbol op).1 :: short ((symbol op).2 - 1) b)
  | .cond a b c => wrap (decide (r < 12)) (short 11 a ++ .question :: short 12 b ++ .colon :: short 12 c)
  | .toString_ a => wrap (decide (r < 1)) (.degree :: short 0 a)
  | .call n args => .ident n :: .lparen :: commas (shortArgs args) ++ [.rparen]
/-- The same for all parameters. -/
def shortArgs : Args → List (List Tok)
  | .nil => []
  | .cons e r => short 12 e :: shortArgs r
end

mutual
/-- The expression with parentheses around every operator, as `Expression::toString` writes it. -/
def full : Expr → List Tok
  | .invalid => []
  | .int v => [.int v]
  | .float v => [.float v]
  | .ident n _ _ => [.ident n]
  | .str s => [.str s]
  | .memoryPos => [.ident (lit ".")]
  | .un op a => .lparen :: unSymbol op :: full a ++ [.rparen]
  | .bin op a b => .lparen :: full a ++ (symbol op).1 :: full b ++ [.rparen]
  | .cond a b c => .lparen :: full a ++ .question :: full b ++ .colon :: full c ++ [.rparen]
  | .toString_ a => .lparen :: .degree :: full a ++ [.rparen]
  | .call n args => .ident n :: .lparen :: commas (fullArgs args) ++ [.rparen]
/-- The same for all parameters. -/
def fullArgs : Args → List (List Tok)
  | .nil => []
  | .cons e r => full e :: fullArgs r
end

end Armips.Spec.ExprParse
