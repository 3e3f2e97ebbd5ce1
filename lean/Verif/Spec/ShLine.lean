import Verif.Model.ShLine
import Verif.Spec.Sh
import Verif.Spec.ExprParse
/-!
# How SuperH instructions are written

The tokens of a line: a mnemonic, in which `/` is a token, and the operands of the manual, in which an expression is written by the rules of expressions.
Nothing but the tokens is taken from the parser.
-/
namespace Armips.Spec.ShLine
open Armips.ExprParse (Tok)
open Armips.Spec.ExprParse (Writes)
open Armips.Spec.Sh (Operand Entry manual)

/-- The tokens of a mnemonic. -/
def mnemonic (name : String) : List Tok :=
  match name.toList.span (· ≠ '/') with
  | (a, _ :: b) => [.ident (a.map chr), .div, .ident (b.map chr)]
  | (a, []) => [.ident (a.map chr)]

/-- The name of a general register. -/
def regName (n : Nat) : Str := lit ("r" ++ toString n)

/-- The tokens of an operand, with registers `n` and `m`, and `es` for the expression. `@` is a letter, so that `@r1` is one token and `@` in front of
something else is a token of its own. -/
def operand (n m : Nat) (es : List Tok) : Operand → List Tok
  | .imm => .hash :: es
  | .label => es
  | .rn => [.ident (regName n)]
  | .rm => [.ident (regName m)]
  | .r0 => [.ident (lit "r0")]
  | .atRn => [.ident (chr '@' :: regName n)]
  | .atRm => [.ident (chr '@' :: regName m)]
  | .decRn => [.ident (lit "@"), .minus, .ident (regName n)]
  | .incRm => [.ident (chr '@' :: regName m), .plus]
  | .incRn => [.ident (chr '@' :: regName n), .plus]
  | .dispPc => .ident (lit "@") :: .lparen :: es ++ [.comma, .ident (lit "pc"), .rparen]
  | .dispRn => .ident (lit "@") :: .lparen :: es ++ [.comma, .ident (regName n), .rparen]
  | .dispRm => .ident (lit "@") :: .lparen :: es ++ [.comma, .ident (regName m), .rparen]
  | .dispGbr => .ident (lit "@") :: .lparen :: es ++ [.comma, .ident (lit "gbr"), .rparen]
  | .idxRn => [.ident (lit "@"), .lparen, .ident (lit "r0"), .comma, .ident (regName n), .rparen]
  | .idxRm => [.ident (lit "@"), .lparen, .ident (lit "r0"), .comma, .ident (regName m), .rparen]
  | .idxGbr => [.ident (lit "@"), .lparen, .ident (lit "r0"), .comma, .ident (lit "gbr"), .rparen]
  | .ctl s => [.ident (lit s)]

/-- The operands, separated by commas. -/
def operands (n m : Nat) (es : List Tok) : List Operand → List Tok
  | [] => []
  | [x] => operand n m es x
  | x :: y :: l => operand n m es x ++ .comma :: operands n m es (y :: l)

/-- Special registers. -/
def special : List String := ["sr", "gbr", "vbr", "mach", "macl", "pr", "pc"]

/-- Names that are not for labels: registers, and functions that begin with `@`. -/
def Reserved (E : ExprParse.Env) (n : Str) : Prop :=
  (∃ k, k < 16 ∧ (n = regName k ∨ n = chr '@' :: regName k)) ∨ (∃ s ∈ special, n = lit s) ∨ (E.isFn n = true ∧ n.head? = some (chr '@'))

/-- A constant: an expression without such names. -/
def Constant (E : ExprParse.Env) (e : Expr) (ts : List Tok) : Prop := Writes E 12 e ts ∧ ∀ n, Tok.ident n ∈ ts → ¬ Reserved E n

/-- Operands with constants written without `#`. -/
def unhash (ops : List Operand) : List Operand := ops.map fun x => if x = .imm then .label else x

/-- The line. -/
def line (name : String) (ops : List Operand) (n m : Nat) (es : List Tok) : List Tok := mnemonic name ++ operands n m es ops

/-- The line is accepted in this context, and its machine code is the halfword `w`; `rest` is what follows. -/
def Assembles (E : Env) (P : ExprParse.Env) (ts rest : List Tok) (c : Ctx) (st : ArchState) (w : BitVec 16) : Prop :=
  ∃ op o, Armips.ShLine.parseOpcode P (ts ++ .separator :: rest) = some ((op, o), rest) ∧
    ∃ out, Instr.Accepts (Armips.Sh.sem E op o) c st out ∧ ∀ p, out.words p = [(Width.w16, (w.toNat : Int))]

end Armips.Spec.ShLine
