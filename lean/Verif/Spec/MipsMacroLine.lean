import Verif.Model.MipsMacroLine
import Verif.Spec.MipsParse
/-!
# How MIPS macros are written

The letters of the table of macros: `s`, `t`, `d` are general registers, `S` is a floating point register, `i` and `I` are the first and the second
immediate, everything else is a token. Registers and immediates are written as in `Spec.MipsParse`.
-/
namespace Armips.Spec.MipsParse
open Armips.MipsParse (Token Cls)
open Armips.Mips (Parsed MacroRow)
open Armips.ExprParse (Tok)
open Armips.Spec.ExprParse (NoCall)

/-- `MacroPart E c ts p p'`: the text `ts` writes the operand `c`, which makes `p'` of the operands `p`. -/
inductive MacroPart (E : ExprParse.Env) : Char → List Token → Parsed → Parsed → Prop
  | grs {n ts p} : Reg .cpu n ts → MacroPart E 's' ts p { p with grs := some n }
  | grt {n ts p} : Reg .cpu n ts → MacroPart E 't' ts p { p with grt := some n }
  | grd {n ts p} : Reg .cpu n ts → MacroPart E 'd' ts p { p with grd := some n }
  | frs {n ts p} : Reg .fpu n ts → MacroPart E 'S' ts p { p with frs := some n }
  | prim {e ts p} : ImmText E e ts → MacroPart E 'i' ts p { p with prim := some e }
  | sec {e ts p} : ImmText E e ts → MacroPart E 'I' ts p { p with sec := some e }
  | comma {x p} : MacroPart E ',' [(.comma, x)] p p
  | lparen {x p} : MacroPart E '(' [(.lparen, x)] p p
  | rparen {x p} : MacroPart E ')' [(.rparen, x)] p p

/-- The text of all operands. An immediate that ends with the name of a function must not stand before a parenthesis. -/
inductive MacroParts (E : ExprParse.Env) : List Char → List Token → Parsed → Parsed → Prop
  | nil {p} : MacroParts E [] [] p p
  | cons {c cs ts rest p p' p''} : MacroPart E c ts p p' → (c = 'i' ∨ c = 'I' → NoCall E (ts.map Prod.fst) (rest.map Prod.fst)) →
      MacroParts E cs rest p' p'' → MacroParts E (c :: cs) (ts ++ rest) p p''

/-- `MacroText E m ts p`: the text `ts` behind its name writes the macro of row `m` with the operands `p`. -/
def MacroText (E : ExprParse.Env) (m : MacroRow) (ts : List Token) (p : Parsed) : Prop := MacroParts E m.args.toList ts {} p

/-- The operands of a line as single tokens, and the text that writes them. -/
inductive Operand (E : ExprParse.Env) : Mips.Tok → List Token → Prop
  | reg {n ts} : Reg .cpu n ts → Operand E (.reg n) ts
  | freg {n ts} : Reg .fpu n ts → Operand E (.freg n) ts
  | imm {e ts} : ImmText E e ts → Operand E (.imm e) ts
  | comma {x} : Operand E .comma [(.comma, x)]
  | lpar {x} : Operand E .lpar [(.lparen, x)]
  | rpar {x} : Operand E .rpar [(.rparen, x)]

/-- All of them. -/
inductive Line (E : ExprParse.Env) : List Mips.Tok → List Token → Prop
  | nil : Line E [] []
  | cons {a as ts rest} : Operand E a ts → ((∃ e, a = .imm e) → NoCall E (ts.map Prod.fst) (rest.map Prod.fst)) → Line E as rest →
      Line E (a :: as) (ts ++ rest)

end Armips.Spec.MipsParse
