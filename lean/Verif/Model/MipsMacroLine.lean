import Verif.Model.MipsMacros
import Verif.Model.MipsParse
/-!
# Reading of MIPS lines: macros and instructions

Models the part of `Archs/MIPS/MipsParser.cpp` that reads a macro from tokens, and `Archs/MIPS/Mips.cpp:25-34`, which tries the macros before the
instructions.

* `Model/MipsMacros.lean` has the table of the macros and what is made of their operands; its own lines are lists in which an operand is one token.
* The registers and immediates that a row has stored before it turned out not to fit are not reset by the code. They are not modelled: the
  generating functions look at the operands of the row only.
* The generating functions give a command for every row of the table, so that a row that fits is the end of the search (`Mips.cpp:29-31`).
-/
namespace Armips.MipsParse
open ExprParse (Tok)
open Mips (Op Operands Version Parsed MacroRow)

/-- The number of a register; -1 is "not set". -/
def number (n : Int) : Option Nat := if n < 0 then none else some n.toNat

/-- `MipsParser.cpp:1591-1615` one letter of the syntax of a macro. -/
def macroItem (E : ExprParse.Env) (c : Char) (p : Parsed) (ts : List Token) : Option (Parsed × List Token) :=
  match c with
  | 't' => (register .cpu ts).map fun r => ({ p with grt := number r.1 }, r.2)
  | 'd' => (register .cpu ts).map fun r => ({ p with grd := number r.1 }, r.2)
  | 's' => (register .cpu ts).map fun r => ({ p with grs := number r.1 }, r.2)
  | 'S' => (register .fpu ts).map fun r => ({ p with frs := number r.1 }, r.2)
  | 'i' => (immediate E ts).map fun r => ({ p with prim := some r.1 }, r.2)
  | 'I' => (immediate E ts).map fun r => ({ p with sec := some r.1 }, r.2)
  | c => (symbol c ts).map fun ts => (p, ts)

/-- `MipsParser.cpp:1585-1625` `parseMacroParameters`. -/
def macroLoop (E : ExprParse.Env) : List Char → List Token → Parsed → Option (Parsed × List Token)
  | [], (.separator, _) :: ts, p => some (p, ts)
  | [], _, _ => none
  | c :: cs, ts, p =>
    match macroItem E c p ts with
    | none => none
    | some (p, ts) => macroLoop E cs ts p

/-- `MipsParser.cpp:1640-1650` one row. -/
def macroRow (E : ExprParse.Env) (name : Str) (ts : List Token) (m : MacroRow) : Option ((MacroRow × Parsed) × List Token) :=
  if name = lit m.name then (macroLoop E m.args.toList ts {}).map fun r => ((m, r.1), r.2) else none

/-- `MipsParser.cpp:1627-1655` `parseMacro`: the first row that fits. -/
def macroLine (E : ExprParse.Env) : List Token → Option ((MacroRow × Parsed) × List Token)
  | (.ident name, _) :: ts => Mips.macros.findSome? (macroRow E name ts)
  | _ => none

/-- What a line is. -/
inductive Item
  | macro (m : MacroRow) (p : Parsed)
  | instr (op : Op) (o : Operands)

/-- `Mips.cpp:25-34` `parseOpcode`: a macro, if there is one that fits, else an instruction. -/
def anyLine (E : ExprParse.Env) (v : Version) (ts : List Token) : Option (Item × List Token) :=
  match macroLine E ts with
  | some ((m, p), r) => some (.macro m p, r)
  | none => (line E v ts).map fun x => (.instr x.1.1 x.1.2, x.2)

end Armips.MipsParse
