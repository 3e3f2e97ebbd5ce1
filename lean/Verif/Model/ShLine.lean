import Verif.Model.Sh
import Verif.Model.ArmLine
/-!
# Reading of SuperH instructions

Models `Archs/SuperH/ShParser.cpp`: from the tokens of a line to the row of the opcode table and the operands. `Model/Sh.lean` has the table and what is
made of the operands; its own parser, in which an expression is one token, is what the statements about machine code are about.

* A parser gives what it stores and the tokens that are left, or `none` (`false`). What it has taken then does not matter, since the code goes back
  to the start for the next row.
* Not modelled: names of registers, which are only used in texts. All rows are supported by the only version there is (`SuperH.cpp`, `shArchs`).
-/
namespace Armips.ShLine
open ExprParse (Tok)
open Sh (Op Operands)
open ArmLine (fromTable)

/-- `ShParser.cpp:17-26` `shRegisters`. -/
def registers : List (String × Nat) := [
  ("r0", 0), ("r1", 1), ("r2", 2), ("r3", 3), ("r4", 4), ("r5", 5), ("r6", 6), ("r7", 7), ("r8", 8), ("r9", 9), ("r10", 10), ("r11", 11), ("r12", 12),
  ("r13", 13), ("r14", 14), ("r15", 15),
  ("@r0", 0), ("@r1", 1), ("@r2", 2), ("@r3", 3), ("@r4", 4), ("@r5", 5), ("@r6", 6), ("@r7", 7), ("@r8", 8), ("@r9", 9), ("@r10", 10), ("@r11", 11),
  ("@r12", 12), ("@r13", 13), ("@r14", 14), ("@r15", 15)]

/-- `ShParser.cpp:60-86` `parseRegisterTable`, `parseRegister`. -/
def register (ts : List Tok) : Option (Nat × List Tok) := fromTable registers ts

/-- `ShParser.cpp:93-95` a parenthesis is skipped. -/
def skipParen : List Tok → List Tok
  | .lparen :: ts => ts
  | ts => ts

/-- `ShParser.cpp:88-106` `parseImmediate`. -/
def immediate (E : ExprParse.Env) (ts : List Tok) : Option (Expr × List Tok) :=
  if (register (skipParen ts)).isSome then none
  else
    match ExprParse.parse E ts with
    | (some e, r) => some (e, r)
    | (none, _) => none

/-- `ShParser.cpp:108-127` the token of a symbol. -/
def symbolToken (c : Char) : Option Tok :=
  match c with
  | '(' => some .lparen
  | ')' => some .rparen
  | ',' => some .comma
  | '#' => some .hash
  | '-' => some .minus
  | '+' => some .plus
  | _ => none

/-- `ShParser.cpp:108-127` `matchSymbol`. -/
def matchSymbol (c : Char) : List Tok → Option (List Tok)
  | t :: ts => if symbolToken c = some t then some ts else none
  | [] => none

/-- `ShParser.cpp:156-192` `decodeOpcode`: what is left of the name in the table, what is left of the token's name, the tokens after it. -/
def decode : List Char → Str → List Tok → Option (List Tok)
  | [], [], ts => some ts
  | [], _ :: _, _ => none
  | c :: enc, n, ts =>
    if c = '/' then
      match n, ts with
      | [], .div :: .ident n :: ts => decode enc n ts
      | _, _ => none
    else
      match n with
      | b :: n => if chr c = b then decode enc n ts else none
      | [] => none

/-- `ShParser.cpp:165-170` the name of the line. -/
def decodeOpcode (op : Op) : List Tok → Option (List Tok)
  | .ident n :: ts => decode op.name.toList n ts
  | _ => none

/-- `ShParser.cpp:206-234` a forced register: the first of the names that the syntax continues with has to be the next token. Simplified: `memcmp` can
read over the end of the syntax. -/
def forced (enc : List Char) (ts : List Tok) : Option (List Char × List Tok) :=
  match Sh.forcedNames.find? fun f => f.toList.isPrefixOf enc, ts with
  | some f, .ident n :: ts => if n = lit f then some (enc.drop f.length, ts) else none
  | _, _ => none

/-- `ShParser.cpp:251-272` the rest of an item that begins with `@`, after it has been seen that the name `n` begins with one. -/
def at_ (n : Str) (ts : List Tok) (o : Operands) : List Char → Option (List Char × List Tok × Operands)
  | 't' :: enc => (register (.ident n :: ts)).map fun (r, ts) => (enc, ts, { o with grt := r })
  | 's' :: enc => (register (.ident n :: ts)).map fun (r, ts) => (enc, ts, { o with grs := r })
  | '(' :: enc => (matchSymbol '(' ts).map fun ts => (enc, ts, o)
  | '-' :: enc => (matchSymbol '-' ts).map fun ts => (enc, ts, o)
  | _ => none

/-- `ShParser.cpp:235-277` the switch for one item of the syntax `c :: enc`. -/
def item (E : ExprParse.Env) (c : Char) (enc : List Char) (ts : List Tok) (o : Operands) : Option (List Char × List Tok × Operands) :=
  match c with
  | 't' => (register ts).map fun (r, ts) => (enc, ts, { o with grt := r })
  | 's' => (register ts).map fun (r, ts) => (enc, ts, { o with grs := r })
  | 'i' =>
    match immediate E ts with
    | some (e, ts) =>
      let (n, enc) := Sh.size 0 enc
      if n = 4 ∨ n = 8 ∨ n = 12 then some (enc, ts, { o with bits := n, imm := e }) else none
    | none => none
  | '@' =>
    match ts with
    | .ident n :: ts => if n.head? = some (chr '@') then at_ n ts o enc else none
    | _ => none
  | c => (matchSymbol c ts).map fun ts => (enc, ts, o)

/-- `ShParser.cpp:194-287` `parseParameters`: the loop over the syntax, of which every step uses up at least one character; then there has to be a
separator. -/
def parseLoop (E : ExprParse.Env) (freg : Bool) : Nat → List Char → List Tok → Operands → Option (Operands × List Tok)
  | _, [], .separator :: ts, o => some (o, ts)
  | _, [], _, _ => none
  | 0, _ :: _, _, _ => none
  | k + 1, c :: rest, ts, o =>
    match if freg then forced (c :: rest) ts else none with
    | some (enc, ts) => parseLoop E freg k enc ts o
    | none =>
      match item E c rest ts o with
      | some (enc, ts, o) => parseLoop E freg k enc ts o
      | none => none

/-- `ShParser.cpp:194-287` for a row. `registers` and `immediate` have been reset (161-162). -/
def parseParams (E : ExprParse.Env) (op : Op) (ts : List Tok) : Option (Operands × List Tok) :=
  parseLoop E (op.has .freg) op.encoding.length op.encoding.toList ts Sh.noOperands

/-- `ShParser.cpp:298-320` one row. -/
def row (E : ExprParse.Env) (ts : List Tok) (op : Op) : Option ((Op × Operands) × List Tok) :=
  match decodeOpcode op ts with
  | some ts => (parseParams E op ts).map fun r => ((op, r.1), r.2)
  | none => none

/-- `ShParser.cpp:289-328` `parseOpcode`: the first row whose name and syntax fit. -/
def parseOpcode (E : ExprParse.Env) (ts : List Tok) : Option ((Op × Operands) × List Tok) := Sh.opcodes.findSome? (row E ts)

end Armips.ShLine
