import Verif.Model.Expression
/-!
# Parsing of expressions

Models `Parser/ExpressionParser.cpp` on the list of the tokens that are left, after the replacements of `Tokenizer::processElement`.

* A parser gives the expression (`none` is the null pointer) and the tokens that are left then. Tokens that a failing parser has taken stay taken,
  as in the code.
* `expr` has a bound on its nesting, since Lean functions terminate; `parse` gives one that is always enough (`expr_bound` in `Lemmas/ExprParse.lean`).
* Positions of tokens are not modelled.
-/
namespace Armips.ExprParse

/-- `Tokenizer.h:13-56` `TokenType` with the value of the token. -/
inductive Tok
  | invalid
  | ident (name : Str)
  | int (v : Int)
  | str (s : Str)
  | float (v : F64)
  | lparen | rparen | plus | minus | mult | div | mod | caret | tilde | leftShift | rightShift | less | greater | lessEqual | greaterEqual
  | equal | notEqual | bitAnd | bitOr | logAnd | logOr | exclamation | question | colon | lbrack | rbrack | comma | assign | equ
  | equValue (s : Str)
  | hash | lbrace | rbrace | dollar
  | numberString (s : Str)
  | degree | separator
  deriving DecidableEq, Repr

/-- What the parser reads from elsewhere: file and section of identifiers, and the names of functions. -/
structure Env where
  file : Int
  section_ : Int
  /-- `ExpressionFunctionHandler::find`. -/
  isFn : Str → Bool

abbrev Parser := List Tok → Option Expr × List Tok

/-- `Tokenizer.cpp:127-133` `nextToken`. -/
def next : List Tok → Tok × List Tok
  | [] => (.invalid, [])
  | t :: ts => (t, ts)

/-- `Tokenizer.cpp:135-150` `peekToken`. -/
def peek (ts : List Tok) : Tok := (next ts).1

/-- `ExpressionParser.cpp:8-48` `primaryExpression`. -/
def primary (E : Env) (rec : Parser) : Parser
  | .float v :: ts => (some (.float v), ts)
  | .ident n :: ts => (some (if n = lit "." then .memoryPos else .ident n E.file E.section_), ts)
  | .str s :: ts => (some (.str s), ts)
  | .int v :: ts => (some (.int v), ts)
  | .lparen :: ts =>
    let r := rec ts
    if peek r.2 = .rparen then (r.1, (next r.2).2) else (none, (next r.2).2)
  | ts => (none, ts)

/-- `ExpressionParser.cpp:59-70` the parameters of a function call. `first` tells whether there are none so far. Each round takes a token, hence
the bound. -/
def params (rec : Parser) : Nat → Bool → List Tok → Option Args × List Tok
  | 0, _, ts => (none, ts)
  | n + 1, first, ts =>
    if peek ts = .rparen then (some .nil, ts)
    else
      let ts' := if first then ts else (next ts).2
      if first = false ∧ peek ts ≠ .comma then (none, ts')
      else
        match rec ts' with
        | (none, r) => (none, r)
        | (some e, r) =>
          match params rec n false r with
          | (none, r) => (none, r)
          | (some as, r) => (some (.cons e as), r)

/-- `ExpressionParser.cpp:50-78` `postfixExpression`. -/
def postfixExpr (E : Env) (rec : Parser) : Parser
  | .ident n :: .lparen :: ts =>
    if E.isFn n then
      match params rec (ts.length + 1) true ts with
      | (none, r) => (none, r)
      | (some as, r) => (some (.call n as), (next r).2)
    else primary E rec (.ident n :: .lparen :: ts)
  | ts => primary E rec ts

/-- `ExpressionParser.cpp:91-105`. -/
def unaryOp : Tok → Expr → Option Expr
  | .plus, e => some e
  | .minus, e => some (.un .neg e)
  | .tilde, e => some (.un .bitNot e)
  | .exclamation, e => some (.un .logNot e)
  | .degree, e => some (.toString_ e)
  | _, _ => none

/-- `ExpressionParser.cpp:80-106` `unaryExpression`. -/
def unary (E : Env) (rec : Parser) : Parser := fun ts =>
  match postfixExpr E rec ts with
  | (some e, r) => (some e, r)
  | (none, r) =>
    match postfixExpr E rec (next r).2 with
    | (none, r') => (none, r')
    | (some e, r') => (unaryOp (peek r) e, r')

/-- The loop of the functions for the binary operators: as long as an operator of the level follows, one more operand. Each round takes a token,
hence the bound. -/
def chainLoop (table : Tok → Option BinOp) (sub : Parser) : Nat → Expr → Parser
  | 0, e, ts => (some e, ts)
  | n + 1, e, ts =>
    match table (peek ts) with
    | none => (some e, ts)
    | some op =>
      match sub (next ts).2 with
      | (none, r) => (none, r)
      | (some e', r) => chainLoop table sub n (.bin op e e') r

/-- The functions for the binary operators. -/
def chain (table : Tok → Option BinOp) (sub : Parser) : Parser := fun ts =>
  match sub ts with
  | (none, r) => (none, r)
  | (some e, r) => chainLoop table sub r.length e r

/-- `ExpressionParser.cpp:117-130`. -/
def mulOp : Tok → Option BinOp
  | .mult => some .mult | .div => some .div | .mod => some .mod | _ => none
/-- `ExpressionParser.cpp:155-165`. -/
def addOp : Tok → Option BinOp
  | .plus => some .add | .minus => some .sub | _ => none
/-- `ExpressionParser.cpp:190-200`. -/
def shiftOp : Tok → Option BinOp
  | .leftShift => some .leftShift | .rightShift => some .rightShift | _ => none
/-- `ExpressionParser.cpp:225-241`. -/
def relOp : Tok → Option BinOp
  | .less => some .less | .lessEqual => some .lessEqual | .greater => some .greater | .greaterEqual => some .greaterEqual | _ => none
/-- `ExpressionParser.cpp:265-275`. -/
def eqOp : Tok → Option BinOp
  | .equal => some .equal | .notEqual => some .notEqual | _ => none
/-- `ExpressionParser.cpp:298`. -/
def bitAndOp : Tok → Option BinOp
  | .bitAnd => some .bitAnd | _ => none
/-- `ExpressionParser.cpp:318`. -/
def xorOp : Tok → Option BinOp
  | .caret => some .xor | _ => none
/-- `ExpressionParser.cpp:338`. -/
def bitOrOp : Tok → Option BinOp
  | .bitOr => some .bitOr | _ => none
/-- `ExpressionParser.cpp:358`. -/
def logAndOp : Tok → Option BinOp
  | .logAnd => some .logAnd | _ => none
/-- `ExpressionParser.cpp:378`. -/
def logOrOp : Tok → Option BinOp
  | .logOr => some .logOr | _ => none

/-- `ExpressionParser.cpp:108-145` `multiplicativeExpression`. -/
def multiplicative (E : Env) (rec : Parser) : Parser := chain mulOp (unary E rec)
/-- `ExpressionParser.cpp:147-180` `additiveExpression`. -/
def additive (E : Env) (rec : Parser) : Parser := chain addOp (multiplicative E rec)
/-- `ExpressionParser.cpp:182-215` `shiftExpression`. -/
def shift (E : Env) (rec : Parser) : Parser := chain shiftOp (additive E rec)
/-- `ExpressionParser.cpp:217-255` `relationalExpression`. -/
def relational (E : Env) (rec : Parser) : Parser := chain relOp (shift E rec)
/-- `ExpressionParser.cpp:257-290` `equalityExpression`. -/
def equality (E : Env) (rec : Parser) : Parser := chain eqOp (relational E rec)
/-- `ExpressionParser.cpp:292-310` `andExpression`. -/
def and (E : Env) (rec : Parser) : Parser := chain bitAndOp (equality E rec)
/-- `ExpressionParser.cpp:312-330` `exclusiveOrExpression`. -/
def exclusiveOr (E : Env) (rec : Parser) : Parser := chain xorOp (and E rec)
/-- `ExpressionParser.cpp:332-350` `inclusiveOrExpression`. -/
def inclusiveOr (E : Env) (rec : Parser) : Parser := chain bitOrOp (exclusiveOr E rec)
/-- `ExpressionParser.cpp:352-370` `logicalAndExpression`. -/
def logicalAnd (E : Env) (rec : Parser) : Parser := chain logAndOp (inclusiveOr E rec)
/-- `ExpressionParser.cpp:372-390` `logicalOrExpression`. -/
def logicalOr (E : Env) (rec : Parser) : Parser := chain logOrOp (logicalAnd E rec)

/-- `ExpressionParser.cpp:392-415` `conditionalExpression`. -/
def conditional (E : Env) (rec : Parser) : Parser := fun ts =>
  match logicalOr E rec ts with
  | (none, r) => (none, r)
  | (some e, r) =>
    if peek r ≠ .question then (some e, r)
    else
      match rec (next r).2 with
      | (none, r) => (none, r)
      | (some e2, r) =>
        if peek r ≠ .colon then (none, (next r).2)
        else
          match rec (next r).2 with
          | (none, r) => (none, r)
          | (some e3, r) => (some (.cond e e2 e3), r)

/-- `ExpressionParser.cpp:417-420` `expression`, up to a nesting of `n`. -/
def expr (E : Env) : Nat → Parser
  | 0 => fun ts => (none, ts)
  | n + 1 => conditional E (expr E n)

/-- `ExpressionParser.cpp:422-435` `parseExpression`: on failure the tokens are restored. -/
def parse (E : Env) : Parser := fun ts =>
  match expr E (ts.length + 2) ts with
  | (none, _) => (none, ts)
  | (some e, r) => (some e, r)

end Armips.ExprParse
