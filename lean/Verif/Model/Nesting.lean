import Verif.Spec.Str
/-!
# Conditional assembly, macro calls and includes: the nesting of the parser

Models how `Parser::parse` and `Parser::parseCommandSequence` descend into conditionals, blocks, macro calls and included files.

* A source is what has been read already: the tree of its commands. `W s` is the content of the source number `s`: a file, or a macro with given
  arguments (so that the same macro with other arguments is another source).
* A condition is known at parse time or not (`parseDirectiveConditional`); in the second case it has a number, and its value is found out later.
* The parser carries its condition stack, of which only the top is used: `tr` = `isInsideTrueBlock`, `un` = `isInsideUnknownBlock`.
* The first, silent run over a macro (`Parser.cpp:744-762`), which enters no further macros, is left out.
* When the nesting is too deep the code goes on behind the call with an error queued, so that nothing is written in the end; the model does the
  same, without the errors that may follow from that.
-/
namespace Armips.Nesting

/-- What the tree of commands in a source looks like. -/
inductive Prog
  | nil
  /-- Any command that is none of the following. -/
  | cmd (c : Nat) (rest : Prog)
  /-- `.if` with a constant condition; `.elseif` is a conditional in the second part. -/
  | known (b : Bool) (thn els rest : Prog)
  /-- `.if` with a condition that is not constant, `.ifdef`, `.ifndef`. -/
  | unknown (i : Nat) (thn els rest : Prog)
  /-- `.area`, `.autoregion`, `.function`. -/
  | block (k : Nat) (body rest : Prog)
  /-- A macro call. -/
  | call (s : Nat) (rest : Prog)
  /-- `.include`. -/
  | incl (s : Nat) (rest : Prog)
  deriving DecidableEq, Repr

/-- The commands that the parser makes. -/
inductive Out
  | nil
  | cmd (c : Nat) (rest : Out)
  | cond (i : Nat) (thn els rest : Out)
  | block (k : Nat) (body rest : Out)
  /-- The sequence of a conditional that was decided. -/
  | group (body rest : Out)
  /-- The sequence of a macro or an included file. -/
  | source (body rest : Out)
  deriving DecidableEq, Repr

/-- A source that was entered; `parse` gives a null pointer if it refuses to. -/
def entered : Option Out → Out → Out
  | none, rest => rest
  | some o, rest => .source o rest

/-- `Parser.cpp:111-174` `parseCommandSequence` with `parseMacroCall` (`Parser.cpp:735-742`), `parseDirectiveInclude`
(`DirectivesParser.cpp`, "don't include the file if it's inside a false block") and `parseDirectiveConditional` (`DirectivesParser.cpp:195-318`).
`enter` is `Parser::parse`. The flag tells whether there was an error. `pushConditionalResult` is `Parser.cpp:31-37`. -/
def parseSeq (enter : Bool → Bool → Nat → Option Out × Bool) : Bool → Bool → Prog → Out × Bool
  | _, _, .nil => (.nil, false)
  | tr, un, .cmd c rest =>
    let r := parseSeq enter tr un rest
    (if tr then .cmd c r.1 else r.1, r.2)
  | tr, un, .known b thn els rest =>
    let t := parseSeq enter (tr && b) un thn
    let e := parseSeq enter (tr && !b) un els
    let r := parseSeq enter tr un rest
    (if tr then .group (if b then t.1 else e.1) r.1 else r.1, t.2 || e.2 || r.2)
  | tr, un, .unknown i thn els rest =>
    let t := parseSeq enter tr true thn
    let e := parseSeq enter tr true els
    let r := parseSeq enter tr un rest
    (if tr then .cond i t.1 e.1 r.1 else r.1, t.2 || e.2 || r.2)
  | tr, un, .block k body rest =>
    let b := parseSeq enter tr un body
    let r := parseSeq enter tr un rest
    (if tr then .block k b.1 r.1 else r.1, b.2 || r.2)
  | tr, un, .call s rest =>
    let r := parseSeq enter tr un rest
    if !un && !tr then r
    else
      let q := enter tr un s
      (if tr then entered q.1 r.1 else r.1, q.2 || r.2)
  | tr, un, .incl s rest =>
    let r := parseSeq enter tr un rest
    if !tr then r
    else
      let q := enter tr un s
      (entered q.1 r.1, q.2 || r.2)

/-- `Parser.cpp:278-304` `parse`; `d` is `entries.size()`. -/
def parse (W : Nat → Prog) (d : Nat) (tr un : Bool) (s : Nat) : Option Out × Bool :=
  if d ≥ 150 then (none, true)
  else
    let r := parseSeq (fun tr' un' s' => parse W (d + 1) tr' un' s') tr un (W s)
    (some r.1, r.2)
termination_by 150 - d

/-- `Parser.cpp:24-30`, `Assembler.cpp`: the main file. -/
def parseMain (W : Nat → Prog) (s : Nat) : Option Out × Bool := parse W 0 true false s

end Armips.Nesting
