import Verif.Model.ExprParse
import Verif.Model.SymbolTable
import Verif.Spec.Expand
/-!
# Replacement of tokens: `equ` and macro parameters

Models `Tokenizer::processElement` and what `Parser.cpp` puts into it: the definitions of `equ` and the replacements of a macro call.

* A position in the token list is the list of the tokens from there on.
* The tokens are read one after another, as by `nextToken`; that the parser also looks ahead (`peekToken`) is not modelled, nor are line and column.
* Undefined behaviour and exceptions are the outcome `crash`.
-/
namespace Armips.Expand
open ExprParse (Tok)

/-- `Global.FileInfo.FileNum` and `Global.Section`. -/
structure Place where
  file : Int
  section_ : Int
  deriving DecidableEq, Repr

/-- `Tokenizer.h:59-110` `Token`: the token and its `checked` mark. -/
structure CTok where
  tok : Tok
  checked : Bool := false
  deriving DecidableEq, Repr

/-- `Tokenizer.h:158-162` `Replacement`. -/
structure Replacement where
  name : Str
  value : List Tok
  deriving DecidableEq, Repr

/-- `Global.symbolTable` and `Tokenizer::equValues`. -/
structure State where
  symbols : SymTab := {}
  values : List (List Tok) := []

/-- `Tokenizer.cpp:181-185` and `insert`: tokens that have not been looked at. -/
def fresh (ts : List Tok) : List CTok := ts.map fun t => ⟨t, false⟩

/-- What one round of the loop of `processElement` does. -/
inductive Round
  | done (ts : List CTok)
  | again (ts : List CTok)
  | crash
  deriving DecidableEq, Repr

/-- `Tokenizer.cpp:87-112`: the identifier is looked up as an equ. `replacement.size()-1` of an empty value asks for 2^64-1 tokens. -/
def equRound (S : State) (C : Place) (m : Str) (ts : List CTok) : Round :=
  match S.symbols.findEquation m C.file C.section_ with
  | none => .done (⟨.ident m, true⟩ :: ts)
  | some i =>
    if (ts.head?.map CTok.tok) = some .equ then .done (⟨.ident m, false⟩ :: ts)
    else
      match S.values[i]? with
      | none => .crash
      | some [] => .crash
      | some v => .again (fresh v ++ ts)

/-- `Tokenizer.cpp:56-122` one round of the loop in `processElement`. In line 79, `identifier` is a reference to the value of the very token that
was just overwritten: it never differs from the new value, so a token that was replaced by an identifier is not looked up as a parameter again. -/
def round (S : State) (C : Place) (reps : List Replacement) : List CTok → Round
  | [] => .done []
  | t :: ts =>
    if t.checked then .done (t :: ts)
    else
      match t.tok with
      | .ident n =>
        match reps.find? (fun r => r.name = n) with
        | none => equRound S C n ts
        | some r =>
          match r.value with
          | [] => .crash
          | .ident m :: vs => equRound S C m (fresh vs ++ ts)
          | v :: vs => .again (⟨v, false⟩ :: fresh vs ++ ts)
      | _ => .done (⟨t.tok, true⟩ :: ts)

/-- A reader of the tokens: what it has got and what is left. -/
inductive Reader
  | at (got : List Tok) (left : List CTok)
  | crashed
  deriving DecidableEq, Repr

/-- `Tokenizer.cpp:127-133` `nextToken`, round by round. -/
def tick (S : State) (C : Place) (reps : List Replacement) : Reader → Reader
  | .crashed => .crashed
  | .at got [] => .at got []
  | .at got (t :: ts) =>
    match round S C reps (t :: ts) with
    | .done [] => .crashed
    | .done (t :: ts) => .at (got ++ [t.tok]) ts
    | .again ts => .at got ts
    | .crash => .crashed

/-- `n` rounds. -/
def ticks (S : State) (C : Place) (reps : List Replacement) : Nat → Reader → Reader
  | 0, r => r
  | n + 1, r => ticks S C reps n (tick S C reps r)

/-- What the loop of `addEquation` comes to. -/
inductive Scan
  | accepted (value : List Tok)
  | rejected
  | crashed
  deriving DecidableEq, Repr

/-- `Parser.cpp:314-334` the loop in `addEquation` that reads the value, `n` rounds of `processElement`; `none` if it has not ended by then. -/
def scan (S : State) (C : Place) (name : Str) : Nat → List Tok → List CTok → Option Scan
  | 0, _, _ => none
  | _ + 1, got, [] => some (.accepted got)
  | n + 1, got, t :: ts =>
    match round S C [] (t :: ts) with
    | .crash => some .crashed
    | .again ts => scan S C name n got ts
    | .done [] => some .crashed
    | .done (t :: ts) =>
      if t.tok = .separator then some (.accepted got)
      else if t.tok = .ident name then some .rejected
      else if t.tok = .equ then some .rejected
      else scan S C name n (got ++ [t.tok]) ts

/-- `Parser.cpp:306-342` `addEquation` with a value that consists of the tokens `value`: `none` while its loop runs on, `some none` if the
definition is refused. -/
def addEquation (n : Nat) (S : State) (C : Place) (name : Str) (value : List Tok) : Option (Option State) :=
  match scan S C name n [] (fresh value) with
  | none => none
  | some (.accepted v) =>
    some (some { symbols := (S.symbols.addEquation name C.file C.section_ S.values.length).1, values := S.values ++ [v] })
  | some _ => some none

/-- `Parser.cpp:380-392` in `checkEquLabel`: the checks before `addEquation`. -/
def equDirective (n : Nat) (S : State) (C : Place) (name : Str) (value : List Tok) : Option (Option State) :=
  if !SymTab.isValidSymbolName name then some none
  else if S.symbols.symbolExists name C.file C.section_ then some none
  else addEquation n S C name value

/-- What can happen to the definitions while a program is parsed: labels are made and `equ`s are accepted. The definitions are listed in their
order. Names in a source file have no capital letters (`Tokenizer.cpp:706-711`). -/
inductive Made : List Spec.Expand.Def → State → Prop
  | start : Made [] {}
  | label {ds S} (name : Str) (file section_ : Int) : Made ds S → Made ds { S with symbols := (S.symbols.getLabel name file section_).1 }
  | equ {ds S S' n C name value} : Spec.Expand.Small name → Spec.Expand.SmallToks value → equDirective n S C name value = some (some S') →
      Made ds S → Made (ds ++ [⟨name, C.file, C.section_, Spec.Expand.upToSeparator value⟩]) S'

/-! ## Labels of macros -/

/-- `SymbolTable.h:76` `isStaticSymbol`. -/
def isStaticSymbol (s : Str) : Bool := s[0]? == some (chr '@')

/-- `printf("%08X", n)` after the lowering in `registerReplacement` (`Tokenizer.cpp:187-191`), i.e. `printf("%08x", n)`. -/
def counterText (n : Nat) : Str := fmt08x n

/-- `Parser.cpp:772-781` the name of a label in the expansion number `counter` of a macro, lowered by `registerReplacement`
(`Tokenizer.cpp:187-203`). -/
def fullName (mac label : Str) (counter : Nat) : Str :=
  if SymTab.isLocalSymbol label then lit "@@" ++ mac.map lower ++ lit "_" ++ (label.drop 2).map lower ++ lit "_" ++ counterText counter
  else if isStaticSymbol label then lit "@" ++ mac.map lower ++ lit "_" ++ (label.drop 1).map lower ++ lit "_" ++ counterText counter
  else mac.map lower ++ lit "_" ++ label.map lower ++ lit "_" ++ counterText counter

/-- `Parser.h:30-37` `ParserMacro`. -/
structure Macro where
  name : Str
  params : List Str
  labels : List Str
  counter : Nat
  content : List Tok

/-- `Parser.cpp:705-707`: the arguments that are single identifiers. -/
def identArgs : List (List Tok) → List Str
  | [] => []
  | [.ident n] :: as => n :: identArgs as
  | _ :: as => identArgs as

/-- `Parser.cpp:680-711, 764-782` the replacements of a macro call: parameters first, then the labels, but those that an argument names. -/
def replacements (M : Macro) (args : List (List Tok)) : List Replacement :=
  ((M.params.zip args).map fun p => ⟨p.1, p.2⟩) ++
    ((M.labels.filter fun l => !(identArgs args).contains l).map fun l => ⟨l, [.ident (fullName M.name l M.counter)]⟩)

end Armips.Expand
