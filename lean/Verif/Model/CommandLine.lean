import Verif.Model.Tokenizer
import Verif.Model.Expand
/-!
# The command line

Models `parseArguments` and `runFromCommandLine` (`Main/CommandLineInterface.cpp:31-222`), and what `runArmips` makes of the settings before it reads
the program (`Core/Assembler.cpp:145-190`).

* An argument is a list of bytes, written as `Char`s with codes below 256. The name of the program (`arguments[0]`) is left out.
* The file system is a parameter. Texts of messages are not modelled.
* Lines in the value of an `-equ` end with LF only (`TextFile` also takes CR LF for an end, C45).
-/
namespace Armips.CommandLine
open ExprParse (Tok)

/-- An argument. -/
abbrev Arg := List Char

/-- The file system: `fs::current_path` (`none` if it fails), `fs::absolute` with `lexically_normal`, and `fs::exists`, each for the directory one
is in. -/
structure World (δ : Type) where
  enter : δ → Arg → Option δ
  absolute : δ → Arg → Arg
  exists_ : δ → Arg → Bool

/-- `Assembler.h:29-58` `ArmipsArguments`, with the current directory. An empty path stands for none. -/
structure Settings (δ : Type) where
  dir : δ
  input : Arg := []
  temp : Arg := []
  sym : Arg := []
  symVersion : Nat := 0
  errorOnWarning : Bool := false
  showStats : Bool := false
  equs : List (Str × List Char) := []
  labels : List (Str × BitVec 64) := []
  deriving DecidableEq

/-- What `parseArguments` did. `ub` is an access outside of an argument. -/
inductive Result (δ : Type)
  | ub
  | refused
  | ok (s : Settings δ)
  deriving DecidableEq

/-- A text. -/
def txt (s : String) : Arg := s.toList

/-- `CommandLineInterface.cpp:73-92`, `95-114` the name of an equation: whether it is refused. -/
def badEqu (s : Settings δ) (name : Str) : Bool :=
  !SymTab.isValidSymbolName name || s.equs.any fun e => name = e.1

/-- `CommandLineInterface.cpp:134-148` the name of a label: whether it is refused. -/
def badLabel (s : Settings δ) (name : Str) : Bool :=
  !SymTab.isValidSymbolName name || s.labels.any fun e => name = e.1

/-- `CommandLineInterface.cpp:33-177` the loop over the arguments that are left; `flags` is `readflags`. -/
def loop (W : World δ) (flags : Bool) (s : Settings δ) : List Arg → Result δ
  | [] => .ok s
  | a :: rest =>
    if flags && a.head? == some '-' then
      if a = txt "--" then loop W false s rest
      else
        match rest with
        | [] =>
          if a = txt "-erroronwarning" then .ok { s with errorOnWarning := true }
          else if a = txt "-stat" then .ok { s with showStats := true }
          else if a = txt "-time" then .ok s
          else .refused
        | v :: rest =>
          if a = txt "-temp" then loop W flags { s with temp := v } rest
          else if a = txt "-sym" then loop W flags { s with sym := v, symVersion := 1 } rest
          else if a = txt "-sym2" then loop W flags { s with sym := v, symVersion := 2 } rest
          else if a = txt "-erroronwarning" then loop W flags { s with errorOnWarning := true } (v :: rest)
          else if a = txt "-stat" then loop W flags { s with showStats := true } (v :: rest)
          else if a = txt "-time" then loop W flags s (v :: rest)
          else if a = txt "-root" then
            match W.enter s.dir v with
            | none => .refused
            | some d => loop W flags { s with dir := d } rest
          else
            match rest with
            | [] => .refused
            | w :: rest =>
              if a = txt "-equ" then
                if badEqu s (Tokenizer.bytes v) then .refused
                else loop W flags { s with equs := s.equs ++ [(Tokenizer.bytes v, w)] } rest
              else if a = txt "-strequ" then
                if badEqu s (Tokenizer.bytes v) then .refused
                else loop W flags { s with equs := s.equs ++ [(Tokenizer.bytes v, '"' :: w ++ ['"'])] } rest
              else if a = txt "-definelabel" then
                if badLabel s (Tokenizer.bytes v) then .refused
                else
                  match StrInt.stringToInt w 0 w.length with
                  | .ub => .ub
                  | .reject => .refused
                  | .ok n _ => loop W flags { s with labels := s.labels ++ [(Tokenizer.bytes v, n)] } rest
              else .refused
    else if s.input.isEmpty then loop W flags { s with input := a } rest
    else .refused
termination_by args => args.length

/-- `CommandLineInterface.cpp:31-201` `parseArguments`, with the settings `ArmipsArguments()` sets. -/
def parse (W : World δ) (dir : δ) (args : List Arg) : Result δ :=
  match loop W true { dir := dir } args with
  | .ok s =>
    if s.input.isEmpty then .refused
    else if !W.exists_ s.dir (W.absolute s.dir s.input) then .refused
    else .ok { s with input := W.absolute s.dir s.input }
  | r => r

/-- `CommandLineInterface.cpp:203-222` `runFromCommandLine`: the exit status. `assemble` is `runArmips`. -/
def exitStatus (W : World δ) (dir : δ) (assemble : Settings δ → Bool) (args : List Arg) : Option Nat :=
  match parse W dir args with
  | .ub => none
  | .refused => some 1
  | .ok s => some (if assemble s then 0 else 1)

/-- The lines of a text. -/
def lines : List Char → List (List Char)
  | [] => [[]]
  | c :: l =>
    if c = '\n' then [] :: lines l
    else
      match lines l with
      | [] => [[c]]
      | x :: r => (c :: x) :: r

/-- `Parser.cpp:306-313` the tokens of the value of an equation. -/
def valueToks (strtod : List Char → Option F64) (value : List Char) : Option (List Tok) :=
  match Tokenizer.tokenize strtod (lines value) with
  | .ok ts => some ts
  | _ => none

/-- `Assembler.cpp:177-181` the equations of the command line, in file 0 and section 0. The flag tells that none was refused. `n` bounds the rounds of
`addEquation`; `none` if the tokenizer or `addEquation` does not come to an end. -/
def addEqus (strtod : List Char → Option F64) (n : Nat) (S : Expand.State) (good : Bool) : List (Str × List Char) → Option (Expand.State × Bool)
  | [] => some (S, good)
  | (name, value) :: rest =>
    match valueToks strtod value with
    | none => none
    | some ts =>
      match Expand.addEquation n S ⟨0, 0⟩ name ts with
      | none => none
      | some none => addEqus strtod n S false rest
      | some (some S') => addEqus strtod n S' good rest

/-- `Assembler.cpp:145-190` what the settings come to before the program is read: the symbols, the current section, and whether the run goes on. -/
def prepare (strtod : List Char → Option F64) (n : Nat) (s : Settings δ) : Option (Expand.State × Int × Bool) :=
  match addEqus strtod n {} true s.equs with
  | none => none
  | some (S, good) =>
    let r := S.symbols.addLabels 0 0 (s.labels.map fun l => (l.1, l.2.toInt))
    some ({ S with symbols := r.1 }, r.2, good)

end Armips.CommandLine
