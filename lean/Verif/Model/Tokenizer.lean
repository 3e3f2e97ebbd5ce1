import Verif.Model.ExprParse
import Verif.Model.StringToInt
import Verif.Model.SymbolTable
/-!
# From the lines of a text to tokens

Models `FileTokenizer` (`Parser/Tokenizer.cpp:264-793`).

* A line is a list of bytes, written as `Char`s with codes below 256. The position in a line is what is left of the line. `rest` are the lines
  that have not been read yet.
* `strtod` is a parameter: the value of a text that it converts as a whole.
* Line and column of tokens, and the texts of error messages, are not modelled.
* A reading outside of the line is undefined behaviour, the outcome `none` or `ub`.
-/
namespace Armips.Tokenizer
open ExprParse (Tok)

/-- The bytes of a text. -/
def bytes (l : List Char) : Str := l.map fun c => BitVec.ofNat 8 c.toNat

/-- `Tokenizer.cpp:269-275` `isWhitespace`. -/
def isBlank (c : Char) : Bool := c == ' ' || c == '\t'

/-- `Tokenizer.cpp:277-286` `isComment`. -/
def isComment : List Char → Bool
  | ';' :: _ => true
  | '/' :: '/' :: _ => true
  | _ => false

/-- `Tokenizer.cpp:300-302` `isBlockCommentEnd`, searched from a position to the end of the line: what is left behind it. -/
def blockEnd : List Char → Option (List Char)
  | '*' :: '/' :: l => some l
  | _ :: l => blockEnd l
  | [] => none

/-- `Tokenizer.cpp:314-331` the loop that looks for the end of a block comment; `none` if the file ends before. -/
def skipBlock (cur : List Char) : List (List Char) → Option (List Char × List (List Char))
  | [] => (blockEnd cur).map fun l => (l, [])
  | next :: rest =>
    match blockEnd cur with
    | some l => some (l, next :: rest)
    | none => skipBlock next rest

/-- How much is left to read. -/
def size (cur : List Char) (rest : List (List Char)) : Nat := cur.length + (rest.map fun l => l.length + 1).sum

/-- `Tokenizer.cpp:304-338` `skipWhitespace`: what is left of the line, the lines left, and whether an error token was added. The first
argument bounds the number of rounds (`size` is enough). -/
def skip : Nat → List Char → List (List Char) → List Char × List (List Char) × Bool
  | 0, cur, rest => (cur, rest, false)
  | n + 1, cur, rest =>
    if isComment cur then ([], rest, false)
    else
      match cur with
      | '/' :: '*' :: l =>
        match skipBlock l rest with
        | some (l, rest) => skip n l rest
        | none => ([], [], true)
      | c :: l => if isBlank c then skip n l rest else (c :: l, rest, false)
      | [] => ([], rest, false)

/-- `Tokenizer.cpp:409-519` `parseOperator`: the token and what is left. -/
def parseOperator : List Char → Option (Tok × List Char)
  | '(' :: l => some (.lparen, l)
  | ')' :: l => some (.rparen, l)
  | '+' :: l => some (.plus, l)
  | '-' :: l => some (.minus, l)
  | '*' :: l => some (.mult, l)
  | '/' :: l => some (.div, l)
  | '%' :: l => some (.mod, l)
  | '^' :: l => some (.caret, l)
  | '~' :: l => some (.tilde, l)
  | '<' :: '<' :: l => some (.leftShift, l)
  | '<' :: '=' :: l => some (.lessEqual, l)
  | '<' :: l => some (.less, l)
  | '>' :: '>' :: l => some (.rightShift, l)
  | '>' :: '=' :: l => some (.greaterEqual, l)
  | '>' :: l => some (.greater, l)
  | '=' :: '=' :: l => some (.equal, l)
  | '=' :: l => some (.assign, l)
  | '!' :: '=' :: l => some (.notEqual, l)
  | '!' :: l => some (.exclamation, l)
  | '&' :: '&' :: l => some (.logAnd, l)
  | '&' :: l => some (.bitAnd, l)
  | '|' :: '|' :: l => some (.logOr, l)
  | '|' :: l => some (.bitOr, l)
  | '?' :: l => some (.question, l)
  | ':' :: ':' :: l => some (.separator, l)
  | ':' :: l => some (.colon, l)
  | ',' :: l => some (.comma, l)
  | '[' :: l => some (.lbrack, l)
  | ']' :: l => some (.rbrack, l)
  | '#' :: l => some (.hash, l)
  | '{' :: l => some (.lbrace, l)
  | '}' :: l => some (.rbrace, l)
  | '$' :: l => some (.dollar, l)
  | 'Â' :: '°' :: l => some (.degree, l)
  | _ => none

/-- `currentLine[i]` from a position on: the terminating zero stands at the end, and further out is undefined. -/
def charAt (l : List Char) (i : Nat) : Option Nat :=
  if i < l.length then (l[i]?).map Char.toNat else if i = l.length then some 0 else none

/-- `Tokenizer.cpp:20-32`: how many further bytes belong to the character, and what the first byte contributes. A `char` is signed. -/
def leadByte (b : Nat) : Nat × Nat :=
  if b / 32 = 6 then (1, b % 32) else if b / 16 = 14 then (2, b % 16) else if b < 128 then (0, b) else (0, 2 ^ 32 - 256 + b)

/-- `Tokenizer.cpp:16-39` `decodeUtf8Character`: the character and the number of its bytes. -/
def decodeUtf8 (l : List Char) : Option (Nat × Nat) := do
  let b ← charAt l 0
  match leadByte b with
  | (1, v) => do
    let b1 ← charAt l 1
    some (v * 64 + b1 % 64, 2)
  | (2, v) => do
    let b1 ← charAt l 1
    let b2 ← charAt l 2
    some ((v * 64 + b1 % 64) * 64 + b2 % 64, 3)
  | (_, v) => some (v, 1)

/-- `Tokenizer.cpp:585-617` the text of a string constant and what is left behind it; `none` if it is not closed. -/
def stringBody : List Char → Option (List Char × List Char)
  | [] => none
  | '\\' :: '"' :: l => (stringBody l).map fun r => ('"' :: r.1, r.2)
  | '\\' :: '\\' :: l => (stringBody l).map fun r => ('\\' :: r.1, r.2)
  | '"' :: l => some ([], l)
  | c :: l => (stringBody l).map fun r => (c :: r.1, r.2)

/-- `isdigit`. -/
def isDigit (c : Char) : Bool := 48 ≤ c.toNat && c.toNat ≤ 57
/-- `isalnum` in the C locale. -/
def isAlnum (c : Char) : Bool := isDigit c || (65 ≤ c.toNat && c.toNat ≤ 90) || (97 ≤ c.toNat && c.toNat ≤ 122)
/-- `tolower(c) == x` for a lower-case letter `x`. -/
def isLetter (x : Char) (c : Char) : Bool := c.toNat == x.toNat || c.toNat + 32 == x.toNat

/-- The flags of the loop in `Tokenizer.cpp:630-670`. -/
structure NumFlags where
  valid : Bool := true
  point : Bool := false
  exp : Bool := false
  expSign : Bool := false
  hex : Bool := false
  deriving DecidableEq, Repr

/-- `Tokenizer.cpp:641-667` the loop that finds the end of a number: how many characters it has, and the flags. -/
def scanNumber : NumFlags → List Char → Nat × NumFlags
  | f, [] => (0, f)
  | f, [c] =>
    if isAlnum c || c == '.' then
      if c == '.' then (1, { f with valid := f.valid && !(f.exp || f.point), point := true })
      else if isLetter 'h' c && !f.expSign then (1, { f with hex := true })
      else if isLetter 'e' c && !f.hex then (1, { f with valid := f.valid && !f.exp, exp := true })
      else (1, f)
    else (0, f)
  | f, c :: d :: l =>
    if isAlnum c || c == '.' then
      if c == '.' then
        let r := scanNumber { f with valid := f.valid && !(f.exp || f.point), point := true } (d :: l)
        (r.1 + 1, r.2)
      else if isLetter 'h' c && !f.expSign then
        let r := scanNumber { f with hex := true } (d :: l)
        (r.1 + 1, r.2)
      else if isLetter 'e' c && !f.hex then
        if f.exp then
          let r := scanNumber { f with valid := false } (d :: l)
          (r.1 + 1, r.2)
        else if d == '+' || d == '-' then
          let ok := l.head?.any isAlnum
          let r := scanNumber { f with valid := f.valid && ok, expSign := true, exp := true } l
          (r.1 + 2, r.2)
        else
          let r := scanNumber { f with exp := true } (d :: l)
          (r.1 + 1, r.2)
      else
        let r := scanNumber f (d :: l)
        (r.1 + 1, r.2)
    else (0, f)

/-- `Tokenizer.cpp:639` the first value of `isHex`. -/
def hexPrefixed : List Char → Bool
  | '0' :: x :: _ => isLetter 'x' x
  | _ => false

/-- `Tokenizer.cpp:630-694` a number: the token and what is left. -/
def loadNumber (strtod : List Char → Option F64) (cur : List Char) : Option (Tok × List Char) :=
  let r := scanNumber { hex := hexPrefixed cur } cur
  let text := cur.take r.1
  let left := cur.drop r.1
  if !(r.2.point || (r.2.exp && !r.2.hex)) then
    match StrInt.stringToInt cur 0 r.1 with
    | .ub => none
    | .reject => some (.numberString (bytes text), left)
    | .ok v _ => some (.int v.toInt, left)
  else if !r.2.valid then some (.invalid, left)
  else
    match strtod text with
    | none => some (.numberString (bytes text), left)
    | some v => some (.float v, left)

/-- `SymbolTable.cpp:139-146` `isValidSymbolCharacter`. -/
def isSymbol (c : Char) (first : Bool) : Bool := SymTab.isValidSymbolCharacter (BitVec.ofNat 8 c.toNat) first

/-- `Tokenizer.cpp:697-703` the characters of an identifier. -/
def identText : List Char → List Char
  | [] => []
  | c :: l => if isSymbol c true then c :: l.takeWhile (isSymbol · false) else []

/-- `Tokenizer.cpp:552-561` the value of an equ: all up to a comment. -/
def equText : List Char → List Char
  | [] => []
  | c :: l => if isComment (c :: l) then [] else c :: equText l

/-- `Tokenizer.cpp:541-735` `loadToken` at a position inside the line: the token, what is left, and `equActive`. `Tokenizer.cpp:571-581` is the
case of a character constant. -/
def loadToken (strtod : List Char → Option F64) (equ : Bool) (cur : List Char) : Option (Tok × List Char × Bool) :=
  if equ then some (.equValue (bytes (equText cur)), cur.drop (equText cur).length, false)
  else
    match parseOperator cur with
    | some (t, l) => some (t, l, false)
    | none =>
      let other : Option (Tok × List Char × Bool) :=
        match cur with
        | '"' :: l =>
          match stringBody l with
          | some (text, l) => some (.str (bytes text), l, false)
          | none => some (.invalid, [], false)
        | [] => none
        | c :: l =>
          if isDigit c then (loadNumber strtod (c :: l)).map fun r => (r.1, r.2, false)
          else
            match identText (c :: l) with
            | [] => (decodeUtf8 (c :: l)).map fun r => (.invalid, (c :: l).drop r.2, false)
            | text =>
              let name := (bytes text).map lower
              if name = lit "equ" then some (.equ, (c :: l).drop text.length, true)
              else some (.ident name, (c :: l).drop text.length, false)
      match cur with
      | '\'' :: l =>
        match decodeUtf8 l with
        | none => none
        | some (v, k) =>
          match charAt l k with
          | none => none
          | some q => if q = 39 then some (.int v, l.drop (k + 1), false) else other
      | _ => other

/-- What comes of a text. `more` tells that the bound on the rounds was not enough. -/
inductive Result
  | more
  | ub
  | ok (ts : List Tok)
  deriving DecidableEq, Repr

/-- Tokens in front of a result. -/
def Result.after (ts : List Tok) : Result → Result
  | .ok r => .ok (ts ++ r)
  | r => r

/-- `Tokenizer.cpp:770-785` the end of a round: a separator at the end of the line (unless it is continued), then the next line. `again` is the
next round; `ts` are the tokens of this one. -/
def finish (again : Bool → List Char → List (List Char) → Result) (equ sep : Bool) (cur : List Char) (rest : List (List Char))
    (ts : List Tok) : Result :=
  if cur.isEmpty then
    match rest with
    | [] => .ok (if sep then ts ++ [.separator] else ts)
    | l :: rest => (again equ l rest).after (if sep then ts ++ [.separator] else ts)
  else (again equ cur rest).after ts

/-- `Tokenizer.cpp:752-785` a round behind its first `skipWhitespace`, which had the result `s`. -/
def round (strtod : List Char → Option F64) (again : Bool → List Char → List (List Char) → Result) (equ : Bool)
    (s : List Char × List (List Char) × Bool) : Result :=
  let bad : List Tok := if s.2.2 then [.invalid] else []
  match s.1 with
  | [] => finish again equ true [] s.2.1 bad
  | '\\' :: l =>
    let s' := skip (size l s.2.1 + 1) l s.2.1
    finish again equ false s'.1 s'.2.1 (bad ++ (if s'.2.2 then [.invalid] else []) ++ (if s'.1.isEmpty then [] else [.invalid]))
  | c :: l =>
    match loadToken strtod equ (c :: l) with
    | none => .ub
    | some (t, l, equ) => finish again equ true l s.2.1 (bad ++ [t])

/-- `Tokenizer.cpp:746-787` the loop of `init`. The first argument bounds the number of rounds. -/
def loop (strtod : List Char → Option F64) : Nat → Bool → List Char → List (List Char) → Result
  | 0, _, _, _ => .more
  | n + 1, equ, cur, rest =>
    if cur.isEmpty && rest.isEmpty then .ok []
    else round strtod (loop strtod n) equ (skip (size cur rest + 1) cur rest)

/-- `Tokenizer.cpp:737-793` `init` on the lines of a text (a text has at least one line). -/
def tokenize (strtod : List Char → Option F64) : List (List Char) → Result
  | [] => .ok []
  | l :: rest => loop strtod (size l rest + 2) false l rest

end Armips.Tokenizer
