import Verif.Spec.Literal
import Verif.Model.ExprParse
/-!
# How a text is written

The lexical rules of the assembly language: operators, names, numbers, strings, blanks, comments and line ends. The only thing taken from the
model is the type of tokens.
-/
namespace Armips.Spec.Tokenizer
open Armips.ExprParse (Tok)

/-- The bytes of a text. A text is a list of characters with codes below 256, one for each byte. -/
def asBytes (l : List Char) : Str := l.map fun c => BitVec.ofNat 8 c.toNat
/-- The text with given bytes. -/
def asText (s : Str) : List Char := s.map fun b => Char.ofNat b.toNat

/-- All operators. The last one is the degree sign in UTF-8. -/
def operators : List (List Char × Tok) :=
  [(['('], .lparen), ([')'], .rparen), (['+'], .plus), (['-'], .minus), (['*'], .mult), (['/'], .div), (['%'], .mod), (['^'], .caret),
   (['~'], .tilde), (['<', '<'], .leftShift), (['>', '>'], .rightShift), (['<'], .less), (['>'], .greater), (['<', '='], .lessEqual),
   (['>', '='], .greaterEqual), (['=', '='], .equal), (['!', '='], .notEqual), (['&'], .bitAnd), (['|'], .bitOr), (['&', '&'], .logAnd),
   (['|', '|'], .logOr), (['!'], .exclamation), (['?'], .question), ([':'], .colon), (['['], .lbrack), ([']'], .rbrack), ([','], .comma),
   (['='], .assign), (['#'], .hash), (['{'], .lbrace), (['}'], .rbrace), (['$'], .dollar), ([':', ':'], .separator),
   ([Char.ofNat 0xC2, Char.ofNat 0xB0], .degree)]

/-- What a longer mark could begin with: the operators and the beginnings of comments. -/
def marks : List (List Char) := operators.map (·.1) ++ [['/', '/'], ['/', '*']]

/-- A character that can begin a name. -/
def Begins (c : Char) : Prop := c.isAlpha = true ∨ c = '_' ∨ c = '.' ∨ c = '@'
/-- A character that can go on with a name. -/
def GoesOn (c : Char) : Prop := Begins c ∨ c.isDigit = true
/-- A name. -/
def Name : List Char → Prop
  | [] => False
  | c :: l => Begins c ∧ ∀ x ∈ l, GoesOn x

/-- Decimal digits. -/
def Decimal (l : List Char) : Prop := l ≠ [] ∧ ∀ c ∈ l, c.isDigit = true

/-- A number with a fraction or an exponent. -/
inductive Floating : List Char → Prop
  | point {a b} : Decimal a → (b = [] ∨ Decimal b) → Floating (a ++ '.' :: b)
  | pointExp {a b s x e} : Decimal a → (b = [] ∨ Decimal b) → (x = 'e' ∨ x = 'E') → (s = [] ∨ s = ['+'] ∨ s = ['-']) → Decimal e →
      Floating (a ++ '.' :: b ++ x :: s ++ e)
  | exp {a s x e} : Decimal a → (x = 'e' ∨ x = 'E') → (s = [] ∨ s = ['+'] ∨ s = ['-']) → Decimal e → Floating (a ++ x :: s ++ e)

/-- What stands between the quotation marks, and which text is meant: a backslash protects a quotation mark or a backslash. -/
inductive Quoted : List Char → List Char → Prop
  | nil : Quoted [] []
  | quote {t m} : Quoted t m → Quoted ('\\' :: '"' :: t) ('"' :: m)
  | back {t m} : Quoted t m → Quoted ('\\' :: '\\' :: t) ('\\' :: m)
  | plain {c t m} : c ≠ '"' → c ≠ '\\' → Quoted t m → Quoted (c :: t) (c :: m)
  | lone {c t m} : c ≠ '"' → c ≠ '\\' → Quoted t m → Quoted ('\\' :: c :: t) ('\\' :: c :: m)

/-- The bytes of a character in UTF-8, for characters with at most three bytes. -/
def utf8 (n : Nat) : List Char :=
  if n < 0x80 then [Char.ofNat n]
  else if n < 0x800 then [Char.ofNat (0xC0 + n / 64), Char.ofNat (0x80 + n % 64)]
  else [Char.ofNat (0xE0 + n / 4096), Char.ofNat (0x80 + n / 64 % 64), Char.ofNat (0x80 + n % 64)]

/-- The next character is none of these. -/
def Before (l : List Char) (p : Char → Prop) : Prop := ∀ c, l.head? = some c → c.toNat < 256 ∧ ¬ p c

/-- `Spells t s l`: the text `s` writes the token `t` if `l` follows it. `strtod` gives the values of numbers with a fraction. -/
inductive Spells (strtod : List Char → Option F64) : Tok → List Char → List Char → Prop
  /-- an operator, if no longer one stands here -/
  | operator {s t l} : (s, t) ∈ operators → (∀ m ∈ marks, s.length < m.length → ¬ m <+: s ++ l) → Spells strtod t s l
  /-- a name other than `equ`; capital letters do not matter -/
  | name {s l} : Name s → s.map Char.toLower ≠ ['e', 'q', 'u'] → Before l GoesOn → Spells strtod (.ident (asBytes (s.map Char.toLower))) s l
  | integer {s : List Char} {n : Nat} {l} : (∃ c, s.head? = some c ∧ c.isDigit = true) → Denotes s n → n < 2 ^ 63 →
      Before l (fun c => c.isAlphanum = true ∨ c = '.') → Spells strtod (.int n) s l
  | floating {s v l} : Floating s → strtod s = some v → Before l (fun c => c.isAlphanum = true ∨ c = '.') → Spells strtod (.float v) s l
  | string {t m l} : Quoted t m → Spells strtod (.str (asBytes m)) ('"' :: t ++ ['"']) l
  | character {n : Nat} {l} : n < 0x10000 → Spells strtod (.int n) ('\'' :: utf8 n ++ ['\'']) l

/-- The end of a block comment does not begin in this text. -/
def NoEnd (b : List Char) : Prop := ¬ ['*', '/'] <:+: b

/-- `Behind b rest l rest'`: inside of a block comment, with `b` left of the line and `rest` the lines to come, the comment ends before `l` and
the lines `rest'`. -/
inductive Behind : List Char → List (List Char) → List Char → List (List Char) → Prop
  | here {b l rest} : NoEnd (b ++ ['*']) → Behind (b ++ '*' :: '/' :: l) rest l rest
  | later {b next rest l rest'} : NoEnd b → Behind next rest l rest' → Behind b (next :: rest) l rest'

/-- Blanks and comments up to the end of a line: `Gap l rest rest'` leads to the end of a line with the lines `rest'` to come. -/
inductive Gap : List Char → List (List Char) → List (List Char) → Prop
  | nil {rest} : Gap [] rest rest
  | blank {c l rest rest'} : c = ' ' ∨ c = '\t' → Gap l rest rest' → Gap (c :: l) rest rest'
  | comment {m l rest} : m = [';'] ∨ m = ['/', '/'] → Gap (m ++ l) rest rest
  | block {b rest l rest' rest''} : Behind b rest l rest' → Gap l rest' rest'' → Gap ('/' :: '*' :: b) rest rest''

mutual
/-- `Reads l rest ts`: the rest `l` of a line and the lines `rest` after it hold the tokens `ts`. Each line ends with a separator, unless a
backslash continues it. -/
inductive Reads (strtod : List Char → Option F64) : List Char → List (List Char) → List Tok → Prop
  | last : Reads strtod [] [] [.separator]
  | next {l rest ts} : ReadsLine strtod l rest ts → Reads strtod [] (l :: rest) (.separator :: ts)
  | blank {c l rest ts} : c = ' ' ∨ c = '\t' → Reads strtod l rest ts → Reads strtod (c :: l) rest ts
  | comment {m l rest ts} : m = [';'] ∨ m = ['/', '/'] → Reads strtod [] rest ts → Reads strtod (m ++ l) rest ts
  | block {b rest l rest' ts} : Behind b rest l rest' → Reads strtod l rest' ts → Reads strtod ('/' :: '*' :: b) rest ts
  | token {t s l rest ts} : Spells strtod t s l → Reads strtod l rest ts → Reads strtod (s ++ l) rest (t :: ts)
  /-- an `equ`: the value are all characters up to a comment or the end of the line, without the blanks in front -/
  | equ {s g v l rest ts} : s.map Char.toLower = ['e', 'q', 'u'] → (g ≠ [] ∧ ∀ c ∈ g, c = ' ' ∨ c = '\t') →
      (∃ c v', v = c :: v' ∧ c ≠ ' ' ∧ c ≠ '\t' ∧ c ≠ '\\') → ¬ ['/', '*'] <+: v ++ l →
      (∀ a b, v = a ++ b → b ≠ [] → ¬ [';'] <+: b ++ l ∧ ¬ ['/', '/'] <+: b ++ l) → (l = [] ∨ [';'] <+: l ∨ ['/', '/'] <+: l) →
      Reads strtod [] rest ts → Reads strtod (s ++ g ++ v ++ l) rest (.equ :: .equValue (asBytes v) :: ts)
  | continued {l rest l' rest' ts} : Gap l rest (l' :: rest') → ReadsLine strtod l' rest' ts → Reads strtod ('\\' :: l) rest ts
  | continuedLast {l rest} : Gap l rest [] → Reads strtod ('\\' :: l) rest []
/-- The same from the beginning of a line on. An empty last line does not count. -/
inductive ReadsLine (strtod : List Char → Option F64) : List Char → List (List Char) → List Tok → Prop
  | empty : ReadsLine strtod [] [] []
  | line {l rest ts} : (l ≠ [] ∨ rest ≠ []) → Reads strtod l rest ts → ReadsLine strtod l rest ts
end

/-- The lines of a text hold these tokens. -/
def Holds (strtod : List Char → Option F64) : List (List Char) → List Tok → Prop
  | [], _ => False
  | l :: rest, ts => ReadsLine strtod l rest ts

/-- A name as it is kept: small letters, digits, `_`, `.` and `@`, without a digit in front. -/
def KeptName (n : Str) : Prop :=
  n ≠ [] ∧ (∀ b ∈ n, (97 ≤ b.toNat ∧ b.toNat ≤ 122) ∨ (48 ≤ b.toNat ∧ b.toNat ≤ 57) ∨ b.toNat = 95 ∨ b.toNat = 46 ∨ b.toNat = 64) ∧
    ∀ b, n.head? = some b → ¬(48 ≤ b.toNat ∧ b.toNat ≤ 57)

/-- Expressions that have a text: numbers are integers that are not negative, strings contain no quotation mark and no backslash, names are
kept names and there are no calls. -/
def Printable : Expr → Prop
  | .invalid => False
  | .int v => 0 ≤ v ∧ v < 2 ^ 63
  | .float _ => False
  | .ident n _ _ => KeptName n ∧ n ≠ lit "equ"
  | .str s => ∀ b ∈ s, b.toNat ≠ 0x22 ∧ b.toNat ≠ 0x5C
  | .memoryPos => True
  | .un _ a => Printable a
  | .bin _ a b => Printable a ∧ Printable b
  | .cond a b c => Printable a ∧ Printable b ∧ Printable c
  | .toString_ a => Printable a
  | .call _ _ => False

end Armips.Spec.Tokenizer
