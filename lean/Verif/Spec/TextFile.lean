import Verif.Model.TextFile
/-!
# Texts, their encodings, lines
-/
namespace Armips.Spec.Text
open TextFile (Enc)

/-- UTF-8 of the characters below 0x10000. -/
def utf8 (c : Nat) : List Nat :=
  if c < 0x80 then [c] else if c < 0x800 then [0xC0 + c / 64, 0x80 + c % 64] else [0xE0 + c / 4096, 0x80 + c / 64 % 64, 0x80 + c % 64]

/-- The bytes spell the character. The meaning of the two-byte codes of Shift-JIS is a parameter. -/
inductive Spells (sj : Nat → Option Nat) : Enc → List Nat → Nat → Prop
  | utf8 {c} : c < 0x10000 → Spells sj .utf8 (utf8 c) c
  | utf16le {c} : c < 0x10000 → Spells sj .utf16le [c % 256, c / 256] c
  | utf16be {c} : c < 0x10000 → Spells sj .utf16be [c / 256, c % 256] c
  | sjis1 {c} : c < 0x80 → Spells sj .sjis [c] c
  | sjis2 {hi lo c} : 0x80 ≤ hi → hi < 256 → lo < 256 → sj (hi * 256 + lo) = some c → c < 0x10000 → Spells sj .sjis [hi, lo] c

/-- The bytes spell the text. -/
inductive SpellsText (sj : Nat → Option Nat) (e : Enc) : List Nat → List Nat → Prop
  | nil : SpellsText sj e [] []
  | cons {b bs c cs} : Spells sj e b c → SpellsText sj e bs cs → SpellsText sj e (b ++ bs) (c :: cs)

/-- Every CR LF is replaced by LF. -/
def normalise : List Nat → List Nat
  | 13 :: 10 :: t => 10 :: normalise t
  | c :: t => c :: normalise t
  | [] => []

/-- There is no CR without an LF after it, except at the end. -/
def NoLoneCR (text : List Nat) : Prop := ∀ a c b, text = a ++ 13 :: c :: b → c = 10

/-- The text consists of these lines: every line ends with LF, only the last one need not have it. -/
def HasLines (text : List Nat) (lines : List (List Nat)) : Prop :=
  (∀ l ∈ lines, 10 ∉ l) ∧
    (lines.flatMap (fun l => l ++ [10]) = text ∨ (text.getLast?.any (· ≠ 10) = true ∧ lines.flatMap (fun l => l ++ [10]) = text ++ [10]))

/-- The byte order mark of an encoding. -/
def mark : Enc → List Nat
  | .utf8 => [0xEF, 0xBB, 0xBF]
  | .utf16le => [0xFF, 0xFE]
  | .utf16be => [0xFE, 0xFF]
  | _ => []

end Armips.Spec.Text
