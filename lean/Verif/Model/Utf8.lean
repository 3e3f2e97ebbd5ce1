/-!
# UTF-8 encoding and decoding

Models `Util/Util.cpp` (`convertUnicodeCharToUtf8`), `Parser/Tokenizer.cpp` (`decodeUtf8Character`)
and the UTF-8 branch of `Util/FileClasses.cpp` (`TextFile::readCharacter`).

Bytes are natural numbers below 256, code points are natural numbers (`char32_t`).
-/
namespace Armips.Utf8

/-- `Util/Util.cpp:7-25` `convertUnicodeCharToUtf8`.  The C++ appends `char`s; only the low eight bits of
each expression survive the narrowing, written here as `% 256`. -/
def encode (c : Nat) : List Nat :=
  if c < 0x80 then
    [(c &&& 0x7F) % 256]
  else if c < 0x800 then
    [(0xC0 ||| ((c >>> 6) &&& 0x1F)) % 256, (0x80 ||| (c &&& 0x3F)) % 256]
  else
    [(0xE0 ||| ((c >>> 12) &&& 0xF)) % 256, (0x80 ||| ((c >>> 6) &&& 0x3F)) % 256,
     (0x80 ||| (c &&& 0x3F)) % 256]

/-- Continuation loop shared by both decoders: `Parser/Tokenizer.cpp:32-36` and
`Util/FileClasses.cpp:825-834`.  `none` when the input ends inside a character (the tokenizer would read the
terminating NUL of the `std::string` or past it; the file reader would get 0). The Boolean is the reader's
"invalid UTF-8" diagnosis (`Util/FileClasses.cpp:828-831`), which the tokenizer does not make. -/
def continuation : Nat → Nat → Bool → List Nat → Option (Nat × Bool × List Nat)
  | 0, value, bad, rest => some (value, bad, rest)
  | _ + 1, _, _, [] => none
  | n + 1, value, bad, b :: rest =>
      continuation n ((value <<< 6) ||| (b &&& 0x3F)) (bad || (b &&& 0xC0) != 0x80) rest

/-- `Util/FileClasses.cpp:805-836`, `TextFile::readCharacter` for UTF-8 (before the CR LF handling).
Result: code point, whether `errorText` was set, remaining bytes. -/
def readCharacter : List Nat → Option (Nat × Bool × List Nat)
  | [] => none
  | b :: rest =>
    if b &&& 0xE0 = 0xC0 then continuation 1 (b &&& 0x1F) false rest
    else if b &&& 0xF0 = 0xE0 then continuation 2 (b &&& 0x0F) false rest
    else some (b, decide (b > 0x7F), rest)

/-- `Parser/Tokenizer.cpp:17-39` `decodeUtf8Character`, used for character constants and error messages.
`int value = source[index++]` sign-extends a `char` above 127; the masks make that invisible for lead bytes of
two and three byte sequences, and for a stray byte the function returns the sign-extended value as
`char32_t` (`2^32 - 256 + b`). The loop does not look at the upper bits of continuation bytes. -/
def decodeTok : List Nat → Option (Nat × List Nat)
  | [] => none
  | b :: rest =>
    if b &&& 0xE0 = 0xC0 then (continuation 1 (b &&& 0x1F) false rest).map fun r => (r.1, r.2.2)
    else if b &&& 0xF0 = 0xE0 then (continuation 2 (b &&& 0x0F) false rest).map fun r => (r.1, r.2.2)
    else some (if b < 128 then b else 2 ^ 32 - 256 + b, rest)

end Armips.Utf8
