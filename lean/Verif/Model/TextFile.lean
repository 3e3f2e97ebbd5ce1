import Verif.Model.Utf8
/-!
# Text files

Models `Util/FileClasses.{h,cpp}` (`TextFile`). Bytes are natural numbers below 256, characters are natural numbers (`char32_t`).

* A file on disk is read through `std::fstream`, of which the position and the `failbit` are modelled: a `read` that comes to the end sets it, and
  after that `read` and `seekg` do nothing.
* `none` is an access past the end of a `std::string`; in functions that take a number of rounds it also means that these were not enough.
* `sj` is `sjisToUnicode` (`FileClasses.cpp:607-646`) for the codes from 0x80 on; its tables are not modelled.
* Files are not changed while they are read. `CR` before `LF` on Windows (`write`) is not modelled.
-/
namespace Armips.TextFile

/-- `FileClasses.h:14` `Encoding`, without `GUESS`, which `open` replaces. -/
inductive Enc
  | ascii | utf8 | utf16le | utf16be | sjis
  deriving DecidableEq, Repr

/-- Where the text comes from: `content` of a memory file, or the bytes of a file on disk. -/
structure Src where
  mem : Bool
  bytes : List Nat

/-- The members of `TextFile` that change while reading. `buf` is the part of the buffer that is not used up yet, `spos` and `failed` belong to
`stream`, `err` tells whether `errorText` is set. -/
structure St where
  pos : Nat
  spos : Nat
  failed : Bool
  buf : List Nat
  err : Bool
  deriving DecidableEq, Repr

/-- `FileClasses.cpp:647` `TEXTFILE_BUF_MAX_SIZE`. -/
def bufMax : Nat := 4096

/-- `FileClasses.cpp:791-799` `bufFillRead`. -/
def fill (f : Src) (s : St) : St :=
  if s.failed then { s with buf := [] }
  else
    let chunk := (f.bytes.drop s.spos).take bufMax
    { s with buf := chunk, spos := s.spos + chunk.length, failed := decide (chunk.length < bufMax) }

/-- `FileClasses.h:76-89` `bufGetChar`. Reading `content[content.size()]` gives 0, reading beyond is undefined. -/
def get (f : Src) (s : St) : Option (Nat × St) :=
  if f.mem then
    if s.pos ≤ f.bytes.length then some (f.bytes.getD s.pos 0, { s with pos := s.pos + 1 }) else none
  else
    let s := if s.buf = [] then fill f s else s
    match s.buf with
    | [] => some (0, s)
    | b :: t => some (b, { s with pos := s.pos + 1, buf := t })

/-- `FileClasses.cpp:825-834` the loop over the further bytes of a UTF-8 character. -/
def more (f : Src) : Nat → Nat → St → Option (Nat × St)
  | 0, v, s => some (v, s)
  | n + 1, v, s => (get f s).bind fun p =>
    more f n ((v <<< 6) ||| (p.1 &&& 0x3F)) (if p.1 &&& 0xC0 != 0x80 then { p.2 with err := true } else p.2)

/-- `FileClasses.cpp:801-864` `readCharacter` without the treatment of `CR`. `char32_t` does not overflow here. -/
def raw (sj : Nat → Option Nat) (f : Src) (e : Enc) (s : St) : Option (Nat × St) :=
  match e with
  | .utf8 => (get f s).bind fun p =>
    if p.1 &&& 0xE0 = 0xC0 then more f 1 (p.1 &&& 0x1F) p.2
    else if p.1 &&& 0xF0 = 0xE0 then more f 2 (p.1 &&& 0x0F) p.2
    else some (p.1, if p.1 > 0x7F then { p.2 with err := true } else p.2)
  | .utf16le => (get f s).bind fun p => (get f p.2).bind fun q => some (p.1 ||| (q.1 <<< 8), q.2)
  | .utf16be => (get f s).bind fun p => (get f p.2).bind fun q => some (q.1 ||| (p.1 <<< 8), q.2)
  | .sjis => (get f s).bind fun p =>
    if p.1 < 0x80 then some (p.1, p.2)
    else (get f p.2).bind fun q =>
      match sj ((p.1 <<< 8) ||| q.1) with
      | some u => some (u, q.2)
      | none => some (0, { q.2 with err := true })
  | .ascii => (get f s).bind fun p => some (p.1, { p.2 with pos := p.2.pos + 1 })

/-- `FileClasses.h:23` `atEnd` of an open file in mode `Read`. -/
def atEnd (f : Src) (s : St) : Bool := decide (f.bytes.length ≤ s.pos)

/-- `FileClasses.cpp:783-789` `seek`. -/
def seek (f : Src) (p : Nat) (s : St) : St :=
  if f.mem then { s with pos := p } else if s.failed then s else { s with spos := p }

/-- `FileClasses.cpp:801-879` `readCharacter`. -/
def readCharacter (sj : Nat → Option Nat) (f : Src) (e : Enc) (s : St) : Option (Nat × St) :=
  (raw sj f e s).bind fun p =>
    if p.1 = 13 ∧ atEnd f p.2 = false then
      (raw sj f e p.2).bind fun q => if q.1 = 10 then some (10, q.2) else some (p.1, seek f p.2.pos q.2)
    else some p

/-- `FileClasses.cpp:881-896` `readLine`, the characters of the line. The first argument bounds the number of characters. -/
def readLine (sj : Nat → Option Nat) (f : Src) (e : Enc) : Nat → St → Option (List Nat × St)
  | 0, _ => none
  | n + 1, s =>
    if atEnd f s then some ([], s)
    else (readCharacter sj f e s).bind fun p =>
      if p.1 = 10 then some ([], p.2) else (readLine sj f e n p.2).map fun q => (p.1 :: q.1, q.2)

/-- `FileClasses.cpp:888-891`: a line is stored in UTF-8 (`encodeUtf8`, lines 12-31, is the same as `convertUnicodeCharToUtf8`). -/
def store (line : List Nat) : List Nat := line.flatMap Utf8.encode

/-- `FileClasses.cpp:898-907` `readAll`. The first argument bounds the number of lines and their lengths. -/
def readAll (sj : Nat → Option Nat) (f : Src) (e : Enc) (n : Nat) : Nat → St → Option (List (List Nat) × St)
  | 0, _ => none
  | k + 1, s =>
    if atEnd f s then some ([], s)
    else (readLine sj f e n s).bind fun p => (readAll sj f e n k p.2).map fun q => (store p.1 :: q.1, q.2)

/-- `FileClasses.cpp:663-672` `openMemory`. -/
def openMemory (content : List Nat) : Src × Enc × St := (⟨true, content⟩, .utf8, ⟨0, 0, false, [], false⟩)

/-- `FileClasses.cpp:680-767` `open` with mode `Read`; `none` is `GUESS`. -/
def openRead (bytes : List Nat) (default : Option Enc) : Src × Enc × St :=
  let f : Src := ⟨false, bytes⟩
  let failed := decide (bytes.length < 3)
  -- `stream.read` of three bytes; then `seekg`, which has no effect after a failure
  let at_ := fun (p c : Nat) => (⟨c, if failed then bytes.length else p, failed, [], false⟩ : St)
  if bytes.getD 0 0 = 0xFE ∧ bytes.getD 1 0 = 0xFF then (f, .utf16be, at_ 2 2)
  else if bytes.getD 0 0 = 0xFF ∧ bytes.getD 1 0 = 0xFE then (f, .utf16le, at_ 2 2)
  else if bytes.getD 0 0 = 0xEF ∧ bytes.getD 1 0 = 0xBB ∧ bytes.getD 2 0 = 0xBF then (f, .utf8, at_ 3 3)
  else (f, default.getD .utf8, at_ 0 0)

/-! ### Writing -/

/-- The members that change while writing: what has reached the file, and the used part of `buf`. -/
structure Out where
  file : List Nat
  buf : List Nat

/-- `FileClasses.cpp:939-943` `bufDrainWrite`. -/
def drain (o : Out) : Out := ⟨o.file ++ o.buf, []⟩

/-- `FileClasses.cpp:929-937` `bufPut(char)`. -/
def put (o : Out) (c : Nat) : Out :=
  let o := if bufMax ≤ o.buf.length then drain o else o
  ⟨o.file, o.buf ++ [c]⟩

/-- `FileClasses.cpp:909-927` `bufPut(const void*,size_t)`. -/
def putBlock (o : Out) (p : List Nat) : Out :=
  if bufMax < p.length then ⟨(drain o).file ++ p, []⟩
  else
    let o := if bufMax < o.buf.length + p.length then drain o else o
    ⟨o.file, o.buf ++ p⟩

/-- `FileClasses.cpp:945-958` `write`: a C string, which ends before its first 0. -/
def write (o : Out) : List Nat → Out
  | [] => o
  | c :: t => if c = 0 then o else write (put o c) t

/-- `FileClasses.cpp:965-970` `writeLine`. -/
def writeLine (o : Out) (l : List Nat) : Out := put (write o l) 10

/-- `FileClasses.cpp:699-714` `open` with mode `Write`; the argument tells whether the encoding is `ASCII`. -/
def openWrite (ascii : Bool) : Out := if ascii then ⟨[], []⟩ else put (put (put ⟨[], []⟩ 0xEF) 0xBB) 0xBF

/-- `FileClasses.cpp:769-777` `close`: what the file contains then. -/
def close (o : Out) : List Nat := (drain o).file

end Armips.TextFile
