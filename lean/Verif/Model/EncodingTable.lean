import Verif.Spec.Bytes
/-!
# Text encoding tables

Models `Util/EncodingTable.{h,cpp}`. A `std::string` is a list of bytes; C strings end at the first NUL. The
`std::map` from (node, character) to node is a partial function. Out-of-range vector or array accesses are the
outcome `none`.
-/
namespace Armips.Table
open Armips

/-- `c_str()` seen through a `char*`: the characters before the first NUL. -/
def cstr (s : List Byte) : List Byte := s.takeWhile (· ≠ 0#8)

/-- `EncodingTable.h` `Trie::Node` (the stored index equals the position and is omitted): the value if any. -/
structure Trie where
  /-- number of nodes -/
  count : Nat
  /-- `hasValue`/`value` of each node -/
  value : Nat → Option Nat
  /-- `lookup` -/
  next : Nat → Byte → Option Nat

namespace Trie

/-- `EncodingTable.cpp:8-12` constructor: only the root node. -/
def empty : Trie := ⟨1, fun _ => none, fun _ _ => none⟩

/-- `EncodingTable.cpp:18-28` the first loop of `insert`: follow existing edges. Returns node and rest. -/
def walkExisting (t : Trie) : Nat → List Byte → Nat × List Byte
  | node, [] => (node, [])
  | node, c :: cs =>
    match t.next node c with
    | none => (node, c :: cs)
    | some n => walkExisting t n cs

/-- `EncodingTable.cpp:33-38` one iteration of the second loop of `insert`: a new node below `node`. -/
def addNode (t : Trie) (node : Nat) (c : Byte) : Trie :=
  { count := t.count + 1
    value := fun n => if n = t.count then none else t.value n
    next := fun n d => if n = node ∧ d = c then some t.count else t.next n d }

/-- `EncodingTable.cpp:31-40` the second loop of `insert`. -/
def addNodes (t : Trie) : Nat → List Byte → Trie × Nat
  | node, [] => (t, node)
  | node, c :: cs => addNodes (t.addNode node c) t.count cs

/-- `EncodingTable.cpp:14-45` `Trie::insert` on a C string. -/
def insert (t : Trie) (text : List Byte) (v : Nat) : Trie :=
  let (node, rest) := t.walkExisting 0 text
  let (t, node) := t.addNodes node rest
  { t with value := fun n => if n = node then some v else t.value n }

/-- `EncodingTable.cpp:52-68` the loop of `findLongestPrefix` and the final check; returns the value node. -/
def findLoop (t : Trie) : Nat → Nat → List Byte → Nat
  | node, valueNode, [] => if (t.value node).isSome then node else valueNode
  | node, valueNode, c :: cs =>
    let valueNode := if (t.value node).isSome then node else valueNode
    match t.next node c with
    | none => valueNode
    | some n => findLoop t n valueNode cs

/-- `EncodingTable.cpp:47-71` `findLongestPrefix` on a C string. -/
def findLongestPrefix (t : Trie) (text : List Byte) : Option Nat := t.value (t.findLoop 0 0 text)

end Trie

/-- `EncodingTable.h` `TableEntry`. -/
structure Entry where
  hexPos : Nat
  hexLen : Nat
  valueLen : Nat
  deriving Repr, DecidableEq

/-- `EncodingTable.h` `EncodingTable`; `hexData` is used as an append-only byte list (see `Verif.Model.ByteArray`). -/
structure Tbl where
  hexData : List Byte
  entries : List Entry
  lookup : Trie
  termination : Entry

/-- A freshly constructed table. The termination entry is uninitialised in C++ until `load`; it is empty here. -/
def Tbl.empty : Tbl := ⟨[], [], .empty, ⟨0, 0, 0⟩⟩

/-- `EncodingTable.cpp:77-81` `clear`: the trie is not cleared. -/
def Tbl.clear (t : Tbl) : Tbl := { t with hexData := [], entries := [] }

/-- `EncodingTable.cpp:169-185` `addEntry`. -/
def Tbl.addEntry (t : Tbl) (hex value : List Byte) : Tbl :=
  if value.length = 0 then t
  else
    { t with
      lookup := t.lookup.insert (cstr value) t.entries.length
      hexData := t.hexData ++ hex
      entries := t.entries ++ [⟨t.hexData.length, hex.length, value.length⟩] }

/-- `EncodingTable.cpp:187-192` `setTerminationEntry`. -/
def Tbl.setTermination (t : Tbl) (hex : List Byte) : Tbl :=
  { t with hexData := t.hexData ++ hex, termination := ⟨t.hexData.length, hex.length, 0⟩ }

/-- `EncodingTable.cpp:206-209` copying the bytes of an entry. -/
def Tbl.entryBytes (t : Tbl) (e : Entry) : Option (List Byte) :=
  if e.hexLen = 0 ∨ e.hexPos + e.hexLen ≤ t.hexData.length then some ((t.hexData.drop e.hexPos).take e.hexLen) else none

/-- Result of the encoding loop. -/
inductive Enc
  /-- undefined behaviour: entry or data index out of range -/
  | ub
  /-- `return ByteArray()` after a failed lookup -/
  | fail
  | ok (bytes : List Byte)
  deriving DecidableEq, Repr

/-- `EncodingTable.cpp:198-213` the loop of `encodeString` on the remaining text; `fuel` bounds the iterations (the
theorems use the length of the text, which suffices because every entry consumes at least one character). -/
def Tbl.encodeLoop (t : Tbl) : Nat → List Byte → List Byte → Enc
  | _, [], acc => .ok acc
  | 0, _ :: _, _ => .ub
  | fuel + 1, s@(_ :: _), acc =>
    match t.lookup.findLongestPrefix (cstr s) with
    | none => .fail
    | some index =>
      match t.entries[index]? with
      | none => .ub
      | some e =>
        match t.entryBytes e with
        | none => .ub
        | some b => t.encodeLoop fuel (s.drop e.valueLen) (acc ++ b)

/-- `EncodingTable.cpp:194-225` `encodeString`. -/
def Tbl.encodeString (t : Tbl) (str : List Byte) (writeTermination : Bool) : Enc :=
  match t.encodeLoop str.length str [] with
  | .ok b =>
    if writeTermination then
      match t.entryBytes t.termination with
      | none => .ub
      | some x => .ok (b ++ x)
    else .ok b
  | r => r

/-- `EncodingTable.cpp:87-99` the value of one hexadecimal digit. -/
def hexDigit (c : Byte) : Option Nat :=
  let n := c.toNat
  let n := if 65 ≤ n ∧ n ≤ 90 then n + 32 else n
  if 97 ≤ n ∧ n ≤ 102 then some (n - 97 + 10)
  else if 48 ≤ n ∧ n ≤ 57 then some (n - 48)
  else none

/-- `EncodingTable.cpp:83-108` `parseHexString`: `none` for the return value -1, otherwise the first `size/2` bytes of
the destination (a trailing odd digit is written behind them and dropped by the caller). -/
def parseHexString : List Byte → Option (List Byte)
  | [] => some []
  | [a] => (hexDigit a).map fun _ => []
  | a :: b :: rest => do
    let x ← hexDigit a
    let y ← hexDigit b
    let r ← parseHexString rest
    pure (BitVec.ofNat 8 (x <<< 4 ||| y) :: r)

/-- `EncodingTable.cpp:121-164` one line of a table file. A missing `=` makes both parts the whole line, because
`find` returns `npos` and `npos + 1` is 0. -/
def Tbl.loadLine (t : Tbl) (line : List Byte) : Tbl :=
  match line with
  | [] => t
  | c :: rest =>
    if c = 0x2A#8 then t            -- '*'
    else if c = 0x2F#8 then         -- '/'
      if rest.length = 0 ∨ rest.length > 64 then t
      else match parseHexString rest with
        | none => t
        | some hex => t.setTermination hex
    else
      let hex := line.takeWhile (· ≠ 0x3D#8)
      let value := if 0x3D#8 ∈ line then line.drop (hex.length + 1) else line
      if hex.length = 0 ∨ value.length = 0 ∨ hex.length > 64 then t
      else match parseHexString hex with
        | none => t
        | some hex => t.addEntry hex value

/-- `EncodingTable.cpp:110-167` `load` of an opened file with the given lines. -/
def Tbl.load (t : Tbl) (lines : List (List Byte)) : Tbl :=
  lines.foldl Tbl.loadLine ({ t with hexData := [], entries := [] }.setTermination [0#8])

end Armips.Table
