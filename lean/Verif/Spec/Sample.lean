import Verif.Model.Assembler
/-!
# Concrete programs

Used to show that hypotheses of theorems are met, and as witnesses of findings. Labels 0 to 5 are the global names `a` to
`f`; file 0 is created as `out` with header size 0x8000000, `in` exists with four bytes.
-/
namespace Armips.Sample
open Armips

def host : Host where
  add a _ := a
  sub a _ := a
  mul a _ := a
  div a _ := a
  ofInt _ := 0#64
  toInt _ := none
  round _ := none
  frac a := a
  fmt17 _ := []
  fmtG _ := []
  fmtHex _ _ := []
  regexMatch _ _ := none
  regexSearch _ _ := none
  regexGroups _ _ := none
  endianness := .little

def env : Env where
  host := host
  funcs _ _ := none
  path _ := ""
  pathStr _ := []
  thumb := false
  floatBits _ := 0
  floatBitsInt _ := 0
  sjis := Table.Tbl.empty

def key (c : Char) : SymbolKey := ⟨lit c.toString, -1, -1⟩

def names : List Char := ['a', 'b', 'c', 'd', 'e', 'f']

def syms : SymTab where
  symbols k := (names.findIdx? fun c => k = key c).map .label
  labels := names.map fun c => { name := lit c.toString, section_ := 1 }

def start : St where
  fm := {
    files := fun i => if i = 0 then FM.newFile "out" .create 0x8000000 else FM.newFile "in" .open_ 0
    disk := fun p => if p = "in" then some [1#8, 2#8, 3#8, 4#8] else none }
  syms := syms
  arch := .arm

/-- A reference to a label. -/
def ref (c : Char) : Expr := .ident (lit c.toString) 0 1
def a : Expr := ref 'a'
def b : Expr := ref 'b'

def seq : List Cmd → Cmd
  | [] => .nil
  | c :: cs => .cons c (seq cs)

/-- Whether a run succeeds, and the output file. -/
def result (cs : List Cmd) : Option (Bool × Nat × Option (List Byte)) :=
  match assemble env (seq cs) 101 start with
  | .done o => some (o.success, o.passes, o.st.fm.disk "out")
  | _ => none

/-- The values of the labels after a run. -/
def labels (cs : List Cmd) : List Int :=
  match assemble env (seq cs) 101 start with
  | .done o => o.st.syms.labels.map (·.value)
  | _ => []

/-- A forward reference across an alignment. -/
def forward : List Cmd := [.openFile 0, .data .u8 [.int 7] false, .label 0 none, .data .u32 [b] false, .align .virtual (.int 8) (some (.int 255)), .label 1 none,
   .data .u16 [a, .str (lit "x")] true, .closeFile]

end Armips.Sample
