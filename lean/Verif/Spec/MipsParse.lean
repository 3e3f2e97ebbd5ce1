import Verif.Model.MipsParse
import Verif.Spec.ExprParse
/-!
# How MIPS instructions are written

The names of the registers, the operands of the vector units and what they mean, and the text of an instruction. Taken from the parser are
only the tokens and the names of the operand kinds (`Cls`, `Elem`).

* Registers: MIPS ABI names, the names of the coprocessor registers of the PSX (GTE), PS2, PSP and N64 (RSP).
* Vector unit of the PSP: 8 matrices of 4 by 4 cells. `vectorCells` and `matrixCells` say which cells a register number selects in the
  hardware, `vectorNamed` and `matrixNamed` which cells a name stands for.
-/
namespace Armips.Spec.MipsParse
open Armips.MipsParse (Token Cls Elem Arg VSize)
open Armips.Mips (Slot Op Operands ImmType SecType Version)
open Armips.ExprParse (Tok)
open Armips.Spec.ExprParse (Writes NoCall)

/-! ### Registers -/

/-- Names that are a prefix and a number, which may have two digits. -/
def numbered (p : String) (n : Nat) : List String := if n < 10 then [p ++ toString n, p ++ "0" ++ toString n] else [p ++ toString n]

/-- The names of the general registers. -/
def abi : List String := ["zero", "at", "v0", "v1", "a0", "a1", "a2", "a3", "t0", "t1", "t2", "t3", "t4", "t5", "t6", "t7",
  "s0", "s1", "s2", "s3", "s4", "s5", "s6", "s7", "t8", "t9", "k0", "k1", "gp", "sp", "fp", "ra"]

/-- The names of the system registers. -/
def system : List (List String) := [["index"], ["random"], ["entrylo", "entrylo0"], ["entrylo1"], ["context"], ["pagemask"], ["wired"], [],
  ["badvaddr"], ["count"], ["entryhi"], ["compare"], ["status", "sr"], ["cause"], ["epc"], ["prid"], ["config"], ["lladdr"], ["watchlo"],
  ["watchhi"], ["xcontext"], [], [], ["badpaddr"], [], [], ["ecc", "perr"], ["cacheerr"], ["taglo"], ["taghi"], ["errorepc"], []]

/-- The names of the data registers of the GTE. -/
def gteData : List String := ["vxy0", "vz0", "vxy1", "vz1", "vxy2", "vz2", "rgbc", "otz", "ir0", "ir1", "ir2", "ir3", "sxy0", "sxy1", "sxy2", "sxyp",
  "sz0", "sz1", "sz2", "sz3", "rgb0", "rgb1", "rgb2", "res1", "mac0", "mac1", "mac2", "mac3", "irgb", "orgb", "lzcs", "lzcr"]

/-- The names of the control registers of the GTE. -/
def gteControl : List String := ["rt0", "rt1", "rt2", "rt3", "rt4", "trx", "try", "trz", "llm0", "llm1", "llm2", "llm3", "llm4", "rbk", "gbk", "bbk",
  "lcm0", "lcm1", "lcm2", "lcm3", "lcm4", "rfc", "gfc", "bfc", "ofx", "ofy", "h", "dqa", "dqb", "zsf3", "zsf4", "flag"]

/-- The names of the system registers of the RSP. -/
def rspSystem : List String := ["sp_mem_addr", "sp_dram_addr", "sp_rd_len", "sp_wr_len", "sp_status", "sp_dma_full", "sp_dma_busy", "sp_semaphore",
  "dpc_start", "dpc_end", "dpc_current", "dpc_status", "dpc_clock", "dpc_bufbusy", "dpc_pipebusy", "dpc_tmem"]

/-- The names of register `n` of a kind. -/
def names : Cls → Nat → List String
  | .cpu, n => ["r" ++ toString n] ++ abi[n]?.toList ++ if n = 30 then ["s8"] else []
  | .fpu, n => numbered "f" n
  | .fpuControl, n => if n = 0 then ["fir", "fcr0"] else if n = 31 then ["fcsr", "fcr31"] else []
  | .cop0, n => system[n]?.getD []
  | .ps2, n => numbered "vf" n
  | .gteData, n => gteData[n]?.toList
  | .gteControl, n => gteControl[n]?.toList
  | .rspCop0, n => rspSystem[n]?.toList
  | .rspControl, n => ["vco", "vcc", "vce"][n]?.toList
  | .rspVector, n => numbered "v" n

/-- Register `n` of a kind as it is written: a name, which may have a `$` before it, or `$` and the number, which the vector registers of the
PS2 and the RSP do not have. -/
inductive Reg : Cls → Nat → List Token → Prop
  | name {c n s x} : n < 32 → s ∈ names c n → Reg c n [(.ident (lit s), x)]
  | dollar {c n s x y} : n < 32 → s ∈ names c n → Reg c n [(.dollar, x), (.ident (lit s), y)]
  | number {c n x y} : n < 32 → c ≠ .ps2 → c ≠ .rspVector → Reg c n [(.dollar, x), (.int n, y)]

/-! ### The vector unit of the PSP -/

/-- A cell: matrix, column and row. -/
abbrev Cell := Nat × Nat × Nat

/-- The cells of vector register `n` in the hardware, for vectors of `size + 1` cells. Bits 0 and 1 are the column, 2 to 4 the matrix. For single
cells bits 5 and 6 are the row. Otherwise bit 5 exchanges columns and rows, and bit 6 tells the first row: 0 or 2, for triples 0 or 1. -/
def vectorCells (size n : Nat) : List Cell :=
  if size = 0 then [(n / 4 % 8, n % 4, n / 32 % 4)]
  else (List.range (size + 1)).map fun i =>
    let row := ((if size = 2 then n / 64 % 2 else n / 64 % 2 * 2) + i) % 4
    if n / 32 % 2 = 1 then (n / 4 % 8, row, n % 4) else (n / 4 % 8, n % 4, row)

/-- The cells of matrix register `n` in the hardware, column by column. -/
def matrixCells (size n : Nat) : List (List Cell) :=
  (List.range (size + 1)).map fun j => (List.range (size + 1)).map fun i =>
    let row := ((if size = 2 then n / 64 % 2 else n / 64 % 2 * 2) + i) % 4
    let column := (n % 4 + j) % 4
    if n / 32 % 2 = 1 then (n / 4 % 8, row, column) else (n / 4 % 8, column, row)

/-- The cells of a vector by its name: `s` a cell, `c` a part of a column, `r` a part of a row; matrix, and column and row of the first cell. -/
def vectorNamed (l : Char) (m c r size : Nat) : Option (List Cell) :=
  match l with
  | 's' => if size = 0 then some [(m, c, r)] else none
  | 'c' => if size = 0 then none else some ((List.range (size + 1)).map fun i => (m, c, (r + i) % 4))
  | 'r' => if size = 0 then none else some ((List.range (size + 1)).map fun i => (m, (c + i) % 4, r))
  | _ => none

/-- The cells of a matrix by its name: `m` with column and row of the first cell; `e` is the same with columns and rows exchanged. -/
def matrixNamed (l : Char) (m c r size : Nat) : Option (List (List Cell)) :=
  if size = 0 then none else
    match l with
    | 'm' => some ((List.range (size + 1)).map fun j => (List.range (size + 1)).map fun i => (m, (c + j) % 4, (r + i) % 4))
    | 'e' => some ((List.range (size + 1)).map fun j => (List.range (size + 1)).map fun i => (m, (r + i) % 4, (c + j) % 4))
    | _ => none

/-- Columns and rows exchanged. -/
def mirror (l : List (List Cell)) : List (List Cell) := l.map (List.map fun x => (x.1, x.2.2, x.2.1))

/-- A letter and three digits. The letter may be a capital one. -/
def Spelled (name : Str) (l : Char) (m c r : Nat) : Prop :=
  m < 8 ∧ c < 4 ∧ r < 4 ∧ (name = lit (String.ofList [l] ++ toString m ++ toString c ++ toString r) ∨
    name = lit (String.ofList [l.toUpper] ++ toString m ++ toString c ++ toString r))

/-- A name of a vector of `size + 1` cells, and the register number that selects these cells. -/
def VecName (size : Nat) (name : Str) (n : Nat) : Prop :=
  n < 128 ∧ ∃ l m c r, Spelled name l m c r ∧ vectorNamed l m c r size = some (vectorCells size n)

/-- A name of a matrix, and the register number that selects its cells. -/
def MatName (size : Nat) (name : Str) (n : Nat) : Prop :=
  n < 128 ∧ ∃ l m c r, Spelled name l m c r ∧ matrixNamed l m c r size = some (matrixCells size n)

/-- The size of an operand in an instruction of size `k + 1`: the same, one, a half, the double, a fourth, four times. -/
def resized : VSize → Nat → Nat → Prop
  | .same, k, n => n = k
  | .single, _, n => n = 0
  | .half, k, n => 2 * (n + 1) = k + 1
  | .double, k, n => n + 1 = 2 * (k + 1) ∧ n < 4
  | .fourth, k, n => 4 * (n + 1) = k + 1
  | .quad, k, n => n + 1 = 4 * (k + 1) ∧ n < 4

/-- The control registers. -/
def controls : List String := ["spfx", "tpfx", "dpfx", "cc", "inf4", "rsv5", "rsv6", "rev", "rcx0", "rcx1", "rcx2", "rcx3", "rcx4", "rcx5", "rcx6", "rcx7"]

/-- The conditions. -/
def conditions : List String := ["fl", "eq", "lt", "le", "tr", "ne", "ge", "gt", "ez", "en", "ei", "es", "nz", "nn", "ni", "ns"]

/-- The conditions of a branch: one of the cells, any or all of them. -/
def branchNames : List (List String) := [["x", "0"], ["y", "1"], ["z", "2"], ["w", "3"], ["any", "4"], ["all", "5"]]

/-- Texts with commas between them. -/
inductive Joined : List (List Token) → List Token → Prop
  | one (t) : Joined [t] t
  | more {ts r} (t x) : Joined ts r → Joined (t :: ts) (t ++ (.comma, x) :: r)

/-- Two lists of the same length whose elements are related one by one. -/
inductive Each {α β : Type} (R : α → β → Prop) : List α → List β → Prop
  | nil : Each R [] []
  | cons {a b l l'} : R a b → Each R l l' → Each R (a :: l) (b :: l')

/-- A cell of a rotation. -/
inductive Lane
  | zero | sin | negSin | cos
  deriving DecidableEq, Repr

/-- What the hardware puts into `n` cells for a rotation: bits 0 and 1 are the place of the cosine, bits 2 and 3 that of the sine, bit 4 its sign;
when both places are the same, all other cells get the sine. -/
def rotated (n imm : Nat) : List Lane :=
  (List.range n).map fun i =>
    if i = imm % 4 then .cos
    else if imm % 4 = imm / 4 % 4 ∨ i = imm / 4 % 4 then if imm / 16 % 2 = 1 then .negSin else .sin
    else .zero

/-- How the cells are written. -/
inductive LaneText : Lane → List Token → Prop
  | zero {v} : LaneText .zero [(.int v, lit "0")]
  | sin {x} : LaneText .sin [(.ident (lit "s"), x)]
  | negSin {x y} : LaneText .negSin [(.minus, x), (.ident (lit "s"), y)]
  | cos {x} : LaneText .cos [(.ident (lit "c"), x)]

/-- Of the numbers that stand for the same rotation the first one in this order is used: those with different places for the cosine and the
sine are before those with the same place. -/
def rotationNumbers : List Nat := (List.range 32).filter (fun n => n % 4 ≠ n / 4 % 4) ++ (List.range 32).filter (fun n => n % 4 = n / 4 % 4)

/-- A rotation, which must not be zero everywhere, and its number. -/
def RotText (n imm : Nat) (ts : List Token) : Prop :=
  ∃ lanes texts inner x y, lanes.length = n ∧ (∃ l ∈ lanes, l ≠ Lane.zero) ∧ Each LaneText lanes texts ∧ Joined texts inner ∧
    ts = (.lbrack, x) :: inner ++ [(.rbrack, y)] ∧ rotationNumbers.find? (fun j => rotated n j = lanes) = some imm

/-- A cell of a source prefix: a cell of the operand or its absolute value, or one of eight constants; negated or not. -/
inductive Source
  | cell (neg : Bool) (k : Nat) (abs : Bool)
  | const (neg : Bool) (k : Nat)
  deriving DecidableEq, Repr

/-- Cell `i` of a source prefix in the hardware: two bits for the cell, at 8 a bit for the absolute value, at 12 for a constant, at 16 for the
sign. Of a constant the bit at 8 is the third bit of its number. -/
def sourceAt (v i : Nat) : Source :=
  let neg := decide (v / 2 ^ (16 + i) % 2 = 1)
  if v / 2 ^ (12 + i) % 2 = 1 then .const neg (v / 2 ^ (2 * i) % 4 + v / 2 ^ (8 + i) % 2 * 4)
  else .cell neg (v / 2 ^ (2 * i) % 4) (decide (v / 2 ^ (8 + i) % 2 = 1))

/-- The constants: 0, 1, 2, 1/2, 3, 1/3, 1/4, 1/6. -/
def constants : List (List Tok) := [[.int 0], [.int 1], [.int 2], [.int 1, .div, .int 2], [.int 3], [.int 1, .div, .int 3], [.int 1, .div, .int 4],
  [.int 1, .div, .int 6]]

/-- A minus, if there is one. -/
inductive Sign : Bool → List Token → Prop
  | plus : Sign false []
  | minus {x} : Sign true [(.minus, x)]

/-- How a cell of a source prefix is written. -/
inductive SourceText : Source → List Token → Prop
  | cell {neg pre k s x} : Sign neg pre → ["x", "y", "z", "w"][k]? = some s → SourceText (.cell neg k false) (pre ++ [(.ident (lit s), x)])
  | abs {neg pre k s x y z} : Sign neg pre → ["x", "y", "z", "w"][k]? = some s →
      SourceText (.cell neg k true) (pre ++ [(.bitOr, x), (.ident (lit s), y), (.bitOr, z)])
  | const {neg pre k ts} : Sign neg pre → constants[k]? = some (ts.map Prod.fst) → SourceText (.const neg k) (pre ++ ts)

/-- A source prefix and its number. -/
def SourcePrefix (v : Nat) (ts : List Token) : Prop :=
  v < 2 ^ 20 ∧ ∃ texts, Each SourceText ((List.range 4).map (sourceAt v)) texts ∧ Joined texts ts

/-- A cell of a destination prefix: written as it is, not written, limited to 0 … 1 or to -1 … 1. -/
inductive Dest
  | plain | masked | unit | signed
  deriving DecidableEq, Repr

/-- Cell `i` of a destination prefix in the hardware: two bits for the limit, at 8 a bit for the mask. -/
def destAt (v i : Nat) : Option Dest :=
  match v / 2 ^ (2 * i) % 4, v / 2 ^ (8 + i) % 2 with
  | 0, 0 => some .plain
  | 0, 1 => some .masked
  | 1, 0 => some .unit
  | 3, 0 => some .signed
  | _, _ => none

/-- How a cell of a destination prefix is written. -/
inductive DestText : Dest → List Token → Prop
  | plain : DestText .plain []
  | masked {x} : DestText .masked [(.ident (lit "m"), x)]
  | unit {ts} : ts.map Prod.fst = [.lbrack, .int 0, .colon, .int 1, .rbrack] → DestText .unit ts
  | signed {ts} : ts.map Prod.fst = [.lbrack, .minus, .int 1, .colon, .int 1, .rbrack] → DestText .signed ts

/-- A destination prefix and its number. -/
def DestPrefix (v : Nat) (ts : List Token) : Prop :=
  v < 2 ^ 12 ∧ ∃ lanes texts, (List.range 4).map (destAt v) = lanes.map some ∧ Each DestText lanes texts ∧ Joined texts ts

/-- The constants of `vcst` by their numbers. -/
def vcstNames : List (Nat × List Tok) :=
  let f (n : String) (l : List Tok) : List Tok := .ident (lit n) :: .lparen :: l ++ [.rparen]
  let i (n : String) : Tok := .ident (lit n)
  [(1, [i "maxfloat"]), (2, f "sqrt" [.int 2]), (3, f "sqrt" [.int 1, .div, .int 2]), (4, [.int 2, .div] ++ f "sqrt" [i "pi"]),
    (5, [.int 2, .div, i "pi"]), (6, [.int 1, .div, i "pi"]), (7, [i "pi", .div, .int 4]), (8, [i "pi", .div, .int 2]), (9, [i "pi"]), (10, [i "e"]),
    (11, f "log2" [i "e"]), (12, f "log10" [i "e"]), (13, f "ln" [.int 2]), (14, f "ln" [.int 10]), (15, [.int 2, .mult, i "pi"]),
    (16, [i "pi", .div, .int 6]), (17, f "log10" [.int 2]), (18, f "log2" [.int 10]), (19, f "sqrt" [.int 3] ++ [.div, .int 2])]

/-- An argument of the vector unit and its number, in an instruction of size `k + 1`. -/
def ArgText (size : Option Nat) : Arg → Nat → List Token → Prop
  | .source, v, ts => SourcePrefix v ts
  | .dest, v, ts => DestPrefix v ts
  | .const, v, ts => (v, ts.map Prod.fst) ∈ vcstNames
  | .rot, v, ts => ∃ k, size = some k ∧ RotText (k + 1) v ts

/-! ### The vector unit of the RSP -/

/-- The elements by their numbers: whole vector, quarters, halves, single elements. -/
def elements : List (List String) := [[], [], ["0q"], ["1q"], ["0h"], ["1h"], ["2h"], ["3h"], ["0w", "0"], ["1w", "1"], ["2w", "2"], ["3w", "3"], ["4w", "4"],
  ["5w", "5"], ["6w", "6"], ["7w", "7"]]

/-- A number with or without letters. -/
def Numeric : Tok → Prop
  | .int _ => True
  | .numberString _ => True
  | _ => False

/-- Small letters for capital ones. -/
def lower (s : Str) : Str := s.map fun b => if 0x41 ≤ b.toNat ∧ b.toNat ≤ 0x5A then b + 0x20#8 else b

/-- How an element is written. -/
inductive ElementText : Nat → List Token → Prop
  | all : ElementText 0 []
  | name {n l s t txt x y} : elements[n]? = some l → s ∈ l → Numeric t → lower txt = lit s → ElementText n [(.lbrack, x), (t, txt), (.rbrack, y)]
  | number {n x y z w} : n < 16 → ElementText n [(.lbrack, x), (.dollar, y), (.int n, z), (.rbrack, w)]

/-- How an element is written that has to be a single one. -/
inductive ScalarText : Nat → List Token → Prop
  | mk {n : Nat} {x y z} : n < 8 → ScalarText (n + 8) [(.lbrack, x), (.int n, y), (.rbrack, z)]

/-- How the place in a vector register is written. -/
inductive OffsetText : Nat → List Token → Prop
  | first : OffsetText 0 []
  | number {n : Nat} {x y z} : n < 16 → OffsetText n [(.lbrack, x), (.int n, y), (.rbrack, z)]

/-! ### The text of an instruction -/

/-- The letters of the table that stand for an operand. -/
def letters : Elem → List Char
  | .reg .cpu .grs => ['s'] | .reg .cpu .grt => ['t'] | .reg .cpu .grd => ['d']
  | .reg .fpu .frs => ['S'] | .reg .fpu .frt => ['T'] | .reg .fpu .frd => ['D']
  | .reg .fpuControl .frs => ['f']
  | .reg .cop0 .grd => ['z']
  | .reg .ps2 .ps2vrs => ['V', 's'] | .reg .ps2 .ps2vrt => ['V', 't'] | .reg .ps2 .ps2vrd => ['V', 'd']
  | .reg .gteData .grt => ['g', 't'] | .reg .gteData .grd => ['g', 's'] | .reg .gteControl .grd => ['g', 'c']
  | .reg .rspCop0 .grd => ['R', 'z'] | .reg .rspControl .grd => ['R', 'c']
  | .reg .rspVector .rspvrs => ['R', 's'] | .reg .rspVector .rspvrt => ['R', 't'] | .reg .rspVector .rspvrd => ['R', 'd']
  | .vec v s => 'v' :: (match v with | .same => [] | .single => ['S'] | .half => ['H'] | .double => ['D'] | .fourth => ['F'] | .quad => ['Q']) ++
      (match s with | .vrs => ['s'] | .vrt => ['t'] | .vrd => ['d'] | _ => ['?'])
  | .vecControl => ['v', 'c']
  | .matrix s => 'm' :: (match s with | .vrs => ['s'] | .vrt => ['t'] | .vrd => ['d'] | _ => ['?'])
  | .element => ['R', 'e']
  | .scalar .rspve => ['R', 'l'] | .scalar .rspvde => ['R', 'm']
  | .offset => ['R', 'o']
  | .forced n => ['r', Char.ofNat n]
  | .imm .half => ['i', 'h'] | .imm .i5 => ['i', '5'] | .imm .i7 => ['i', '7'] | .imm .i10 => ['i', '1', '0'] | .imm .i16 => ['i', '1', '6']
  | .imm .i20 => ['i', '2', '0'] | .imm .i25 => ['i', '2', '5'] | .imm .i26 => ['i', '2', '6']
  | .sec .cacheOp => ['j', 'c'] | .sec .ext => ['j', 'e'] | .sec .ins => ['j', 'i']
  | .branch => ['j', 'b']
  | .cond => ['C']
  | .arg .source => ['W', 's'] | .arg .dest => ['W', 'd'] | .arg .const => ['W', 'c'] | .arg .rot => ['W', 'r']
  | .wb => ['w']
  | .sym c => [c]
  | _ => ['?']

/-- The register in a role. -/
def withReg (o : Operands) (s : Slot) (n : Nat) : Operands := { o with regs := fun x => if x = s then some n else o.regs x }

/-- The text begins with a general register, maybe after a parenthesis: it is not an immediate. -/
def BeginsWithRegister (ts : List Token) : Prop :=
  ∃ n pre rest, Reg .cpu n pre ∧ (ts = pre ++ rest ∨ ∃ x, ts = (.lparen, x) :: pre ++ rest)

/-- An expression that can be an immediate. -/
def ImmText (E : ExprParse.Env) (e : Expr) (ts : List Token) : Prop := Writes E 12 e (ts.map Prod.fst) ∧ ¬ BeginsWithRegister ts

/-- `Part E op size p ts o o'`: in an instruction of row `op` and of vector size `size`, the text `ts` writes the operand `p`, which makes `o'` of
the operands `o`. -/
inductive Part (E : ExprParse.Env) (op : Op) (size : Option Nat) : Elem → List Token → Operands → Operands → Prop
  | reg {c s n ts o} : Reg c n ts → Part E op size (.reg c s) ts o (withReg o s n)
  | vec {v s k k' name n x o} : size = some k → k < 4 → resized v k k' → VecName k' name n → (op.has .vfpu6bit = true → n < 64) →
      Part E op size (.vec v s) [(.ident name, x)] o (withReg o s n)
  | vecSingle {s name n x o} : VecName 0 name n → (op.has .vfpu6bit = true → n < 64) →
      Part E op size (.vec .single s) [(.ident name, x)] o (withReg o s n)
  | controlName {n s x o} : controls[n]? = some s → Part E op size .vecControl [(.ident (lit s), x)] o (withReg o .vrd n)
  | controlNumber {n : Nat} {x o} : n < 16 → Part E op size .vecControl [(.int n, x)] o (withReg o .vrd n)
  | matrix {s k name n x o} : size = some k → k < 4 → MatName k name n → ¬ (s = .vrs ∧ op.has .vfpuTransposeVs = true) →
      Part E op size (.matrix s) [(.ident name, x)] o (withReg o s n)
  | mirrored {k name n n' x o} : size = some k → k < 4 → MatName k name n → op.has .vfpuTransposeVs = true → n' < 128 →
      matrixCells k n' = mirror (matrixCells k n) → Part E op size (.matrix .vrs) [(.ident name, x)] o (withReg o .vrs n')
  | element {n ts o} : ElementText n ts → Part E op size .element ts o (withReg o .rspve n)
  | scalar {s n ts o} : ScalarText n ts → Part E op size (.scalar s) ts o (withReg o s n)
  | offset {n ts o} : OffsetText n ts → Part E op size .offset ts o (withReg o .rspvealt n)
  | forced {n ts o} : Reg .cpu n ts → Part E op size (.forced n) ts o o
  | imm {t e ts o} : ImmText E e ts → Part E op size (.imm t) ts o { o with imm := some e }
  | sec {t e ts o} : ImmText E e ts → Part E op size (.sec t) ts o { o with sec := some e }
  | branchName {n l s x o} : branchNames[n]? = some l → s ∈ l → Part E op size .branch [(.ident (lit s), x)] o { o with secValue := BitVec.ofNat 32 n }
  | branchNumber {n : Nat} {x o} : n ≤ 5 → Part E op size .branch [(.int n, x)] o { o with secValue := BitVec.ofNat 32 n }
  | cond {n s x o} : conditions[n]? = some s → Part E op size .cond [(.ident (lit s), x)] o { o with cond := some n }
  | arg {a n ts o} : ArgText size a n ts → Part E op size (.arg a) ts o { o with immValue := BitVec.ofNat 32 n }
  | wb {x o} : Part E op size .wb [(.ident (lit "wb"), x)] o o
  | lparen {x o} : Part E op size (.sym '(') [(.lparen, x)] o o
  | rparen {x o} : Part E op size (.sym ')') [(.rparen, x)] o o
  | comma {x o} : Part E op size (.sym ',') [(.comma, x)] o o

/-- An immediate that ends with the name of a function must not stand before a parenthesis: that would be a call. -/
def NotACall (E : ExprParse.Env) (p : Elem) (ts rest : List Token) : Prop :=
  match p with
  | .imm _ | .sec _ => NoCall E (ts.map Prod.fst) (rest.map Prod.fst)
  | _ => True

/-- The text of all operands. -/
inductive Parts (E : ExprParse.Env) (op : Op) (size : Option Nat) : List Elem → List Token → Operands → Operands → Prop
  | nil {o} : Parts E op size [] [] o o
  | cons {p ps ts rest o o' o''} : Part E op size p ts o o' → NotACall E p ts rest → Parts E op size ps rest o' o'' →
      Parts E op size (p :: ps) (ts ++ rest) o o''

/-- `Named p name size cond`: the name of a row stands for the written name; in it, `S` is a vector size and `B`, at the end, a condition. -/
inductive Named : List Char → Str → Option Nat → Option Nat → Prop
  | nil : Named [] [] none none
  | letter {c ps n s b} : c ≠ 'S' → c ≠ 'B' → Named ps n s b → Named (c :: ps) (chr c :: n) s b
  | size {k l ps n b} : ['s', 'p', 't', 'q'][k]? = some l → Named ps n none b → Named ('S' :: ps) (chr l :: n) (some k) b
  | cond {k l s} : branchNames[k]? = some l → s ∈ l → Named ['B'] (lit s) none (some k)

/-- The vector size: that of the name, or the one that the row always has. -/
def vectorSize (op : Op) (size : Option Nat) : Option Nat :=
  match size with
  | some k => some k
  | none =>
    if op.has .vfpuSingle then some 0 else if op.has .vfpuPair then some 1 else if op.has .vfpuTriple then some 2
    else if op.has .vfpuQuad then some 3 else none

/-- No operands yet; the condition may come from the name. -/
def blank (size cond : Option Nat) : Operands := ⟨fun _ => none, none, 0#32, none, BitVec.ofNat 32 (cond.getD 0), size, none⟩

/-- `Text E op name ts o`: the name `name` and the text `ts` behind it write an instruction of row `op` with the operands `o`. -/
def Text (E : ExprParse.Env) (op : Op) (name : Str) (ts : List Token) (o : Operands) : Prop :=
  ∃ ps size cond, op.mask.toList = ps.flatMap letters ∧ Named op.name.toList name size cond ∧
    Parts E op (vectorSize op size) ps ts (blank size cond) o

/-- `mult` and `multu` with `r0` as the first of three operands, which on the PS2 are the instructions with a destination. -/
def Hidden (v : Version) (op : Op) : Prop := v = .ps2 ∧ op.name ∈ ["mult", "multu"] ∧ op.mask = "r\x00,s,t"

end Armips.Spec.MipsParse
