import Verif.Model.ArmLine
import Verif.Spec.ArmParse
import Verif.Spec.Thumb
import Verif.Spec.ExprParse
/-!
# How ARM and THUMB instructions are written

The names of the registers and shifts, and the text of the operands of a row of the opcode table, letter by letter. `Vars` has the members that are
stored; nothing else is taken from the parser.

Letters of ARM: `d`, `n`, `m`, `s` are registers, with `1` after them not the program counter; `D`, `N`, `M` registers and `X` the number of a
coprocessor; `W` an optional `!`, `p` an optional `^`; `P` a status register, with `1` after it only a whole one; `R` a list of registers; `S` an optional
shift, with `1` after it only by a constant; `I`, `i`, `j` constants; `Y` and `Z` the operation and the information for a coprocessor; `z` the amount of
the shift whose number follows; `v` an optional sign. Letters of THUMB: `d`, `s`, `n`, `o` are low registers, `D`, `S` any; `r` is the register whose
number follows; `R` a list of registers, with a mask of those that are allowed; `I`, `i` constants with their width. `/` is before an optional symbol.
-/
namespace Armips.Spec.ArmLine
open Armips.ArmLine (Vars text toArm toThumb)
open Armips.ExprParse (Tok)
open Armips.Spec.ExprParse (Writes)
open Armips.Spec.Arm (registerName Item)

/-! ### Names -/

/-- The token of register `n`. -/
def Register (n : Nat) (t : Tok) : Prop := ∃ s, registerName s n ∧ t = .ident (lit s)

/-- The token of coprocessor register `n`. -/
def CopRegister (n : Nat) (t : Tok) : Prop := n < 16 ∧ t = .ident (lit ("c" ++ toString n))

/-- The token of coprocessor `n`. -/
def CopNumber (n : Nat) (t : Tok) : Prop := n < 16 ∧ t = .ident (lit ("p" ++ toString n))

/-- The fields of a status register by their letters. -/
def psrFields : List (Char × Nat) := [('f', 8), ('s', 4), ('x', 2), ('c', 1)]

/-- What is after the name of a status register, and the fields it stands for: nothing is all of them, `_ctl` the control field, `_flg` the flags,
otherwise there are different letters. -/
inductive Fields : Nat → Str → Prop
  | all : Fields 15 []
  | control : Fields 1 (lit "_ctl")
  | flags : Fields 8 (lit "_flg")
  | letters (l : List (Char × Nat)) : l ≠ [] → (∀ p ∈ l, p ∈ psrFields) → l.Nodup →
      Fields ((l.map (·.2)).foldr (· + ·) 0) (chr '_' :: l.map fun p => chr p.1)

/-- The names of the status registers. `true` is the saved one. -/
def psrBase : Bool → Str
  | false => lit "cpsr"
  | true => lit "spsr"

/-- The shifts by their names. -/
def shiftNames : List (String × Nat) := [("lsl", 0), ("asl", 0), ("lsr", 1), ("asr", 2), ("ror", 3), ("rrx", 4)]

/-- The decimal digits of a number, the first one is the highest. -/
def digitsValue (ds : List Nat) : Nat := ds.foldl (fun a d => a * 10 + d) 0

/-- How digits are written. -/
def digitsText (ds : List Nat) : Str := ds.map fun d => BitVec.ofNat 8 (0x30 + d)

/-- Names that have a meaning in operands: registers, and anything that begins like a status register or a shift with a number. -/
def Reserved (n : Str) : Prop :=
  (∃ k, Register k (.ident n) ∨ CopRegister k (.ident n) ∨ CopNumber k (.ident n)) ∨ (∃ b r, n = psrBase b ++ r) ∨
    ∃ s t ds, (s, t) ∈ shiftNames ∧ (∀ d ∈ ds, d < 10) ∧ n = lit s ++ digitsText ds

/-- A constant: an expression without such names. -/
def Constant (E : ExprParse.Env) (e : Expr) (ts : List Tok) : Prop := Writes E 12 e ts ∧ ∀ n, Tok.ident n ∈ ts → ¬ Reserved n

/-! ### Shifts -/

/-- How the amount of a shift is written: a register, or a constant with or without `#`. -/
inductive Amount (E : ExprParse.Env) (type : Nat) : _root_.Armips.Arm.Shift → List Tok → Prop
  | reg {k t} : Register k t → Amount E type ⟨type, true, k, .int 0⟩ [t]
  | const {e ts} : Constant E e ts → Amount E type ⟨type, false, 0, e⟩ ts
  | hash {e ts} : Constant E e ts → Amount E type ⟨type, false, 0, e⟩ (.hash :: ts)

/-- How a shift is written: not at all, as a name with a number, or as a name and an amount. -/
inductive ShiftText (E : ExprParse.Env) (immOnly : Bool) : Option _root_.Armips.Arm.Shift → List Tok → Prop
  | none : ShiftText E immOnly none []
  | number {s t ds} : (s, t) ∈ shiftNames → ds ≠ [] → (∀ d ∈ ds, d < 10) → digitsValue ds < 2 ^ 63 →
      ShiftText E immOnly (some ⟨t, false, 0, .int (digitsValue ds)⟩) [.comma, .ident (lit s ++ digitsText ds)]
  | amount {s t sh ts} : (s, t) ∈ shiftNames → Amount E t sh ts → (immOnly = true → sh.byRegister = false) →
      ShiftText E immOnly (some sh) (.comma :: .ident (lit s) :: ts)

/-! ### Lists of registers -/

/-- How an item is written. -/
def itemText : Item → List Tok
  | .one s _ => [.ident (lit s)]
  | .range s t _ _ => [.ident (lit s), .minus, .ident (lit t)]

/-- How a list is written. -/
def listText : List Item → List Tok
  | [] => []
  | [i] => itemText i
  | i :: is => itemText i ++ .comma :: listText is

/-- A list of registers, all of them in `mask`, and the number whose bits they are. -/
def RegList (mask m : Nat) (ts : List Tok) : Prop :=
  ∃ items : List Item, items ≠ [] ∧ (∀ i ∈ items, i.Ok) ∧ ts = listText items ∧ (∀ i, m.testBit i = true ↔ ∃ it ∈ items, it.Has i) ∧
    ∀ it ∈ items, ∀ i, it.Has i → mask.testBit i = true

/-! ### Operands -/

/-- The symbols. -/
def symbols : List (Char × Tok) := [('[', .lbrack), (']', .rbrack), (',', .comma), ('!', .exclamation), ('{', .lbrace), ('}', .rbrace), ('#', .hash),
  ('=', .assign), ('+', .plus)]

/-- The highest register. -/
def limit (b : Char) : Nat := if b = '1' then 14 else 15

/-- `ArmPiece E p ts v v'`: the text `ts` writes the operand with letters `p` in ARM mode and makes `v'` of the members `v`. -/
inductive ArmPiece (E : ExprParse.Env) : List Char → List Tok → Vars → Vars → Prop
  | rd {b k t v} : Register k t → k ≤ limit b → ArmPiece E ['d', b] [t] v { v with rd := k }
  | rs {b k t v} : Register k t → k ≤ limit b → ArmPiece E ['s', b] [t] v { v with rs := k }
  | rn {b k t v} : Register k t → k ≤ limit b → ArmPiece E ['n', b] [t] v { v with rn := k }
  | rm {b k t v} : Register k t → k ≤ limit b → ArmPiece E ['m', b] [t] v { v with rm := k }
  | cd {k t v} : CopRegister k t → ArmPiece E ['D'] [t] v { v with cd := k }
  | cn {k t v} : CopRegister k t → ArmPiece E ['N'] [t] v { v with cn := k }
  | cm {k t v} : CopRegister k t → ArmPiece E ['M'] [t] v { v with cm := k }
  | pn {k t v} : CopNumber k t → ArmPiece E ['X'] [t] v { v with pn := k }
  | writeback {v} : ArmPiece E ['W'] [.exclamation] v { v with writeback := true }
  | noWriteback {v} : ArmPiece E ['W'] [] v { v with writeback := false }
  | psr {v} : ArmPiece E ['p'] [.caret] v { v with psr := true }
  | noPsr {v} : ArmPiece E ['p'] [] v { v with psr := false }
  | fields {b f r v} : Fields f r → ArmPiece E ['P', '0'] [.ident (psrBase b ++ r)] v { v with spsr := b, field := f }
  | whole {b v} : ArmPiece E ['P', '1'] [.ident (psrBase b)] v { v with spsr := b }
  | list {m ts v} : RegList 0xFFFF m ts → ArmPiece E ['R'] ts v { v with rlist := m }
  | shift {b sh ts v} : ShiftText E (decide (b = '1')) sh ts → ArmPiece E ['S', b] ts v { v with shift := sh }
  | imm {e ts v} : Constant E e ts → ArmPiece E ['i'] ts v { v with imm := e, bitLen := 32 }
  | address {e ts v} : Constant E e ts → ArmPiece E ['I'] ts v { v with imm := e, bitLen := 32 }
  | bits {k e ts v} : Constant E e ts → ArmPiece E ['j', k] ts v { v with imm := e, bitLen := k.toNat }
  | cpop {e ts v} : Constant E e ts → ArmPiece E ['Y'] ts v { v with cpop := e, bitLen := 4 }
  | cpinf {e ts v} : Constant E e ts → ArmPiece E ['Z'] ts v { v with cpinf := e, bitLen := 3 }
  | pseudo {k sh ts v} : Amount E k.toNat sh ts → ArmPiece E ['z', k] ts v { v with shift := some sh }
  | plus {v} : ArmPiece E ['v'] [.plus] v { v with signPlus := true }
  | minus {v} : ArmPiece E ['v'] [.minus] v { v with signPlus := false }
  | unsigned {v} : ArmPiece E ['v'] [] v { v with signPlus := true }
  | sym {c t v} : (c, t) ∈ symbols → ArmPiece E [c] [t] v v
  | opt {c t v} : (c, t) ∈ symbols → ArmPiece E ['/', c] [t] v v
  | noOpt {c t v} : (c, t) ∈ symbols → ArmPiece E ['/', c] [] v v

/-- `ThumbPiece E p ts v v'`: the text `ts` writes the operand with letters `p` in THUMB mode. -/
inductive ThumbPiece (E : ExprParse.Env) : List Char → List Tok → Vars → Vars → Prop
  | rd {k t v} : Register k t → k ≤ 7 → ThumbPiece E ['d'] [t] v { v with rd := k }
  | rs {k t v} : Register k t → k ≤ 7 → ThumbPiece E ['s'] [t] v { v with rs := k }
  | rn {k t v} : Register k t → k ≤ 7 → ThumbPiece E ['n'] [t] v { v with rn := k }
  | ro {k t v} : Register k t → k ≤ 7 → ThumbPiece E ['o'] [t] v { v with ro := k }
  | rD {k t v} : Register k t → ThumbPiece E ['D'] [t] v { v with rd := k }
  | rS {k t v} : Register k t → ThumbPiece E ['S'] [t] v { v with rs := k }
  | forced {k t v} : Register k.toNat t → ThumbPiece E ['r', k] [t] v v
  | list {a b m ts v} : RegList (a.toNat + 256 * b.toNat) m ts → ThumbPiece E ['R', a, b] ts v { v with rlist := m }
  | imm {k e ts v} : Constant E e ts → ThumbPiece E ['i', k] ts v { v with imm := e, bitLen := k.toNat }
  | address {k e ts v} : Constant E e ts → ThumbPiece E ['I', k] ts v { v with imm := e, bitLen := k.toNat }
  | sym {c t v} : (c, t) ∈ symbols → ThumbPiece E [c] [t] v v
  | opt {c t v} : (c, t) ∈ symbols → ThumbPiece E ['/', c] [t] v v
  | noOpt {c t v} : (c, t) ∈ symbols → ThumbPiece E ['/', c] [] v v

/-- The operands one after the other. -/
inductive Pieces (P : List Char → List Tok → Vars → Vars → Prop) : List Char → List Tok → Vars → Vars → Prop
  | nil {v} : Pieces P [] [] v v
  | cons {p q ts us v v' v''} : P p ts v v' → Pieces P q us v' v'' → Pieces P (p ++ q) (ts ++ us) v v''

/-- An ARM instruction has no shift, no writeback and no flags if they are not written. The other members are those of earlier rows. -/
def fresh (v : Vars) : Vars := { v with shift := none, psr := false, writeback := false, signPlus := false }

/-- `ts` is the text of the operands of row `op` after the mnemonic `name`; `o` are the operands it writes. -/
def ArmText (E : ExprParse.Env) (op : Arm.Op) (old : Vars) (name : Str) (ts : List Tok) (o : Arm.Operands) : Prop :=
  ∃ m v, Spec.Arm.Reads op.name.toList (text name) ArmParse.Vars.start m ∧ Pieces (ArmPiece E) op.mask.toList ts (fresh old) v ∧ o = toArm m v

/-- The same for THUMB. -/
def ThumbText (E : ExprParse.Env) (op : Thumb.Op) (old : Vars) (imm : BitVec 32) (name : Str) (ts : List Tok) (o : Thumb.Operands) : Prop :=
  ∃ v, name = lit op.name ∧ Pieces (ThumbPiece E) op.mask.toList ts old v ∧ o = toThumb imm v

/-- The row is there for the processor. -/
def Available (arm9 : Bool) (version : Arm.Version) : Prop := arm9 = true → version ≠ .gba

/-- The texts of ARM that are read as another row: `str rd,[rn],-rm` and `str rd,[rn],+rm`, where `-rm` is taken for an expression. With a shift
after them they are not. -/
def ArmHidden (op : Arm.Op) (ts : List Tok) : Prop := op.name = "strC" ∧ op.mask = "d0,[n0],vm1S1" ∧ ts.length = 8

/-- The texts of THUMB that are read as another row: `add`, `mov` and `cmp` of two low registers have an own row. The rows of the second half of a long
branch are not there to be written. -/
def ThumbHidden (op : Thumb.Op) (o : Thumb.Operands) : Prop :=
  (op.mask = "D,S" ∧ o.rd ≤ 7 ∧ o.rs ≤ 7) ∨ (op.mask = "/#I\x16" ∧ op.encoding = 0xF800#32)

end Armips.Spec.ArmLine
