import Verif.Model.ArmParse
import Verif.Model.Thumb
import Verif.Model.ExprParse
/-!
# Reading of ARM and THUMB instructions

Models `Archs/ARM/ArmParser.cpp`: the operands, `parseArmParameters`, `parseThumbParameters`, `parseArmOpcode` and `parseThumbOpcode`. Mnemonics and
lists of registers are in `Model/ArmParse.lean`.

* The code runs through the letters of the syntax; here the letters are first translated (`armElements`, `thumbElements`), then `params` runs
  through the result.
* A parser gives what it stores and the tokens that are left, or `none` (`false`). What it has taken then does not matter, since the code goes back
  to the start for the next row.
* All rows store into the same variables, so that a row finds what earlier rows have left there. Here every row starts with arbitrary values
  (`stale`), of which only the code's resets are known.
* `Vars` has the members of `ArmOpcodeVariables` and `ThumbOpcodeVariables` that the parser stores.
* Not modelled: names of registers, which are only used in texts.
-/
namespace Armips.ArmLine
open ExprParse (Tok)

/-- What the operands are stored in. `CArmInstruction.h:7-59`, `CThumbInstruction.h`. -/
structure Vars where
  rd : Nat
  rs : Nat
  rn : Nat
  rm : Nat
  ro : Nat
  cd : Nat
  cn : Nat
  cm : Nat
  pn : Nat
  cpop : Expr
  cpinf : Expr
  imm : Expr
  bitLen : Nat
  rlist : Nat
  spsr : Bool
  field : Nat
  shift : Option Arm.Shift
  psr : Bool
  writeback : Bool
  signPlus : Bool

/-- A name as text. -/
def text (n : Str) : List Char := n.map fun b => Char.ofNat b.toNat

/-- `ArmParser.cpp:24-29` `armCopRegisters`. -/
def copRegisters : List (String × Nat) := [
  ("c0", 0), ("c1", 1), ("c2", 2), ("c3", 3), ("c4", 4), ("c5", 5), ("c6", 6), ("c7", 7), ("c8", 8), ("c9", 9), ("c10", 10), ("c11", 11),
  ("c12", 12), ("c13", 13), ("c14", 14), ("c15", 15)]

/-- `ArmParser.cpp:31-36` `armCopNumbers`. -/
def copNumbers : List (String × Nat) := [
  ("p0", 0), ("p1", 1), ("p2", 2), ("p3", 3), ("p4", 4), ("p5", 5), ("p6", 6), ("p7", 7), ("p8", 8), ("p9", 9), ("p10", 10), ("p11", 11),
  ("p12", 12), ("p13", 13), ("p14", 14), ("p15", 15)]

/-- `ArmParser.cpp:118-127` the loop over a table. -/
def lookup (n : Str) (table : List (String × Nat)) : Option Nat := (table.find? fun p => lit p.1 = n).map fun p => p.2

/-- `ArmParser.cpp:111-130` `parseRegisterTable`, with `parseCopRegister` and `parseCopNumber` (140-148). -/
def fromTable (table : List (String × Nat)) : List Tok → Option (Nat × List Tok)
  | .ident n :: ts => (lookup n table).map fun k => (k, ts)
  | _ => none

/-- `ArmParser.cpp:132-138` `parseRegister`. -/
def register (max : Nat) (ts : List Tok) : Option (Nat × List Tok) :=
  match fromTable ArmParse.armRegisters ts with
  | some (k, ts) => if k ≤ max then some (k, ts) else none
  | none => none

/-- A token as `ArmParse` reads it. -/
def listTok : Tok → ArmParse.Tok
  | .ident n => .ident (String.ofList (text n))
  | .minus => .minus
  | .comma => .comma
  | _ => .other 0

/-- `ArmParser.cpp:150-182` `parseRegisterList`. -/
def registerList (mask : Nat) (ts : List Tok) : Option (Nat × List Tok) :=
  (ArmParse.parseRegisterList mask (ts.map listTok)).map fun r => (r.1, ts.drop (ts.length - r.2.length))

/-! ### Status registers -/

/-- `ArmParser.cpp:528-552` the bit of a letter. -/
def fieldBit (b : Byte) : Option Nat :=
  if b = chr 'f' then some 8 else if b = chr 's' then some 4 else if b = chr 'x' then some 2 else if b = chr 'c' then some 1 else none

/-- `ArmParser.cpp:522-555`: at most four letters are looked at. -/
def fields : Nat → Nat → Str → Option Nat
  | 0, f, _ => some f
  | _ + 1, f, [] => some f
  | k + 1, f, b :: r =>
    match fieldBit b with
    | none => none
    | some m => if f &&& m ≠ 0 then none else fields k (f ||| m) r

/-- `ArmParser.cpp:501-555` what follows `cpsr` or `spsr`. -/
def psrField (r : Str) : Option Nat :=
  match r with
  | [] => some 15
  | b :: r =>
    if b ≠ chr '_' then none
    else if r.take 3 = lit "ctl" then (if r.length = 3 then some 1 else none)
    else if r.take 3 = lit "flg" then (if r.length = 3 then some 8 else none)
    else fields 4 0 r

/-- `ArmParser.cpp:486-496` which of the two registers, and the rest of the name. -/
def psrName (n : Str) : Option (Bool × Str) :=
  if n.take 4 = lit "cpsr" then some (false, n.drop 4) else if n.take 4 = lit "spsr" then some (true, n.drop 4) else none

/-- `ArmParser.cpp:478-556` `parsePsrTransfer` on the name. In the short version no field is stored. -/
def psrTransfer (short : Bool) (n : Str) : Option (Bool × Option Nat) :=
  match psrName n with
  | none => none
  | some (spsr, r) => if short then (if r = [] then some (spsr, none) else none) else (psrField r).map fun f => (spsr, some f)

/-! ### Constants and shifts -/

/-- `ArmParser.cpp:189-205` what cannot be a constant. -/
def isOperand : List Tok → Bool
  | .ident n :: _ =>
    (psrTransfer false n).isSome || (lookup n ArmParse.armRegisters).isSome || (lookup n copNumbers).isSome || (lookup n copRegisters).isSome
  | _ => false

/-- `ArmParser.cpp:184-208` `parseImmediate`. -/
def immediate (E : ExprParse.Env) (ts : List Tok) : Option (Expr × List Tok) :=
  if isOperand ts then none
  else
    match ExprParse.parse E ts with
    | (some e, r) => some (e, r)
    | (none, _) => none

/-- `ArmParser.cpp:237-240` `isNumber`. -/
def isNumber (b : Byte) : Bool := 0x30 ≤ b.toNat && b.toNat ≤ 0x39

/-- `ArmParser.cpp:273-284` the mode. -/
def shiftType (n : Str) : Option Nat :=
  if n = lit "lsl" ∨ n = lit "asl" then some 0 else if n = lit "lsr" then some 1 else if n = lit "asr" then some 2
  else if n = lit "ror" then some 3 else if n = lit "rrx" then some 4 else none

/-- `ArmParser.cpp:262-271` the number at the end of the name. An overflow, which needs 19 digits, is undefined in C++ and wraps here. -/
def numberOf (ds : Str) : Int := (BitVec.ofNat 64 (ds.foldl (fun a b => a * 10 + (b.toNat - 0x30)) 0)).toInt

/-- `ArmParser.cpp:256-284` mode and number of a name. -/
def shiftMode (n : Str) : Option (Nat × Option Int) :=
  let ds := (n.reverse.takeWhile isNumber).reverse
  (shiftType (n.take (n.length - ds.length))).map fun t => (t, if ds = [] then none else some (numberOf ds))

/-- `ArmParser.cpp:297-298`, `318-319` a `#` is skipped. -/
def skipHash : List Tok → List Tok
  | .hash :: ts => ts
  | ts => ts

/-- `ArmParser.cpp:290-304`, `310-329` the amount of a shift: a register or a constant. The member that is not set is not used. -/
def shiftAmount (E : ExprParse.Env) (immOnly : Bool) (type : Nat) (ts : List Tok) : Option (Arm.Shift × List Tok) :=
  match register 15 ts with
  | some (k, ts) => if immOnly then none else some (⟨type, true, k, .int 0⟩, ts)
  | none => (immediate E (skipHash ts)).map fun r => (⟨type, false, 0, r.1⟩, r.2)

/-- `ArmParser.cpp:242-308` `parseShift`. -/
def parseShift (E : ExprParse.Env) (immOnly : Bool) : List Tok → Option (Option Arm.Shift × List Tok)
  | .comma :: .ident n :: ts =>
    match shiftMode n with
    | none => none
    | some (t, some k) => some (some ⟨t, false, 0, .int k⟩, ts)
    | some (t, none) => (shiftAmount E immOnly t ts).map fun r => (some r.1, r.2)
  | .comma :: _ => none
  | ts => some (none, ts)

/-! ### The syntax -/

/-- The registers of a row. -/
inductive Slot | rd | rs | rn | rm | ro | cd | cn | cm
  deriving DecidableEq, Repr

/-- A piece of the syntax of a row. -/
inductive Elem
  | reg (s : Slot) (max : Nat)
  | forced (n : Nat)
  | cop (s : Slot)
  | copNumber
  | writeback
  | psr
  | transfer (short : Bool)
  | list (mask : Nat)
  | shift (immOnly : Bool)
  | imm (bits : Nat)
  | cpop
  | cpinf
  | pseudo (type : Nat)
  | sign
  | sym (c : Char) (optional : Bool)
  deriving DecidableEq, Repr

/-- `ArmParser.cpp:572-646` the letters of the syntax of ARM. -/
def armElements : List Char → Option (List Elem)
  | [] => some []
  | '/' :: c :: r => (armElements r).map (.sym c true :: ·)
  | 'd' :: k :: r => (armElements r).map (.reg .rd (if k = '1' then 14 else 15) :: ·)
  | 's' :: k :: r => (armElements r).map (.reg .rs (if k = '1' then 14 else 15) :: ·)
  | 'n' :: k :: r => (armElements r).map (.reg .rn (if k = '1' then 14 else 15) :: ·)
  | 'm' :: k :: r => (armElements r).map (.reg .rm (if k = '1' then 14 else 15) :: ·)
  | 'D' :: r => (armElements r).map (.cop .cd :: ·)
  | 'N' :: r => (armElements r).map (.cop .cn :: ·)
  | 'M' :: r => (armElements r).map (.cop .cm :: ·)
  | 'W' :: r => (armElements r).map (.writeback :: ·)
  | 'p' :: r => (armElements r).map (.psr :: ·)
  | 'P' :: k :: r => (armElements r).map (.transfer (k = '1') :: ·)
  | 'R' :: r => (armElements r).map (.list 0xFFFF :: ·)
  | 'S' :: k :: r => (armElements r).map (.shift (k = '1') :: ·)
  | 'I' :: r => (armElements r).map (.imm 32 :: ·)
  | 'i' :: r => (armElements r).map (.imm 32 :: ·)
  | 'j' :: k :: r => (armElements r).map (.imm k.toNat :: ·)
  | 'X' :: r => (armElements r).map (.copNumber :: ·)
  | 'Y' :: r => (armElements r).map (.cpop :: ·)
  | 'Z' :: r => (armElements r).map (.cpinf :: ·)
  | 'z' :: k :: r => (armElements r).map (.pseudo k.toNat :: ·)
  | 'v' :: r => (armElements r).map (.sign :: ·)
  | c :: r => (armElements r).map (.sym c false :: ·)

/-- `ArmParser.cpp:730` `encoding[0] | (encoding[1] << 8)`. The characters are signed, so that a first one above 0x7F makes all bits one; the second
one is above 0x7F only in that case. -/
def listMask (a b : Char) : Nat := if a.toNat ≥ 0x80 then 0xFFFFFFFF else a.toNat ||| (b.toNat <<< 8)

/-- `ArmParser.cpp:699-743` the letters of the syntax of THUMB. -/
def thumbElements : List Char → Option (List Elem)
  | [] => some []
  | '/' :: c :: r => (thumbElements r).map (.sym c true :: ·)
  | 'd' :: r => (thumbElements r).map (.reg .rd 7 :: ·)
  | 's' :: r => (thumbElements r).map (.reg .rs 7 :: ·)
  | 'n' :: r => (thumbElements r).map (.reg .rn 7 :: ·)
  | 'o' :: r => (thumbElements r).map (.reg .ro 7 :: ·)
  | 'D' :: r => (thumbElements r).map (.reg .rd 15 :: ·)
  | 'S' :: r => (thumbElements r).map (.reg .rs 15 :: ·)
  | 'r' :: k :: r => (thumbElements r).map (.forced k.toNat :: ·)
  | 'R' :: a :: b :: r => (thumbElements r).map (.list (listMask a b) :: ·)
  | 'I' :: k :: r => (thumbElements r).map (.imm k.toNat :: ·)
  | 'i' :: k :: r => (thumbElements r).map (.imm k.toNat :: ·)
  | c :: r => (thumbElements r).map (.sym c false :: ·)

/-! ### The operands -/

/-- `ArmParser.cpp:210-235` `matchSymbol`: the token of a symbol. -/
def symbolTok : Char → Option Tok
  | '[' => some .lbrack
  | ']' => some .rbrack
  | ',' => some .comma
  | '!' => some .exclamation
  | '{' => some .lbrace
  | '}' => some .rbrace
  | '#' => some .hash
  | '=' => some .assign
  | '+' => some .plus
  | _ => none

/-- A register is stored. -/
def Vars.set (v : Vars) : Slot → Nat → Vars
  | .rd, k => { v with rd := k }
  | .rs, k => { v with rs := k }
  | .rn, k => { v with rn := k }
  | .rm, k => { v with rm := k }
  | .ro, k => { v with ro := k }
  | .cd, k => { v with cd := k }
  | .cn, k => { v with cn := k }
  | .cm, k => { v with cm := k }

/-- `Parser/Parser.cpp:265-276` `matchToken`. -/
def matchToken (t : Tok) (optional : Bool) (ts : List Tok) : Option (List Tok) :=
  match ts with
  | [] => if optional then some [] else none
  | a :: r => if a = t then some r else if optional then some (a :: r) else none

/-- `ArmParser.cpp:460-476` `parseSign`. -/
def parseSign : List Tok → Bool × List Tok
  | .plus :: ts => (true, ts)
  | .minus :: ts => (false, ts)
  | ts => (true, ts)

/-- `ArmParser.cpp:578-645`, `705-742` one piece, with `parseWriteback` and `parsePsr` (446-458) of the syntax. -/
def elem (E : ExprParse.Env) (v : Vars) : Elem → List Tok → Option (Vars × List Tok)
  | .reg s max, ts => (register max ts).map fun r => (v.set s r.1, r.2)
  | .forced n, ts => (register 15 ts).bind fun r => if r.1 = n then some (v, r.2) else none
  | .cop s, ts => (fromTable copRegisters ts).map fun r => (v.set s r.1, r.2)
  | .copNumber, ts => (fromTable copNumbers ts).map fun r => ({ v with pn := r.1 }, r.2)
  | .writeback, .exclamation :: ts => some ({ v with writeback := true }, ts)
  | .writeback, ts => some ({ v with writeback := false }, ts)
  | .psr, .caret :: ts => some ({ v with psr := true }, ts)
  | .psr, ts => some ({ v with psr := false }, ts)
  | .transfer short, .ident n :: ts => (psrTransfer short n).map fun r => ({ v with spsr := r.1, field := r.2.getD v.field }, ts)
  | .transfer _, _ => none
  | .list mask, ts => (registerList mask ts).map fun r => ({ v with rlist := r.1 }, r.2)
  | .shift immOnly, ts => (parseShift E immOnly ts).map fun r => ({ v with shift := r.1 }, r.2)
  | .imm bits, ts => (immediate E ts).map fun r => ({ v with imm := r.1, bitLen := bits }, r.2)
  | .cpop, ts => (immediate E ts).map fun r => ({ v with cpop := r.1, bitLen := 4 }, r.2)
  | .cpinf, ts => (immediate E ts).map fun r => ({ v with cpinf := r.1, bitLen := 3 }, r.2)
  | .pseudo type, ts => (shiftAmount E false type ts).map fun r => ({ v with shift := some r.1 }, r.2)
  | .sign, ts => some ({ v with signPlus := (parseSign ts).1 }, (parseSign ts).2)
  | .sym c optional, ts =>
    match symbolTok c with
    | none => none
    | some t => (matchToken t optional ts).map fun ts => (v, ts)

/-- `ArmParser.cpp:572-650`, `699-747` the loop over the syntax; the next token has to be a separator. -/
def params (E : ExprParse.Env) : List Elem → List Tok → Vars → Option (Vars × List Tok)
  | [], .separator :: ts, v => some (v, ts)
  | [], _, _ => none
  | e :: es, ts, v =>
    match elem E v e ts with
    | none => none
    | some (v, ts) => params E es ts v

/-- `ArmParser.cpp:564-570` what is reset for each row. -/
def reset (v : Vars) : Vars := { v with shift := none, psr := false, writeback := false, signPlus := false }

/-- The variables of an ARM instruction. -/
def toArm (m : ArmParse.Vars) (v : Vars) : Arm.Operands where
  c := m.c
  a := m.a
  s := m.s
  x := m.x
  y := m.y
  shift := v.shift
  spsr := v.spsr
  field := v.field
  cd := v.cd
  cn := v.cn
  cm := v.cm
  pn := v.pn
  cpop := v.cpop
  cpinf := v.cpinf
  rs := v.rs
  rm := v.rm
  rd := v.rd
  rn := v.rn
  psr := v.psr
  writeback := v.writeback
  signPlus := v.signPlus
  imm := v.imm
  bitLen := v.bitLen
  rlist := v.rlist

/-- The variables of a THUMB instruction. `Vars.Immediate` is not stored by the parser. -/
def toThumb (stale : BitVec 32) (v : Vars) : Thumb.Operands := ⟨v.rd, v.rs, v.rn, v.ro, v.imm, v.bitLen, v.rlist, stale⟩

/-- `ArmParser.cpp:666-677` one row. -/
def armRow (E : ExprParse.Env) (version : Arm.Version) (stale : Vars) (name : Str) (ts : List Tok) (op : Arm.Op) :
    Option ((Arm.Op × Arm.Operands) × List Tok) :=
  if op.has .arm9 && version == .gba then none
  else
    match ArmParse.decode op.name.toList (text name) ArmParse.Vars.start with
    | none => none
    | some m =>
      match armElements op.mask.toList with
      | none => none
      | some es => (params E es ts (reset stale)).map fun r => ((op, toArm m r.1), r.2)

/-- `ArmParser.cpp:653-690` `parseArmOpcode`: the first row that fits. -/
def armLine (E : ExprParse.Env) (version : Arm.Version) (stale : Arm.Op → Vars) : List Tok → Option ((Arm.Op × Arm.Operands) × List Tok)
  | .ident name :: ts => Arm.opcodes.findSome? fun op => armRow E version (stale op) name ts op
  | _ => none

/-- `ArmParser.cpp:763-774` one row. -/
def thumbRow (E : ExprParse.Env) (version : Arm.Version) (stale : Vars) (old : BitVec 32) (name : Str) (ts : List Tok) (op : Thumb.Op) :
    Option ((Thumb.Op × Thumb.Operands) × List Tok) :=
  if op.has .arm9 && version == .gba then none
  else if name ≠ lit op.name then none
  else
    match thumbElements op.mask.toList with
    | none => none
    | some es => (params E es ts stale).map fun r => ((op, toThumb old r.1), r.2)

/-- `ArmParser.cpp:750-787` `parseThumbOpcode`: the first row that fits. -/
def thumbLine (E : ExprParse.Env) (version : Arm.Version) (stale : Thumb.Op → Vars) (old : BitVec 32) :
    List Tok → Option ((Thumb.Op × Thumb.Operands) × List Tok)
  | .ident name :: ts => Thumb.opcodes.findSome? fun op => thumbRow E version (stale op) old name ts op
  | _ => none

end Armips.ArmLine
