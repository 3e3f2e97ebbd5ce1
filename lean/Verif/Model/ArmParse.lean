import Verif.Model.Arm
/-!
# The ARM parser: mnemonics and register lists

Models parts of `Archs/ARM/ArmParser.cpp`. The other operands are not modelled. Mnemonics are in lower case, as the tokenizer makes them.
-/
namespace Armips.ArmParse

/-- What is needed of `Token` (`Tokenizer.h`): identifiers, `-`, `,` and everything else. -/
inductive Tok
  | ident (s : String)
  | minus
  | comma
  | other (n : Nat)
  deriving DecidableEq, Repr

/-- `ArmParser.cpp:16-22` `armRegisters`. -/
def armRegisters : List (String × Nat) := [
  ("r0", 0), ("r1", 1), ("r2", 2), ("r3", 3),
  ("r4", 4), ("r5", 5), ("r6", 6), ("r7", 7),
  ("r8", 8), ("r9", 9), ("r10", 10), ("r11", 11),
  ("r12", 12), ("r13", 13), ("sp", 13), ("r14", 14),
  ("lr", 14), ("r15", 15), ("pc", 15)]

/-- `ArmParser.cpp:112-139` `parseRegisterTable` and `parseRegister` with the largest number as limit. -/
def parseRegister : List Tok → Option (Nat × List Tok)
  | .ident s :: ts => (armRegisters.find? fun p => s == p.1).map fun p => (p.2, ts)
  | _ => none

/-- `ArmParser.cpp:166-169` the loop over a range. -/
def rangeMask (a b : Nat) : Nat := (List.range' a (b + 1 - a)).foldl (fun m i => m ||| 1 <<< i) 0

/-- `ArmParser.cpp:157-174` one round of the loop of `parseRegisterList`: a register or a range. -/
def parseItem (dest : Nat) (ts : List Tok) : Option (Nat × List Tok) :=
  (parseRegister ts).bind fun p =>
    match p.2 with
    | .minus :: ts => (parseRegister ts).bind fun q => if q.1 < p.1 then none else some (dest ||| rangeMask p.1 q.1, q.2)
    | ts => some (dest ||| 1 <<< p.1, ts)

/-- `ArmParser.cpp:155-179` the loop of `parseRegisterList`. `n` bounds the number of rounds; the number of tokens is enough. -/
def parseRegisters : Nat → Nat → List Tok → Option (Nat × List Tok)
  | 0, _, _ => none
  | n + 1, dest, ts => (parseItem dest ts).bind fun p =>
    match p.2 with
    | .comma :: ts => parseRegisters n p.1 ts
    | ts => some (p.1, ts)

/-- `ArmParser.cpp:150-182` `parseRegisterList`. -/
def parseRegisterList (validMask : Nat) (ts : List Tok) : Option (Nat × List Tok) := do
  let (dest, ts) ← parseRegisters (ts.length + 1) 0 ts
  if validMask &&& dest = dest then some (dest, ts) else none

/-! ### Mnemonics -/

/-- `ArmParser.cpp:339-355`. -/
def conditionNumber : Char → Char → Option Nat
  | 'e', 'q' => some 0
  | 'n', 'e' => some 1
  | 'c', 's' => some 2
  | 'h', 's' => some 2
  | 'c', 'c' => some 3
  | 'l', 'o' => some 3
  | 'm', 'i' => some 4
  | 'p', 'l' => some 5
  | 'v', 's' => some 6
  | 'v', 'c' => some 7
  | 'h', 'i' => some 8
  | 'l', 's' => some 9
  | 'g', 'e' => some 10
  | 'l', 't' => some 11
  | 'g', 't' => some 12
  | 'l', 'e' => some 13
  | 'a', 'l' => some 14
  | _, _ => none

/-- `ArmParser.cpp:331-361` `decodeCondition`: the number and the rest of the text. -/
def decodeCondition : List Char → Nat × List Char
  | c1 :: c2 :: t =>
    match conditionNumber c1 c2 with
    | some n => (n, t)
    | none => (14, c1 :: c2 :: t)
  | t => (14, t)

/-- `ArmParser.cpp:363-384` `decodeAddressingMode`; the numbers are those of `ArmOpcodes.h:68-75`. -/
def decodeAddressingMode : List Char → Option (Nat × List Char)
  | 'i' :: 'b' :: t => some (0, t)
  | 'i' :: 'a' :: t => some (1, t)
  | 'd' :: 'b' :: t => some (2, t)
  | 'd' :: 'a' :: t => some (3, t)
  | 'e' :: 'd' :: t => some (4, t)
  | 'f' :: 'd' :: t => some (5, t)
  | 'e' :: 'a' :: t => some (6, t)
  | 'f' :: 'a' :: t => some (7, t)
  | _ => none

/-- `ArmParser.cpp:386-400` `decodeXY`. -/
def decodeXY : List Char → Option (Bool × List Char)
  | 't' :: t => some (true, t)
  | 'b' :: t => some (false, t)
  | _ => none

/-- `ArmParser.cpp:402-407` `decodeS`. -/
def decodeS : List Char → Bool × List Char
  | 's' :: t => (true, t)
  | t => (false, t)

/-- The members of `ArmOpcodeVariables::Opcode` that come from the mnemonic. -/
structure Vars where
  c : Nat
  a : Nat
  s : Bool
  x : Bool
  y : Bool
  deriving DecidableEq, Repr

/-- `ArmParser.cpp:411-412`. Simplified: `x` and `y` keep older values, which are used only if the mnemonic sets them. -/
def Vars.start : Vars := ⟨0, 0, false, false, false⟩

/-- `ArmParser.cpp:409-444` `decodeArmOpcode`: the pattern of the table, the mnemonic, the settings so far. -/
def decode : List Char → List Char → Vars → Option Vars
  | [], n, v => if n = [] then some v else none
  | e :: es, n, v =>
    if e = 'C' then decode es (decodeCondition n).2 { v with c := (decodeCondition n).1 }
    else if e = 'S' then decode es (decodeS n).2 { v with s := (decodeS n).1 }
    else if e = 'A' then
      match decodeAddressingMode n with
      | some (a, n) => decode es n { v with a := a }
      | none => none
    else if e = 'X' then
      match decodeXY n with
      | some (x, n) => decode es n { v with x := x }
      | none => none
    else if e = 'Y' then
      match decodeXY n with
      | some (y, n) => decode es n { v with y := y }
      | none => none
    else
      match n with
      | [] => none
      | ch :: n => if e = ch then decode es n v else none

/-- `decodeArmOpcode(name,opcode,vars)`. -/
def decodeOpcode (name : String) (op : Arm.Op) : Option Vars := decode op.name.toList name.toList Vars.start

end Armips.ArmParse
