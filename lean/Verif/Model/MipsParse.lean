import Verif.Model.Mips
import Verif.Model.ExprParse
/-!
# Reading of MIPS instructions

Models `Archs/MIPS/MipsParser.cpp`: registers, immediates, the operands of the vector units, `parseParameters` and `parseOpcode`.

* A token comes with its original text, which matters for the elements of RSP vectors and in `vrot`.
* `parseParameters` runs through the letters of the syntax; here the letters are first translated (`elements`), then `params` runs through
  the result.
* A parser gives the value and the tokens that are left, or `none` (`false`). What it has taken then does not matter, since `parseOpcode`
  goes back to the start.
* Not modelled: names of registers, which are only used in texts. Of a negative number after `$`, in brackets or as a control register the
  code stores the low 32 bits; here the register counts as not set, as it does in the code for -1.
-/
namespace Armips.MipsParse
open ExprParse (Tok)
open Mips (Slot ImmType SecType Op Operands Version Flag)

abbrev Token := Tok × Str

/-- `MipsParser.cpp:16-34` `mipsRegisters`. -/
def cpuNames : List (String × Nat) := [
  ("r0", 0), ("zero", 0), ("at", 1), ("r1", 1), ("v0", 2), ("r2", 2), ("v1", 3), ("r3", 3), ("a0", 4), ("r4", 4), ("a1", 5),
  ("r5", 5), ("a2", 6), ("r6", 6), ("a3", 7), ("r7", 7), ("t0", 8), ("r8", 8), ("t1", 9), ("r9", 9), ("t2", 10), ("r10", 10),
  ("t3", 11), ("r11", 11), ("t4", 12), ("r12", 12), ("t5", 13), ("r13", 13), ("t6", 14), ("r14", 14), ("t7", 15), ("r15", 15),
  ("s0", 16), ("r16", 16), ("s1", 17), ("r17", 17), ("s2", 18), ("r18", 18), ("s3", 19), ("r19", 19), ("s4", 20), ("r20", 20),
  ("s5", 21), ("r21", 21), ("s6", 22), ("r22", 22), ("s7", 23), ("r23", 23), ("t8", 24), ("r24", 24), ("t9", 25), ("r25", 25),
  ("k0", 26), ("r26", 26), ("k1", 27), ("r27", 27), ("gp", 28), ("r28", 28), ("sp", 29), ("r29", 29), ("fp", 30), ("r30", 30),
  ("ra", 31), ("r31", 31), ("s8", 30)]

/-- `MipsParser.cpp:36-48` `mipsFloatRegisters`. -/
def fpuNames : List (String × Nat) := [
  ("f0", 0), ("f1", 1), ("f2", 2), ("f3", 3), ("f4", 4), ("f5", 5), ("f6", 6), ("f7", 7), ("f8", 8), ("f9", 9), ("f00", 0),
  ("f01", 1), ("f02", 2), ("f03", 3), ("f04", 4), ("f05", 5), ("f06", 6), ("f07", 7), ("f08", 8), ("f09", 9), ("f10", 10),
  ("f11", 11), ("f12", 12), ("f13", 13), ("f14", 14), ("f15", 15), ("f16", 16), ("f17", 17), ("f18", 18), ("f19", 19),
  ("f20", 20), ("f21", 21), ("f22", 22), ("f23", 23), ("f24", 24), ("f25", 25), ("f26", 26), ("f27", 27), ("f28", 28),
  ("f29", 29), ("f30", 30), ("f31", 31)]

/-- `MipsParser.cpp:50-52` `mipsFpuControlRegisters`. -/
def fpuControlNames : List (String × Nat) := [
  ("fir", 0), ("fcr0", 0), ("fcsr", 31), ("fcr31", 31)]

/-- `MipsParser.cpp:54-65` `mipsCop0Registers`. -/
def cop0Names : List (String × Nat) := [
  ("index", 0), ("random", 1), ("entrylo", 2), ("entrylo0", 2), ("entrylo1", 3), ("context", 4), ("pagemask", 5), ("wired", 6),
  ("badvaddr", 8), ("count", 9), ("entryhi", 10), ("compare", 11), ("status", 12), ("sr", 12), ("cause", 13), ("epc", 14),
  ("prid", 15), ("config", 16), ("lladdr", 17), ("watchlo", 18), ("watchhi", 19), ("xcontext", 20), ("badpaddr", 23),
  ("ecc", 26), ("perr", 26), ("cacheerr", 27), ("taglo", 28), ("taghi", 29), ("errorepc", 30)]

/-- `MipsParser.cpp:67-79` `mipsPs2Cop2FpRegisters`. -/
def ps2Names : List (String × Nat) := [
  ("vf0", 0), ("vf1", 1), ("vf2", 2), ("vf3", 3), ("vf4", 4), ("vf5", 5), ("vf6", 6), ("vf7", 7), ("vf8", 8), ("vf9", 9),
  ("vf00", 0), ("vf01", 1), ("vf02", 2), ("vf03", 3), ("vf04", 4), ("vf05", 5), ("vf06", 6), ("vf07", 7), ("vf08", 8),
  ("vf09", 9), ("vf10", 10), ("vf11", 11), ("vf12", 12), ("vf13", 13), ("vf14", 14), ("vf15", 15), ("vf16", 16), ("vf17", 17),
  ("vf18", 18), ("vf19", 19), ("vf20", 20), ("vf21", 21), ("vf22", 22), ("vf23", 23), ("vf24", 24), ("vf25", 25), ("vf26", 26),
  ("vf27", 27), ("vf28", 28), ("vf29", 29), ("vf30", 30), ("vf31", 31)]

/-- `MipsParser.cpp:81-90` `mipsPsxCop2DataRegisters`. -/
def gteDataNames : List (String × Nat) := [
  ("vxy0", 0), ("vz0", 1), ("vxy1", 2), ("vz1", 3), ("vxy2", 4), ("vz2", 5), ("rgbc", 6), ("otz", 7), ("ir0", 8), ("ir1", 9),
  ("ir2", 10), ("ir3", 11), ("sxy0", 12), ("sxy1", 13), ("sxy2", 14), ("sxyp", 15), ("sz0", 16), ("sz1", 17), ("sz2", 18),
  ("sz3", 19), ("rgb0", 20), ("rgb1", 21), ("rgb2", 22), ("res1", 23), ("mac0", 24), ("mac1", 25), ("mac2", 26), ("mac3", 27),
  ("irgb", 28), ("orgb", 29), ("lzcs", 30), ("lzcr", 31)]

/-- `MipsParser.cpp:92-101` `mipsPsxCop2ControlRegisters`. -/
def gteControlNames : List (String × Nat) := [
  ("rt0", 0), ("rt1", 1), ("rt2", 2), ("rt3", 3), ("rt4", 4), ("trx", 5), ("try", 6), ("trz", 7), ("llm0", 8), ("llm1", 9),
  ("llm2", 10), ("llm3", 11), ("llm4", 12), ("rbk", 13), ("gbk", 14), ("bbk", 15), ("lcm0", 16), ("lcm1", 17), ("lcm2", 18),
  ("lcm3", 19), ("lcm4", 20), ("rfc", 21), ("gfc", 22), ("bfc", 23), ("ofx", 24), ("ofy", 25), ("h", 26), ("dqa", 27),
  ("dqb", 28), ("zsf3", 29), ("zsf4", 30), ("flag", 31)]

/-- `MipsParser.cpp:103-110` `mipsRspCop0Registers`. -/
def rspCop0Names : List (String × Nat) := [
  ("sp_mem_addr", 0), ("sp_dram_addr", 1), ("sp_rd_len", 2), ("sp_wr_len", 3), ("sp_status", 4), ("sp_dma_full", 5),
  ("sp_dma_busy", 6), ("sp_semaphore", 7), ("dpc_start", 8), ("dpc_end", 9), ("dpc_current", 10), ("dpc_status", 11),
  ("dpc_clock", 12), ("dpc_bufbusy", 13), ("dpc_pipebusy", 14), ("dpc_tmem", 15)]

/-- `MipsParser.cpp:112-114` `mipsRspVectorControlRegisters`. -/
def rspControlNames : List (String × Nat) := [
  ("vco", 0), ("vcc", 1), ("vce", 2)]

/-- `MipsParser.cpp:116-128` `mipsRspVectorRegisters`. -/
def rspVectorNames : List (String × Nat) := [
  ("v0", 0), ("v1", 1), ("v2", 2), ("v3", 3), ("v4", 4), ("v5", 5), ("v6", 6), ("v7", 7), ("v8", 8), ("v9", 9), ("v00", 0),
  ("v01", 1), ("v02", 2), ("v03", 3), ("v04", 4), ("v05", 5), ("v06", 6), ("v07", 7), ("v08", 8), ("v09", 9), ("v10", 10),
  ("v11", 11), ("v12", 12), ("v13", 13), ("v14", 14), ("v15", 15), ("v16", 16), ("v17", 17), ("v18", 18), ("v19", 19),
  ("v20", 20), ("v21", 21), ("v22", 22), ("v23", 23), ("v24", 24), ("v25", 25), ("v26", 26), ("v27", 27), ("v28", 28),
  ("v29", 29), ("v30", 30), ("v31", 31)]

/-- `MipsParser.cpp:369-376` `rspElementNames`. -/
def elementNames : List (String × Nat) := [
  ("0q", 2), ("1q", 3), ("0h", 4), ("1h", 5), ("2h", 6), ("3h", 7), ("0w", 8), ("0", 8), ("1w", 9), ("1", 9), ("2w", 10),
  ("2", 10), ("3w", 11), ("3", 11), ("4w", 12), ("4", 12), ("5w", 13), ("5", 13), ("6w", 14), ("6", 14), ("7w", 15), ("7", 15)]

/-- The kinds of registers. -/
inductive Cls
  | cpu | fpu | fpuControl | cop0 | ps2 | gteData | gteControl | rspCop0 | rspControl | rspVector
  deriving DecidableEq, Repr

/-- The table of a kind. -/
def Cls.names : Cls → List (String × Nat)
  | .cpu => cpuNames
  | .fpu => fpuNames
  | .fpuControl => fpuControlNames
  | .cop0 => cop0Names
  | .ps2 => ps2Names
  | .gteData => gteDataNames
  | .gteControl => gteControlNames
  | .rspCop0 => rspCop0Names
  | .rspControl => rspControlNames
  | .rspVector => rspVectorNames

/-- Whether `parseRegisterNumber` is tried for the kind; it is not in `MipsParser.cpp:311-315` and `357-361`. -/
def Cls.numbered : Cls → Bool
  | .ps2 | .rspVector => false
  | _ => true

/-- `MipsParser.cpp:225-242` `parseRegisterNumber`. -/
def registerNumber (bound : Int) : List Token → Option (Int × List Token)
  | (.dollar, _) :: (.int v, _) :: ts => if v < bound then some (v, ts) else none
  | _ => none

/-- The number of a name, the first that fits. -/
def lookup (n : Str) (table : List (String × Nat)) : Option Int := (table.find? fun x => lit x.1 = n).map fun x => (x.2 : Int)

/-- `MipsParser.cpp:244-269` `parseRegisterTable`. -/
def registerTable (table : List (String × Nat)) : List Token → Option (Int × List Token)
  | (.dollar, _) :: (.ident n, _) :: ts => (lookup n table).map (·, ts)
  | (.ident n, _) :: ts => (lookup n table).map (·, ts)
  | _ => none

/-- `MipsParser.cpp:271-361` the parsers of the kinds of registers. -/
def register (c : Cls) (ts : List Token) : Option (Int × List Token) :=
  if c.numbered then
    match registerNumber 32 ts with
    | some r => some r
    | none => registerTable c.names ts
  else registerTable c.names ts

/-- `nextToken().type == TokenType::RBrack`. -/
def closing (n : Int) : List Token → Option (Int × List Token)
  | (.rbrack, _) :: ts => some (n, ts)
  | _ => none

/-- `tolower` of a character. -/
def lowerByte (b : Byte) : Byte := if 0x41 ≤ b.toNat ∧ b.toNat ≤ 0x5A then b + 0x20#8 else b

/-- `MipsParser.cpp:363-414` `parseRspVectorElement`. -/
def rspElement : List Token → Option (Int × List Token)
  | (.lbrack, _) :: ts =>
    match registerNumber 16 ts with
    | some (n, ts) => closing n ts
    | none =>
      match ts with
      | (.int _, t) :: ts => (lookup (t.map lowerByte) elementNames).bind (closing · ts)
      | (.numberString _, t) :: ts => (lookup (t.map lowerByte) elementNames).bind (closing · ts)
      | _ => none
  | ts => some (0, ts)

/-- `MipsParser.cpp:416-432` `parseRspScalarElement`. -/
def rspScalar : List Token → Option (Int × List Token)
  | (.lbrack, _) :: (.int v, _) :: ts => if v ≥ 8 then none else closing (v + 8) ts
  | _ => none

/-- `MipsParser.cpp:434-457` `parseRspOffsetElement`. -/
def rspOffset : List Token → Option (Int × List Token)
  | (.lbrack, _) :: (.int v, _) :: ts => if v ≥ 16 then none else closing v ts
  | (.lbrack, _) :: _ => none
  | ts => some (0, ts)

/-- `MipsParser.cpp:459-467` `decodeDigit`. -/
def digit (b : Byte) : Option Nat := if 0x30 ≤ b.toNat ∧ b.toNat ≤ 0x39 then some (b.toNat - 0x30) else none

/-- `MipsParser.cpp:486-550` the check of the size and the number, given the letter and the digits; `true` for a matrix. -/
def vfpuNumber (mode : Byte) (m c r size : Nat) : Option (Bool × Nat) :=
  if r > 3 ∨ c > 3 ∨ m > 7 then none
  else
    let vector (start c r : Nat) : Option (Bool × Nat) :=
      if size = 1 ∨ size = 3 then if r % 2 = 1 then none else some (false, start ||| m <<< 2 ||| c ||| r <<< 5)
      else if size = 2 then if r / 2 % 2 = 1 then none else some (false, start ||| m <<< 2 ||| c ||| (r <<< 1) <<< 5)
      else none
    let matrix (start : Nat) : Option (Bool × Nat) :=
      if size = 1 ∨ size = 3 then if r % 2 = 1 then none else some (true, start ||| m <<< 2 ||| c ||| r <<< 5)
      else if size = 2 then if r / 2 ≠ 0 then none else some (true, start ||| m <<< 2 ||| c ||| (r <<< 1) <<< 5)
      else none
    if mode = chr 'r' then vector (1 <<< 5) r c
    else if mode = chr 'c' then vector 0 c r
    else if mode = chr 's' then if size ≠ 0 then none else some (false, m <<< 2 ||| c ||| r <<< 5)
    else if mode = chr 'e' then matrix (1 <<< 5)
    else if mode = chr 'm' then matrix 0
    else none

/-- `MipsParser.cpp:469-555` `parseVfpuRegister`. A size that is not set (-1) is refused. -/
def vfpuRegister (size : Option Nat) : List Token → Option ((Bool × Nat) × List Token)
  | (.ident [k, m, c, r], _) :: ts => do
    let m ← digit m
    let c ← digit c
    let r ← digit r
    let n ← vfpuNumber (lowerByte k) m c r (← size)
    some (n, ts)
  | _ => none

/-- `MipsParser.cpp:559-564` `vfpuCtrlNames`. -/
def vfpuControlNames : List (String × Nat) := [("spfx", 0), ("tpfx", 1), ("dpfx", 2), ("cc", 3), ("inf4", 4), ("rsv5", 5), ("rsv6", 6), ("rev", 7),
  ("rcx0", 8), ("rcx1", 9), ("rcx2", 10), ("rcx3", 11), ("rcx4", 12), ("rcx5", 13), ("rcx6", 14), ("rcx7", 15)]

/-- `MipsParser.cpp:557-592` `parseVfpuControlRegister`. For a negative number the code reads outside of the table of names. -/
def vfpuControl : List Token → Option (Int × List Token)
  | (.ident n, _) :: ts => (lookup n vfpuControlNames).map (·, ts)
  | (.int v, _) :: ts => if v ≤ 15 then some (v, ts) else none
  | _ => none

/-- `MipsParser.cpp:594-606` `(reg)` or `reg`. -/
def isRegister (ts : List Token) : Bool :=
  match ts with
  | (.lparen, _) :: ts => (register .cpu ts).isSome
  | ts => (register .cpu ts).isSome

/-- `MipsParser.cpp:594-612` `parseImmediate`. -/
def immediate (E : ExprParse.Env) (ts : List Token) : Option (Expr × List Token) :=
  if isRegister ts then none
  else
    match ExprParse.parse E (ts.map (·.1)) with
    | (some e, r) => some (e, ts.drop (ts.length - r.length))
    | (none, _) => none

/-- `MipsParser.cpp:614-627` `matchSymbol`. -/
def symbol : Char → List Token → Option (List Token)
  | '(', (.lparen, _) :: ts => some ts
  | ')', (.rparen, _) :: ts => some ts
  | ',', (.comma, _) :: ts => some ts
  | _, _ => none

/-- An entry of a `TokenSequenceParser` matches: the tokens have the types, identifiers and integers the values, and all values are used
(`Parser.cpp:904-952`). Values of other types are never used, so that an entry with one never matches: `none`. -/
def matchEntry : List (Option Tok) → List Token → Option (List Token)
  | [], ts => some ts
  | some t :: es, (t', _) :: ts => if t = t' then matchEntry es ts else none
  | _, _ => none

/-- `Parser.cpp:904-952` `TokenSequenceParser::parse`. -/
def sequence : List (Int × List (Option Tok)) → List Token → Option (Int × List Token)
  | [], _ => none
  | (n, e) :: l, ts =>
    match matchEntry e ts with
    | some ts => some (n, ts)
    | none => sequence l ts

/-- Identifier in an entry. -/
def I (s : String) : Option Tok := some (.ident (lit s))
/-- Integer in an entry. -/
def N (n : Int) : Option Tok := some (.int n)
/-- Other token in an entry. -/
def T (t : Tok) : Option Tok := some t

/-- `MipsParser.cpp:629-739` `parseVcstParameter`. The floating point number in `sqrt(0.5)` is a value that is never used. -/
def vcstEntries : List (Int × List (Option Tok)) := [
  (1, [I "maxfloat"]),
  (2, [I "sqrt", T .lparen, N 2, T .rparen]),
  (3, [I "sqrt", T .lparen, N 1, T .div, N 2, T .rparen]),
  (3, [I "sqrt", T .lparen, none, T .rparen]),
  (4, [N 2, T .div, I "sqrt", T .lparen, I "pi", T .rparen]),
  (5, [N 2, T .div, I "pi"]),
  (6, [N 1, T .div, I "pi"]),
  (7, [I "pi", T .div, N 4]),
  (8, [I "pi", T .div, N 2]),
  (16, [I "pi", T .div, N 6]),
  (9, [I "pi"]),
  (10, [I "e"]),
  (11, [I "log2", T .lparen, I "e", T .rparen]),
  (12, [I "log10", T .lparen, I "e", T .rparen]),
  (13, [I "ln", T .lparen, N 2, T .rparen]),
  (14, [I "ln", T .lparen, N 10, T .rparen]),
  (15, [N 2, T .mult, I "pi"]),
  (17, [I "log10", T .lparen, N 2, T .rparen]),
  (18, [I "log2", T .lparen, N 10, T .rparen]),
  (19, [I "sqrt", T .lparen, N 3, T .rparen, T .div, N 2])]

/-- `MipsParser.cpp:629-739`. -/
def vcst (ts : List Token) : Option (Int × List Token) := sequence vcstEntries ts

/-- The variables of `parseVfpuVrot`: `sin`, `cos`, `negSine`, `sineCount`. -/
structure Rot where
  sin : Option Nat
  cos : Option Nat
  neg : Bool
  count : Nat
  deriving DecidableEq, Repr

/-- `MipsParser.cpp:766-805` an element of a rotation at place `i`, after the comma. -/
def rotElement (i : Nat) (s : Rot) : List Token → Option (Rot × List Token) := fun ts =>
  let isNeg : Bool := ExprParse.peek (ts.map (·.1)) = .minus
  match (if isNeg then ts.drop 1 else ts) with
  | (.int _, t) :: ts => if t ≠ lit "0" ∨ isNeg = true then none else some (s, ts)
  | (.ident [k], _) :: ts =>
    if k = chr 's' then
      if (!isNeg && s.neg) || (isNeg && !s.neg && decide (s.count > 0)) then none
      else some (⟨some i, s.cos, s.neg || isNeg, s.count + 1⟩, ts)
    else if k = chr 'c' then
      if isNeg || s.cos.isSome then none else some ({ s with cos := some i }, ts)
    else none
  | _ => none

/-- `MipsParser.cpp:752-805` the loop over the elements, from place `i` on. -/
def rotLoop : Nat → Nat → Rot → List Token → Option (Rot × List Token)
  | 0, _, s, ts => some (s, ts)
  | n + 1, i, s, ts =>
    match (if i = 0 then some ts else symbol ',' ts) with
    | none => none
    | some ts =>
      match rotElement i s ts with
      | none => none
      | some (s, ts) => rotLoop n (i + 1) s ts

/-- `MipsParser.cpp:810-850` the number of a rotation of `n` elements. -/
def rotNumber (n : Nat) (s : Rot) : Option Nat :=
  let start := if s.neg then 0x10 else 0
  match s.sin, s.cos with
  | none, none => none
  | none, some c => if n = 4 then none else some (start ||| c ||| n <<< 2)
  | some i, none =>
    if n = 4 then none
    else if s.count = 1 then some (start ||| n ||| i <<< 2)
    else if s.count = n then some (start ||| n ||| n <<< 2)
    else none
  | some i, some c =>
    if s.count > 1 then if s.count + 1 ≠ n then none else some (start ||| c ||| c <<< 2)
    else some (start ||| c ||| i <<< 2)

/-- `MipsParser.cpp:741-851` `parseVfpuVrot`. A size that is not set gives no elements, and no rotation. -/
def vrot (size : Option Nat) : List Token → Option (Int × List Token)
  | (.lbrack, _) :: ts =>
    match size with
    | none => none
    | some size =>
      match rotLoop (size + 1) 0 ⟨none, none, false, 0⟩ ts with
      | none => none
      | some (s, ts) => (rotNumber (size + 1) s).bind fun n => closing (n : Int) ts
  | _ => none

/-- `MipsParser.cpp:855-858` `conditions`. -/
def vfpuConditions : List (String × Nat) := [("fl", 0), ("eq", 1), ("lt", 2), ("le", 3), ("tr", 4), ("ne", 5), ("ge", 6), ("gt", 7),
  ("ez", 8), ("en", 9), ("ei", 10), ("es", 11), ("nz", 12), ("nn", 13), ("ni", 14), ("ns", 15)]

/-- `MipsParser.cpp:853-875` `parseVfpuCondition`. -/
def vfpuCondition : List Token → Option (Int × List Token)
  | (.ident n, _) :: ts => (lookup n vfpuConditions).map (·, ts)
  | _ => none

/-- `MipsParser.cpp:884-899` the constants of a source prefix. -/
def constEntries : List (Int × List (Option Tok)) := [(0, [N 0]), (3, [N 1, T .div, N 2]), (5, [N 1, T .div, N 3]), (6, [N 1, T .div, N 4]),
  (7, [N 1, T .div, N 6]), (1, [N 1]), (2, [N 2]), (4, [N 3])]

/-- `strchr("xyzw", …)` for a name of one character. -/
def lane : Str → Option Nat
  | [k] => if k = chr 'x' then some 0 else if k = chr 'y' then some 1 else if k = chr 'z' then some 2 else if k = chr 'w' then some 3 else none
  | _ => none

/-- `MipsParser.cpp:918-970` the element at place `i` of a source prefix. -/
def vpfxsElement (i : Nat) (result : Nat) (ts : List Token) : Option (Nat × List Token) :=
  let neg : Bool := ExprParse.peek (ts.map (·.1)) = .minus
  let result := if neg then result ||| 1 <<< (16 + i) else result
  let ts := if neg then ts.drop 1 else ts
  let abs : Bool := ExprParse.peek (ts.map (·.1)) = .bitOr
  let result := if abs then result ||| 1 <<< (8 + i) else result
  let ts := if abs then ts.drop 1 else ts
  match ts with
  | (.ident n, _) :: ts =>
    match lane n with
    | none => none
    | some k =>
      let result := result ||| k <<< (i * 2)
      if abs then
        match ts with
        | (.bitOr, _) :: ts => some (result, ts)
        | _ => none
      else some (result, ts)
  | ts =>
    if abs then none
    else
      match sequence constEntries ts with
      | none => none
      | some (n, ts) =>
        let result := result ||| 1 <<< (12 + i)
        let result := result ||| (n.toNat &&& 3) <<< (i * 2)
        some (if n.toNat &&& 4 ≠ 0 then result ||| 1 <<< (8 + i) else result, ts)

/-- A loop over the four elements of a prefix, from place `i` on. -/
def prefixLoop (element : Nat → Nat → List Token → Option (Nat × List Token)) : Nat → Nat → Nat → List Token → Option (Nat × List Token)
  | 0, _, result, ts => some (result, ts)
  | n + 1, i, result, ts =>
    match (if i = 0 then some ts else symbol ',' ts) with
    | none => none
    | some ts =>
      match element i result ts with
      | none => none
      | some (result, ts) => prefixLoop element n (i + 1) result ts

/-- `MipsParser.cpp:877-974` `parseVpfxsParameter`. -/
def vpfxs (ts : List Token) : Option (Int × List Token) := (prefixLoop vpfxsElement 4 0 0 ts).map fun r => ((r.1 : Int), r.2)

/-- `MipsParser.cpp:984-996` the entries of a destination prefix. -/
def maskEntries : List (Int × List (Option Tok)) := [(-1, [I "m"]), (1, [T .lbrack, N 0, T .colon, N 1, T .rbrack]),
  (3, [T .lbrack, T .minus, N 1, T .colon, N 1, T .rbrack])]

/-- `MipsParser.cpp:1011-1037` the element at place `i` of a destination prefix. -/
def vpfxdElement (i : Nat) (result : Nat) (ts : List Token) : Option (Nat × List Token) :=
  match ts with
  | (.comma, x) :: ts => if i < 3 then some (result, (.comma, x) :: ts) else none
  | (.separator, x) :: ts => if i = 3 then some (result, (.separator, x) :: ts) else none
  | ts =>
    match sequence maskEntries ts with
    | none => none
    | some (n, ts) => some (if n < 0 then result ||| 1 <<< (8 + i) else result ||| n.toNat <<< (2 * i), ts)

/-- `MipsParser.cpp:976-1041` `parseVpfxdParameter`. -/
def vpfxd (ts : List Token) : Option (Int × List Token) := (prefixLoop vpfxdElement 4 0 0 ts).map fun r => ((r.1 : Int), r.2)

/-- `MipsParser.cpp:1043-1092` `decodeCop2BranchCondition`: the rest of the text has to be a condition. -/
def branchConditions : List (String × Nat) := [("any", 4), ("all", 5), ("x", 0), ("0", 0), ("y", 1), ("1", 1), ("z", 2), ("2", 2), ("w", 3), ("3", 3),
  ("4", 4), ("5", 5)]

/-- `MipsParser.cpp:1094-1109` `parseCop2BranchCondition`. -/
def branchCondition : List Token → Option (Int × List Token)
  | (.int v, _) :: ts => if v ≤ 5 then some (v, ts) else none
  | (.ident n, _) :: ts => (lookup n branchConditions).map (·, ts)
  | _ => none

/-- `MipsParser.cpp:1111-1118` `parseWb`. -/
def writeBack : List Token → Option (List Token)
  | (.ident n, _) :: ts => if n = lit "wb" then some ts else none
  | _ => none

/-! ### The syntax of a row -/

/-- The letter between `v` and the letter of the register. -/
inductive VSize
  | same | single | half | double | fourth | quad
  deriving DecidableEq, Repr

/-- `MipsParser.cpp:1297-1343` `actualSize`. -/
def VSize.apply : VSize → Option Nat → Option Nat
  | .same, s => s
  | .single, _ => some 0
  | .half, some 1 => some 0
  | .half, some 3 => some 1
  | .double, some 0 => some 1
  | .double, some 1 => some 3
  | .fourth, some 3 => some 0
  | .quad, some 0 => some 3
  | _, _ => none

/-- The operands of the vector unit of the PSP. -/
inductive Arg
  | source | dest | const | rot
  deriving DecidableEq, Repr

/-- A piece of the syntax. -/
inductive Elem
  | reg (c : Cls) (s : Slot)
  | vec (v : VSize) (s : Slot)
  | vecControl
  | matrix (s : Slot)
  | element
  | scalar (s : Slot)
  | offset
  | forced (n : Nat)
  | imm (t : ImmType)
  | sec (t : SecType)
  | branch
  | cond
  | arg (a : Arg)
  | wb
  | sym (c : Char)
  deriving DecidableEq, Repr

/-- The letter after `v` and a size. -/
def vecLetter (v : VSize) : Char → Option Elem
  | 's' => some (.vec v .vrs)
  | 't' => some (.vec v .vrt)
  | 'd' => some (.vec v .vrd)
  | 'c' => some .vecControl
  | _ => none

/-- The letter after `m`. -/
def matrixElem : Char → Option Elem
  | 's' => some (.matrix .vrs)
  | 't' => some (.matrix .vrt)
  | 'd' => some (.matrix .vrd)
  | _ => none

/-- The letter after `V`. -/
def ps2Elem : Char → Option Elem
  | 't' => some (.reg .ps2 .ps2vrt)
  | 'd' => some (.reg .ps2 .ps2vrd)
  | 's' => some (.reg .ps2 .ps2vrs)
  | _ => none

/-- The letter after `g`. -/
def gteElem : Char → Option Elem
  | 't' => some (.reg .gteData .grt)
  | 's' => some (.reg .gteData .grd)
  | 'c' => some (.reg .gteControl .grd)
  | _ => none

/-- The letter after `R`. -/
def rspElem : Char → Option Elem
  | 'z' => some (.reg .rspCop0 .grd)
  | 'c' => some (.reg .rspControl .grd)
  | 't' => some (.reg .rspVector .rspvrt)
  | 'd' => some (.reg .rspVector .rspvrd)
  | 's' => some (.reg .rspVector .rspvrs)
  | 'e' => some .element
  | 'l' => some (.scalar .rspve)
  | 'm' => some (.scalar .rspvde)
  | 'o' => some .offset
  | _ => none

/-- The letter after `j`. -/
def secElem : Char → Option Elem
  | 'c' => some (.sec .cacheOp)
  | 'e' => some (.sec .ext)
  | 'i' => some (.sec .ins)
  | 'b' => some .branch
  | _ => none

/-- The letter after `W`. -/
def argElem : Char → Option Elem
  | 's' => some (.arg .source)
  | 'd' => some (.arg .dest)
  | 'c' => some (.arg .const)
  | 'r' => some (.arg .rot)
  | _ => none

/-- One element in front of others. -/
def cons (e : Option Elem) (l : Option (List Elem)) : Option (List Elem) := e.bind fun e => l.map (e :: ·)

/-- `MipsParser.cpp:1264-1526` the letters of the syntax; `1120-1163` `decodeImmediateSize`. After `w` the letter `b` does not follow in the
table. `none` is a syntax that is always refused. -/
def elements : List Char → Option (List Elem)
  | [] => some []
  | 't' :: r => cons (some (.reg .cpu .grt)) (elements r)
  | 'd' :: r => cons (some (.reg .cpu .grd)) (elements r)
  | 's' :: r => cons (some (.reg .cpu .grs)) (elements r)
  | 'T' :: r => cons (some (.reg .fpu .frt)) (elements r)
  | 'D' :: r => cons (some (.reg .fpu .frd)) (elements r)
  | 'S' :: r => cons (some (.reg .fpu .frs)) (elements r)
  | 'f' :: r => cons (some (.reg .fpuControl .frs)) (elements r)
  | 'z' :: r => cons (some (.reg .cop0 .grd)) (elements r)
  | 'v' :: 'S' :: k :: r => cons (vecLetter .single k) (elements r)
  | 'v' :: 'H' :: k :: r => cons (vecLetter .half k) (elements r)
  | 'v' :: 'D' :: k :: r => cons (vecLetter .double k) (elements r)
  | 'v' :: 'F' :: k :: r => cons (vecLetter .fourth k) (elements r)
  | 'v' :: 'Q' :: k :: r => cons (vecLetter .quad k) (elements r)
  | 'v' :: k :: r => cons (vecLetter .same k) (elements r)
  | 'm' :: k :: r => cons (matrixElem k) (elements r)
  | 'V' :: k :: r => cons (ps2Elem k) (elements r)
  | 'g' :: k :: r => cons (gteElem k) (elements r)
  | 'r' :: n :: r => cons (some (.forced n.toNat)) (elements r)
  | 'R' :: k :: r => cons (rspElem k) (elements r)
  | 'i' :: 'h' :: r => cons (some (.imm .half)) (elements r)
  | 'i' :: '5' :: r => cons (some (.imm .i5)) (elements r)
  | 'i' :: '7' :: r => cons (some (.imm .i7)) (elements r)
  | 'i' :: '1' :: '0' :: r => cons (some (.imm .i10)) (elements r)
  | 'i' :: '1' :: '6' :: r => cons (some (.imm .i16)) (elements r)
  | 'i' :: '2' :: '0' :: r => cons (some (.imm .i20)) (elements r)
  | 'i' :: '2' :: '5' :: r => cons (some (.imm .i25)) (elements r)
  | 'i' :: '2' :: '6' :: r => cons (some (.imm .i26)) (elements r)
  | 'j' :: k :: r => cons (secElem k) (elements r)
  | 'C' :: r => cons (some .cond) (elements r)
  | 'W' :: k :: r => cons (argElem k) (elements r)
  | 'w' :: r => cons (some .wb) (elements r)
  | c :: r => cons (some (.sym c)) (elements r)

/-! ### The operands -/

/-- A register member; -1 is "not set". -/
def setReg (o : Operands) (s : Slot) (n : Int) : Operands :=
  { o with regs := fun x => if x = s then (if n < 0 then none else some n.toNat) else o.regs x }

/-- The parser of an argument of the vector unit of the PSP. -/
def argument (size : Option Nat) : Arg → List Token → Option (Int × List Token)
  | .source => vpfxs
  | .dest => vpfxd
  | .const => vcst
  | .rot => vrot size

/-- `MipsParser.cpp:1268-1524` one piece of the syntax of row `op`. -/
def elem (E : ExprParse.Env) (op : Op) (size : Option Nat) (o : Operands) : Elem → List Token → Option (Operands × List Token)
  | .reg c s, ts => (register c ts).map fun r => (setReg o s r.1, r.2)
  | .vec v s, ts =>
    match v.apply size with
    | none => none
    | some n =>
      match vfpuRegister (some n) ts with
      | some ((false, n), ts) => if op.has .vfpu6bit && n &&& 0x40 ≠ 0 then none else some (setReg o s n, ts)
      | _ => none
  | .vecControl, ts => (vfpuControl ts).map fun r => (setReg o .vrd r.1, r.2)
  | .matrix s, ts =>
    match vfpuRegister size ts with
    | some ((true, n), ts) => some (setReg o s ((if s = .vrs ∧ op.has .vfpuTransposeVs = true then n ^^^ 0x20 else n : Nat) : Int), ts)
    | _ => none
  | .element, ts => (rspElement ts).map fun r => (setReg o .rspve r.1, r.2)
  | .scalar s, ts => (rspScalar ts).map fun r => (setReg o s r.1, r.2)
  | .offset, ts => (rspOffset ts).map fun r => (setReg o .rspvealt r.1, r.2)
  | .forced n, ts =>
    match register .cpu ts with
    | some (k, ts) => if k = n then some (o, ts) else none
    | none => none
  | .imm _, ts => (immediate E ts).map fun r => ({ o with imm := some r.1 }, r.2)
  | .sec _, ts => (immediate E ts).map fun r => ({ o with sec := some r.1 }, r.2)
  | .branch, ts => (branchCondition ts).map fun r => ({ o with secValue := BitVec.ofInt 32 r.1 }, r.2)
  | .cond, ts => (vfpuCondition ts).map fun r => ({ o with cond := some r.1.toNat }, r.2)
  | .arg a, ts => (argument size a ts).map fun r => ({ o with immValue := BitVec.ofInt 32 r.1 }, r.2)
  | .wb, ts => (writeBack ts).map fun ts => (o, ts)
  | .sym c, ts => (symbol c ts).map fun ts => (o, ts)

/-- `MipsParser.cpp:1264-1534` the loop over the syntax; the next token has to be a separator. -/
def params (E : ExprParse.Env) (op : Op) (size : Option Nat) : List Elem → List Token → Operands → Option (Operands × List Token)
  | [], (.separator, _) :: ts, o => some (o, ts)
  | [], _, _ => none
  | e :: es, ts, o =>
    match elem E op size o e ts with
    | none => none
    | some (o, ts) => params E op size es ts o

/-- What `decodeOpcode` finds in the name: `vfpuSize`, and the secondary immediate. -/
structure Name where
  size : Option Nat
  sec : Option Nat
  deriving DecidableEq, Repr

/-- `MipsParser.cpp:1165-1188` `decodeVfpuType`. -/
def vfpuType (k : Byte) : Option Nat :=
  if k = chr 's' then some 0 else if k = chr 'p' then some 1 else if k = chr 't' then some 2 else if k = chr 'q' then some 3 else none

/-- `MipsParser.cpp:1190-1221` `decodeOpcode`: the name of the row and the name that is written. -/
def decodeName : List Char → Str → Name → Option Name
  | [], [], x => some x
  | [], _ :: _, _ => none
  | p :: ps, n, x =>
    if p = 'S' then
      match n with
      | [] => none
      | k :: n => (vfpuType k).bind fun s => decodeName ps n { x with size := some s }
    else if p = 'B' then
      match lookup n branchConditions with
      | none => none
      | some c => decodeName ps [] { x with sec := some c.toNat }
    else
      match n with
      | [] => none
      | k :: n => if chr p = k then decodeName ps n x else none

/-- `MipsParser.cpp:1251-1261` the size that the flags give if the name gives none. -/
def sizeOf (op : Op) : Option Nat → Option Nat
  | some n => some n
  | none =>
    if op.has .vfpuSingle then some 0 else if op.has .vfpuPair then some 1 else if op.has .vfpuTriple then some 2
    else if op.has .vfpuQuad then some 3 else none

/-- `MipsParser.cpp:1195-1200`, `registers.reset()` and so on. `Operands` holds the size that the name gives; one that the flags give is not
encoded. -/
def fresh (n : Name) : Operands :=
  ⟨fun _ => none, none, 0#32, none, match n.sec with | some c => BitVec.ofNat 32 c | none => 0#32, n.size, none⟩

/-- `MipsParser.cpp:1565-1576` one row. -/
def row (E : ExprParse.Env) (v : Version) (name : Str) (ts : List Token) (op : Op) : Option ((Op × Operands) × List Token) :=
  if op.available v then
    match decodeName op.name.toList name ⟨none, none⟩ with
    | none => none
    | some n =>
      match elements op.mask.toList with
      | none => none
      | some es => (params E op (sizeOf op n.size) es ts (fresh n)).map fun r => ((op, r.1), r.2)
  else none

/-- `MipsParser.cpp:1537-1583` `parseOpcode`: the first row that fits. -/
def line (E : ExprParse.Env) (v : Version) : List Token → Option ((Op × Operands) × List Token)
  | (.ident name, _) :: ts => Mips.opcodes.findSome? (row E v name ts)
  | _ => none

end Armips.MipsParse
