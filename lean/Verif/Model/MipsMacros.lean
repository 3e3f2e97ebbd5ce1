import Verif.Model.Mips
/-!
# MIPS macros

Models `Archs/MIPS/MipsMacros.cpp` and the part of `Archs/MIPS/MipsParser.cpp` that turns a line into an instruction or a
macro.

* A line is a mnemonic and a list of tokens (`Tok`), in which a register is already recognised as such and an immediate is
  the expression that was read (`parseImmediate`, `MipsParser.cpp:594-612`, which refuses registers).
* The text of a template with its variables replaced is modelled as a tree (`Text`), so that printing an operand and reading
  it again gives the same operand. That holds for registers and for `plain` expressions. Other expressions (floating point
  numbers, which are printed with few digits, strings and function calls, which cannot be printed) are not modelled, except
  for a floating point constant in `li`: `none`.
* The parser resolves conditions that are constant at once; here they are evaluated with the others, with the same result.
* `none` is a line that is refused, or not modelled.
* Macros and `equ`s of the user with the name of an instruction, which would be used in the templates too, are not modelled.
* Not modelled: `li.s`, and names of rows with a variable part (`S`, `B`), which belong to the VFPU and to `bvf` and the like.
-/
namespace Armips.Mips

/-- A part of a line after the mnemonic. -/
inductive Tok
  | reg (n : Nat)
  | freg (n : Nat)
  | imm (e : Expr)
  | comma
  | lpar
  | rpar

def noOperands : Operands := ⟨fun _ => none, none, 0#32, none, 0#32, none, none⟩

def Operands.set (o : Operands) (s : Slot) (n : Nat) : Operands :=
  { o with regs := fun x => if x = s then some n else o.regs x }

/-- `MipsParser.cpp:1232-1535` `parseParameters` for registers of the CPU and the FPU and the immediates; the line has to end
with the syntax. -/
def params : List Char → List Tok → Operands → Option Operands
  | [], [], o => some o
  | 't' :: r, .reg n :: ts, o => params r ts (o.set .grt n)
  | 'd' :: r, .reg n :: ts, o => params r ts (o.set .grd n)
  | 's' :: r, .reg n :: ts, o => params r ts (o.set .grs n)
  | 'T' :: r, .freg n :: ts, o => params r ts (o.set .frt n)
  | 'D' :: r, .freg n :: ts, o => params r ts (o.set .frd n)
  | 'S' :: r, .freg n :: ts, o => params r ts (o.set .frs n)
  | 'i' :: '5' :: r, .imm e :: ts, o => params r ts { o with imm := some e }
  | 'i' :: '1' :: '0' :: r, .imm e :: ts, o => params r ts { o with imm := some e }
  | 'i' :: '1' :: '6' :: r, .imm e :: ts, o => params r ts { o with imm := some e }
  | 'i' :: '2' :: '0' :: r, .imm e :: ts, o => params r ts { o with imm := some e }
  | 'i' :: '2' :: '5' :: r, .imm e :: ts, o => params r ts { o with imm := some e }
  | 'i' :: '2' :: '6' :: r, .imm e :: ts, o => params r ts { o with imm := some e }
  | ',' :: r, .comma :: ts, o => params r ts o
  | '(' :: r, .lpar :: ts, o => params r ts o
  | ')' :: r, .rpar :: ts, o => params r ts o
  | _, _, _ => none

/-- `MipsParser.cpp:1537-1583` `parseOpcode`: the first row of this version with the name whose syntax matches. -/
def select (v : Version) (name : String) (ts : List Tok) : Option (Op × Operands) :=
  opcodes.findSome? fun op =>
    if op.name = name ∧ op.available v = true then (params op.mask.toList ts noOperands).map (op, ·) else none

/-- `MipsMacros.h:10-23` the access types that the unaligned macros know. -/
inductive Access | hw | hwu | w | dw
  deriving DecidableEq, Repr

/-- `MipsMacros.h:25-31` the conditions. -/
inductive Condition | ne | lt | ltu | ge | geu | eq
  deriving DecidableEq, Repr

/-- `MipsMacros.cpp` the generating function with the flags that it looks at; `loadStore` has the opcode that the flags
select (`183-210`), and whether it is one of a coprocessor, a store, and has upper and lower part. -/
inductive Kind
  | abs (dword : Bool)
  | li (upper lower : Bool)
  | liFloat
  | loadStore (op : String) (cop store upper lower : Bool)
  | loadUnaligned (a : Access)
  | storeUnaligned (a : Access)
  | branch (c : Condition) (imm likely revcmp : Bool)
  | set (c : Condition) (imm revcmp : Bool)
  | rotate (left imm : Bool)
  deriving DecidableEq, Repr

/-- `MipsMacros.h:53-58` `MipsMacroDefinition`. -/
structure MacroRow where
  name : String
  args : String
  kind : Kind
  deriving DecidableEq, Repr

/-- `MipsMacros.cpp:595-771` `mipsMacros`. -/
def macros : List MacroRow := [
  ⟨"abs", "d,s", .abs false⟩,
  ⟨"dabs", "d,s", .abs true⟩,
  ⟨"li", "s,I", .li true true⟩,
  ⟨"li.u", "s,I", .li true false⟩,
  ⟨"li.l", "s,I", .li false true⟩,
  ⟨"la", "s,I", .li true true⟩,
  ⟨"la.u", "s,I", .li true false⟩,
  ⟨"la.l", "s,I", .li false true⟩,
  ⟨"li.s", "S,I", .liFloat⟩,
  ⟨"lb", "s,I", .loadStore "lb" false false true true⟩,
  ⟨"lbu", "s,I", .loadStore "lbu" false false true true⟩,
  ⟨"lh", "s,I", .loadStore "lh" false false true true⟩,
  ⟨"lhu", "s,I", .loadStore "lhu" false false true true⟩,
  ⟨"lw", "s,I", .loadStore "lw" false false true true⟩,
  ⟨"lwu", "s,I", .loadStore "lwu" false false true true⟩,
  ⟨"ld", "s,I", .loadStore "ld" false false true true⟩,
  ⟨"ll", "s,I", .loadStore "ll" false false true true⟩,
  ⟨"lld", "s,I", .loadStore "lld" false false true true⟩,
  ⟨"lwc1", "S,I", .loadStore "lwc1" true false true true⟩,
  ⟨"l.s", "S,I", .loadStore "lwc1" true false true true⟩,
  ⟨"lwc2", "S,I", .loadStore "lwc2" true false true true⟩,
  ⟨"ldc1", "S,I", .loadStore "ldc1" true false true true⟩,
  ⟨"l.d", "S,I", .loadStore "ldc1" true false true true⟩,
  ⟨"ldc2", "S,I", .loadStore "ldc2" true false true true⟩,
  ⟨"lb.u", "s,I", .loadStore "lb" false false true false⟩,
  ⟨"lbu.u", "s,I", .loadStore "lbu" false false true false⟩,
  ⟨"lh.u", "s,I", .loadStore "lh" false false true false⟩,
  ⟨"lhu.u", "s,I", .loadStore "lhu" false false true false⟩,
  ⟨"lw.u", "s,I", .loadStore "lw" false false true false⟩,
  ⟨"lwu.u", "s,I", .loadStore "lwu" false false true false⟩,
  ⟨"ld.u", "s,I", .loadStore "ld" false false true false⟩,
  ⟨"ll.u", "s,I", .loadStore "ll" false false true false⟩,
  ⟨"lld.u", "s,I", .loadStore "lld" false false true false⟩,
  ⟨"lwc1.u", "S,I", .loadStore "lwc1" true false true false⟩,
  ⟨"l.s.u", "S,I", .loadStore "lwc1" true false true false⟩,
  ⟨"lwc2.u", "S,I", .loadStore "lwc2" true false true false⟩,
  ⟨"ldc1.u", "S,I", .loadStore "ldc1" true false true false⟩,
  ⟨"l.d.u", "S,I", .loadStore "ldc1" true false true false⟩,
  ⟨"ldc2.u", "S,I", .loadStore "ldc2" true false true false⟩,
  ⟨"lb.l", "s,I", .loadStore "lb" false false false true⟩,
  ⟨"lbu.l", "s,I", .loadStore "lbu" false false false true⟩,
  ⟨"lh.l", "s,I", .loadStore "lh" false false false true⟩,
  ⟨"lhu.l", "s,I", .loadStore "lhu" false false false true⟩,
  ⟨"lw.l", "s,I", .loadStore "lw" false false false true⟩,
  ⟨"lwu.l", "s,I", .loadStore "lwu" false false false true⟩,
  ⟨"ld.l", "s,I", .loadStore "ld" false false false true⟩,
  ⟨"ll.l", "s,I", .loadStore "ll" false false false true⟩,
  ⟨"lld.l", "s,I", .loadStore "lld" false false false true⟩,
  ⟨"lwc1.l", "S,I", .loadStore "lwc1" true false false true⟩,
  ⟨"l.s.l", "S,I", .loadStore "lwc1" true false false true⟩,
  ⟨"lwc2.l", "S,I", .loadStore "lwc2" true false false true⟩,
  ⟨"ldc1.l", "S,I", .loadStore "ldc1" true false false true⟩,
  ⟨"l.d.l", "S,I", .loadStore "ldc1" true false false true⟩,
  ⟨"ldc2.l", "S,I", .loadStore "ldc2" true false false true⟩,
  ⟨"ulh", "d,i(s)", .loadUnaligned .hw⟩,
  ⟨"ulh", "d,(s)", .loadUnaligned .hw⟩,
  ⟨"ulhu", "d,i(s)", .loadUnaligned .hwu⟩,
  ⟨"ulhu", "d,(s)", .loadUnaligned .hwu⟩,
  ⟨"ulw", "d,i(s)", .loadUnaligned .w⟩,
  ⟨"ulw", "d,(s)", .loadUnaligned .w⟩,
  ⟨"uld", "d,i(s)", .loadUnaligned .dw⟩,
  ⟨"uld", "d,(s)", .loadUnaligned .dw⟩,
  ⟨"sb", "s,I", .loadStore "sb" false true true true⟩,
  ⟨"sh", "s,I", .loadStore "sh" false true true true⟩,
  ⟨"sw", "s,I", .loadStore "sw" false true true true⟩,
  ⟨"sd", "s,I", .loadStore "sd" false true true true⟩,
  ⟨"sc", "s,I", .loadStore "sc" false true true true⟩,
  ⟨"scd", "s,I", .loadStore "scd" false true true true⟩,
  ⟨"swc1", "S,I", .loadStore "swc1" true true true true⟩,
  ⟨"s.s", "S,I", .loadStore "swc1" true true true true⟩,
  ⟨"swc2", "S,I", .loadStore "swc2" true true true true⟩,
  ⟨"sdc1", "S,I", .loadStore "sdc1" true true true true⟩,
  ⟨"s.d", "S,I", .loadStore "sdc1" true true true true⟩,
  ⟨"sdc2", "S,I", .loadStore "sdc2" true true true true⟩,
  ⟨"sb.u", "s,I", .loadStore "sb" false true true false⟩,
  ⟨"sh.u", "s,I", .loadStore "sh" false true true false⟩,
  ⟨"sw.u", "s,I", .loadStore "sw" false true true false⟩,
  ⟨"sd.u", "s,I", .loadStore "sd" false true true false⟩,
  ⟨"sc.u", "s,I", .loadStore "sc" false true true false⟩,
  ⟨"scd.u", "s,I", .loadStore "scd" false true true false⟩,
  ⟨"swc1.u", "S,I", .loadStore "swc1" true true true false⟩,
  ⟨"s.s.u", "S,I", .loadStore "swc1" true true true false⟩,
  ⟨"swc2.u", "S,I", .loadStore "swc2" true true true false⟩,
  ⟨"sdc1.u", "S,I", .loadStore "sdc1" true true true false⟩,
  ⟨"s.d.u", "S,I", .loadStore "sdc1" true true true false⟩,
  ⟨"sdc2.u", "S,I", .loadStore "sdc2" true true true false⟩,
  ⟨"sb.l", "s,I", .loadStore "sb" false true false true⟩,
  ⟨"sh.l", "s,I", .loadStore "sh" false true false true⟩,
  ⟨"sw.l", "s,I", .loadStore "sw" false true false true⟩,
  ⟨"sd.l", "s,I", .loadStore "sd" false true false true⟩,
  ⟨"sc.l", "s,I", .loadStore "sc" false true false true⟩,
  ⟨"scd.l", "s,I", .loadStore "scd" false true false true⟩,
  ⟨"swc1.l", "S,I", .loadStore "swc1" true true false true⟩,
  ⟨"s.s.l", "S,I", .loadStore "swc1" true true false true⟩,
  ⟨"swc2.l", "S,I", .loadStore "swc2" true true false true⟩,
  ⟨"sdc1.l", "S,I", .loadStore "sdc1" true true false true⟩,
  ⟨"s.d.l", "S,I", .loadStore "sdc1" true true false true⟩,
  ⟨"sdc2.l", "S,I", .loadStore "sdc2" true true false true⟩,
  ⟨"ush", "d,i(s)", .storeUnaligned .hw⟩,
  ⟨"ush", "d,(s)", .storeUnaligned .hw⟩,
  ⟨"usw", "d,i(s)", .storeUnaligned .w⟩,
  ⟨"usw", "d,(s)", .storeUnaligned .w⟩,
  ⟨"usd", "d,i(s)", .storeUnaligned .dw⟩,
  ⟨"usd", "d,(s)", .storeUnaligned .dw⟩,
  ⟨"blt", "s,t,I", .branch .lt false false false⟩,
  ⟨"blt", "s,i,I", .branch .lt true false false⟩,
  ⟨"bgt", "s,t,I", .branch .lt false false true⟩,
  ⟨"bgt", "s,i,I", .branch .lt true false true⟩,
  ⟨"bltu", "s,t,I", .branch .ltu false false false⟩,
  ⟨"bltu", "s,i,I", .branch .ltu true false false⟩,
  ⟨"bgtu", "s,t,I", .branch .ltu false false true⟩,
  ⟨"bgtu", "s,i,I", .branch .ltu true false true⟩,
  ⟨"bge", "s,t,I", .branch .ge false false false⟩,
  ⟨"bge", "s,i,I", .branch .ge true false false⟩,
  ⟨"ble", "s,t,I", .branch .ge false false true⟩,
  ⟨"ble", "s,i,I", .branch .ge true false true⟩,
  ⟨"bgeu", "s,t,I", .branch .geu false false false⟩,
  ⟨"bgeu", "s,i,I", .branch .geu true false false⟩,
  ⟨"bleu", "s,t,I", .branch .geu false false true⟩,
  ⟨"bleu", "s,i,I", .branch .geu true false true⟩,
  ⟨"bne", "s,i,I", .branch .ne true false false⟩,
  ⟨"beq", "s,i,I", .branch .eq true false false⟩,
  ⟨"bltl", "s,t,I", .branch .lt false true false⟩,
  ⟨"bltl", "s,i,I", .branch .lt true true false⟩,
  ⟨"bgtl", "s,t,I", .branch .lt false true true⟩,
  ⟨"bgtl", "s,i,I", .branch .lt true true true⟩,
  ⟨"bltul", "s,t,I", .branch .ltu false true false⟩,
  ⟨"bltul", "s,i,I", .branch .ltu true true false⟩,
  ⟨"bgtul", "s,t,I", .branch .ltu false true true⟩,
  ⟨"bgtul", "s,i,I", .branch .ltu true true true⟩,
  ⟨"bgel", "s,t,I", .branch .ge false true false⟩,
  ⟨"bgel", "s,i,I", .branch .ge true true false⟩,
  ⟨"blel", "s,t,I", .branch .ge false true true⟩,
  ⟨"blel", "s,i,I", .branch .ge true true true⟩,
  ⟨"bgeul", "s,t,I", .branch .geu false true false⟩,
  ⟨"bgeul", "s,i,I", .branch .geu true true false⟩,
  ⟨"bleul", "s,t,I", .branch .geu false true true⟩,
  ⟨"bleul", "s,i,I", .branch .geu true true true⟩,
  ⟨"bnel", "s,i,I", .branch .ne true true false⟩,
  ⟨"beql", "s,i,I", .branch .eq true true false⟩,
  ⟨"slt", "d,s,I", .set .lt true false⟩,
  ⟨"sltu", "d,s,I", .set .ltu true false⟩,
  ⟨"sgt", "d,s,I", .set .lt true true⟩,
  ⟨"sgtu", "d,s,I", .set .ltu true true⟩,
  ⟨"sge", "d,s,t", .set .ge false false⟩,
  ⟨"sge", "d,s,I", .set .ge true false⟩,
  ⟨"sle", "d,s,t", .set .ge false true⟩,
  ⟨"sle", "d,s,I", .set .ge true true⟩,
  ⟨"sgeu", "d,s,t", .set .geu false false⟩,
  ⟨"sgeu", "d,s,I", .set .geu true false⟩,
  ⟨"sleu", "d,s,t", .set .geu false true⟩,
  ⟨"sleu", "d,s,I", .set .geu true true⟩,
  ⟨"sne", "d,s,t", .set .ne false false⟩,
  ⟨"sne", "d,s,I", .set .ne true false⟩,
  ⟨"seq", "d,s,t", .set .eq false false⟩,
  ⟨"seq", "d,s,I", .set .eq true false⟩,
  ⟨"rol", "d,s,t", .rotate true false⟩,
  ⟨"rol", "d,s,i", .rotate true true⟩,
  ⟨"ror", "d,s,t", .rotate false false⟩,
  ⟨"ror", "d,s,i", .rotate false true⟩]

/-- The registers and immediates of a macro. -/
structure Parsed where
  grs : Option Nat := none
  grt : Option Nat := none
  grd : Option Nat := none
  frs : Option Nat := none
  prim : Option Expr := none
  sec : Option Expr := none

/-- `MipsParser.cpp:1585-1625` `parseMacroParameters`; the line has to end with the syntax. -/
def macroParams : List Char → List Tok → Parsed → Option Parsed
  | [], [], p => some p
  | 't' :: r, .reg n :: ts, p => macroParams r ts { p with grt := some n }
  | 'd' :: r, .reg n :: ts, p => macroParams r ts { p with grd := some n }
  | 's' :: r, .reg n :: ts, p => macroParams r ts { p with grs := some n }
  | 'S' :: r, .freg n :: ts, p => macroParams r ts { p with frs := some n }
  | 'i' :: r, .imm e :: ts, p => macroParams r ts { p with prim := some e }
  | 'I' :: r, .imm e :: ts, p => macroParams r ts { p with sec := some e }
  | ',' :: r, .comma :: ts, p => macroParams r ts p
  | '(' :: r, .lpar :: ts, p => macroParams r ts p
  | ')' :: r, .rpar :: ts, p => macroParams r ts p
  | _, _, _ => none

/-- `MipsParser.cpp:1627-1655` `parseMacro`: the first macro with the name whose syntax matches. -/
def findMacro (name : String) (ts : List Tok) : Option (Kind × Parsed) :=
  macros.findSome? fun m => if m.name = name then (macroParams m.args.toList ts {}).map (m.kind, ·) else none

/-- Expressions that can be printed (`Expression.cpp:745-810`) and read again: an integer whose absolute value is a literal,
names, the location counter, and operations on them; a sign in front of a negative integer, which the parser would have
resolved, cannot be read. -/
def plain : Expr → Bool
  | .int v => decide (-(2 ^ 63) < v)
  | .ident _ _ _ | .memoryPos => true
  | .un _ (.int v) => decide (0 ≤ v)
  | .un _ a => plain a
  | .bin _ a b => plain a && plain b
  | .cond a b c => plain a && plain b && plain c
  | _ => false

/-- The text of a macro: lines, `.error`, and `.if` with `.else`. -/
inductive Text
  | nil
  | line (name : String) (ts : List Tok)
  | error (text : String)
  | cond (e : Expr) (a b : Text)
  | seq (a b : Text)

/-- What the templates are made of. -/
def Text.ofList : List Text → Text
  | [] => .nil
  | t :: r => .seq t (Text.ofList r)

/-- `1` or `0`. -/
def flag (b : Bool) : Expr := .int (if b then 1 else 0)

/-- `f(e)` -/
def call1 (f : String) (e : Expr) : Expr := .call (lit f) (.cons e .nil)

/-- `op a,b,c` -/
def rrr (op : String) (a b c : Nat) : Text := .line op [.reg a, .comma, .reg b, .comma, .reg c]
/-- `op a,b,e` -/
def rri (op : String) (a b : Nat) (e : Expr) : Text := .line op [.reg a, .comma, .reg b, .comma, .imm e]
/-- `op a,b` -/
def rr (op : String) (a b : Nat) : Text := .line op [.reg a, .comma, .reg b]
/-- `op a,e` -/
def ri (op : String) (a : Nat) (e : Expr) : Text := .line op [.reg a, .comma, .imm e]
/-- `op a,e(b)` -/
def mem (op : String) (a : Tok) (e : Expr) (b : Nat) : Text := .line op [a, .comma, .imm e, .lpar, .reg b, .rpar]

/-- `MipsMacros.cpp:73-77` `templateAbs`. -/
def absText (dword : Bool) (rd rs : Nat) : Text :=
  .ofList [rri (if dword then "dsra32" else "sra") 1 rs (.int 31), rrr "xor" rd rs 1,
    rrr (if dword then "dsubu" else "subu") rd rd 1]

/-- `MipsMacros.cpp:113-141` `templateLi`. -/
def liText (upper lower : Bool) (rs : Nat) (imm : Expr) : Text :=
  .cond (.bin .greater (call1 "abs" imm) (.int 0xFFFFFFFF)) (.error "Immediate value too big")
    (.cond (.bin .bitAnd imm (.un .bitNot (.int 0xFFFF)))
      (.cond (.bin .equal (.bin .bitAnd imm (.int 0xFFFF8000)) (.int 0xFFFF8000))
        (.cond (flag lower) (rri "addiu" rs 0 (call1 "lo" imm)) .nil)
        (.cond (.bin .equal (.bin .bitAnd imm (.int 0xFFFF)) (.int 0))
          (.cond (flag upper) (ri "lui" rs (call1 "hi" imm)) (.cond (flag lower) (.line "nop" []) .nil))
          (.ofList [.cond (flag upper) (ri "lui" rs (call1 "hi" imm)) .nil,
            .cond (flag lower) (ri "addiu" rs (call1 "lo" imm)) .nil])))
      (.cond (flag lower) (rri "ori" rs 0 imm) .nil))

/-- `MipsMacros.cpp:164-181` `templateLoadStore`. -/
def loadStoreText (op : String) (upper lower : Bool) (rs : Tok) (temp : Nat) (imm : Expr) : Text :=
  .cond (.bin .bitAnd imm (.un .bitNot (.int 0xFFFFFFFF))) (.error "Address too big")
    (.cond (.bin .logOr (.bin .less imm (.int 0x8000))
        (.bin .equal (.bin .bitAnd imm (.int 0xFFFF8000)) (.int 0xFFFF8000)))
      (.cond (flag lower) (mem op rs (call1 "lo" imm) 0) (.cond (flag upper) (.line "nop" []) .nil))
      (.ofList [.cond (flag upper) (ri "lui" temp (call1 "hi" imm)) .nil,
        .cond (flag lower) (mem op rs (call1 "lo" imm) temp) .nil]))

/-- The condition of `MipsMacros.cpp:235`, `250`, `290`, `303`, with the offset of the last byte. -/
def offsetText (off last : Expr) (body : List Text) : Text :=
  .cond (.bin .logAnd (.bin .less off (.int 0x8000)) (.bin .greaterEqual last (.int 0x8000)))
    (.error "Immediate offset too big") (.ofList body)

/-- `%off%+%size%-1` -/
def lastByte (off : Expr) (size : Int) : Expr := .bin .sub (.bin .add off (.int size)) (.int 1)

/-- `MipsMacros.cpp:234-243`, `249-256` the templates of `generateMipsMacroLoadUnaligned`. -/
def loadUnalignedText (a : Access) (rd rs : Nat) (off : Expr) : Option Text :=
  match a with
  | .hw | .hwu =>
    let op := if a = .hwu then "lbu" else "lb"
    let next := Expr.bin .add off (.int 1)
    some (offsetText off next
      [mem op (.reg 1) next rs, mem op (.reg rd) off rs, ri "sll" 1 (.int 8), rr "or" rd 1])
  | .w | .dw =>
    let size := if a = .w then 4 else 8
    -- `258-262`: an error is printed
    if rs = rd then none
    else some (offsetText off (lastByte off size)
      [mem (if a = .w then "lwl" else "ldl") (.reg rd) (lastByte off size) rs,
        mem (if a = .w then "lwr" else "ldr") (.reg rd) off rs])

/-- `MipsMacros.cpp:289-297`, `302-309` the templates of `generateMipsMacroStoreUnaligned`; there is no unsigned halfword. -/
def storeUnalignedText (a : Access) (rd rs : Nat) (off : Expr) : Option Text :=
  match a with
  | .hw =>
    let next := Expr.bin .add off (.int 1)
    some (offsetText off next [mem "sb" (.reg rd) off rs, rri "srl" 1 rd (.int 8), mem "sb" (.reg 1) next rs])
  | .hwu => none
  | .w | .dw =>
    let size := if a = .w then 4 else 8
    if rs = rd then none
    else some (offsetText off (lastByte off size)
      [mem (if a = .w then "swl" else "sdl") (.reg rd) (lastByte off size) rs,
        mem (if a = .w then "swr" else "sdr") (.reg rd) off rs])

/-- `slt%u%`, `slti%u%` -/
def sltName (c : Condition) : String := if c = .ltu ∨ c = .geu then "sltu" else "slt"
def sltiName (c : Condition) : String := if c = .ltu ∨ c = .geu then "sltiu" else "slti"

/-- `MipsMacros.cpp:359-362`, `384-387`, `402-405` the branch. -/
def branchName (c : Condition) (likely : Bool) : String :=
  match c, likely with
  | .ne, true => "bnel"
  | .ne, false => "bne"
  | .eq, true => "beql"
  | .eq, false => "beq"
  | .lt, true | .ltu, true => "bnezl"
  | .lt, false | .ltu, false => "bnez"
  | .ge, true | .geu, true => "beqzl"
  | .ge, false | .geu, false => "beqz"

/-- `MipsMacros.cpp:369-379`, `466-477` the comparison with an immediate, with its result in register `d`. -/
def compareText (c : Condition) (revcmp : Bool) (d rs : Nat) (imm : Expr) : Text :=
  .cond (.bin .logAnd (flag revcmp) (.bin .equal imm (.int 0))) (rrr (sltName c) d 0 rs)
    (.cond (flag revcmp) (.ofList [ri "li" d imm, rrr (sltName c) d d rs])
      (.cond (.bin .logOr (.bin .less imm (.int (-0x8000))) (.bin .greaterEqual imm (.int 0x8000)))
        (.ofList [ri "li" d imm, rrr (sltName c) d rs d])
        (rri (sltiName c) d rs imm)))

/-- `MipsMacros.cpp:391-395`, `486-490` the comparison of two registers. -/
def compareRegText (c : Condition) (revcmp : Bool) (d rs rt : Nat) : Text :=
  .cond (flag revcmp) (rrr (sltName c) d rt rs) (rrr (sltName c) d rs rt)

/-- `MipsMacros.cpp:334-418` `generateMipsMacroBranch`; equality has only the form with an immediate. -/
def branchText (c : Condition) (imm likely revcmp : Bool) (p : Parsed) : Option Text := do
  let rs ← p.grs
  let dest ← p.sec
  if c = .ne ∨ c = .eq then
    let i ← p.prim
    some (.cond (.bin .equal i (.int 0)) (rri (branchName c likely) rs 0 dest)
      (.ofList [ri "li" 1 i, rri (branchName c likely) rs 1 dest]))
  else if imm then
    let i ← p.prim
    some (.ofList [compareText c revcmp 1 rs i, ri (branchName c likely) 1 dest])
  else
    let rt ← p.grt
    some (.ofList [compareRegText c revcmp 1 rs rt, ri (branchName c likely) 1 dest])

/-- `MipsMacros.cpp:443-447`, `455-459` making 0 or 1 of a difference. -/
def equalText (c : Condition) (rd : Nat) : Text :=
  .cond (flag (decide (c = .eq))) (rri "sltiu" rd rd (.int 1)) (rrr "sltu" rd 0 rd)

/-- `MipsMacros.cpp:420-510` `generateMipsMacroSet`. -/
def setText (c : Condition) (imm revcmp : Bool) (p : Parsed) : Option Text := do
  let rd ← p.grd
  let rs ← p.grs
  if imm = true ∧ (c = .ne ∨ c = .eq) then
    let i ← p.sec
    some (.ofList [.cond (.bin .bitAnd i (.un .bitNot (.int 0xFFFF))) (.ofList [ri "li" rd i, rrr "xor" rd rs rd])
      (rri "xori" rd rs i), equalText c rd])
  else if c = .ne ∨ c = .eq then
    let rt ← p.grt
    some (.ofList [rrr "xor" rd rs rt, equalText c rd])
  else if imm then
    let i ← p.sec
    some (.ofList [compareText c revcmp rd rs i,
      .cond (flag (decide (c = .ge ∨ c = .geu))) (rri "xori" rd rd (.int 1)) .nil])
  else if c = .ge ∨ c = .geu then
    let rt ← p.grt
    some (.ofList [compareRegText c revcmp rd rs rt, rri "xori" rd rd (.int 1)])
  else none

/-- `-%amount%&31`: a negative constant would be written with two signs, which the parser refuses. -/
def negated (amount : Expr) : Option Expr :=
  match amount with
  | .int v => if v < 0 then none else some (.bin .bitAnd (.un .neg amount) (.int 31))
  | _ => some (.bin .bitAnd (.un .neg amount) (.int 31))

/-- `MipsMacros.cpp:512-589` `generateMipsMacroRotate`. -/
def rotateText (psp left imm : Bool) (p : Parsed) : Option Text := do
  let rd ← p.grd
  let rs ← p.grs
  if imm then
    let amount ← p.prim
    let neg ← negated amount
    if psp then
      some (.cond (.bin .notEqual amount (.int 0))
        (.cond (flag left) (rri "rotr" rd rs neg) (rri "rotr" rd rs amount)) (rr "move" rd rs))
    else
      some (.cond (.bin .notEqual amount (.int 0))
        (.ofList [.cond (flag left) (.ofList [rri "srl" 1 rs neg, rri "sll" rd rs amount])
          (.ofList [rri "sll" 1 rs neg, rri "srl" rd rs amount]), rrr "or" rd rd 1]) (rr "move" rd rs))
  else
    let rt ← p.grt
    if psp then
      some (.cond (flag left) (.ofList [rr "negu" 1 rt, rrr "rotrv" rd rs 1]) (rrr "rotrv" rd rs rt))
    else
      some (.ofList [rr "negu" 1 rt, .cond (flag left) (.ofList [rrr "srlv" 1 rs 1, rrr "sllv" rd rs rt])
        (.ofList [rrr "sllv" 1 rs 1, rrr "srlv" rd rs rt]), rrr "or" rd rd 1])

/-- A label that the assembler makes up, with its number and how its name is looked up. -/
structure MacroLabel where
  id : Nat
  name : Str
  file : Int
  section_ : Int

/-- What the parser works with. `labels n` is the label that `getUniqueLabelName` gives when it is called for the `n`-th
time. -/
structure ParseEnv where
  env : Env
  cfg : Config
  labels : Nat → MacroLabel

/-- `MipsMacros.cpp:58-61`: the location counter stands for the label at the start of the macro. -/
def dotted (l : MacroLabel) (e : Expr) : Expr := e.replaceMemoryPos l.name l.file l.section_

/-- `MipsMacros.cpp:143-152`: a floating point constant is taken as its bits. -/
def liOperand (E : Env) : Expr → Expr
  | .float v => .int (BitVec.ofInt 32 (E.floatBits v)).toInt
  | e => e

/-- The immediates that are printed, after the replacement of the location counter. -/
def printed (l : MacroLabel) (e : Option Expr) : Option (Option Expr) :=
  match e with
  | none => some none
  | some e => if plain e then some (some (dotted l e)) else none

/-- The generating functions: the text for the operands of the macro. -/
def Kind.text (P : ParseEnv) (l : MacroLabel) (k : Kind) (p : Parsed) : Option Text := do
  let sec := match k with | .li _ _ => p.sec.map (liOperand P.env) | _ => p.sec
  let p := { p with prim := ← printed l p.prim, sec := ← printed l sec }
  match k with
  | .abs dword => some (absText dword (← p.grd) (← p.grs))
  | .li upper lower => some (liText upper lower (← p.grs) (← p.sec))
  | .liFloat => none
  | .loadStore op cop store upper lower =>
    if cop then some (loadStoreText op upper lower (.freg (← p.frs)) 1 (← p.sec))
    else
      let rs ← p.grs
      some (loadStoreText op upper lower (.reg rs) (if store then 1 else rs) (← p.sec))
  | .loadUnaligned a => loadUnalignedText a (← p.grd) (← p.grs) (← p.prim)
  | .storeUnaligned a => storeUnalignedText a (← p.grd) (← p.grs) (← p.prim)
  | .branch c imm likely revcmp => branchText c imm likely revcmp p
  | .set c imm revcmp => setText c imm revcmp p
  | .rotate left imm => rotateText (decide (P.cfg.version = .psp)) left imm p

/-- `MIPSM_DONTWARNDELAYSLOT` is set for all branches. -/
def Kind.dontWarn : Kind → Bool
  | .branch _ _ _ _ => true
  | _ => false

/-- `Parser.cpp:197-219` `parseTemplate`: commands for a text, given how a line is parsed; the number counts the labels made
up so far. -/
def Text.parse (line : String → List Tok → Nat → Option (Cmd × Nat)) : Text → Nat → Option (Cmd × Nat)
  | .nil, k => some (.nil, k)
  | .line name ts, k => line name ts k
  | .error s, k => some (.message .error (.str (lit s)), k)
  | .cond e a b, k => do
    let (ca, k) ← a.parse line k
    let (cb, k) ← b.parse line k
    some (.cond (.if_ e) ca cb, k)
  | .seq a b, k => do
    let (ca, k) ← a.parse line k
    let (cb, k) ← b.parse line k
    some (.cons ca cb, k)

/-- `MipsParser.cpp:1627-1655`, `MipsMacros.cpp:53-69`: one line, a macro or an instruction. The first argument bounds the depth of
macros, like `Parser.cpp:278-284`. -/
def parseLine (P : ParseEnv) : Nat → String → List Tok → Nat → Option (Cmd × Nat)
  | 0, _, _, _ => none
  | depth + 1, name, ts, k =>
    match findMacro name ts with
    | some (kind, p) => do
      let l := P.labels k
      let (content, k') ← (← kind.text P l p).parse (parseLine P depth) (k + 1)
      some (.mipsMacro kind.dontWarn P.cfg.ignoreDelay (.cons (.label l.id none) content), k')
    | none => (select P.cfg.version name ts).map fun x => (.instr (sem P.env P.cfg x.1 x.2), k)

end Armips.Mips
