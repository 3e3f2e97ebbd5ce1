import Verif.Model.ExprParse
import Verif.Model.SymbolTable
import Verif.Model.Commands
/-!
# From the tokens to the commands

Models `Parser::parseCommandSequence`, `parseCommand`, `parseLabel`, `parseDirective`, `parseExpressionList` (`Parser/Parser.cpp`), the functions and the
table of `Parser/DirectivesParser.cpp` and the tables of directives of the architectures, on the list of the tokens that are left after the replacements
of `Tokenizer::processElement`.

* The commands are a tree of statements with what their constructors are given. Files are not looked at: that files exist is not part of this, and
  `.include` and `.msg` are statements, what they stand for is not (see `Model/Nesting.lean`).
* Reading of instructions is a parameter (`Model/ArmLine.lean`, `MipsParse.lean`, `Sh.lean` say which), and so is the value of expressions at parse time.
* There are no macros. A definition of an equ, macro or expression function is outside of the model (`R.outside`).
* After an error has been printed nothing is modelled any more: the assembly fails (`R.err`). Errors that only concern files are left out.
* Expressions are as they are read, before `simplify`.
* The recursion has a bound, since Lean functions terminate; `program` gives one that is enough for what is written by the rules.
-/
namespace Armips.Directive
open ExprParse (Tok next peek)

/-- The architectures with their versions (`DirectivesParser.cpp:413-486`). -/
inductive Cpu
  | none | psx | ps2 | psp | n64 | rsp | gba | nds | n3ds | armBig | armLittle | saturn
  deriving DecidableEq, Repr

/-- The architecture is ARM. -/
def Cpu.isArm : Cpu → Bool
  | .gba | .nds | .n3ds | .armBig | .armLittle => true
  | _ => false

/-- The architecture is MIPS. -/
def Cpu.isMips : Cpu → Bool
  | .psx | .ps2 | .psp | .n64 | .rsp => true
  | _ => false

/-- `getWordSize` of `Arm.h:49`, `Mips.h:24`, `SuperH.h:21` and `Architecture.h:57`. -/
def Cpu.wordSize : Cpu → Nat
  | .saturn => 2
  | _ => 4

/-- What reading changes: `Global.Section`, the current architecture with its version, `Arm.GetThumbMode`, `Global.nocash`, `Global.relativeInclude`,
`Logger`'s `errorOnWarning`, `Mips.SetIgnoreDelay` and `Mips.SetFixLoadDelay`. -/
structure St where
  section_ : Int := 0
  cpu : Cpu := .none
  thumb : Bool := false
  nocash : Bool := false
  relativeInclude : Bool := false
  errorOnWarning : Bool := false
  ignoreDelay : Bool := false
  fixLoadDelay : Bool := false
  deriving DecidableEq, Repr

/-- What is given from elsewhere. -/
structure Env (ι : Type) where
  /-- Number of the file. -/
  file : Int
  /-- `ExpressionFunctionHandler::find`, which depends on the architecture. -/
  isFn : Cpu → Str → Bool
  /-- `Global.memoryMode`. -/
  memoryMode : Bool
  /-- Value of an expression at parse time. -/
  value : St → Expr → Value
  /-- The text of integers and floating point numbers (`to_string` in `Expression.cpp:836-860`). -/
  toText : Value → Str
  /-- `DirectivesParser.cpp:206-211`: the condition, if it is a constant and an integer. The flag is `inUnknownOrFalseBlock`. -/
  known : Bool → St → Expr → Option Bool
  /-- `Architecture::current().parseOpcode`. -/
  opcode : St → List Tok → Option (ι × St × List Tok)

/-- What the expression parser reads. -/
def Env.expr (E : Env ι) (st : St) : ExprParse.Env := ⟨E.file, st.section_, E.isFn st.cpu⟩

/-- `CDirectiveConditional.h:10-15` with the operand; the section is 0 for names that are not local. -/
inductive Cond
  | if_ (e : Expr)
  | ifdef (name : Str) (section_ : Int)
  | ifndef (name : Str) (section_ : Int)

/-- Statements without other statements inside. -/
inductive Leaf
  | open_ (name : Str) (address : Int)
  | copy (name out : Str) (address : Int)
  | create (name : Str) (address : Int)
  | close
  | incbin (name : Str) (start size : Option Expr)
  | position (virtual : Bool) (e : Expr)
  | headerSize (e : Expr)
  | align (mode : AlignMode) (value : Expr) (fill : Option Expr)
  | skip (e : Expr)
  | table (name : Str) (encoding : Option Str)
  | data (mode : DataMode) (entries : List Expr) (terminate : Bool)
  | arch (cpu : Cpu)
  | defineRegion (shared : Bool) (position size : Expr) (fill : Option Expr)
  | importObj (name : Str) (ctor : Option Str)
  | sym (on : Bool)
  | defineLabel (name : Str) (section_ : Int) (value : Expr) (thumb : Option Bool)
  | message (t : MsgType) (e : Option Expr)
  | include (name : Str) (encoding : Option Str)
  | armState (arm : Bool)
  | pool
  | msg (text : Expr) (thumb : Bool)
  | loadElf (name : Str) (out : Option Str)
  /-- `DummyCommand`. -/
  | dummy

/-- The statements. -/
inductive Stmt (ι : Type)
  | leaf (l : Leaf)
  | op (i : ι)
  /-- A label with its section. -/
  | label (name : Str) (section_ : Int)
  | area (shared : Bool) (size : Expr) (fill : Option Expr) (body : List (Stmt ι))
  | autoRegion (min max : Option Expr) (body : List (Stmt ι))
  | function (name : Str) (section_ : Int) (body : List (Stmt ι))
  | cond (c : Cond) (thn els : List (Stmt ι))
  /-- The block of a conditional that is decided at parse time. -/
  | group (body : List (Stmt ι))

/-- How a parser ends: with a result, the state and the tokens that are left; with a null pointer but no message; with an error that has been printed;
with something that is not modelled. -/
inductive R (α : Type)
  | ok (a : α) (st : St) (ts : List Tok)
  | null (st : St) (ts : List Tok)
  | err
  | outside
  deriving DecidableEq, Repr

/-- The kinds of conditions. -/
inductive CondKind | if_ | ifdef | ifndef
  deriving DecidableEq, Repr

/-- `DirectivesParser.h:43-54` how data is written; `hword`, `word` and `dword` depend on the architecture. -/
inductive DataKind | d8 | d16 | d32 | d64 | ascii | sjis | custom | float | double | hword | word | dword
  deriving DecidableEq, Repr

/-- The functions of the table of directives with their flags below `DIRECTIVE_USERMASK`. -/
inductive Kind
  | open_ | create | close | incbin
  | position (virtual : Bool)
  | headerSize
  | align (mode : AlignMode)
  | skip
  | cond (k : CondKind)
  | table
  | data (k : DataKind) (terminate : Bool)
  | arch (c : Cpu)
  | area (shared : Bool)
  | autoRegion
  | defineArea (shared : Bool)
  | importObj | errorWarning | relativeInclude | nocash | sym
  | defineLabel (thumb : Option Bool)
  | function
  | message (t : MsgType)
  | include
  | thumb | arm | pool | msg | resetDelay | fixLoadDelay | loadElf
  deriving DecidableEq, Repr

/-- `DirectivesParser.h:12-15` `DirectiveEntry`: `nocash` are `DIRECTIVE_NOCASHON` and `DIRECTIVE_NOCASHOFF`, `notInMemory` is
`DIRECTIVE_NOTINMEMORY`. `DIRECTIVE_MANUALSEPARATOR` belongs to `.function` only; the other flags are not used. -/
structure Entry where
  name : String
  kind : Kind
  nocash : Option Bool := none
  notInMemory : Bool := false
  deriving DecidableEq, Repr

/-- `DirectivesParser.cpp:741-861` `directives`. -/
def directives : List Entry := [
  ⟨".open", .open_, none, true⟩, ⟨".openfile", .open_, none, true⟩, ⟨".create", .create, none, true⟩, ⟨".createfile", .create, none, true⟩,
  ⟨".close", .close, none, true⟩, ⟨".closefile", .close, none, true⟩, ⟨".incbin", .incbin, none, false⟩, ⟨".import", .incbin, none, false⟩,
  ⟨".org", .position true, none, false⟩, ⟨"org", .position true, none, false⟩, ⟨".orga", .position false, none, false⟩,
  ⟨"orga", .position false, none, false⟩, ⟨".headersize", .headerSize, none, false⟩, ⟨".align", .align .virtual, none, false⟩,
  ⟨".aligna", .align .physical, none, false⟩, ⟨".fill", .align .fill, none, false⟩, ⟨"defs", .align .fill, none, false⟩, ⟨".skip", .skip, none, false⟩,
  ⟨".if", .cond .if_, none, false⟩, ⟨".ifdef", .cond .ifdef, none, false⟩, ⟨".ifndef", .cond .ifndef, none, false⟩,
  ⟨".loadtable", .table, none, false⟩, ⟨".table", .table, none, false⟩, ⟨".byte", .data .d8 false, none, false⟩,
  ⟨".halfword", .data .hword false, none, false⟩, ⟨".hword", .data .hword false, none, false⟩, ⟨".word", .data .word false, none, false⟩,
  ⟨".doubleword", .data .dword false, none, false⟩, ⟨".dword", .data .dword false, none, false⟩, ⟨".db", .data .d8 false, none, false⟩,
  ⟨".dh", .data .hword false, some false, false⟩, ⟨".dw", .data .word false, some false, false⟩, ⟨".dd", .data .dword false, some false, false⟩,
  ⟨".dw", .data .d16 false, some true, false⟩, ⟨".dd", .data .d32 false, some true, false⟩, ⟨".dcb", .data .d8 false, none, false⟩,
  ⟨".dcw", .data .hword false, none, false⟩, ⟨".dcd", .data .word false, none, false⟩, ⟨".dcq", .data .dword false, none, false⟩,
  ⟨"db", .data .d8 false, none, false⟩, ⟨"dh", .data .hword false, some false, false⟩, ⟨"dw", .data .word false, some false, false⟩,
  ⟨"dd", .data .dword false, some false, false⟩, ⟨"dw", .data .d16 false, some true, false⟩, ⟨"dd", .data .d32 false, some true, false⟩,
  ⟨"dcb", .data .d8 false, none, false⟩, ⟨"dcw", .data .hword false, none, false⟩, ⟨"dcd", .data .word false, none, false⟩,
  ⟨"dcq", .data .dword false, none, false⟩, ⟨".d8", .data .d8 false, none, false⟩, ⟨".d16", .data .d16 false, none, false⟩,
  ⟨".d32", .data .d32 false, none, false⟩, ⟨".d64", .data .d64 false, none, false⟩, ⟨".float", .data .float false, none, false⟩,
  ⟨".double", .data .double false, none, false⟩, ⟨".ascii", .data .ascii false, none, false⟩, ⟨".asciiz", .data .ascii true, none, false⟩,
  ⟨".string", .data .custom true, none, false⟩, ⟨".str", .data .custom true, none, false⟩, ⟨".stringn", .data .custom false, none, false⟩,
  ⟨".strn", .data .custom false, none, false⟩, ⟨".sjis", .data .sjis true, none, false⟩, ⟨".sjisn", .data .sjis false, none, false⟩,
  ⟨".psx", .arch .psx, none, false⟩, ⟨".ps2", .arch .ps2, none, false⟩, ⟨".psp", .arch .psp, none, false⟩, ⟨".n64", .arch .n64, none, false⟩,
  ⟨".rsp", .arch .rsp, none, false⟩, ⟨".gba", .arch .gba, none, false⟩, ⟨".nds", .arch .nds, none, false⟩, ⟨".3ds", .arch .n3ds, none, false⟩,
  ⟨".arm.big", .arch .armBig, none, false⟩, ⟨".arm.little", .arch .armLittle, none, false⟩, ⟨".saturn", .arch .saturn, none, false⟩,
  ⟨".32x", .arch .saturn, none, false⟩, ⟨".area", .area false, none, false⟩, ⟨".autoregion", .autoRegion, none, false⟩,
  ⟨".region", .area true, none, false⟩, ⟨".defineregion", .defineArea true, none, false⟩, ⟨".importobj", .importObj, none, false⟩,
  ⟨".importlib", .importObj, none, false⟩, ⟨".erroronwarning", .errorWarning, none, false⟩, ⟨".relativeinclude", .relativeInclude, none, false⟩,
  ⟨".nocash", .nocash, none, false⟩, ⟨".sym", .sym, none, false⟩, ⟨".definelabel", .defineLabel none, none, false⟩,
  ⟨".definedatalabel", .defineLabel (some false), none, false⟩, ⟨".function", .function, none, false⟩, ⟨".func", .function, none, false⟩,
  ⟨".warning", .message .warning, none, false⟩, ⟨".error", .message .error, none, false⟩, ⟨".notice", .message .notice, none, false⟩,
  ⟨".include", .include, none, false⟩]

/-- `ArmParser.cpp:96-103` `armDirectives`. -/
def armDirectives : List Entry := [⟨".thumb", .thumb, none, false⟩, ⟨".arm", .arm, none, false⟩, ⟨".pool", .pool, none, false⟩, ⟨".msg", .msg, none, false⟩,
  ⟨".definearmlabel", .defineLabel (some false), none, false⟩, ⟨".definethumblabel", .defineLabel (some true), none, false⟩]

/-- `MipsParser.cpp:212-218` `mipsDirectives`. -/
def mipsDirectives : List Entry := [⟨".resetdelay", .resetDelay, none, false⟩, ⟨".fixloaddelay", .fixLoadDelay, none, false⟩,
  ⟨".loadelf", .loadElf, none, false⟩, ⟨".importobj", .importObj, none, false⟩, ⟨".importlib", .importObj, none, false⟩]

/-- `ShParser.cpp:50-53` `shDirectives`. -/
def shDirectives : List Entry := [⟨".importobj", .importObj, none, false⟩, ⟨".importlib", .importObj, none, false⟩]

/-- `Architecture::current().parseDirective`: the table of the architecture. -/
def archDirectives (c : Cpu) : List Entry :=
  if c.isArm then armDirectives else if c.isMips then mipsDirectives else if c = .saturn then shDirectives else []

/-- `Parser.cpp:226-243`: the entry of a table for a name. -/
def lookup (E : Env ι) (st : St) (name : Str) (t : List Entry) : Option Kind :=
  (t.find? fun e => lit e.name == name && (e.nocash.isNone || e.nocash == some st.nocash) && !(e.notInMemory && E.memoryMode)).map (·.kind)

/-- `Parser.cpp:54-99` the loop of `parseExpressionList`. -/
def exprTail (E : ExprParse.Env) : Nat → List Tok → Option (List Expr × List Tok)
  | n + 1, .comma :: ts =>
    match ExprParse.parse E ts with
    | (none, _) => none
    | (some e, r) =>
      match exprTail E n r with
      | none => none
      | some (es, r') => some (e :: es, r')
  | _, ts => some ([], ts)

/-- `Parser.cpp:54-99` `parseExpressionList`; `none`: an error has been printed. -/
def exprs (E : ExprParse.Env) (min : Nat) (max : Option Nat) (ts : List Tok) : Option (List Expr × List Tok) :=
  match ExprParse.parse E ts with
  | (none, _) => none
  | (some e, r) =>
    match exprTail E r.length r with
    | none => none
    | some (es, r') =>
      if es.length + 1 < min then none
      else if max.any (· < es.length + 1) then none
      else some (e :: es, r')

/-- `Expression.cpp:836-860` `evaluateString`. -/
def Env.string (E : Env ι) (st : St) (convert : Bool) (e : Expr) : Option Str :=
  match E.value st e with
  | .str s => some s
  | .int v => if convert then some (E.toText (.int v)) else none
  | .float v => if convert then some (E.toText (.float v)) else none
  | .invalid => none

/-- `Expression.h:189-200` `evaluateInteger`. -/
def Env.integer (E : Env ι) (st : St) (e : Expr) : Option Int :=
  match E.value st e with
  | .int v => some v
  | _ => none

/-- `Expression.cpp:861-868` `evaluateIdentifier`. -/
def identifier : Expr → Option Str
  | .ident n _ _ => some n
  | _ => none

/-- `SymbolTable.cpp:97-102` `isLocalSymbol`. -/
def isLocal (s : Str) : Bool := s[0]? == some (chr '@') && s[1]? == some (chr '@')

/-- `CAssemblerLabel.cpp:10-24`: a label that is not local begins a section. -/
def bump (st : St) (name : Str) : St := if isLocal name then st else { st with section_ := st.section_ + 1 }

/-- The result or the null pointer. -/
def R.ofOption (o : Option α) (st : St) (ts : List Tok) : R α :=
  match o with
  | some a => .ok a st ts
  | none => .null st ts

/-- `DirectivesParser.cpp:576-591` `getStringOrIdentifier` followed by the comparison with `on` and `off`. -/
def onOff (ts : List Tok) : Option Bool :=
  let s := match peek ts with
    | .ident n => some n
    | .str s => some (s.map lower)
    | _ => none
  if s = some (lit "on") then some true else if s = some (lit "off") then some false else none

/-- `DirectivesParser.cpp:372-408` and `CDirectiveData.cpp:56-80`: a unit size that does not exist is an error. -/
def unitMode : Nat → Option DataMode
  | 1 => some .u8 | 2 => some .u16 | 4 => some .u32 | 8 => some .u64 | _ => none

/-- `DirectivesParser.cpp:372-408`. -/
def dataMode (c : Cpu) : DataKind → Option DataMode
  | .d8 => unitMode 1 | .d16 => unitMode 2 | .d32 => unitMode 4 | .d64 => unitMode 8
  | .hword => unitMode (c.wordSize / 2) | .word => unitMode c.wordSize | .dword => unitMode (c.wordSize * 2)
  | .ascii => some .ascii | .sjis => some .sjis | .custom => some .custom | .float => some .float | .double => some .double

/-- `DirectivesParser.cpp:413-486`: what choosing an architecture changes. THUMB mode is set for ARM only. -/
def setCpu (st : St) (c : Cpu) : St := { st with cpu := c, thumb := if c.isArm then decide (c = .gba) else st.thumb }

/-- A list of expressions, then what is made of them. -/
def withExprs (E : Env ι) (st : St) (min : Nat) (max : Option Nat) (ts : List Tok) (f : List Expr → Option Leaf) : R Leaf :=
  match exprs (E.expr st) min max ts with
  | none => .err
  | some (es, r) => R.ofOption (f es) st r

/-- `DirectivesParser.cpp:643-667` `parseDirectiveDefineLabel`. -/
def defineLabel (E : Env ι) (st : St) (thumb : Option Bool) : List Tok → R Leaf
  | .ident n :: .comma :: ts =>
    match ExprParse.parse (E.expr st) ts with
    | (none, r) => .null st r
    | (some e, r) =>
      if SymTab.isValidSymbolName n then .ok (.defineLabel n (bump st n).section_ e thumb) (bump st n) r else .err
  | .ident _ :: ts => .null st (next ts).2
  | ts => .null st (next ts).2

/-- The functions of the directives that have no statements inside, behind their name. -/
def leaf (E : Env ι) (tr : Bool) (st : St) (k : Kind) (ts : List Tok) : R Leaf :=
  match k with
  | .open_ => -- `DirectivesParser.cpp:27-54`
    withExprs E st 2 (some 3) ts fun
      | [a, b] => do some (.open_ (← E.string st false a) (← E.integer st b))
      | [a, o, b] => do
        let s ← E.string st false a
        let v ← E.integer st b
        some (.copy s (← E.string st false o) v)
      | _ => none
  | .create => -- `DirectivesParser.cpp:56-74`
    withExprs E st 2 (some 2) ts fun
      | [a, b] => do some (.create (← E.string st false a) (← E.integer st b))
      | _ => none
  | .close => .ok .close st ts -- `DirectivesParser.cpp:76-81`
  | .incbin => -- `DirectivesParser.cpp:83-102`
    withExprs E st 1 (some 3) ts fun
      | a :: es => do some (.incbin (← E.string st false a) es[0]? es[1]?)
      | [] => none
  | .position v => -- `DirectivesParser.cpp:104-124`
    match ExprParse.parse (E.expr st) ts with
    | (none, r) => .null st r
    | (some e, r) => .ok (.position v e) st r
  | .headerSize => -- `DirectivesParser.cpp:169-176`
    match ExprParse.parse (E.expr st) ts with
    | (none, r) => .null st r
    | (some e, r) => .ok (.headerSize e) st r
  | .align m => -- `DirectivesParser.cpp:126-158`
    if m ≠ .fill ∧ peek ts = .separator then .ok (.align m (.int 4) none) st ts
    else
      withExprs E st 1 (some 2) ts fun
        | a :: es => some (.align m a es[0]?)
        | [] => none
  | .skip => -- `DirectivesParser.cpp:160-167`
    withExprs E st 1 (some 1) ts fun
      | a :: _ => some (.skip a)
      | [] => none
  | .table => -- `DirectivesParser.cpp:320-350`: here an error is printed
    match exprs (E.expr st) 1 (some 2) ts with
    | some ([a], r) => match E.string st true a with
      | some s => .ok (.table s none) st r
      | none => .err
    | some ([a, b], r) => match E.string st true a, E.string st true b with
      | some s, some t => .ok (.table s (some t)) st r
      | _, _ => .err
    | _ => .err
  | .data d t => -- `DirectivesParser.cpp:352-411`
    match exprs (E.expr st) 1 none ts with
    | none => .err
    | some (es, r) => match dataMode st.cpu d with
      | some m => .ok (.data m es t) st r
      | none => .err
  | .arch c => .ok (.arch c) (setCpu st c) ts -- `DirectivesParser.cpp:413-486`
  | .defineArea sh => -- `DirectivesParser.cpp:508-521`
    withExprs E st 2 (some 3) ts fun
      | p :: s :: es => some (.defineRegion sh p s es[0]?)
      | _ => none
  | .importObj => -- `DirectivesParser.cpp:178-197`, `MipsParser.cpp:162-210`, `ShParser.cpp:28-48`
    withExprs E st 1 (some 2) ts fun
      | [a] => do some (.importObj (← E.string st true a) none)
      | [a, b] => do some (.importObj (← E.string st true a) (some (← identifier b)))
      | _ => none
  | .errorWarning => -- `DirectivesParser.cpp:563-581`
    match onOff ts with
    | some b => .ok .dummy { st with errorOnWarning := b } (next ts).2
    | none => .null st (next ts).2
  | .relativeInclude => -- `DirectivesParser.cpp:583-601`
    match onOff ts with
    | some b => .ok .dummy { st with relativeInclude := b } (next ts).2
    | none => .null st (next ts).2
  | .nocash => -- `DirectivesParser.cpp:603-621`
    match onOff ts with
    | some b => .ok .dummy { st with nocash := b } (next ts).2
    | none => .null st (next ts).2
  | .sym => -- `DirectivesParser.cpp:623-635`
    match onOff ts with
    | some b => .ok (.sym b) st (next ts).2
    | none => .null st (next ts).2
  | .defineLabel t => defineLabel E st t ts
  | .message t => -- `DirectivesParser.cpp:703-718`: the expression may be missing
    match ExprParse.parse (E.expr st) ts with
    | (e, r) => .ok (.message t e) st r
  | .include => -- `DirectivesParser.cpp:720-739`
    withExprs E st 1 (some 2) ts fun
      | [a] => do
        let s ← E.string st true a
        some (if tr then .include s none else .dummy)
      | [a, b] => do
        let s ← E.string st true a
        let t ← E.string st true b
        some (if tr then .include s (some t) else .dummy)
      | _ => none
  | .thumb => .ok (.armState false) { st with thumb := true } ts -- `ArmParser.cpp:38-42`
  | .arm => .ok (.armState true) { st with thumb := false } ts -- `ArmParser.cpp:44-48`
  | .pool => .ok .pool st ts -- `ArmParser.cpp:50-57`
  | .msg => -- `ArmParser.cpp:83-94`
    match ExprParse.parse (E.expr st) ts with
    | (none, r) => .null st r
    | (some e, r) => .ok (.msg e st.thumb) st r
  | .resetDelay => .ok .dummy { st with ignoreDelay := true } ts -- `MipsParser.cpp:130-134`
  | .fixLoadDelay => .ok .dummy { st with fixLoadDelay := true } ts -- `MipsParser.cpp:136-140`
  | .loadElf => -- `MipsParser.cpp:142-160`
    withExprs E st 1 (some 2) ts fun
      | [a] => do some (.loadElf (← E.string st true a) none)
      | [a, b] => do
        let s ← E.string st true a
        some (.loadElf s (some (← E.string st true b)))
      | _ => none
  | .cond _ | .area _ | .autoRegion | .function => .null st ts

/-- `DirectivesParser.cpp:199-231` the condition and its result, if it is known. The flag is `inUnknownOrFalseBlock`. -/
def condition (E : Env ι) (flag : Bool) (st : St) (k : CondKind) (ts : List Tok) : R (Cond × Option Bool) :=
  match k with
  | .if_ => match ExprParse.parse (E.expr st) ts with
    | (none, _) => .err
    | (some e, r) => .ok (.if_ e, E.known flag st e) st r
  | .ifdef => match ts with
    | .ident n :: r => .ok (.ifdef n 0, none) st r
    | ts => .null st (next ts).2
  | .ifndef => match ts with
    | .ident n :: r => .ok (.ifndef n 0, none) st r
    | ts => .null st (next ts).2

/-- The name in a condition can be a label (`CDirectiveConditional.cpp:20-26`). -/
def Cond.valid : Cond → Bool
  | .if_ _ => true
  | .ifdef n _ => SymTab.isValidSymbolName n
  | .ifndef n _ => SymTab.isValidSymbolName n

/-- `CDirectiveConditional.cpp:20-26`: the section is that behind the blocks. It only matters for local names. -/
def Cond.at (s : Int) : Cond → Cond
  | .if_ e => .if_ e
  | .ifdef n _ => .ifdef n (if isLocal n then s else 0)
  | .ifndef n _ => .ifndef n (if isLocal n then s else 0)

/-- `DirectivesParser.cpp:241`. -/
def elseNames : List Str := [lit ".else", lit ".elseif", lit ".elseifdef", lit ".elseifndef", lit ".endif"]

/-- `Parser.cpp:358-391`, `457-465`, `527-535`: the beginning of a definition of an equ, an expression function or a macro. -/
def isDefinition : List Tok → Bool
  | .ident n :: ts =>
    n == lit ".expfunc" || n == lit ".macro" ||
      match ts with
      | .equ :: .equValue _ :: _ => true
      | .colon :: .equ :: .equValue _ :: _ => true
      | _ => false
  | _ => false

/-- Reading of the commands up to one of the names, and of a conditional, at a lower level. -/
abbrev SeqP (ι : Type) := Bool → Bool → List Str → St → List Tok → R (List (Stmt ι))
abbrev CondP (ι : Type) := Bool → Bool → St → CondKind → List Tok → R (Stmt ι)

/-- `DirectivesParser.cpp:669-701` `parseDirectiveFunction`. -/
def function (sq : SeqP ι) (tr un : Bool) (st : St) : List Tok → R (Stmt ι)
  | .ident name :: .separator :: r =>
    if SymTab.isValidSymbolName name then
      match sq tr un [lit ".endfunc", lit ".endfunction", lit ".func", lit ".function"] (bump st name) r with
      | .ok c st' r' =>
        if peek r' = .ident (lit ".endfunc") ∨ peek r' = .ident (lit ".endfunction") then
          if peek (next r').2 = .separator then .ok (.function name (bump st name).section_ c) st' (next (next r').2).2 else .err
        else .ok (.function name (bump st name).section_ c) st' r'
      | .null a b => .null a b
      | .err => .err
      | .outside => .outside
    else .err
  | _ => .err

/-- The functions of the directives. -/
def body (E : Env ι) (sq : SeqP ι) (cd : CondP ι) (tr un : Bool) (st : St) (k : Kind) (ts : List Tok) : R (Stmt ι) :=
  match k with
  | .area sh => -- `DirectivesParser.cpp:488-506`
    match exprs (E.expr st) 1 (some 2) ts with
    | some (e :: es, r) =>
      match sq tr un [lit ".endarea", lit ".endregion"] st r with
      | .ok c st' r' => .ok (.area sh e es[0]? c) st' (next r').2
      | .null a b => .null a b
      | .err => .err
      | .outside => .outside
    | _ => .err
  | .autoRegion => -- `DirectivesParser.cpp:523-548`
    match (if peek ts = .separator then some ([], ts) else exprs (E.expr st) 0 (some 2) ts) with
    | some (es, r) =>
      match sq tr un [lit ".endautoregion"] st r with
      | .ok c st' r' => .ok (.autoRegion es[0]? es[1]? c) st' (next r').2
      | .null a b => .null a b
      | .err => .err
      | .outside => .outside
    | none => .err
  | .cond k => cd tr un st k ts
  | k =>
    match leaf E tr st k ts with
    | .ok l st' r => .ok (.leaf l) st' r
    | .null a b => .null a b
    | .err => .err
    | .outside => .outside

/-- `Parser.cpp:245-262`: the function of a directive, and the separator behind it. -/
def directive (E : Env ι) (sq : SeqP ι) (cd : CondP ι) (tr un : Bool) (st : St) (k : Kind) (ts : List Tok) : R (Stmt ι) :=
  if k = .function then function sq tr un st ts
  else
    match body E sq cd tr un st k ts with
    | .ok c st' r => if peek r = .separator then .ok c st' (next r).2 else .err
    | .null _ _ => .err
    | .err => .err
    | .outside => .outside

/-- `Parser.cpp:877-886`: an instruction. -/
def opcode (E : Env ι) (st : St) (ts : List Tok) : R (Stmt ι) :=
  match E.opcode st ts with
  | some (i, st', r) => .ok (.op i) st' r
  | none => .err

/-- `Parser.cpp:866-876`: the entry for a name, first in the table of the architecture. -/
def kindOf (E : Env ι) (st : St) (name : Str) : Option Kind :=
  (lookup E st name (archDirectives st.cpu)).or (lookup E st name directives)

/-- `Parser.cpp:848-886` `parseCommand` with `parseLabel` (`Parser.cpp:772-797`) and `parseDirective` (`Parser.cpp:219-263`). -/
def command (E : Env ι) (sq : SeqP ι) (cd : CondP ι) (tr un : Bool) (st : St) : List Tok → R (Stmt ι)
  | .ident name :: r =>
    if peek r = .colon then
      if SymTab.isValidSymbolName name then .ok (.label name (bump st name).section_) (bump st name) (next r).2 else .err
    else
      match kindOf E st name with
      | some k => directive E sq cd tr un st k r
      | none => opcode E st (.ident name :: r)
  | ts => opcode E st ts

/-- The else part of a conditional, from the name that ended the first block on: `DirectivesParser.cpp:256-294`. An `.elseif` that gives a null pointer
leaves no block. -/
def elsePart (sq : SeqP ι) (cd : CondP ι) (tr un : Bool) (st : St) (ts : List Tok) : R (List (Stmt ι)) :=
  let nested (k : CondKind) : R (List (Stmt ι)) :=
    match cd tr un st k (next ts).2 with
    | .ok c st r => .ok [c] st r
    | .null st r => .ok [] st r
    | .err => .err
    | .outside => .outside
  if peek ts = .ident (lit ".else") then
    match sq tr un [lit ".endif"] st (next ts).2 with
    | .ok c st r => .ok c st (next r).2
    | x => x
  else if peek ts = .ident (lit ".elseif") then nested .if_
  else if peek ts = .ident (lit ".elseifdef") then nested .ifdef
  else if peek ts = .ident (lit ".elseifndef") then nested .ifndef
  else .ok [] st (next ts).2

/-- `DirectivesParser.cpp:296-318` the command of a conditional. -/
def decided (c : Cond) (res : Option Bool) (thn els : List (Stmt ι)) (st : St) (ts : List Tok) : R (Stmt ι) :=
  match res with
  | some true => .ok (.group thn) st ts
  | some false => .ok (.group els) st ts
  | none => if c.valid then .ok (.cond (c.at st.section_) thn els) st ts else .err

/-- `Parser.cpp:124-132`: one of the names that end the sequence. -/
def isEnd (terms : List Str) : Tok → Bool
  | .ident name => terms.contains name
  | _ => false

mutual
/-- `Parser.cpp:111-172` `parseCommandSequence`. -/
def seq (E : Env ι) : Nat → Bool → Bool → List Str → St → List Tok → R (List (Stmt ι))
  | 0, _, _, _, _, _ => .outside
  | n + 1, tr, un, terms, st, ts =>
    match ts with
    | [] => if terms = [] then .ok [] st [] else .err
    | .separator :: ts => seq E n tr un terms st ts
    | t :: ts =>
      if isEnd terms t then .ok [] st (t :: ts)
      else if isDefinition (t :: ts) then .outside
      else
        match command E (seq E n) (conditional E n) tr un st (t :: ts) with
        | .ok c st' r =>
          match seq E n tr un terms st' r with
          | .ok cs st'' r' => .ok (if tr then c :: cs else cs) st'' r'
          | x => x
        | .null _ _ => .err
        | .err => .err
        | .outside => .outside
termination_by structural n => n

/-- `DirectivesParser.cpp:199-318` `parseDirectiveConditional`. -/
def conditional (E : Env ι) : Nat → Bool → Bool → St → CondKind → List Tok → R (Stmt ι)
  | 0, _, _, _, _, _ => .outside
  | n + 1, tr, un, st, k, ts =>
    match condition E (!tr || un) st k ts with
    | .ok (c, res) st r =>
      if peek r ≠ .separator then .err
      else
        match seq E n (tr && res != some false) (un || res.isNone) elseNames st (next r).2 with
        | .ok thn st r =>
          match elsePart (seq E n) (conditional E n) (tr && res != some true) (un || res.isNone) st r with
          | .ok els st r => decided c res thn els st r
          | .null a b => .null a b
          | .err => .err
          | .outside => .outside
        | .null a b => .null a b
        | .err => .err
        | .outside => .outside
    | .null a b => .null a b
    | .err => .err
    | .outside => .outside
termination_by structural n => n
end

/-- `Parser.cpp:278-304`: a whole file. -/
def program (E : Env ι) (st : St) (ts : List Tok) : R (List (Stmt ι)) := seq E (2 * ts.length + 2) true false [] st ts

end Armips.Directive
