import Verif.Model.Directive
import Verif.Spec.ExprParse
/-!
# How programs are written

The names and parameters of the directives, and the texts of labels, instructions, blocks and conditionals. Of the reader only the types of statements
and of the state are used. How instructions are written is a parameter.
-/
namespace Armips.Spec.Directive
open Armips.ExprParse (Tok)
open Armips.Spec.ExprParse (Writes commas)

/-- The state of the reader, the processors and the statements. -/
abbrev St := Armips.Directive.St
abbrev Cpu := Armips.Directive.Cpu
abbrev Env (ι : Type) := Armips.Directive.Env ι
abbrev Leaf := Armips.Directive.Leaf
abbrev Stmt (ι : Type) := Armips.Directive.Stmt ι
abbrev Cond := Armips.Directive.Cond
abbrev CondKind := Armips.Directive.CondKind

/-- Parameters: expressions with commas between them. -/
def Params (E : ExprParse.Env) (es : List Expr) (ts : List Tok) : Prop :=
  ∃ l : List (Expr × List Tok), l ≠ [] ∧ (∀ x ∈ l, Writes E 12 x.1 x.2) ∧ es = l.map (·.1) ∧ ts = commas (l.map (·.2))

/-- Names that open or close a block, or a definition. -/
def closers : List String := [".else", ".elseif", ".elseifdef", ".elseifndef", ".endif", ".endarea", ".endregion", ".endautoregion", ".endfunc",
  ".endfunction", ".macro", ".expfunc"]

/-- The names of functions. -/
def funcs : List String := [".func", ".function"]

/-- The directives without a point. -/
def plain : List String := ["org", "orga", "defs", "db", "dh", "dw", "dd", "dcb", "dcw", "dcd", "dcq"]

/-- A name for a symbol: letters, digits, `_` and points, not beginning with a digit, behind at most two `@`. -/
def SymbolName (n : Str) : Prop :=
  ∃ (k : Nat) (r : Str), k ≤ 2 ∧ n = List.replicate k (chr '@') ++ r ∧ r ≠ [] ∧ (∀ c ∈ r.head?, ¬ (48 ≤ c.toNat ∧ c.toNat ≤ 57)) ∧
    ∀ c ∈ r, c ∈ lit "ABCDEFGHIJKLMNOPQRSTUVWXYZabcdefghijklmnopqrstuvwxyz0123456789_."

/-- A local name: with two `@`. -/
def Local (n : Str) : Prop := ∃ r, n = chr '@' :: chr '@' :: r

open Classical in
/-- A label that is not local begins a section. -/
noncomputable def begins (st : St) (n : Str) : St := if Local n then st else { st with section_ := st.section_ + 1 }

/-- `on` or `off`. -/
inductive Switch : Bool → Tok → Prop
  | on : Switch true (.ident (lit "on"))
  | off : Switch false (.ident (lit "off"))
  | onText {s} : s.map lower = lit "on" → Switch true (.str s)
  | offText {s} : s.map lower = lit "off" → Switch false (.str s)

/-- The units of an architecture: half a word, a word and two words. -/
def half (c : Cpu) : DataMode := if c = .saturn then .u8 else .u16
def word (c : Cpu) : DataMode := if c = .saturn then .u16 else .u32
def double (c : Cpu) : DataMode := if c = .saturn then .u32 else .u64

/-- The names of the directives for data, how the data is written, and whether a zero is behind it. In the mode of no$gba `dw` and `dd` have a fixed
size. -/
def dataNames (st : St) : List (String × DataMode × Bool) :=
  [(".byte", .u8, false), (".db", .u8, false), ("db", .u8, false), (".dcb", .u8, false), ("dcb", .u8, false), (".d8", .u8, false),
   (".d16", .u16, false), (".d32", .u32, false), (".d64", .u64, false),
   (".halfword", half st.cpu, false), (".hword", half st.cpu, false), (".dcw", half st.cpu, false), ("dcw", half st.cpu, false),
   (".word", word st.cpu, false), (".dcd", word st.cpu, false), ("dcd", word st.cpu, false),
   (".doubleword", double st.cpu, false), (".dword", double st.cpu, false), (".dcq", double st.cpu, false), ("dcq", double st.cpu, false),
   (".float", .float, false), (".double", .double, false), (".ascii", .ascii, false), (".asciiz", .ascii, true),
   (".string", .custom, true), (".str", .custom, true), (".stringn", .custom, false), (".strn", .custom, false),
   (".sjis", .sjis, true), (".sjisn", .sjis, false)] ++
  (if st.nocash then [(".dw", .u16, false), ("dw", .u16, false), (".dd", .u32, false), ("dd", .u32, false)]
   else [(".dh", half st.cpu, false), ("dh", half st.cpu, false), (".dw", word st.cpu, false), ("dw", word st.cpu, false),
     (".dd", double st.cpu, false), ("dd", double st.cpu, false)])

/-- The names of the architectures. -/
def archNames : List (String × Cpu) := [(".psx", .psx), (".ps2", .ps2), (".psp", .psp), (".n64", .n64), (".rsp", .rsp), (".gba", .gba), (".nds", .nds),
  (".3ds", .n3ds), (".arm.big", .armBig), (".arm.little", .armLittle), (".saturn", .saturn), (".32x", .saturn)]

/-- The architecture and the instruction set it begins with: THUMB on the GBA, ARM on the other ARM processors. -/
def choose (st : St) (c : Cpu) : St :=
  match c with
  | .gba => { st with cpu := c, thumb := true }
  | .nds | .n3ds | .armBig | .armLittle => { st with cpu := c, thumb := false }
  | _ => { st with cpu := c }

/-- Processors of the families. -/
def arms : List Cpu := [.gba, .nds, .n3ds, .armBig, .armLittle]
def mipses : List Cpu := [.psx, .ps2, .psp, .n64, .rsp]

/-- The name of a file, or of an encoding, as a string. -/
def Names (E : Env ι) (st : St) (e : Expr) (s : Str) : Prop := E.value st e = .str s

/-- `LeafText E st n ts l st'`: the directive `n` with parameters `ts` is the statement `l`; it changes the state to `st'`. -/
inductive LeafText (E : Env ι) : St → String → List Tok → Leaf → St → Prop
  | open_ {st n a b s v ts} : n ∈ [".open", ".openfile"] → E.memoryMode = false → Params (E.expr st) [a, b] ts → Names E st a s →
      E.value st b = .int v → LeafText E st n ts (.open_ s v) st
  | copy {st n a o b s t v ts} : n ∈ [".open", ".openfile"] → E.memoryMode = false → Params (E.expr st) [a, o, b] ts → Names E st a s →
      Names E st o t → E.value st b = .int v → LeafText E st n ts (.copy s t v) st
  | create {st n a b s v ts} : n ∈ [".create", ".createfile"] → E.memoryMode = false → Params (E.expr st) [a, b] ts → Names E st a s →
      E.value st b = .int v → LeafText E st n ts (.create s v) st
  | close {st n} : n ∈ [".close", ".closefile"] → E.memoryMode = false → LeafText E st n [] .close st
  | incbin {st n a s ts} : n ∈ [".incbin", ".import"] → Params (E.expr st) [a] ts → Names E st a s → LeafText E st n ts (.incbin s none none) st
  | incbinFrom {st n a b s ts} : n ∈ [".incbin", ".import"] → Params (E.expr st) [a, b] ts → Names E st a s →
      LeafText E st n ts (.incbin s (some b) none) st
  | incbinPart {st n a b c s ts} : n ∈ [".incbin", ".import"] → Params (E.expr st) [a, b, c] ts → Names E st a s →
      LeafText E st n ts (.incbin s (some b) (some c)) st
  | org {st n e ts} : n ∈ [".org", "org"] → Writes (E.expr st) 12 e ts → LeafText E st n ts (.position true e) st
  | orga {st n e ts} : n ∈ [".orga", "orga"] → Writes (E.expr st) 12 e ts → LeafText E st n ts (.position false e) st
  | headerSize {st e ts} : Writes (E.expr st) 12 e ts → LeafText E st ".headersize" ts (.headerSize e) st
  | alignDefault {st n m} : (n, m) ∈ [(".align", AlignMode.virtual), (".aligna", .physical)] → LeafText E st n [] (.align m (.int 4) none) st
  | align {st n m e ts} : (n, m) ∈ [(".align", AlignMode.virtual), (".aligna", .physical), (".fill", .fill), ("defs", .fill)] →
      Params (E.expr st) [e] ts → LeafText E st n ts (.align m e none) st
  | alignFill {st n m e f ts} : (n, m) ∈ [(".align", AlignMode.virtual), (".aligna", .physical), (".fill", .fill), ("defs", .fill)] →
      Params (E.expr st) [e, f] ts → LeafText E st n ts (.align m e (some f)) st
  | skip {st e ts} : Params (E.expr st) [e] ts → LeafText E st ".skip" ts (.skip e) st
  | table {st n a s ts} : n ∈ [".loadtable", ".table"] → Params (E.expr st) [a] ts → Names E st a s → LeafText E st n ts (.table s none) st
  | tableEncoding {st n a b s t ts} : n ∈ [".loadtable", ".table"] → Params (E.expr st) [a, b] ts → Names E st a s → Names E st b t →
      LeafText E st n ts (.table s (some t)) st
  | data {st n m z es ts} : (n, m, z) ∈ dataNames st → Params (E.expr st) es ts → LeafText E st n ts (.data m es z) st
  | arch {st n c} : (n, c) ∈ archNames → LeafText E st n [] (.arch c) (choose st c)
  | defineRegion {st p s ts} : Params (E.expr st) [p, s] ts → LeafText E st ".defineregion" ts (.defineRegion true p s none) st
  | defineRegionFill {st p s f ts} : Params (E.expr st) [p, s, f] ts → LeafText E st ".defineregion" ts (.defineRegion true p s (some f)) st
  | importObj {st n a s ts} : n ∈ [".importobj", ".importlib"] → Params (E.expr st) [a] ts → Names E st a s → LeafText E st n ts (.importObj s none) st
  | importCtor {st n a c f x s ts} : n ∈ [".importobj", ".importlib"] → Params (E.expr st) [a, .ident c f x] ts → Names E st a s →
      LeafText E st n ts (.importObj s (some c)) st
  | errorOnWarning {st b t} : Switch b t → LeafText E st ".erroronwarning" [t] .dummy { st with errorOnWarning := b }
  | relativeInclude {st b t} : Switch b t → LeafText E st ".relativeinclude" [t] .dummy { st with relativeInclude := b }
  | nocash {st b t} : Switch b t → LeafText E st ".nocash" [t] .dummy { st with nocash := b }
  | sym {st b t} : Switch b t → LeafText E st ".sym" [t] (.sym b) st
  | defineLabel {st n z m e ts} : (n, z) ∈ [(".definelabel", none), (".definedatalabel", some false)] → SymbolName m → Writes (E.expr st) 12 e ts →
      LeafText E st n (.ident m :: .comma :: ts) (.defineLabel m (begins st m).section_ e z) (begins st m)
  | defineCode {st n z m e ts} : st.cpu ∈ arms → (n, z) ∈ [(".definearmlabel", false), (".definethumblabel", true)] → SymbolName m →
      Writes (E.expr st) 12 e ts → LeafText E st n (.ident m :: .comma :: ts) (.defineLabel m (begins st m).section_ e (some z)) (begins st m)
  | message {st n t e ts} : (n, t) ∈ [(".warning", MsgType.warning), (".error", .error), (".notice", .notice)] → Writes (E.expr st) 12 e ts →
      LeafText E st n ts (.message t (some e)) st
  | include {st a s ts} : Params (E.expr st) [a] ts → Names E st a s → LeafText E st ".include" ts (.include s none) st
  | includeEncoding {st a b s t ts} : Params (E.expr st) [a, b] ts → Names E st a s → Names E st b t → LeafText E st ".include" ts (.include s (some t)) st
  | thumb {st} : st.cpu ∈ arms → LeafText E st ".thumb" [] (.armState false) { st with thumb := true }
  | arm {st} : st.cpu ∈ arms → LeafText E st ".arm" [] (.armState true) { st with thumb := false }
  | pool {st} : st.cpu ∈ arms → LeafText E st ".pool" [] .pool st
  | msg {st e ts} : st.cpu ∈ arms → Writes (E.expr st) 12 e ts → LeafText E st ".msg" ts (.msg e st.thumb) st
  | resetDelay {st} : st.cpu ∈ mipses → LeafText E st ".resetdelay" [] .dummy { st with ignoreDelay := true }
  | fixLoadDelay {st} : st.cpu ∈ mipses → LeafText E st ".fixloaddelay" [] .dummy { st with fixLoadDelay := true }
  | loadElf {st a s ts} : st.cpu ∈ mipses → Params (E.expr st) [a] ts → Names E st a s → LeafText E st ".loadelf" ts (.loadElf s none) st
  | copyElf {st a b s t ts} : st.cpu ∈ mipses → Params (E.expr st) [a, b] ts → Names E st a s → Names E st b t →
      LeafText E st ".loadelf" ts (.loadElf s (some t)) st

/-- `CondText E b st k ts c r`: `ts` is the condition `c` behind `.if`, `.ifdef` or `.ifndef`. `r` is its value if it is known at once; `b` tells
whether a block around is false or not known. The section is that of a local name. -/
inductive CondText (E : Env ι) (b : Bool) (st : St) : CondKind → List Tok → Cond → Option Bool → Prop
  | if_ {e ts} : Writes (E.expr st) 12 e ts → CondText E b st .if_ ts (.if_ e) (E.known b st e)
  | ifdef {n} : SymbolName n → ¬ Local n → CondText E b st .ifdef [.ident n] (.ifdef n 0) none
  | ifndef {n} : SymbolName n → ¬ Local n → CondText E b st .ifndef [.ident n] (.ifndef n 0) none
  | ifdefLocal {n} : SymbolName n → Local n → CondText E b st .ifdef [.ident n] (.ifdef n st.section_) none
  | ifndefLocal {n} : SymbolName n → Local n → CondText E b st .ifndef [.ident n] (.ifndef n st.section_) none

/-- The condition is about a local name. -/
def ofLocal : Cond → Prop
  | .if_ _ => False
  | .ifdef n _ => Local n
  | .ifndef n _ => Local n

/-- The statement of a conditional: if its condition is known only the block that counts. -/
def selected (c : Cond) (thn els : List (Stmt ι)) : Option Bool → Stmt ι
  | some true => .group thn
  | some false => .group els
  | none => .cond c thn els

/-- What is written: statements (inside of a function a further function ends it), one statement, a conditional behind `.if`, or the rest of a conditional
from `.else` or `.endif` on. -/
inductive Part
  | seq (inFunction : Bool)
  | cmd (inFunction : Bool)
  | cond (k : CondKind)
  | els

/-- `Text E I p tr un st ts l st'`: `ts` writes the part `p`, which are the statements `l`. `tr`: no conditional around is known to be false; in others
nothing becomes a statement. `un`: a conditional around is not known. -/
inductive Text (E : Env ι) (I : St → List Tok → ι → St → Prop) : Part → Bool → Bool → St → List Tok → List (Stmt ι) → St → Prop
  | nil {f tr un st} : Text E I (.seq f) tr un st [] [] st
  | sep {f tr un st ts l st'} : Text E I (.seq f) tr un st ts l st' → Text E I (.seq f) tr un st (.separator :: ts) l st'
  | cons {f tr un st ts c st' us l st''} : Text E I (.cmd f) tr un st ts [c] st' → Text E I (.seq f) tr un st' us l st'' →
      Text E I (.seq f) tr un st (ts ++ us) (if tr then c :: l else l) st''
  | label {f tr un st n} : SymbolName n → (∀ z ∈ closers ++ funcs, n ≠ lit z) →
      Text E I (.cmd f) tr un st [.ident n, .colon] [.label n (begins st n).section_] (begins st n)
  | op {f tr un st ts i st'} : I st ts i st' → Text E I (.cmd f) tr un st (ts ++ [.separator]) [.op i] st'
  | leaf {f tr un st n ts l st'} : LeafText E st n ts l st' → (tr = false → n ≠ ".include") →
      Text E I (.cmd f) tr un st (.ident (lit n) :: (ts ++ [.separator])) [.leaf l] st'
  | area {f tr un st n sh e ts us c st' z} : (n, sh) ∈ [(".area", false), (".region", true)] → Params (E.expr st) [e] ts →
      Text E I (.seq false) tr un st us c st' → z ∈ [".endarea", ".endregion"] →
      Text E I (.cmd f) tr un st (.ident (lit n) :: (ts ++ .separator :: (us ++ [.ident (lit z), .separator]))) [.area sh e none c] st'
  | areaFill {f tr un st n sh e g ts us c st' z} : (n, sh) ∈ [(".area", false), (".region", true)] → Params (E.expr st) [e, g] ts →
      Text E I (.seq false) tr un st us c st' → z ∈ [".endarea", ".endregion"] →
      Text E I (.cmd f) tr un st (.ident (lit n) :: (ts ++ .separator :: (us ++ [.ident (lit z), .separator]))) [.area sh e (some g) c] st'
  | auto {f tr un st us c st'} : Text E I (.seq false) tr un st us c st' →
      Text E I (.cmd f) tr un st (.ident (lit ".autoregion") :: .separator :: (us ++ [.ident (lit ".endautoregion"), .separator])) [.autoRegion none none c] st'
  | autoMin {f tr un st a ts us c st'} : Params (E.expr st) [a] ts → Text E I (.seq false) tr un st us c st' →
      Text E I (.cmd f) tr un st (.ident (lit ".autoregion") :: (ts ++ .separator :: (us ++ [.ident (lit ".endautoregion"), .separator])))
        [.autoRegion (some a) none c] st'
  | autoRange {f tr un st a b ts us c st'} : Params (E.expr st) [a, b] ts → Text E I (.seq false) tr un st us c st' →
      Text E I (.cmd f) tr un st (.ident (lit ".autoregion") :: (ts ++ .separator :: (us ++ [.ident (lit ".endautoregion"), .separator])))
        [.autoRegion (some a) (some b) c] st'
  | function {tr un st n m us c st' z} : n ∈ funcs → SymbolName m → Text E I (.seq true) tr un (begins st m) us c st' → z ∈ [".endfunc", ".endfunction"] →
      Text E I (.cmd false) tr un st (.ident (lit n) :: .ident m :: .separator :: (us ++ [.ident (lit z), .separator])) [.function m (begins st m).section_ c] st'
  | functions {tr un st n m us c st' z vs l st''} : n ∈ funcs → SymbolName m → Text E I (.seq true) tr un (begins st m) us c st' → z ∈ funcs →
      Text E I (.seq false) tr un st' (.ident (lit z) :: vs) l st'' →
      Text E I (.seq false) tr un st (.ident (lit n) :: .ident m :: .separator :: (us ++ .ident (lit z) :: vs))
        (if tr then .function m (begins st m).section_ c :: l else l) st''
  | cond {f tr un st n} {k : CondKind} {ts c st'} : (n, k) ∈ [(".if", .if_), (".ifdef", .ifdef), (".ifndef", .ifndef)] → Text E I (.cond k) tr un st ts [c] st' →
      Text E I (.cmd f) tr un st (.ident (lit n) :: (ts ++ [.separator])) [c] st'
  | condition {tr un st k ts c r us thn st' vs els st''} : CondText E (!tr || un) st k ts c r → (ofLocal c → st''.section_ = st.section_) →
      Text E I (.seq false) (tr && r != some false) (un || r.isNone) st us thn st' →
      Text E I .els (tr && r != some true) (un || r.isNone) st' vs els st'' →
      Text E I (.cond k) tr un st (ts ++ .separator :: (us ++ vs)) [selected c thn els r] st''
  | endif {tr un st} : Text E I .els tr un st [.ident (lit ".endif")] [] st
  | else_ {tr un st us l st'} : Text E I (.seq false) tr un st us l st' →
      Text E I .els tr un st (.ident (lit ".else") :: (us ++ [.ident (lit ".endif")])) l st'
  | elseif {tr un st n} {k : CondKind} {ts c st'} : (n, k) ∈ [(".elseif", .if_), (".elseifdef", .ifdef), (".elseifndef", .ifndef)] →
      Text E I (.cond k) tr un st ts [c] st' → Text E I .els tr un st (.ident (lit n) :: ts) [c] st'

/-- A way to write instructions: they begin with a name that is no directive, and the reader of instructions reads them. -/
def Instructions (E : Env ι) (I : St → List Tok → ι → St → Prop) : Prop :=
  ∀ st ts i st', I st ts i st' →
    (∃ n us, ts = .ident n :: us ∧ n.head? ≠ some (chr '.') ∧ (∀ z ∈ plain, n ≠ lit z) ∧ us.head? ≠ some .colon ∧ us.head? ≠ some .equ) ∧
    ∀ rest, E.opcode st (ts ++ .separator :: rest) = some (i, st', rest)

/-- How many parameters the directives take that take a list of them. -/
def arities : List (String × Nat × Nat) := [(".open", 2, 3), (".openfile", 2, 3), (".create", 2, 2), (".createfile", 2, 2), (".incbin", 1, 3),
  (".import", 1, 3), (".align", 1, 2), (".aligna", 1, 2), (".fill", 1, 2), ("defs", 1, 2), (".skip", 1, 1), (".loadtable", 1, 2), (".table", 1, 2),
  (".defineregion", 2, 3), (".importobj", 1, 2), (".importlib", 1, 2), (".include", 1, 2), (".area", 1, 2), (".region", 1, 2), (".autoregion", 1, 2)]

/-- `Opens E I f tr un st ts g tr' un' st'`: `ts` opens a block, inside of which `g`, `tr'` and `un'` are as in `Text`. -/
inductive Opens (E : Env ι) (I : St → List Tok → ι → St → Prop) : Bool → Bool → Bool → St → List Tok → Bool → Bool → Bool → St → Prop
  | area {f tr un st n es ts} : n ∈ [".area", ".region"] → Params (E.expr st) es ts → es.length ≤ 2 →
      Opens E I f tr un st (.ident (lit n) :: (ts ++ [.separator])) false tr un st
  | auto {f tr un st} : Opens E I f tr un st [.ident (lit ".autoregion"), .separator] false tr un st
  | autoRange {f tr un st es ts} : Params (E.expr st) es ts → es.length ≤ 2 →
      Opens E I f tr un st (.ident (lit ".autoregion") :: (ts ++ [.separator])) false tr un st
  | function {tr un st n m} : n ∈ funcs → SymbolName m → Opens E I false tr un st [.ident (lit n), .ident m, .separator] true tr un (begins st m)
  | cond {f tr un st n} {k : CondKind} {ts c r} : (n, k) ∈ [(".if", .if_), (".ifdef", .ifdef), (".ifndef", .ifndef)] → CondText E (!tr || un) st k ts c r →
      Opens E I f tr un st (.ident (lit n) :: (ts ++ [.separator])) false (tr && r != some false) (un || r.isNone) st
  | else_ {f tr un st n} {k : CondKind} {ts c r us l st'} : (n, k) ∈ [(".if", .if_), (".ifdef", .ifdef), (".ifndef", .ifndef)] →
      CondText E (!tr || un) st k ts c r → Text E I (.seq false) (tr && r != some false) (un || r.isNone) st us l st' →
      Opens E I f tr un st (.ident (lit n) :: (ts ++ .separator :: (us ++ [.ident (lit ".else")]))) false (tr && r != some true) (un || r.isNone) st'

/-- A text with blocks that are not closed. -/
inductive OpenText (E : Env ι) (I : St → List Tok → ι → St → Prop) : Bool → Bool → Bool → St → List Tok → Prop
  | last {f tr un st us l st' os g tr' un' st'' vs l' st3} : Text E I (.seq f) tr un st us l st' → Opens E I f tr un st' os g tr' un' st'' →
      Text E I (.seq g) tr' un' st'' vs l' st3 → OpenText E I f tr un st (us ++ (os ++ vs))
  | more {f tr un st us l st' os g tr' un' st'' vs} : Text E I (.seq f) tr un st us l st' → Opens E I f tr un st' os g tr' un' st'' →
      OpenText E I g tr' un' st'' vs → OpenText E I f tr un st (us ++ (os ++ vs))

end Armips.Spec.Directive
