import Verif.Lemmas.ShLineRead
import Verif.Props.Sh
import Verif.Props.Directive
/-!
# C77: SuperH instructions mean what is written, from the tokens of the line to the machine code
-/
namespace Armips.Props
open Armips.ExprParse (Tok)
open Armips.Spec.Sh (Operand Entry manual toks Shows width unit branchTarget dataAddress)
open Armips.Spec
open Armips.Spec.ShLine
open Armips.Spec.Instr (Evaluates)

/-- C77. Every instruction of the manual, with any registers and any constant, is read, and reading stops at the end of the line. Functions named `@` are
excluded: nothing else could be told from `@(`. -/
theorem sh_line_read {P : ExprParse.Env} (hat : P.isFn (lit "@") = false) {name : String} {ops : List Operand} {p : String} (hx : (name, ops, p) ∈ manual)
    {e : Expr} {es : List Tok} (he : Constant P e es) {n m : Nat} (hn : n < 16) (hm : m < 16) (rest : List Tok) :
    ∃ i, ShLine.parseOpcode P (line name ops n m es ++ .separator :: rest) = some (i, rest) := by
  obtain ⟨op, o, h⟩ := Sh.row_exists hx n m e
  exact ⟨(op, o), by rw [ShLine.line_read hat (ShLine.manual_written hx) he hn hm, h.1]; rfl⟩

/-- The statements about machine code (C38, C39) are about lines. -/
theorem sh_line_assembles {E : Env} {P : ExprParse.Env} (hat : P.isFn (lit "@") = false) {name : String} {ops : List Operand} {p : String}
    (hx : (name, ops, p) ∈ manual) {e : Expr} {es : List Tok} (he : Constant P e es) {n m : Nat} (hn : n < 16) (hm : m < 16) {rest : List Tok} {c : Ctx}
    {st : ArchState} {w : BitVec 16} : Assembles E P (line name ops n m es) rest c st w ↔ Spec.Sh.Assembles E name (toks n m e ops) c st w := by
  have := ShLine.line_read hat (ShLine.manual_written hx) he hn hm rest
  simp only [Assembles, Spec.Sh.Assembles]
  rw [this]
  constructor
  · rintro ⟨op, o, h, h'⟩
    obtain ⟨r, h1, h2⟩ := Option.map_eq_some_iff.1 h
    cases h2
    exact ⟨op, o, h1, h'⟩
  · rintro ⟨op, o, h, h'⟩
    exact ⟨op, o, by rw [h]; rfl, h'⟩

/-- C77. The machine code of a line is that of the manual, with the registers that were written. -/
theorem sh_line_word {E : Env} {P : ExprParse.Env} (hat : P.isFn (lit "@") = false) {name : String} {ops : List Operand} {p : String}
    (hx : (name, ops, p) ∈ manual) {e : Expr} {es : List Tok} (he : Constant P e es) {n m : Nat} (hn : n < 16) (hm : m < 16) {rest : List Tok} {c : Ctx}
    {st : ArchState} {w : BitVec 16} (h : Assembles E P (line name ops n m es) rest c st w) : ∃ d, d < 2 ^ width p ∧ Shows p n m d w :=
  sh_word hx ((sh_line_assembles hat hx he hn hm).1 h)

/-- C77. Without a constant a line is accepted at every even address, and its machine code is determined. -/
theorem sh_line_registers {E : Env} {P : ExprParse.Env} (hat : P.isFn (lit "@") = false) {name : String} {ops : List Operand} {p : String}
    (hx : (name, ops, p) ∈ manual) (h0 : width p = 0) {n m : Nat} (hn : n < 16) (hm : m < 16) {rest : List Tok} {c : Ctx} {st : ArchState}
    (ha : c.virtualAddress % 2 = 0) (w : BitVec 16) : Assembles E P (line name ops n m [.int 0]) rest c st w ↔ Shows p n m 0 w :=
  (sh_line_assembles hat hx (e := .int 0) ⟨int_written _ 0, by simp⟩ hn hm).trans (sh_registers hx h0 ha w)

/-- C77. The text of a constant is in the machine code as its value. -/
theorem sh_line_immediate_partial {E : Env} {P : ExprParse.Env} (hat : P.isFn (lit "@") = false) {name : String} {ops : List Operand} {p : String}
    (hx : (name, ops, p) ∈ manual) (hi : .imm ∈ ops) {e : Expr} {es : List Tok} (he : Constant P e es) {n m : Nat} (hn : n < 16) (hm : m < 16)
    {rest : List Tok} {c : Ctx} {st : ArchState} {v : Int} (ha : c.virtualAddress % 2 = 0) (hv : Evaluates E .superH c e (.int v)) (h1 : -128 ≤ v) (h2 : v < 256) :
    ∃ w d, Assembles E P (line name ops n m es) rest c st w ∧ Shows p n m d w ∧ d < 256 ∧ (0 ≤ v → d = v) ∧ (v < 128 → signed 8 d = v) := by
  obtain ⟨w, d, h, h'⟩ := sh_immediate_partial (n := n) (m := m) (st := st) hx hi ha hv h1 h2
  exact ⟨w, d, (sh_line_assembles hat hx he hn hm).2 h, h'⟩

/-- C77. A displacement from a register is in the machine code, in units of the size of the data. -/
theorem sh_line_displacement_partial {E : Env} {P : ExprParse.Env} (hat : P.isFn (lit "@") = false) {name : String} {ops : List Operand} {p : String}
    (hx : (name, ops, p) ∈ manual) (hi : HasDisp ops) {e : Expr} {es : List Tok} (he : Constant P e es) {n m : Nat} (hn : n < 16) (hm : m < 16)
    {rest : List Tok} {c : Ctx} {st : ArchState} {v : Int} (ha : c.virtualAddress % 2 = 0) (hv : Evaluates E .superH c e (.int v)) (h0 : 0 ≤ v)
    (h1 : v % unit name = 0) (h2 : v ≤ (2 ^ width p - 1) * unit name) :
    ∃ w d, Assembles E P (line name ops n m es) rest c st w ∧ Shows p n m d w ∧ d < 2 ^ width p ∧ v = d * unit name := by
  obtain ⟨w, d, h, h'⟩ := sh_displacement_partial (n := n) (m := m) (st := st) hx hi ha hv h0 h1 h2
  exact ⟨w, d, (sh_line_assembles hat hx he hn hm).2 h, h'⟩

/-- C77. A branch goes to the address that was written, modulo 2^32. -/
theorem sh_line_branch {E : Env} {P : ExprParse.Env} (hat : P.isFn (lit "@") = false) {name p : String} (hx : (name, [Operand.label], p) ∈ manual)
    {e : Expr} {es : List Tok} (he : Constant P e es) {n m : Nat} (hn : n < 16) (hm : m < 16) {rest : List Tok} {c : Ctx} {st : ArchState} {w : BitVec 16} {v : Int}
    (h : Assembles E P (line name [.label] n m es) rest c st w) (hv : Evaluates E .superH c e (.int v)) :
    ∃ d, Shows p n m d w ∧ d < 2 ^ width p ∧ (branchTarget (width p) d c.virtualAddress - v) % 2 ^ 32 = 0 :=
  sh_branch_reaches hx ((sh_line_assembles hat hx he hn hm).1 h) hv

/-- C77. Data at a label is loaded from the address that was written, modulo 2^32. -/
theorem sh_line_data {E : Env} {P : ExprParse.Env} (hat : P.isFn (lit "@") = false) {name : String} {ops : List Operand} {p : String}
    (hx : (name, ops, p) ∈ manual) (hi : .label ∈ ops) (hl : ops ≠ [.label]) {e : Expr} {es : List Tok} (he : Constant P e es) {n m : Nat} (hn : n < 16)
    (hm : m < 16) {rest : List Tok} {c : Ctx} {st : ArchState} {w : BitVec 16} {v : Int} (h : Assembles E P (line name ops n m es) rest c st w)
    (hv : Evaluates E .superH c e (.int v)) : ∃ d, Shows p n m d w ∧ d < 256 ∧ (dataAddress name d c.virtualAddress - v) % 2 ^ 32 = 0 :=
  sh_data_reaches hx hi hl ((sh_line_assembles hat hx he hn hm).1 h) hv

/-- C77. `#` in front of a constant can be left out, except for `trapa`. -/
theorem sh_line_hash {E : Env} {P : ExprParse.Env} (hat : P.isFn (lit "@") = false) {name : String} {ops : List Operand} {p : String}
    (hx : (name, ops, p) ∈ manual) (hi : .imm ∈ ops) (ht : name ≠ "trapa") {e : Expr} {es : List Tok} (he : Constant P e es) {n m : Nat} (hn : n < 16)
    (hm : m < 16) {rest : List Tok} {c : Ctx} {st : ArchState} {w : BitVec 16} :
    Assembles E P (line name (unhash ops) n m es) rest c st w ↔ Assembles E P (line name ops n m es) rest c st w := by
  have hh : (name, ops, p) ∈ ShLine.hashed := List.mem_filter.2 ⟨hx, by simp [hi, ht]⟩
  obtain ⟨op, s, o, h1, h2⟩ := ShLine.unhashed hh n m e
  have r1 := ShLine.line_read hat (ShLine.manual_written hx) he hn hm rest
  have r2 := ShLine.line_read hat (x := (name, unhash ops, p)) (List.mem_append_right _ (List.mem_map_of_mem hh)) he hn hm rest
  rw [h1] at r1
  rw [h2] at r2
  simp only [Option.map_some] at r1 r2
  simp only [Assembles]
  rw [r1, r2]
  constructor
  · rintro ⟨op', o', h, h'⟩
    cases h
    rw [ShLine.sem_encoding] at h'
    exact ⟨op, o, rfl, h'⟩
  · rintro ⟨op', o', h, h'⟩
    cases h
    rw [← ShLine.sem_encoding E op o s] at h'
    exact ⟨_, o, rfl, h'⟩

/-- C77. A line has one machine code. -/
theorem sh_line_unique {E : Env} {P : ExprParse.Env} {ts rest : List Tok} {c : Ctx} {st : ArchState} {w w' : BitVec 16}
    (h : Assembles E P ts rest c st w) (h' : Assembles E P ts rest c st w') : w = w' := by
  obtain ⟨op, o, hp, out, ⟨st1, _, h1, _⟩, h2⟩ := h
  obtain ⟨op', o', hp', out', ⟨st1', _, h1', _⟩, h2'⟩ := h'
  rw [hp] at hp'
  cases hp'
  rw [h1] at h1'
  cases h1'
  have := (h2 none).symm.trans (h2' none)
  simp only [List.cons.injEq, Prod.mk.injEq, true_and, and_true] at this
  exact BitVec.eq_of_toNat_eq (Int.ofNat.inj this)

/-! ### Programs -/

/-- The reader for SuperH. -/
def shEnvOf (E : Directive.Env Unit) : Directive.Env (Sh.Op × Sh.Operands) where
  file := E.file
  isFn := E.isFn
  memoryMode := E.memoryMode
  value := E.value
  toText := E.toText
  known := E.known
  opcode st ts := if st.cpu = .saturn then (ShLine.parseOpcode (E.expr st) ts).map fun r => (r.1, st, r.2) else none

/-- How the instructions of SuperH are written, and the row with the operands that the parser of C38 and C39 finds for them. -/
inductive ShInstrText (E : Directive.Env Unit) : Directive.St → List Tok → Sh.Op × Sh.Operands → Directive.St → Prop
  | mk {st name ops p e es n m i} : st.cpu = .saturn → (E.expr st).isFn (lit "@") = false → (name, ops, p) ∈ manual → Constant (E.expr st) e es → n < 16 →
      m < 16 → Sh.parseOpcode name (toks n m e ops) = some i → ShInstrText E st (line name ops n m es) i st

theorem mnemonic_plain : ∀ x ∈ manual, ∃ n us, mnemonic x.1 = .ident n :: us ∧ n.head? ≠ some (chr '.') ∧ (∀ z ∈ Spec.Directive.plain, n ≠ lit z) ∧
    (us = [] ∨ ∃ l, us = .div :: l) := by
  have h : ∀ x ∈ manual, (match mnemonic x.1 with
      | .ident n :: us => decide (n.head? ≠ some (chr '.')) && Spec.Directive.plain.all (fun z => decide (n ≠ lit z)) && (us.isEmpty || us.head? == some .div)
      | _ => false) = true := by decide +kernel
  intro x hx
  have := h x hx
  split at this
  · rename_i n us heq
    simp only [Bool.and_eq_true, decide_eq_true_eq, List.all_eq_true, Bool.or_eq_true, List.isEmpty_iff, beq_iff_eq] at this
    obtain ⟨⟨h1, h2⟩, h3⟩ := this
    refine ⟨n, us, heq, h1, h2, h3.imp id fun h => ?_⟩
    cases us with
    | nil => cases h
    | cons a l => cases h; exact ⟨l, rfl⟩
  · cases this

/-- The operands do not begin with a colon or `equ`. -/
theorem operands_start {P : ExprParse.Env} {e : Expr} {es : List Tok} (he : Constant P e es) {n m : Nat} : ∀ ops : List Operand,
    (operands n m es ops).head? ≠ some .colon ∧ (operands n m es ops).head? ≠ some .equ := by
  obtain ⟨t, l, rfl, h1, -⟩ := ShLine.constant_start he
  have ht : t ≠ .colon ∧ t ≠ .equ := by constructor <;> (rintro rfl; cases h1)
  intro ops
  match ops with
  | [] => simp [operands]
  | [x] => cases x <;> simp [operands, operand, ht]
  | x :: y :: l => cases x <;> simp [operands, operand, ht]

/-- C77 with C73: a program for SuperH is read as the statements and the instructions with their operands it consists of. -/
theorem sh_program_read {E : Directive.Env Unit} {st st' : Directive.St} {ts : List Tok} {l : List (Directive.Stmt (Sh.Op × Sh.Operands))}
    (h : Spec.Directive.Text (shEnvOf E) (ShInstrText E) (.seq false) true false st ts l st') :
    Directive.program (shEnvOf E) st ts = .ok l st' [] := by
  refine program_read ?_ h
  intro st ts i st' hi
  cases hi with | mk hcpu hat hx he hn hm hp => _
  rename_i name ops p e es n m
  constructor
  · obtain ⟨s, us, h1, h2, h3, h4⟩ := mnemonic_plain _ hx
    obtain ⟨o1, o2⟩ := operands_start he (n := n) (m := m) ops
    refine ⟨s, us ++ operands n m es ops, by rw [line, h1]; rfl, h2, h3, ?_⟩
    rcases h4 with rfl | ⟨l, rfl⟩
    · exact ⟨o1, o2⟩
    · exact ⟨by simp, by simp⟩
  · intro rest
    show (if st.cpu = .saturn then _ else _) = _
    rw [if_pos hcpu, ShLine.line_read hat (ShLine.manual_written hx) he hn hm, hp]
    rfl

/-! ### Examples -/

/-- No functions. -/
def shExpr : ExprParse.Env := ⟨1, 0, fun _ => false⟩

theorem sh_int_constant (P : ExprParse.Env) (v : Int) : Constant P (.int v) [.int v] := ⟨int_written P v, by simp⟩

/-- `mov.l @(60,r4),r3` -/
example : ∃ i, ShLine.parseOpcode shExpr ([.ident (lit "mov.l"), .ident (lit "@"), .lparen, .int 60, .comma, .ident (lit "r4"), .rparen, .comma, .ident (lit "r3"),
    .separator]) = some (i, []) :=
  sh_line_read (P := shExpr) rfl (name := "mov.l") (ops := [.dispRm, .rn]) (p := "0101nnnnmmmmdddd") (by decide) (sh_int_constant shExpr 60) (n := 3) (m := 4)
    (by decide) (by decide) []

/-- `cmp/eq #-(x+1)*2,r0` -/
example : Constant shExpr (.bin .mult (.un .neg (.bin .add (.ident (lit "x") 1 0) (.int 1))) (.int 2))
    [.minus, .lparen, .ident (lit "x"), .plus, .int 1, .rparen, .mult, .int 2] := by
  constructor
  · have hx : Spec.ExprParse.Writes shExpr 3 (.ident (lit "x") 1 0) [.ident (lit "x")] :=
      writes_le (.ident (E := shExpr) (lit "x") (by decide)) (by omega) (by omega)
    have h1 : Spec.ExprParse.Writes shExpr 2 (.int 1) [.int 1] := writes_le (.int 1) (by omega) (by omega)
    have hp := Spec.ExprParse.Writes.paren (writes_le (Spec.ExprParse.Writes.binary .add hx h1) (s := 12) (by decide) (by omega))
    have hn := Spec.ExprParse.Writes.pre (t := .minus) rfl hp
    have h2 : Spec.ExprParse.Writes shExpr 1 (.int 2) [.int 2] := writes_le (.int 2) (by omega) (by omega)
    exact writes_le (Spec.ExprParse.Writes.binary .mult (writes_le hn (s := 2) (by omega) (by omega)) h2) (by decide) (by omega)
  · intro n hn
    have : n = lit "x" := by simpa using hn
    subst this
    rintro (⟨k, hk, h⟩ | ⟨s, hs, h⟩ | ⟨h, -⟩)
    · have : ∀ k < 16, ¬ (lit "x" = regName k ∨ lit "x" = chr '@' :: regName k) := by decide +kernel
      exact this k hk h
    · have : ∀ s ∈ special, lit "x" ≠ lit s := by decide +kernel
      exact this s hs h
    · cases h

/-- `mov #200,r3` and `mov 200,r3` -/
example : ∃ w, Assembles Sample.env shExpr [.ident (lit "mov"), .hash, .int 200, .comma, .ident (lit "r3")] [] Sample.ctx {} w ∧
    Assembles Sample.env shExpr [.ident (lit "mov"), .int 200, .comma, .ident (lit "r3")] [] Sample.ctx {} w := by
  have hx : ("mov", [Operand.imm, .rn], "1110nnnndddddddd") ∈ manual := by decide
  obtain ⟨w, d, h, -⟩ := sh_line_immediate_partial (E := Sample.env) (P := shExpr) rfl hx (by decide) (sh_int_constant shExpr 200) (n := 3) (m := 0) (by decide)
    (by decide) (rest := []) (c := Sample.ctx) (st := {}) (v := 200) (by decide) ⟨[], rfl, by intro d h; cases h⟩ (by decide) (by decide)
  have e1 : line "mov" [.imm, .rn] 3 0 [.int 200] = [.ident (lit "mov"), .hash, .int 200, .comma, .ident (lit "r3")] := by decide +kernel
  have e2 : line "mov" (unhash [.imm, .rn]) 3 0 [.int 200] = [.ident (lit "mov"), .int 200, .comma, .ident (lit "r3")] := by decide +kernel
  have h' := (sh_line_hash (E := Sample.env) (P := shExpr) rfl hx (by decide) (by decide) (sh_int_constant shExpr 200) (by decide) (by decide)).2 h
  rw [e1] at h
  rw [e2] at h'
  exact ⟨w, h, h'⟩

/-- `bra 0x8000000` -/
example : ∃ w d, Assembles Sample.env shExpr [.ident (lit "bra"), .int 0x8000000] [] Sample.ctx {} w ∧ Shows "1010dddddddddddd" 0 0 d w ∧
    (branchTarget 12 d Sample.ctx.virtualAddress - 0x8000000) % 2 ^ 32 = 0 := by
  have hx : ("bra", [Operand.label], "1010dddddddddddd") ∈ manual := by decide
  have hv : Evaluates Sample.env .superH Sample.ctx (.int 0x8000000) (.int 0x8000000) := ⟨[], rfl, by intro d h; cases h⟩
  obtain ⟨w, hw⟩ := sh_branch_accepted_partial (E := Sample.env) (n := 0) (m := 0) (st := {}) hx hv (by decide) (by decide) (by decide) (by decide)
  have h := (sh_line_assembles (P := shExpr) rfl hx (sh_int_constant shExpr _) (n := 0) (m := 0) (by decide) (by decide) (rest := [])).2 hw
  obtain ⟨d, h1, -, h2⟩ := sh_line_branch (P := shExpr) rfl hx (sh_int_constant shExpr _) (by decide) (by decide) h hv
  exact ⟨w, d, h, h1, h2⟩

/-- `.saturn` / `cmp/str r4,r3` -/
example : ∃ i, Spec.Directive.Text (shEnvOf dirEnv) (ShInstrText dirEnv) (.seq false) true false {}
    ((.ident (lit ".saturn") :: ([] ++ [.separator])) ++ (([.ident (lit "cmp"), .div, .ident (lit "str"), .ident (lit "r4"), .comma, .ident (lit "r3")] ++
      [.separator]) ++ [])) [.leaf (.arch .saturn), .op i] { cpu := .saturn } := by
  obtain ⟨op, o, hr⟩ := Sh.row_exists (x := ("cmp/str", [.rm, .rn], "0010nnnnmmmm1100")) (by decide) 3 4 (.int 0)
  have hi : ShInstrText dirEnv { cpu := .saturn } [.ident (lit "cmp"), .div, .ident (lit "str"), .ident (lit "r4"), .comma, .ident (lit "r3")] (op, o)
      { cpu := .saturn } :=
    .mk (name := "cmp/str") (ops := [.rm, .rn]) (p := "0010nnnnmmmm1100") (n := 3) (m := 4) rfl rfl (by decide) (sh_int_constant _ 0) (by decide) (by decide) hr.1
  exact ⟨(op, o), .cons (c := .leaf (.arch .saturn)) (.leaf (.arch (by simp [Spec.Directive.archNames])) (by decide)) (.cons (.op hi) .nil)⟩

/-! ### Findings -/

/-- `@` in front of a register is ignored where a register is expected: `add @r4,r3` is read as `add r4,r3`. -/
theorem sh_line_at_wrong : ShLine.parseOpcode shExpr [.ident (lit "add"), .ident (lit "@r4"), .comma, .ident (lit "r3"), .separator] =
    ShLine.parseOpcode shExpr (line "add" [.rm, .rn] 3 4 [] ++ [.separator]) := by with_unfolding_all rfl

/-- Special registers are taken as labels where a label is expected: `bra sr` and `mov.w pc,r3` are read as a jump to and a load from labels of these names. -/
theorem sh_line_special_wrong :
    (ShLine.parseOpcode shExpr [.ident (lit "bra"), .ident (lit "sr"), .separator]).map (·.1.2.imm) = some (.ident (lit "sr") 1 0) ∧
    (ShLine.parseOpcode shExpr [.ident (lit "mov.w"), .ident (lit "pc"), .comma, .ident (lit "r3"), .separator]).map (·.1.2.imm) =
      some (.ident (lit "pc") 1 0) := by constructor <;> with_unfolding_all rfl

end Armips.Props
