import Verif.Lemmas.MipsMacroProgram
import Verif.Props.MipsParse
import Verif.Props.MipsLi
import Verif.Props.Directive
/-!
# C78: lines of MIPS are the macros and the instructions that are written

`Spec.MipsParse` says how instructions (`Text`) and macros (`MacroText`) are written. Many macros have the name of an instruction (`lw a0,label` and
`lw a0,4(a1)`); which of the two a line is depends on its operands only.
-/
namespace Armips.Props
open Armips.MipsParse Spec.MipsParse
open Armips.Mips (Slot Op Operands Version Parsed MacroRow ParseEnv)
open ExprParse (Tok)

/-! ### Lines -/

/-- C78. Every macro of the table, with any of its operands, is read as this macro with these operands, for every processor. -/
theorem mips_macro_line {E : ExprParse.Env} (v : Version) {m : MacroRow} {ts : List Token} {p : Parsed} (hm : m ∈ Mips.macros) (h : MacroText E m ts p)
    (x y : Str) (rest : List Token) : anyLine E v ((.ident (lit m.name), x) :: (ts ++ (.separator, y) :: rest)) = some (.macro m p, rest) := by
  unfold anyLine
  rw [macroLine_reads hm h]

/-- C78. Every instruction of the processor is read as this instruction with these operands: no macro hides one. -/
theorem mips_instruction_line {E : ExprParse.Env} {v : Version} {op : Op} {name : Str} {ts : List Token} {o : Operands} (hm : op ∈ Mips.opcodes)
    (hv : op.available v = true) (hh : ¬ Hidden v op) (h : Text E op name ts o) (x y : Str) (rest : List Token) :
    anyLine E v ((.ident name, x) :: (ts ++ (.separator, y) :: rest)) = some (.instr op o, rest) := by
  unfold anyLine
  rw [macroLine_instruction hm h, mips_line hm hv hh h]
  rfl

/-- C78. No text is a macro and an instruction. -/
theorem mips_macro_no_instruction {E : ExprParse.Env} {m : MacroRow} {op : Op} {ts : List Token} {p : Parsed} {o : Operands} (hm : m ∈ Mips.macros)
    (ho : op ∈ Mips.opcodes) (h : MacroText E m ts p) : ¬ Text E op (lit m.name) ts o := by
  intro h'
  have h1 := macroLine_reads hm h [] [] []
  rw [macroLine_instruction ho h'] at h1
  cases h1

/-- C78. No text is two macros. -/
theorem mips_macro_unambiguous {E : ExprParse.Env} {m m' : MacroRow} {ts : List Token} {p p' : Parsed} (hm : m ∈ Mips.macros) (hm' : m' ∈ Mips.macros)
    (hn : m.name = m'.name) (h : MacroText E m ts p) (h' : MacroText E m' ts p') : m = m' ∧ p = p' := by
  have h1 := macroLine_reads hm h [] [] []
  rw [hn, macroLine_reads hm' h'] at h1
  simp only [Option.some.injEq, Prod.mk.injEq, and_true] at h1
  exact ⟨h1.1.symm, h1.2.symm⟩

/-- C78. What is read as a macro has the name of one; everything else is read as an instruction. -/
theorem mips_line_kind {E : ExprParse.Env} {v : Version} {ts rest : List Token} {i : Item} (h : anyLine E v ts = some (i, rest)) :
    (∃ m p x us, i = .macro m p ∧ m ∈ Mips.macros ∧ ts = (.ident (lit m.name), x) :: us) ∨
      ∃ op o, i = .instr op o ∧ op ∈ Mips.opcodes ∧ op.available v = true ∧ line E v ts = some ((op, o), rest) := by
  unfold anyLine at h
  split at h
  · rename_i m p r hl
    left
    unfold macroLine at hl
    split at hl
    · rename_i name x us
      obtain ⟨m', hm, hr⟩ := List.exists_of_findSome?_eq_some hl
      unfold macroRow at hr
      split at hr
      · rename_i hn
        obtain ⟨a, -, e⟩ := Option.map_eq_some_iff.1 hr
        simp only [Prod.mk.injEq] at e
        obtain ⟨⟨rfl, -⟩, -⟩ := e
        simp only [Option.some.injEq, Prod.mk.injEq] at h
        exact ⟨m', p, x, us, h.1.symm, hm, by rw [hn]⟩
      · cases hr
    · cases hl
  · right
    obtain ⟨⟨⟨op, o⟩, r⟩, hl, e⟩ := Option.map_eq_some_iff.1 h
    simp only [Prod.mk.injEq] at e
    obtain ⟨rfl, rfl⟩ := e
    obtain ⟨-, -, -, -, -, -, h1, h2, -⟩ := mips_line_row hl
    exact ⟨op, o, rfl, h1, h2, hl⟩

/-! ### From the text to what the macros do -/

/-- C78. The macro that is read is the one that C29 to C33 are about, with the operands as they are written there. -/
theorem mips_macro_operands {E : ExprParse.Env} {m : MacroRow} {ts : List Token} {p : Parsed} (hm : m ∈ Mips.macros) (h : MacroText E m ts p) :
    ∃ as, Line E as ts ∧ Mips.findMacro m.name as = some (m.kind, p) := by
  obtain ⟨as, h1, h2⟩ := macroParts_tokens h
  exact ⟨as, h1, macro_tokens hm h2⟩

/-- C78. The same for instructions that have only registers of the CPU and the FPU and immediates as operands. -/
theorem mips_instruction_operands {E : ExprParse.Env} {v : Version} {op : Op} {name : Str} {ts : List Token} {o : Operands} (hm : op ∈ Mips.opcodes)
    (hv : op.available v = true) (hc : ∀ c ∈ op.mask.toList, c ∈ "tdsTDSi01256,()".toList) (hn : 'S' ∉ op.name.toList ∧ 'B' ∉ op.name.toList)
    (h : Text E op name ts o) : name = lit op.name ∧ ∃ as, Line E as ts ∧ Mips.findMacro op.name as = none ∧ Mips.select v op.name as = some (op, o) := by
  obtain ⟨ps, size, cond, hps, hnm, hp⟩ := h
  obtain ⟨es, he, hq, -⟩ := row_mem hm
  have he' := parts_elements hp (hps ▸ hq)
  rw [← hps] at he'
  have hs : simple ps = true := simple_of hm hc he'
  have hname : name = lit op.name ∧ size = none ∧ cond = none := named_plain hnm hn.1 hn.2
  obtain ⟨rfl, rfl, rfl⟩ := hname
  refine ⟨rfl, ?_⟩
  obtain ⟨as, h1, h2⟩ := parts_tokens hp fun p hp => List.all_eq_true.1 hs p hp
  rw [← hps] at h2
  exact ⟨as, h1, row_tokens hm hv he' hs h2⟩

/-- C78 with C29. `li` and `la` from the text to the machine: a line that says `li`, a register and an immediate is read as a macro, and the words that
are written for it load the value of the immediate. -/
theorem mips_li_text {E : ExprParse.Env} {v : Version} {name : String} {r : Nat} {e : Expr} {tr te : List Token} (hn : name = "li" ∨ name = "la")
    (hr : Reg .cpu r tr) (he : ImmText E e te) (x y z : Str) (rest : List Token) :
    ∃ m p, anyLine E v ((.ident (lit name), x) :: ((tr ++ ([(.comma, y)] ++ (te ++ []))) ++ (.separator, z) :: rest)) = some (.macro m p, rest) ∧
      ∃ as, Line E as (tr ++ ([(.comma, y)] ++ (te ++ []))) ∧ Mips.findMacro name as = some (m.kind, p) ∧
        ∀ {P : ParseEnv} {k : Nat} {val : Int} {st st' : St} {ws : List (BitVec 32)}, Ordinary P k st [e] → Spec.Macro.HasValue P st e val →
          Spec.Macro.Assembles P k name as st st' ws → ∀ be mach, Spec.Isa.exec be ws mach = some (mach.set r (BitVec.ofInt 32 val)) := by
  have hm : ∃ m ∈ Mips.macros, m.name = name ∧ m.args = "s,I" := by
    rcases hn with rfl | rfl
    · exact ⟨⟨"li", "s,I", .li true true⟩, by decide, rfl, rfl⟩
    · exact ⟨⟨"la", "s,I", .li true true⟩, by decide, rfl, rfl⟩
  obtain ⟨m, hmm, hname, hargs⟩ := hm
  have hnc : Spec.ExprParse.NoCall E (te.map Prod.fst) (([] : List Token).map Prod.fst) := by intro _ _ _ _ h; cases h
  have ht : MacroText E m (tr ++ ([(.comma, y)] ++ (te ++ []))) { grs := some r, sec := some e } := by
    unfold MacroText
    rw [hargs, show "s,I".toList = ['s', ',', 'I'] by decide]
    exact .cons (.grs hr) (by simp) (.cons .comma (by simp) (.cons (.sec he) (fun _ => hnc) .nil))
  refine ⟨m, _, by rw [← hname]; exact mips_macro_line v hmm ht x z rest, [.reg r, .comma, .imm e], ?_, ?_, ?_⟩
  · exact .cons (.reg hr) (by simp) (.cons .comma (by simp) (.cons (.imm he) (fun _ => hnc) .nil))
  · rw [← hname]
    refine macro_tokens hmm ?_
    rw [hargs]
    rfl
  · intro P k val st st' ws ho hv hA be mach
    have hlt : r < 32 := by cases hr <;> assumption
    exact mips_li_loads hn ho hlt hv hA be mach

/-! ### Programs -/

/-- The processor of an architecture. -/
def mipsVersion : Directive.Cpu → Option Version
  | .psx => some .psx
  | .ps2 => some .ps2
  | .psp => some .psp
  | .n64 => some .n64
  | .rsp => some .rsp
  | _ => none

/-- The parser of instructions is that of MIPS; `txt` is how a token is spelled. -/
def mipsEnvOf (txt : Tok → Str) (E : Directive.Env Unit) : Directive.Env Item where
  file := E.file
  isFn := E.isFn
  memoryMode := E.memoryMode
  value := E.value
  toText := E.toText
  known := E.known
  opcode st ts :=
    (mipsVersion st.cpu).bind fun v => (anyLine (E.expr st) v (ts.map fun t => (t, txt t))).map fun r => (r.1, st, r.2.map Prod.fst)

/-- How the lines of MIPS are written. -/
inductive MipsInstrText (txt : Tok → Str) (E : Directive.Env Unit) : Directive.St → List Tok → Item → Directive.St → Prop
  | ofMacro {st v m p ts} : mipsVersion st.cpu = some v → m ∈ Mips.macros → MacroText (E.expr st) m (ts.map fun t => (t, txt t)) p →
      MipsInstrText txt E st (.ident (lit m.name) :: ts) (.macro m p) st
  | ofInstr {st v op name o ts} : mipsVersion st.cpu = some v → op ∈ Mips.opcodes → op.available v = true → ¬ Hidden v op →
      Text (E.expr st) op name (ts.map fun t => (t, txt t)) o → MipsInstrText txt E st (.ident name :: ts) (.instr op o) st

theorem start_of {txt : Tok → Str} {ts : List Tok} (h : noLabel (ts.map fun t => (t, txt t))) : ts.head? ≠ some .colon ∧ ts.head? ≠ some .equ := by
  cases ts with
  | nil => simp
  | cons t l =>
    have := h (t, txt t) rfl
    simpa using this

/-- C78 with C73: a program for MIPS is read as the statements, the macros and the instructions with their operands it consists of. -/
theorem mips_program_read {txt : Tok → Str} {E : Directive.Env Unit} {st st' : Directive.St} {ts : List Tok} {l : List (Directive.Stmt Item)}
    (h : Spec.Directive.Text (mipsEnvOf txt E) (MipsInstrText txt E) (.seq false) true false st ts l st') :
    Directive.program (mipsEnvOf txt E) st ts = .ok l st' [] := by
  refine program_read ?_ h
  intro st ts i st' hi
  cases hi with
  | ofMacro hcpu hm ht =>
    rename_i v m p us
    obtain ⟨h1, h2, h3⟩ := macro_name hm ht
    refine ⟨⟨_, us, rfl, h1, h2, start_of h3⟩, fun rest => ?_⟩
    show ((mipsVersion st.cpu).bind _) = _
    rw [hcpu]
    simp only [Option.bind_some, List.cons_append, List.map_cons, List.map_append]
    rw [mips_macro_line v hm ht]
    simp [Function.comp_def]
  | ofInstr hcpu hm hv hh ht =>
    rename_i v op name o us
    obtain ⟨h1, h2, h3⟩ := text_name hm ht
    refine ⟨⟨_, us, rfl, h1, h2, start_of h3⟩, fun rest => ?_⟩
    show ((mipsVersion st.cpu).bind _) = _
    rw [hcpu]
    simp only [Option.bind_some, List.cons_append, List.map_cons, List.map_append]
    rw [mips_instruction_line hm hv hh ht]
    simp [Function.comp_def]

/-! ### Examples -/

private def env : ExprParse.Env := ⟨0, 0, fun _ => false⟩

private theorem noRegister {ts : List Token} (h : register .cpu ts = none ∧ (ts.head?.map Prod.fst ≠ some .lparen)) : ¬ BeginsWithRegister ts := by
  rintro ⟨n, pre, rest, hr, e | ⟨x, e⟩⟩
  · have := mips_register.2 ⟨pre, hr, e⟩
    rw [h.1] at this
    cases this
  · have := h.2
    rw [e] at this
    simp at this

/-- An integer is an immediate. -/
theorem int_imm (E : ExprParse.Env) (v : Int) (x : Str) : ImmText E (.int v) [(.int v, x)] :=
  ⟨writes_le (.int v) (by omega) (by omega), noRegister ⟨rfl, by simp⟩⟩

theorem int_noCall (E : ExprParse.Env) (v : Int) (us : List Tok) : Spec.ExprParse.NoCall E [.int v] us := by
  intro i n h
  have := congrArg List.getLast? h
  simp at this

/-- `lw a0,0x12345678` is the macro, -/
example : anyLine env .psx [(.ident (lit "lw"), []), (.ident (lit "a0"), []), (.comma, []), (.int 0x12345678, []), (.separator, [])] =
    some (.macro ⟨"lw", "s,I", .loadStore "lw" false false true true⟩ { grs := some 4, sec := some (.int 0x12345678) }, []) :=
  mips_macro_line .psx (m := ⟨"lw", "s,I", .loadStore "lw" false false true true⟩) (by decide)
    (show MacroParts env "s,I".toList ([(.ident (lit "a0"), [])] ++ ([(.comma, [])] ++ ([(.int 0x12345678, [])] ++ []))) {} _ by
      rw [show "s,I".toList = ['s', ',', 'I'] by decide]
      exact .cons (.grs (.name (s := "a0") (by decide) (by decide))) (by simp) (.cons .comma (by simp) (.cons (.sec (int_imm env _ _)) (fun _ => int_noCall _ _ _) .nil)))
    [] [] []

/-- and `lw a0,4(a1)` is the instruction. -/
example : ∃ o, anyLine env .psx [(.ident (lit "lw"), []), (.ident (lit "a0"), []), (.comma, []), (.int 4, []), (.lparen, []), (.ident (lit "a1"), []),
    (.rparen, []), (.separator, [])] =
      some (.instr ⟨"lw", "t,i16(s)", 0x8C000000#32, [.mips1], [.delayrt, .ignorertd], [.reg .grt, .imm .i16, .reg .grs]⟩ o, []) ∧
    o.regs .grt = some 4 ∧ o.regs .grs = some 5 ∧ o.imm = some (.int 4) := by
  refine ⟨_, mips_instruction_line (v := .psx) (o := withReg { withReg (blank none none) .grt 4 with imm := some (.int 4) } .grs 5) (by decide +kernel) (by decide)
    (by rintro ⟨h, -⟩; cases h) (show Text env _ (lit "lw")
      ([(.ident (lit "a0"), [])] ++ ([(.comma, [])] ++ ([(.int 4, [])] ++ ([(.lparen, [])] ++ ([(.ident (lit "a1"), [])] ++ ([(.rparen, [])] ++ [])))))) _ from ?_)
      [] [] [], rfl, rfl, rfl⟩
  refine ⟨[.reg .cpu .grt, .sym ',', .imm .i16, .sym '(', .reg .cpu .grs, .sym ')'], none, none, by decide +kernel, ?_, ?_⟩
  · exact .letter (c := 'l') (by decide) (by decide) (.letter (c := 'w') (by decide) (by decide) .nil)
  · exact .cons (.reg (.name (s := "a0") (by decide) (by decide))) trivial (.cons .comma trivial (.cons (.imm (int_imm env _ _)) (int_noCall _ _ _)
      (.cons .lparen trivial (.cons (.reg (.name (s := "a1") (by decide) (by decide))) trivial (.cons .rparen trivial .nil)))))

/-- `.psx` / `li a0,5` -/
example : ∃ i, Spec.Directive.Text (mipsEnvOf (fun _ => []) dirEnv) (MipsInstrText (fun _ => []) dirEnv) (.seq false) true false {}
    ((.ident (lit ".psx") :: ([] ++ [.separator])) ++ (([.ident (lit "li"), .ident (lit "a0"), .comma, .int 5] ++ [.separator]) ++ []))
    [.leaf (.arch .psx), .op i] { cpu := .psx } := by
  have ht : MacroText (dirEnv.expr { cpu := .psx }) ⟨"li", "s,I", .li true true⟩
      ([(.ident (lit "a0"), [])] ++ ([(.comma, [])] ++ ([(.int 5, [])] ++ []))) { grs := some 4, sec := some (.int 5) } := by
    unfold MacroText
    rw [show "s,I".toList = ['s', ',', 'I'] by decide]
    exact .cons (.grs (.name (s := "a0") (by decide) (by decide))) (by simp) (.cons .comma (by simp) (.cons (.sec (int_imm _ _ _)) (fun _ => int_noCall _ _ _) .nil))
  have hi : MipsInstrText (fun _ => []) dirEnv { cpu := .psx } [.ident (lit "li"), .ident (lit "a0"), .comma, .int 5]
      (.macro ⟨"li", "s,I", .li true true⟩ { grs := some 4, sec := some (.int 5) }) { cpu := .psx } :=
    .ofMacro (v := .psx) (m := ⟨"li", "s,I", .li true true⟩) (ts := [.ident (lit "a0"), .comma, .int 5]) rfl (by decide) ht
  exact ⟨_, .cons (c := .leaf (.arch .psx)) (.leaf (.arch (by simp [Spec.Directive.archNames])) (by decide)) (.cons (.op hi) .nil)⟩

/-- `sub a0,a1,0x10` is an instruction whose operands are those of C33. -/
example : ∀ c ∈ "d,s,i16".toList, c ∈ "tdsTDSi01256,()".toList := by decide

/-! ### Findings -/

/-- The macros of `lwc2` and `swc2` take the names of floating point registers, and not those of the GTE that the instruction takes: `lwc2 ir1,0x1234` is
nothing, and `lwc2 f9,0x1234` is a macro. -/
theorem mips_lwc2_wrong :
    (anyLine env .psx [(.ident (lit "lwc2"), []), (.ident (lit "ir1"), []), (.comma, []), (.int 0x1234, []), (.separator, [])]).isNone = true ∧
    (anyLine env .psx [(.ident (lit "lwc2"), []), (.ident (lit "f9"), []), (.comma, []), (.int 0x1234, []), (.separator, [])]).isSome = true ∧
    (anyLine env .psx [(.ident (lit "lwc2"), []), (.ident (lit "ir1"), []), (.comma, []), (.int 0x1234, []), (.lparen, []), (.ident (lit "a0"), []),
      (.rparen, []), (.separator, [])]).isSome = true ∧
    (anyLine env .psx [(.ident (lit "lwc2"), []), (.ident (lit "f9"), []), (.comma, []), (.int 0x1234, []), (.lparen, []), (.ident (lit "a0"), []),
      (.rparen, []), (.separator, [])]).isNone = true := by
  decide +kernel

/-- There are macros for `ldc2` and `sdc2`, but no such instructions for any processor. -/
theorem mips_ldc2_wrong : (∃ m ∈ Mips.macros, m.name = "ldc2") ∧ (∃ m ∈ Mips.macros, m.name = "sdc2") ∧
    (∀ op ∈ Mips.opcodes, op.name ≠ "ldc2" ∧ op.name ≠ "sdc2") := by
  decide +kernel

end Armips.Props
