import Verif.Lemmas.DirectiveText
import Verif.Props.ArmLine
/-!
# C73: directives, labels, blocks and conditionals mean what is written
-/
namespace Armips.Props
open Armips.Directive Armips.Spec.Directive
open Armips.ExprParse (Tok)

/-- C73. A program that is written by the rules is read, up to its end, as the statements it consists of. -/
theorem program_read {E : Directive.Env ι} {I : Directive.St → List Tok → ι → Directive.St → Prop} (hI : Instructions E I) {st st' : Directive.St} {ts : List Tok}
    {l : List (Directive.Stmt ι)} (h : Text E I (.seq false) true false st ts l st') : program E st ts = .ok l st' [] := by
  have := (text_reads hI h).2 (2 * ts.length + 2) [] [] (by omega) (fun z hz => by cases hz) (Or.inl ⟨rfl, rfl⟩)
  rwa [List.append_nil] at this

/-- C73. No text has two meanings. -/
theorem program_meaning_unique {E : Directive.Env ι} {I : Directive.St → List Tok → ι → Directive.St → Prop} (hI : Instructions E I) {st s1 s2 : Directive.St}
    {ts : List Tok} {l1 l2 : List (Directive.Stmt ι)} (h1 : Text E I (.seq false) true false st ts l1 s1) (h2 : Text E I (.seq false) true false st ts l2 s2) :
    l1 = l2 ∧ s1 = s2 := by
  have := program_read hI h1
  rw [program_read hI h2] at this
  cases this
  exact ⟨rfl, rfl⟩

/-- C73. A program is read to its end or not at all. -/
theorem program_read_whole {E : Directive.Env ι} {st st' : Directive.St} {ts r : List Tok} {l : List (Directive.Stmt ι)} (h : program E st ts = .ok l st' r) : r = [] :=
  seq_all E _ _ _ _ _ _ _ _ h

/-- C73. A program in which a block is not closed is refused, however deep it is in others. -/
theorem program_unclosed_refused {E : Directive.Env ι} {I : Directive.St → List Tok → ι → Directive.St → Prop} (hI : Instructions E I) {st : Directive.St}
    {ts : List Tok} (h : OpenText E I false true false st ts) : program E st ts = .err :=
  openText_err hI h _ _ (by omega) fun z hz => by cases hz

/-- C73. A directive with a number of parameters it does not take is refused, wherever it stands between other statements. -/
theorem program_arity_refused {E : Directive.Env ι} {I : Directive.St → List Tok → ι → Directive.St → Prop} (hI : Instructions E I) (hm : E.memoryMode = false)
    {st st' : Directive.St} {us : List Tok} {l : List (Directive.Stmt ι)} (h : Text E I (.seq false) true false st us l st') {n : String} {min max : Nat}
    (hn : (n, min, max) ∈ arities) {es : List Expr} {ts : List Tok} (hp : Params (E.expr st') es ts) (hb : es.length < min ∨ max < es.length) (rest : List Tok) :
    program E st (us ++ .ident (lit n) :: (ts ++ .separator :: rest)) = .err := by
  obtain ⟨k, hk, hf, hbody⟩ := arity_err hm hn hp hb
  obtain ⟨m, hm', -, h2⟩ := text_continues hI h _ [] (.ident (lit n) :: (ts ++ .separator :: rest))
    (show us.length < 2 * (us ++ .ident (lit n) :: (ts ++ .separator :: rest)).length + 2 by simp only [List.length_append]; omega)
    (fun z hz => by cases hz) (by simp)
  refine h2 ?_
  obtain ⟨t, r, e1, h1, h3, -⟩ := params_begin hp
  obtain ⟨m, rfl⟩ : ∃ j, m = j + 1 := ⟨m - 1, by simp only [List.length_append] at hm'; omega⟩
  have hbm := hbody (seq E m) (conditional E m) true false rest
  subst e1
  exact seq_cmd_bad (by simp) (not_definition (kind_begins hk).1 h1 h3) (command_directive_err hk hf h1 hbm)

/-- C73. A name that ends a block, where no such block is open, is refused. -/
theorem program_stray_end_refused {E : Directive.Env ι} {I : Directive.St → List Tok → ι → Directive.St → Prop} (hI : Instructions E I)
    {st st' : Directive.St} {us : List Tok} {l : List (Directive.Stmt ι)} (h : Text E I (.seq false) true false st us l st') {z : String}
    (hz : z ∈ closers) (hd : z ≠ ".macro" ∧ z ≠ ".expfunc") (hop : ∀ r, E.opcode st' (.ident (lit z) :: r) = none) (rest : List Tok) :
    program E st (us ++ .ident (lit z) :: .separator :: rest) = .err := by
  obtain ⟨m, hm', -, h2⟩ := text_continues hI h _ [] (.ident (lit z) :: .separator :: rest)
    (show us.length < 2 * (us ++ .ident (lit z) :: .separator :: rest).length + 2 by simp only [List.length_append]; omega)
    (fun z hz => by cases hz) (by simp)
  refine h2 ?_
  obtain ⟨m, rfl⟩ : ∃ j, m = j + 1 := ⟨m - 1, by simp only [List.length_append] at hm'; omega⟩
  have hdef : ∀ z ∈ closers, z ≠ ".macro" ∧ z ≠ ".expfunc" → isDefinition (.ident (lit z) :: .separator :: []) = false := by decide +kernel
  have hk : kindOf E st' (lit z) = none :=
    (kind_not_closer st'.cpu (mem_allCpus _) st'.nocash (mem_bools _) E.memoryMode (mem_bools _)).1 z hz
  refine seq_cmd_bad (by simp) ?_ ?_
  · have := hdef z hz hd
    unfold isDefinition at this ⊢
    exact this
  · unfold command
    dsimp only
    rw [if_neg (show ¬ ExprParse.peek (.separator :: rest) = .colon by simp [ExprParse.peek, ExprParse.next]), hk]
    dsimp only
    unfold Directive.opcode
    rw [hop]

/-- C73. The block of a conditional that is known not to count gives no statements, whatever stands in it. -/
theorem false_block_no_statements {E : Directive.Env ι} {n : Nat} {un : Bool} {terms : List Str} {st st' : Directive.St} {ts r : List Tok}
    {l : List (Directive.Stmt ι)} (h : seq E n false un terms st ts = .ok l st' r) : l = [] :=
  seq_false E _ _ _ _ _ _ _ _ h

/-! ### ARM programs -/

/-- The version of an ARM processor. -/
def armVersion : Directive.Cpu → Option Arm.Version
  | .gba => some .gba
  | .nds => some .nds
  | .n3ds => some .threeDS
  | .armLittle => some .little
  | .armBig => some .big
  | _ => none

/-- Instructions of ARM and THUMB: the row of the table and its operands. -/
abbrev ArmInstr := (Arm.Op × Arm.Operands) ⊕ (Thumb.Op × Thumb.Operands)

/-- The reader for ARM: `ArmParser.cpp:653-690`, `750-787` by the mode. `stale` is what a row finds in the variables. -/
def armEnvOf (E : Directive.Env Unit) (stale : Directive.St → ArmLine.Vars) (old : BitVec 32) : Directive.Env ArmInstr where
  file := E.file
  isFn := E.isFn
  memoryMode := E.memoryMode
  value := E.value
  toText := E.toText
  known := E.known
  opcode st ts :=
    match armVersion st.cpu with
    | none => none
    | some v =>
      if st.thumb then (ArmLine.thumbLine (E.expr st) v (fun _ => stale st) old ts).map fun r => (.inr r.1, st, r.2)
      else (ArmLine.armLine (E.expr st) v (fun _ => stale st) ts).map fun r => (.inl r.1, st, r.2)

/-- How the instructions of ARM and THUMB are written, by the rules of C72. -/
inductive ArmInstrText (E : Directive.Env Unit) (stale : Directive.St → ArmLine.Vars) (old : BitVec 32) :
    Directive.St → List Tok → ArmInstr → Directive.St → Prop
  | arm {st v op name ts o} : armVersion st.cpu = some v → st.thumb = false → op ∈ Arm.opcodes → Spec.ArmLine.Available (op.has .arm9) v →
      Spec.ArmLine.ArmText (E.expr st) op (stale st) name ts o → ¬ Spec.ArmLine.ArmHidden op ts → name.head? ≠ some (chr '.') → (∀ z ∈ plain, name ≠ lit z) →
      ts.head? ≠ some .colon → ts.head? ≠ some .equ → ArmInstrText E stale old st (.ident name :: ts) (.inl (op, o)) st
  | thumb {st v op name ts o} : armVersion st.cpu = some v → st.thumb = true → op ∈ Thumb.opcodes → Spec.ArmLine.Available (op.has .arm9) v →
      Spec.ArmLine.ThumbText (E.expr st) op (stale st) old name ts o → ¬ Spec.ArmLine.ThumbHidden op o → name.head? ≠ some (chr '.') →
      (∀ z ∈ plain, name ≠ lit z) → ts.head? ≠ some .colon → ts.head? ≠ some .equ → ArmInstrText E stale old st (.ident name :: ts) (.inr (op, o)) st

/-- C73 with C72: a program for ARM and THUMB is read as the statements and the instructions with their operands it consists of. After `.arm` and
`.thumb` and after the choice of a processor the instructions are those of the mode. -/
theorem arm_program_read {E : Directive.Env Unit} {stale : Directive.St → ArmLine.Vars} {old : BitVec 32} {st st' : Directive.St} {ts : List Tok}
    {l : List (Directive.Stmt ArmInstr)} (h : Text (armEnvOf E stale old) (ArmInstrText E stale old) (.seq false) true false st ts l st') :
    program (armEnvOf E stale old) st ts = .ok l st' [] := by
  refine program_read ?_ h
  intro st ts i st' hi
  cases hi with
  | arm hv hm hop ha ht hh h1 h2 h3 h4 =>
    refine ⟨⟨_, _, rfl, h1, h2, h3, h4⟩, fun rest => ?_⟩
    have := arm_line (stale := fun _ => stale st) hop ha ht hh rest
    unfold armEnvOf
    dsimp only
    rw [hv]
    dsimp only
    rw [hm, if_neg (by simp), this]
    rfl
  | thumb hv hm hop ha ht hh h1 h2 h3 h4 =>
    refine ⟨⟨_, _, rfl, h1, h2, h3, h4⟩, fun rest => ?_⟩
    have := thumb_line (stale := fun _ => stale st) hop ha ht hh rest
    unfold armEnvOf
    dsimp only
    rw [hv]
    dsimp only
    rw [hm, if_pos rfl, this]
    rfl

/-! ### Examples -/

/-- No functions and no instructions. Constants have their value, and conditions that are constants are known. -/
def dirEnv : Directive.Env Unit where
  file := 1
  isFn _ _ := false
  memoryMode := false
  value _ e := match e with | .int v => .int v | .str s => .str s | _ => .invalid
  toText _ := []
  known _ _ e := match e with | .int v => some (v != 0) | _ => none
  opcode _ _ := none

/-- No instructions are written. -/
def noInstr : Directive.St → List Tok → Unit → Directive.St → Prop := fun _ _ _ _ => False

theorem noInstr_ok : Instructions dirEnv noInstr := fun _ _ _ _ h => h.elim

theorem int_written (E : ExprParse.Env) (v : Int) : Spec.ExprParse.Writes E 12 (.int v) [.int v] := by
  have h : ∀ n, n ≤ 12 → Spec.ExprParse.Writes E n (.int v) [.int v] := by
    intro n
    induction n with
    | zero => exact fun _ => .int v
    | succ k ih => exact fun hk => .weaker (by omega) (ih (by omega))
  exact h 12 (by omega)

theorem one_param (E : ExprParse.Env) (v : Int) : Params E [.int v] [.int v] :=
  ⟨[(.int v, [.int v])], by simp, fun x hx => by
    simp only [List.mem_cons, List.not_mem_nil, or_false] at hx
    subst hx
    exact int_written _ v, rfl, rfl⟩

theorem two_params (E : ExprParse.Env) (v w : Int) : Params E [.int v, .int w] [.int v, .comma, .int w] :=
  ⟨[(.int v, [.int v]), (.int w, [.int w])], by simp, fun x hx => by
    simp only [List.mem_cons, List.not_mem_nil, or_false] at hx
    rcases hx with rfl | rfl <;> exact int_written _ _, rfl, rfl⟩

theorem name_a : SymbolName (lit "a") := ⟨0, lit "a", by omega, rfl, by decide +kernel, by decide +kernel, by decide +kernel⟩

theorem a_begins (st : Directive.St) : begins st (lit "a") = { st with section_ := st.section_ + 1 } := by
  rw [← bump_eq]
  rfl

/-- `a:` / `.area 16` / `.if 0` / `.byte 1,2` / `.else` / `.word 3` / `.endif` / `.endarea` -/
example : Text dirEnv noInstr (.seq false) true false {} ([.ident (lit "a"), .colon] ++ ((.ident (lit ".area") :: ([.int 16] ++ .separator ::
      ((.ident (lit ".if") :: (([.int 0] ++ .separator :: ((.ident (lit ".byte") :: ([.int 1, .comma, .int 2] ++ [.separator]) ++ []) ++
        (.ident (lit ".else") :: ((.ident (lit ".word") :: ([.int 3] ++ [.separator]) ++ []) ++ [.ident (lit ".endif")])))) ++ [.separator]) ++ []) ++
      [.ident (lit ".endarea"), .separator]))) ++ []))
    [.label (lit "a") 1, .area false (.int 16) none [.group [.leaf (.data .u32 [.int 3] false)]]] { section_ := 1 } := by
  have h1 : begins {} (lit "a") = { section_ := 1 } := a_begins {}
  have hl : Text dirEnv noInstr (.cmd false) true false {} [.ident (lit "a"), .colon] [.label (lit "a") 1] { section_ := 1 } := by
    have := Text.label (E := dirEnv) (I := noInstr) (f := false) (tr := true) (un := false) (st := {}) name_a (by decide +kernel)
    rwa [h1] at this
  refine .cons (c := .label (lit "a") 1) hl (.cons (c := .area false (.int 16) none [.group [.leaf (.data .u32 [.int 3] false)]])
    (.area (n := ".area") (by simp) (one_param _ _) ?_ (by simp)) .nil)
  refine .cons (c := .group [.leaf (.data .u32 [.int 3] false)]) (.cond (k := .if_) (by simp) ?_) .nil
  exact Text.condition (c := .if_ (.int 0)) (r := some false) (thn := []) (els := [.leaf (.data .u32 [.int 3] false)]) (.if_ (int_written _ 0))
    (fun h => h.elim)
    (.cons (c := .leaf (.data .u8 [.int 1, .int 2] false)) (.leaf (.data (by decide +kernel) (two_params _ _ _)) (by decide)) .nil)
    (.else_ (.cons (c := .leaf (.data .u32 [.int 3] false)) (.leaf (.data (by decide +kernel) (one_param _ _)) (by decide)) .nil))

/-- `.area 16` / `.if 0` without the ends -/
example : OpenText dirEnv noInstr false true false {} ([] ++ ((.ident (lit ".area") :: ([.int 16] ++ [.separator])) ++
    ([] ++ ((.ident (lit ".if") :: ([.int 0] ++ [.separator])) ++ [])))) :=
  .more .nil (.area (by simp) (one_param _ _) (by simp)) (.last .nil (.cond (k := .if_) (by simp) (.if_ (int_written _ 0))) .nil)

/-- `.skip 1,2` -/
example : (".skip", 1, 1) ∈ arities ∧ Params (dirEnv.expr {}) [.int 1, .int 2] [.int 1, .comma, .int 2] ∧ (2 < 1 ∨ 1 < 2) :=
  ⟨by simp [arities], two_params _ _ _, by simp⟩

/-- What a text is read as, if it is read: the sizes of the data of the first level, the state and how many statements there are. -/
def outcome (ts : List Tok) : Option (List (Option DataMode) × Directive.St) :=
  match program dirEnv {} ts with
  | .ok l st _ => some (l.map fun | .leaf (.data m _ _) => some m | _ => none, st)
  | _ => none

example : outcome [.ident (lit ".byte"), .int 1, .separator, .ident (lit ".dw"), .int 1, .separator] = some ([some .u8, some .u32], {}) := by decide +kernel

/-- `.gba` / `nop`: choosing the GBA chooses THUMB. -/
example : ∃ o, Text (armEnvOf dirEnv (fun _ => armStale) 0) (ArmInstrText dirEnv (fun _ => armStale) 0) (.seq false) true false {}
    ((.ident (lit ".gba") :: ([] ++ [.separator])) ++ (([.ident (lit "nop")] ++ [.separator]) ++ []))
    [.leaf (.arch .gba), .op (Sum.inr (thumbRowNamed "nop" "", o))] { cpu := .gba, thumb := true } := by
  have hn : ArmInstrText dirEnv (fun _ => armStale) 0 { cpu := .gba, thumb := true } [.ident (lit "nop")]
      (Sum.inr (thumbRowNamed "nop" "", ArmLine.toThumb 0 armStale)) { cpu := .gba, thumb := true } := by
    refine .thumb (v := .gba) rfl rfl (by decide +kernel) (fun h => absurd h (by decide +kernel)) ⟨armStale, by decide +kernel, ?_, rfl⟩ ?_ (by decide +kernel)
      (by decide +kernel) (by simp) (by simp)
    · rw [show (thumbRowNamed "nop" "").mask.toList = [] by decide +kernel]
      exact .nil
    · rintro (⟨h, -⟩ | ⟨h, -⟩) <;> exact absurd h (by decide +kernel)
  exact ⟨_, .cons (c := .leaf (.arch .gba)) (.leaf (.arch (by simp [archNames])) (by decide)) (.cons (.op hn) .nil)⟩

/-! ### Findings -/

/-- A directive in a block that is known not to count still changes the state: behind `.if 0` / `.nocash on` / `.endif` the directive `.dw` writes 16 bits
instead of 32. -/
theorem false_block_changes_wrong :
    outcome [.ident (lit ".if"), .int 0, .separator, .ident (lit ".nocash"), .ident (lit "on"), .separator, .ident (lit ".endif"), .separator,
      .ident (lit ".dw"), .int 1, .separator] = some ([none, some .u16], { nocash := true }) ∧
    outcome [.ident (lit ".dw"), .int 1, .separator] = some ([some .u32], {}) := by decide +kernel

/-- The same for the mode of the processor: behind `.if 0` / `.gba` / `.endif` the instructions are those of THUMB. -/
theorem false_block_cpu_wrong :
    outcome [.ident (lit ".nds"), .separator, .ident (lit ".if"), .int 0, .separator, .ident (lit ".gba"), .separator, .ident (lit ".endif"), .separator] =
      some ([none, none], { cpu := .gba, thumb := true }) := by decide +kernel

/-- `.elseifdef` without a name is accepted and ends the conditional: what follows is assembled as if `.endif` stood there, without an error. -/
theorem elseifdef_null_wrong :
    outcome [.ident (lit ".if"), .int 1, .separator, .ident (lit ".elseifdef"), .int 5, .separator, .ident (lit ".byte"), .int 7, .separator] =
      some ([none, some .u8], {}) := by decide +kernel

/-- The section in which the local name of `.ifdef` is looked up, if it is read. -/
def ifdefSection (ts : List Tok) : Option Int :=
  match program dirEnv {} ts with
  | .ok (.cond (.ifdef _ s) _ _ :: _) _ _ => some s
  | _ => none

/-- A local name behind `.ifdef` is looked up in the section behind the conditional, not in the one where it stands: a label inside of the block changes
what the condition is about. -/
theorem ifdef_section_wrong :
    ifdefSection [.ident (lit ".ifdef"), .ident (lit "@@x"), .separator, .ident (lit "a"), .colon, .ident (lit ".endif"), .separator] = some 1 ∧
    ifdefSection [.ident (lit ".ifdef"), .ident (lit "@@x"), .separator, .ident (lit ".endif"), .separator] = some 0 := by decide +kernel

/-- A message without a text is read without an error. -/
theorem message_without_text :
    outcome [.ident (lit ".notice"), .separator] = some ([none], {}) := by decide +kernel

end Armips.Props
