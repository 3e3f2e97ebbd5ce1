import Verif.Lemmas.MipsMacroLine
/-!
# Lines as tokens and as operands

`Model/MipsMacros.lean` has lines in which an operand is one token. The lines that are read from the text are these lines.
-/
namespace Armips.MipsParse
open ExprParse (Tok)
open Mips (Slot ImmType SecType Op Operands Version Flag Parsed MacroRow)
open Spec.MipsParse

/-- The kind of an operand. -/
def shape : Mips.Tok → Nat
  | .reg _ => 0
  | .freg _ => 1
  | .imm _ => 2
  | .comma => 3
  | .lpar => 4
  | .rpar => 5

/-- The kind of operand that a piece of the syntax takes. -/
def elemShape : Elem → Option Nat
  | .reg .cpu .grt | .reg .cpu .grd | .reg .cpu .grs => some 0
  | .reg .fpu .frt | .reg .fpu .frd | .reg .fpu .frs => some 1
  | .imm .i5 | .imm .i10 | .imm .i16 | .imm .i20 | .imm .i25 | .imm .i26 => some 2
  | .sym ',' => some 3
  | .sym '(' => some 4
  | .sym ')' => some 5
  | _ => none

theorem macroParams_shape {cs : List Char} {as : List Mips.Tok} {p q : Parsed} (h : Mips.macroParams cs as p = some q) :
    (cs.map macroElem).map elemShape = as.map fun a => some (shape a) := by
  fun_induction Mips.macroParams cs as p <;> first | rfl | (rename_i ih; simp only [List.map_cons, ih h]; rfl) | cases h

theorem elements_comma (r : List Char) : elements (',' :: r) = cons (some (.sym ',')) (elements r) := by rw [elements.eq_def]; rfl

theorem elements_lparen (r : List Char) : elements ('(' :: r) = cons (some (.sym '(')) (elements r) := by rw [elements.eq_def]; rfl

theorem elements_rparen (r : List Char) : elements (')' :: r) = cons (some (.sym ')')) (elements r) := by rw [elements.eq_def]; rfl

theorem params_shape {cs : List Char} {as : List Mips.Tok} {o q : Operands} (h : Mips.params cs as o = some q) :
    ∃ es, elements cs = some es ∧ es.map elemShape = as.map fun a => some (shape a) := by
  fun_induction Mips.params cs as o <;> first
    | exact ⟨[], rfl, rfl⟩
    | (rename_i ih; obtain ⟨es, h1, h2⟩ := ih h; simp only [elements, elements_comma, elements_lparen, elements_rparen, h1, cons]; exact ⟨_, rfl, by simp only [List.map_cons, h2]; rfl⟩)
    | cases h

theorem macroPart_token {E : ExprParse.Env} {c : Char} {ts : List Token} {p p' : Parsed} (h : MacroPart E c ts p p') :
    ∃ a, Operand E a ts ∧ elemShape (macroElem c) = some (shape a) ∧ ((∃ e, a = .imm e) → c = 'i' ∨ c = 'I') ∧
      ∀ cs as, Mips.macroParams (c :: cs) (a :: as) p = Mips.macroParams cs as p' := by
  cases h with
  | grs hr => exact ⟨_, .reg hr, rfl, by simp, fun _ _ => rfl⟩
  | grt hr => exact ⟨_, .reg hr, rfl, by simp, fun _ _ => rfl⟩
  | grd hr => exact ⟨_, .reg hr, rfl, by simp, fun _ _ => rfl⟩
  | frs hr => exact ⟨_, .freg hr, rfl, by simp, fun _ _ => rfl⟩
  | prim hi => exact ⟨_, .imm hi, rfl, by simp, fun _ _ => rfl⟩
  | sec hi => exact ⟨_, .imm hi, rfl, by simp, fun _ _ => rfl⟩
  | comma => exact ⟨_, .comma, rfl, by simp, fun _ _ => rfl⟩
  | lparen => exact ⟨_, .lpar, rfl, by simp, fun _ _ => rfl⟩
  | rparen => exact ⟨_, .rpar, rfl, by simp, fun _ _ => rfl⟩

theorem macroParts_tokens {E : ExprParse.Env} {cs : List Char} {ts : List Token} {p p' : Parsed} (h : MacroParts E cs ts p p') :
    ∃ as, Line E as ts ∧ Mips.macroParams cs as p = some p' := by
  induction h with
  | nil => exact ⟨[], .nil, rfl⟩
  | cons h1 h2 _ ih =>
    obtain ⟨as, h3, h4⟩ := ih
    obtain ⟨a, ha, -, hi, hp⟩ := macroPart_token h1
    exact ⟨a :: as, .cons ha (fun e => h2 (hi e)) h3, by rw [hp, h4]⟩

theorem part_token {E : ExprParse.Env} {op : Op} {size : Option Nat} {p : Elem} {ts : List Token} {o o' : Operands} (h : Part E op size p ts o o')
    (hs : (elemShape p).isSome = true) :
    ∃ a, Operand E a ts ∧ elemShape p = some (shape a) ∧ (∀ rest, NotACall E p ts rest → (∃ e, a = .imm e) → Spec.ExprParse.NoCall E (ts.map Prod.fst) (rest.map Prod.fst)) ∧
      ∀ cs as, Mips.params (letters p ++ cs) (a :: as) o = Mips.params cs as o' := by
  cases h with
  | reg hr =>
    unfold elemShape at hs ⊢
    split at hs <;> first
      | (rename_i e; cases e; exact ⟨_, .reg hr, rfl, by simp, fun _ _ => rfl⟩)
      | (rename_i e; cases e; exact ⟨_, .freg hr, rfl, by simp, fun _ _ => rfl⟩)
      | (rename_i e; cases e)
      | cases hs
  | imm hi =>
    rename_i t e
    cases t <;> first
      | exact ⟨_, .imm hi, rfl, fun _ h _ => h, fun _ _ => rfl⟩
      | cases hs
  | comma => exact ⟨_, .comma, rfl, by simp, fun _ _ => rfl⟩
  | lparen => exact ⟨_, .lpar, rfl, by simp, fun _ _ => rfl⟩
  | rparen => exact ⟨_, .rpar, rfl, by simp, fun _ _ => rfl⟩
  | _ => cases hs

theorem parts_tokens {E : ExprParse.Env} {op : Op} {size : Option Nat} {ps : List Elem} {ts : List Token} {o o' : Operands} (h : Parts E op size ps ts o o')
    (hs : ∀ p ∈ ps, (elemShape p).isSome = true) : ∃ as, Line E as ts ∧ Mips.params (ps.flatMap letters) as o = some o' := by
  induction h with
  | nil => exact ⟨[], .nil, rfl⟩
  | cons h1 h2 _ ih =>
    obtain ⟨as, h3, h4⟩ := ih fun p hp => hs p (by simp [hp])
    obtain ⟨a, ha, -, hi, hp⟩ := part_token h1 (hs _ (by simp))
    exact ⟨a :: as, .cons ha (hi _ h2) h3, by rw [List.flatMap_cons, hp, h4]⟩

/-! ### The tables -/

set_option maxRecDepth 100000 in
theorem macros_shapes : allPairs (fun a b => !a.1.beq b.1 || !(a.2.1 == b.2.1) || !(a.2.2.map elemShape == b.2.2.map elemShape)) macroTable = true := by
  decide +kernel

/-- All operands are registers of the CPU and the FPU, immediates and symbols. -/
def simple (es : List Elem) : Bool := es.all fun e => (elemShape e).isSome

/-- A row before another one has other operands. -/
def apartShapes (a b : Op × List Nat × List Elem) : Bool :=
  !(a.2.1 == b.2.1) || (versions.all fun v => !(a.1.available v && b.1.available v)) || !(a.2.2.map elemShape == b.2.2.map elemShape)

set_option maxRecDepth 100000 in
theorem rows_shapes : allPairs (fun a b => !a.1.beq b.1 || !simple b.2.2.2 || apartShapes a.2 b.2) (rowKeys.zip (Mips.opcodes.zip rowTable)) = true := by decide +kernel

set_option maxRecDepth 100000 in
theorem macros_rows_shapes : (rowKeys.zip rowTable).all (fun r => macroTable.all fun m => !r.1.beq m.1 || !(m.2.1 == r.2.1) ||
    !(m.2.2.map elemShape == r.2.2.map elemShape)) = true := by
  decide +kernel

theorem macro_tokens {m : MacroRow} {as : List Mips.Tok} {p : Parsed} (hm : m ∈ Mips.macros) (h : Mips.macroParams m.args.toList as {} = some p) :
    Mips.findMacro m.name as = some (m.kind, p) := by
  obtain ⟨s, t, hst⟩ := List.append_of_mem hm
  unfold Mips.findMacro
  rw [hst]
  apply findSome_first
  · intro m' hm'
    split
    · rename_i hn
      cases hp : Mips.macroParams m'.args.toList as {} with
      | none => rfl
      | some q =>
        exfalso
        have h1 := macroParams_shape h
        rw [← macroParams_shape hp] at h1
        have ha := macros_shapes
        rw [macroTable_map, hst, List.map_append, List.map_cons] at ha
        have ha := allPairs_append ha (macroOf m') (List.mem_map_of_mem hm')
        simp only [macroOf, hn, h1, beq_self_eq_true, Bool.not_true, Bool.or_false, Bool.not_eq_true'] at ha
        exact absurd (Nat.beq_refl _) (by rw [ha]; decide)
    · rfl
  · rw [if_pos rfl, h]
    rfl

theorem row_tokens {op : Op} {v : Version} {as : List Mips.Tok} {o : Operands} {es : List Elem} (hm : op ∈ Mips.opcodes) (hv : op.available v = true)
    (he : elements op.mask.toList = some es) (hs : simple es = true) (h : Mips.params op.mask.toList as Mips.noOperands = some o) :
    Mips.findMacro op.name as = none ∧ Mips.select v op.name as = some (op, o) := by
  obtain ⟨es', he', h1⟩ := params_shape h
  cases Option.some.inj (he.symm.trans he')
  obtain ⟨_, he'', -, -, -, -, hro⟩ := row_mem hm
  cases Option.some.inj (he.symm.trans he'')
  constructor
  · unfold Mips.findMacro
    rw [List.findSome?_eq_none_iff]
    intro m hmm
    split
    · rename_i hn
      cases hp : Mips.macroParams m.args.toList as {} with
      | none => rfl
      | some q =>
        exfalso
        have h2 := macroParams_shape hp
        rw [← h1] at h2
        have ha := macros_rows_shapes
        rw [keys_map, rowTable_map, zip_map_two, List.all_map, List.all_eq_true] at ha
        have ha := List.all_eq_true.1 (ha op hm) (macroOf m) (by rw [macroTable_map]; exact List.mem_map_of_mem hmm)
        simp only [macroOf, he, Option.getD_some, hn, h2, nameOf, beq_self_eq_true, Bool.not_true, Bool.or_false, Bool.not_eq_true'] at ha
        exact absurd (Nat.beq_refl _) (by rw [ha]; decide)
    · rfl
  · obtain ⟨s, t, hst⟩ := List.append_of_mem hm
    unfold Mips.select
    rw [hst]
    apply findSome_first
    · intro op' hm'
      split
      · rename_i hn
        cases hp : Mips.params op'.mask.toList as Mips.noOperands with
        | none => rfl
        | some q =>
          exfalso
          obtain ⟨es', he', h2⟩ := params_shape hp
          rw [← h1] at h2
          have hmm : op' ∈ Mips.opcodes := by rw [hst]; simp [hm']
          obtain ⟨_, he3, -, -, -, -, hro'⟩ := row_mem hmm
          cases Option.some.inj (he'.symm.trans he3)
          have ha := rows_shapes
          rw [zip_rows, keys_map, zip_map_two, hst, List.map_append, List.map_cons] at ha
          have ha := allPairs_append ha (key (nameOf op'), rowOf op') (List.mem_map_of_mem (f := fun x => (key (nameOf x), rowOf x)) hm')
          rw [hro, hro'] at ha
          have hnn : nameOf op' = nameOf op := by unfold nameOf; rw [hn.1]
          simp only [apartShapes, hnn, h2, hs, beq_self_eq_true, Bool.not_true, Bool.or_false, Bool.false_or, Bool.or_eq_true, Bool.not_eq_true', List.all_eq_true] at ha
          rcases ha with ha | ha
          · exact absurd (Nat.beq_refl _) (by rw [ha]; decide)
          · have := ha v (mem_versions v)
            rw [hn.2, hv] at this
            cases this
      · rfl
    · rw [if_pos ⟨rfl, hv⟩, h]
      rfl

theorem rows_simple : (Mips.opcodes.all fun op => !(op.mask.toList.all fun c => "tdsTDSi01256,()".toList.contains c) || simple ((elements op.mask.toList).getD [])) = true := by
  decide +kernel

theorem simple_of {op : Op} {es : List Elem} (hm : op ∈ Mips.opcodes) (hc : ∀ c ∈ op.mask.toList, c ∈ "tdsTDSi01256,()".toList)
    (he : elements op.mask.toList = some es) : simple es = true := by
  have h := List.all_eq_true.1 rows_simple op hm
  have h1 : (op.mask.toList.all fun c => "tdsTDSi01256,()".toList.contains c) = true := by
    rw [List.all_eq_true]
    intro c h
    exact List.contains_iff_mem.2 (hc c h)
  rw [h1, he] at h
  simpa using h

/-- A name without patterns is written as it is. -/
theorem named_plain {p : List Char} {n : Str} {s b : Option Nat} (h : Named p n s b) (h1 : 'S' ∉ p) (h2 : 'B' ∉ p) : n = p.map chr ∧ s = none ∧ b = none := by
  induction h with
  | nil => exact ⟨rfl, rfl, rfl⟩
  | letter _ _ _ ih =>
    obtain ⟨rfl, h3⟩ := ih (by simp_all) (by simp_all)
    exact ⟨rfl, h3⟩
  | size => simp at h1
  | cond => simp at h2

end Armips.MipsParse
