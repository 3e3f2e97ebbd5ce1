import Verif.Lemmas.MipsParseVfpu
import Verif.Lemmas.MipsParsePrefix
import Verif.Props.ExprParse
/-!
# Lemmas about the operands of an instruction
-/
namespace Armips.MipsParse
open ExprParse (Tok)
open Mips (Slot ImmType SecType Op Operands Version Flag)
open Spec.MipsParse
open Spec.ExprParse (Writes NoCall Stops)

/-! ### Immediates -/

/-- The tokens that an expression can begin with. -/
def starter : Tok → Bool
  | .ident _ | .int _ | .float _ | .str _ | .lparen | .minus | .plus | .tilde | .exclamation | .degree => true
  | _ => false

theorem prefixed_starter {t : Tok} {e e' : Expr} (h : Spec.ExprParse.prefixed t e = some e') : starter t = true ∧ t ≠ .lparen := by
  unfold Spec.ExprParse.prefixed at h
  split at h <;> first | exact ⟨rfl, by simp⟩ | cases h

theorem writes_start {E : ExprParse.Env} {r : Nat} {e : Expr} {ts : List Tok} (h : Writes E r e ts) :
    ∃ t l, ts = t :: l ∧ starter t = true ∧ (t = .lparen → ∃ t' l', l = t' :: l' ∧ starter t' = true) := by
  induction h with
  | int v => exact ⟨_, _, rfl, rfl, by simp⟩
  | float v => exact ⟨_, _, rfl, rfl, by simp⟩
  | str s => exact ⟨_, _, rfl, rfl, by simp⟩
  | here => exact ⟨_, _, rfl, rfl, by simp⟩
  | ident n _ => exact ⟨_, _, rfl, rfl, by simp⟩
  | paren _ ih =>
    obtain ⟨t, l, rfl, h, _⟩ := ih
    exact ⟨_, _, rfl, rfl, fun _ => ⟨t, _, rfl, h⟩⟩
  | call n args _ _ => exact ⟨_, _, rfl, rfl, by simp⟩
  | pre hp _ _ => exact ⟨_, _, rfl, (prefixed_starter hp).1, fun e => absurd e (prefixed_starter hp).2⟩
  | binary op _ _ ih _ =>
    obtain ⟨t, l, rfl, h1, h2⟩ := ih
    refine ⟨t, _, rfl, h1, fun e => ?_⟩
    obtain ⟨t', l', rfl, h3⟩ := h2 e
    exact ⟨t', _, rfl, h3⟩
  | conditional _ _ _ ih _ _ =>
    obtain ⟨t, l, rfl, h1, h2⟩ := ih
    refine ⟨t, _, rfl, h1, fun e => ?_⟩
    obtain ⟨t', l', rfl, h3⟩ := h2 e
    exact ⟨t', _, rfl, h3⟩
  | weaker _ _ ih => exact ih

/-- A register in front of a text that begins like an expression is in this text. -/
theorem register_inside {t : Token} {l rest : List Token} (ht : starter t.1 = true) {r : Int × List Token}
    (h : register .cpu (t :: l ++ rest) = some r) : ∃ n, Reg .cpu n [t] := by
  obtain ⟨tok, x⟩ := t
  have hi : ∃ n, tok = .ident n := by
    by_cases hi : ∃ n, tok = .ident n
    · exact hi
    · rw [List.cons_append, register_first (fun n e => hi ⟨n, e⟩) (by intro e; have e : tok = .dollar := e; subst e; cases ht)] at h
      cases h
  obtain ⟨n, rfl⟩ := hi
  rw [List.cons_append, register_ident] at h
  cases hl : lookup n (Cls.names .cpu) with
  | none => rw [hl] at h; cases h
  | some k =>
    have hk := lookup_nonneg hl
    have hl : lookup n (Cls.names .cpu) = some ((k.toNat : Nat) : Int) := by rw [hl]; congr 1; omega
    obtain ⟨h1, s, h2, rfl⟩ := lookup_names.1 hl
    exact ⟨k.toNat, .name h1 h2⟩

theorem imm_shape {E : ExprParse.Env} {e : Expr} {ts : List Token} (h : ImmText E e ts) :
    ∃ t l, ts = t :: l ∧ starter t.1 = true ∧ (t.1 = .lparen → ∃ t' l', l = t' :: l' ∧ starter t'.1 = true) := by
  obtain ⟨t, l, h1, h2, h3⟩ := writes_start h.1
  match ts, h1 with
  | (t0, x) :: ts, h1 =>
    simp only [List.map_cons, List.cons.injEq] at h1
    obtain ⟨rfl, h6⟩ := h1
    refine ⟨(t0, x), ts, rfl, h2, fun e => ?_⟩
    obtain ⟨t', l', e', h4⟩ := h3 e
    have h5 : ts.map Prod.fst = t' :: l' := by rw [h6, e']
    match ts, h5 with
    | (t1, y) :: ts, h5 =>
      simp only [List.map_cons, List.cons.injEq] at h5
      obtain ⟨rfl, _⟩ := h5
      exact ⟨(t1, y), ts, rfl, h4⟩

theorem imm_noRegister {E : ExprParse.Env} {e : Expr} {ts : List Token} (h : ImmText E e ts) (rest : List Token) : register .cpu (ts ++ rest) = none := by
  obtain ⟨t, l, rfl, h2, h3⟩ := imm_shape h
  cases hr : register .cpu (t :: l ++ rest) with
  | none => rfl
  | some r =>
    obtain ⟨n, hn⟩ := register_inside h2 hr
    exact absurd ⟨n, [t], l, hn, .inl rfl⟩ h.2

theorem imm_noRegister2 {E : ExprParse.Env} {e : Expr} {x : Str} {ts : List Token} (h : ImmText E e ((.lparen, x) :: ts)) (rest : List Token) : register .cpu (ts ++ rest) = none := by
  obtain ⟨t, l, e, h2, h3⟩ := imm_shape h
  simp only [List.cons.injEq] at e
  obtain ⟨rfl, rfl⟩ := e
  obtain ⟨t', l', rfl, h4⟩ := h3 rfl
  cases hr : register .cpu (t' :: l' ++ rest) with
  | none => rfl
  | some r =>
    obtain ⟨n, hn⟩ := register_inside h4 hr
    exact absurd ⟨n, [t'], l', hn, .inr ⟨x, rfl⟩⟩ h.2

theorem imm_isRegister {E : ExprParse.Env} {e : Expr} {ts : List Token} (h : ImmText E e ts) (rest : List Token) : isRegister (ts ++ rest) = false := by
  have h1 := imm_noRegister h rest
  unfold isRegister
  split
  · rename_i x us hs
    obtain ⟨t, l, rfl, h2, h3⟩ := imm_shape h
    simp only [List.cons_append, List.cons.injEq] at hs
    obtain ⟨rfl, rfl⟩ := hs
    rw [imm_noRegister2 h rest]
    rfl
  · rw [h1]; rfl

/-- What may stand after an immediate. -/
def ends (rest : List Token) : Prop := ∃ t x r, rest = (t, x) :: r ∧ (t = Tok.separator ∨ t = .comma ∨ t = .lparen ∨ t = .rparen)

theorem ends_stops {rest : List Token} (h : ends rest) : Stops 12 (rest.map Prod.fst) := by
  obtain ⟨t, x, r, rfl, h⟩ := h
  constructor
  · intro op ho
    simp only [List.map_cons, List.head?_cons, Option.some.injEq] at ho
    subst ho
    cases op <;> simp [Spec.ExprParse.symbol] at h
  · intro _ ho
    simp only [List.map_cons, List.head?_cons, Option.some.injEq] at ho
    subst ho
    simp at h

theorem immediate_reads {E : ExprParse.Env} {e : Expr} {ts rest : List Token} (h : ImmText E e ts) (hr : ends rest)
    (hc : NoCall E (ts.map Prod.fst) (rest.map Prod.fst)) : immediate E (ts ++ rest) = some (e, rest) := by
  have hp := Props.expr_read h.1 (ends_stops hr) hc
  unfold immediate
  rw [imm_isRegister h rest]
  have e1 : (ts ++ rest).map (fun x => x.1) = ts.map Prod.fst ++ rest.map Prod.fst := by rw [List.map_append]
  rw [e1, hp]
  simp

theorem unary_none (E : ExprParse.Env) (rec : ExprParse.Parser) (ts : List Tok) : (ExprParse.unary E rec (.separator :: ts)).1 = none := by
  have h : ExprParse.postfixExpr E rec (.separator :: ts) = (none, .separator :: ts) := rfl
  rw [ExprParse.unary, h]
  simp only
  split <;> rfl

theorem chain_none {t : Tok → Option BinOp} {sub : ExprParse.Parser} {ts : List Tok} (h : (sub ts).1 = none) : (ExprParse.chain t sub ts).1 = none := by
  unfold ExprParse.chain
  rcases hs : sub ts with ⟨_ | e, r⟩
  · rfl
  · rw [hs] at h; cases h

theorem parse_separator (E : ExprParse.Env) (ts : List Tok) : (ExprParse.parse E (.separator :: ts)).1 = none := by
  have h : (ExprParse.expr E ((Tok.separator :: ts).length + 2) (.separator :: ts)).1 = none := by
    rw [ExprParse.expr]
    unfold ExprParse.conditional
    have hl : (ExprParse.logicalOr E (ExprParse.expr E ((Tok.separator :: ts).length + 1)) (.separator :: ts)).1 = none := by
      unfold ExprParse.logicalOr ExprParse.logicalAnd ExprParse.inclusiveOr ExprParse.exclusiveOr ExprParse.and ExprParse.equality ExprParse.relational ExprParse.shift
        ExprParse.additive ExprParse.multiplicative
      exact chain_none (chain_none (chain_none (chain_none (chain_none (chain_none (chain_none (chain_none (chain_none (chain_none (unary_none _ _ _))))))))))
    rcases hs : ExprParse.logicalOr E (ExprParse.expr E ((Tok.separator :: ts).length + 1)) (.separator :: ts) with ⟨_ | e, r⟩
    · rfl
    · rw [hs] at hl; cases hl
  unfold ExprParse.parse
  rcases hs : ExprParse.expr E ((Tok.separator :: ts).length + 2) (.separator :: ts) with ⟨_ | e, r⟩
  · rfl
  · rw [hs] at h; cases h

theorem immediate_separator (E : ExprParse.Env) (x : Str) (ts : List Token) : immediate E ((.separator, x) :: ts) = none := by
  unfold immediate
  rw [show isRegister ((Tok.separator, x) :: ts) = false by
    show (register .cpu ((Tok.separator, x) :: ts)).isSome = false; rw [register_first (by simp) (by simp)]; rfl]
  have := parse_separator E (ts.map (·.1))
  rw [List.map_cons]
  rcases hs : ExprParse.parse E (Tok.separator :: ts.map (·.1)) with ⟨_ | e, r⟩
  · simp only [hs, Bool.false_eq_true, if_false]
  · rw [hs] at this; cases this

/-! ### One operand -/

theorem setReg_nat (o : Operands) (s : Slot) (n : Nat) : setReg o s (n : Int) = withReg o s n := by
  unfold setReg withReg
  have : ¬ ((n : Int) < 0) := by omega
  simp [this]

/-- What may stand after an operand. -/
def follow : Elem → List Token → Prop
  | .imm _, rest | .sec _, rest => ends rest
  | .element, rest | .offset, rest => ∀ x, rest.head? ≠ some (Tok.lbrack, x)
  | .arg _, rest => ∃ x r, rest = (.separator, x) :: r
  | _, _ => True

theorem bit6 : ∀ n < 128, (n &&& 0x40 ≠ 0) = (64 ≤ n) := by
  have : ∀ n < 128, decide (n &&& 0x40 ≠ 0) = decide (64 ≤ n) := by decide +kernel
  intro n hn
  exact propext (decide_eq_decide.1 (this n hn))

theorem ofInt_nat (n : Nat) : BitVec.ofInt 32 (n : Int) = BitVec.ofNat 32 n := by simp

theorem part_reads {E : ExprParse.Env} {op : Op} {size : Option Nat} {p : Elem} {ts rest : List Token} {o o' : Operands} (h : Part E op size p ts o o')
    (hs : ∀ k, size = some k → k < 4) (hf : follow p rest) (hn : NotACall E p ts rest) : elem E op size o p (ts ++ rest) = some (o', rest) := by
  cases h with
  | reg hr => simp only [elem, register_iff.2 ⟨_, hr, rfl⟩, Option.map_some, setReg_nat]
  | vec h1 h2 h3 h4 h5 =>
    rename_i v s k k' name n x
    subst h1
    have hk' : k' < 4 := by
      cases v <;> simp only [resized] at h3 <;> omega
    simp only [elem, (resized_iff h2).2 h3, (vfpuVector_iff hk').2 ⟨_, _, rfl, h4⟩, List.cons_append, List.nil_append]
    have hb := bit6 n h4.1
    rw [if_neg, setReg_nat]
    simp only [Bool.and_eq_true, decide_eq_true_eq, not_and]
    intro h6
    rw [hb]
    have := h5 h6
    omega
  | vecSingle h4 h5 =>
    rename_i s name n x
    simp only [elem, VSize.apply, (vfpuVector_iff (by omega : 0 < 4)).2 ⟨_, _, rfl, h4⟩, List.cons_append, List.nil_append]
    have hb := bit6 n h4.1
    rw [if_neg, setReg_nat]
    simp only [Bool.and_eq_true, decide_eq_true_eq, not_and]
    intro h6
    rw [hb]
    have := h5 h6
    omega
  | controlName h => simp only [elem, vfpuControl, List.cons_append, List.nil_append, lookup_control.2 ⟨_, h, rfl⟩, Option.map_some, setReg_nat]
  | controlNumber h =>
    simp only [elem, vfpuControl, List.cons_append, List.nil_append]
    rw [if_pos (by omega)]
    simp only [Option.map_some, setReg_nat]
  | matrix h1 h2 h3 h4 =>
    subst h1
    simp only [elem, (vfpuMatrix_iff h2).2 ⟨_, _, rfl, h3⟩, List.cons_append, List.nil_append]
    rw [if_neg h4, setReg_nat]
  | mirrored h1 h2 h3 h4 h5 h6 =>
    rename_i k name n n' x
    subst h1
    simp only [elem, (vfpuMatrix_iff h2).2 ⟨_, _, rfl, h3⟩, List.cons_append, List.nil_append, h4, and_self, if_true]
    have hm := List.all_eq_true.1 (List.all_eq_true.1 matrix_mirror k (List.mem_range.2 h2)) n (List.mem_range.2 h3.1)
    simp only [Bool.and_eq_true, beq_iff_eq, decide_eq_true_eq] at hm
    have h0 : k ≠ 0 := by
      rintro rfl
      obtain ⟨_, l, m, c, r, _, he⟩ := h3
      simp [matrixNamed] at he
    have : n ^^^ 0x20 = n' := matrix_unique h2 h0 hm.2 h5 (by rw [hm.1, h6])
    rw [this, setReg_nat]
  | element h =>
    simp only [elem, rspElement_iff.2 ⟨_, h, rfl, fun _ => hf⟩, Option.map_some, setReg_nat]
  | scalar h =>
    rename_i s n
    have h8 : 8 ≤ n := by cases h; exact Nat.le_add_left _ _
    simp only [elem, (rspScalar_iff h8).2 ⟨_, h, rfl⟩, Option.map_some, setReg_nat]
  | offset h => simp only [elem, rspOffset_iff.2 ⟨_, h, rfl, fun _ => hf⟩, Option.map_some, setReg_nat]
  | forced h => simp only [elem, register_iff.2 ⟨_, h, rfl⟩, if_true]
  | imm h => simp only [elem, immediate_reads h hf hn, Option.map_some]
  | sec h => simp only [elem, immediate_reads h hf hn, Option.map_some]
  | branchName h1 h2 => simp only [elem, branchCondition, List.cons_append, List.nil_append, lookup_branch.2 ⟨_, _, h1, h2, rfl⟩, Option.map_some, ofInt_nat]
  | branchNumber h =>
    simp only [elem, branchCondition, List.cons_append, List.nil_append]
    rw [if_pos (by omega)]
    simp only [Option.map_some, ofInt_nat]
  | cond h => simp only [elem, vfpuCondition, List.cons_append, List.nil_append, lookup_condition.2 ⟨_, h, rfl⟩, Option.map_some, Int.toNat_natCast]
  | arg h =>
    rename_i a n
    obtain ⟨x, r, rfl⟩ := hf
    have : argument size a (ts ++ (Tok.separator, x) :: r) = some ((n : Int), (Tok.separator, x) :: r) := by
      cases a with
      | source => exact vpfxs_reads h
      | dest => exact vpfxd_reads h
      | const => exact vcst_reads h
      | rot =>
        obtain ⟨k, rfl, h⟩ := h
        exact (vrot_iff (hs k rfl)).2 ⟨_, h, rfl⟩
    simp only [elem, this, Option.map_some, ofInt_nat]
  | wb => simp [elem, writeBack]
  | lparen => simp [elem, symbol]
  | rparen => simp [elem, symbol]
  | comma => simp [elem, symbol]

/-! ### All operands -/

/-- Nothing or a symbol follows. -/
def symFirst : List Elem → Bool
  | [] => true
  | .sym _ :: _ => true
  | _ => false

/-- The operands of a row can follow each other. -/
def ok : List Elem → Bool
  | [] => true
  | p :: ps =>
    ok ps && (match p with
      | .imm _ | .sec _ | .element | .offset => symFirst ps
      | .arg _ => ps.isEmpty
      | _ => true)

theorem sym_token {E : ExprParse.Env} {op : Op} {size : Option Nat} {c : Char} {ts : List Token} {o o' : Operands} (h : Part E op size (.sym c) ts o o') :
    ∃ t x, ts = [(t, x)] ∧ (t = .comma ∨ t = .lparen ∨ t = .rparen) := by
  cases h with
  | lparen => exact ⟨_, _, rfl, by simp⟩
  | rparen => exact ⟨_, _, rfl, by simp⟩
  | comma => exact ⟨_, _, rfl, by simp⟩

theorem ok_ends {E : ExprParse.Env} {op : Op} {size : Option Nat} {ps : List Elem} {ts : List Token} {o o' : Operands} (h : Parts E op size ps ts o o')
    (hp : symFirst ps = true) (x : Str) (rest : List Token) : ends (ts ++ (.separator, x) :: rest) := by
  cases h with
  | nil => exact ⟨_, _, _, rfl, .inl rfl⟩
  | cons h1 h2 h3 =>
    rename_i p ps ts us o1
    obtain ⟨c, rfl⟩ : ∃ c, p = .sym c := by
      cases p <;> first | exact ⟨_, rfl⟩ | cases hp
    obtain ⟨t, y, rfl, ht⟩ := sym_token h1
    exact ⟨t, y, _, rfl, .inr (by rcases ht with h | h | h <;> simp [h])⟩

theorem ok_follow {E : ExprParse.Env} {op : Op} {size : Option Nat} {p : Elem} {ps : List Elem} {ts : List Token} {o o' : Operands} (h : Parts E op size ps ts o o')
    (hp : ok (p :: ps) = true) (x : Str) (rest : List Token) : follow p (ts ++ (.separator, x) :: rest) := by
  simp only [ok, Bool.and_eq_true] at hp
  have hb : ends (ts ++ (.separator, x) :: rest) → ∀ y, (ts ++ (Tok.separator, x) :: rest).head? ≠ some (Tok.lbrack, y) := by
    rintro ⟨t, z, r, e, ht⟩ y hy
    rw [e] at hy
    simp only [List.head?_cons, Option.some.injEq, Prod.mk.injEq] at hy
    rw [hy.1] at ht
    simp at ht
  cases p with
  | imm t => exact ok_ends h hp.2 x rest
  | sec t => exact ok_ends h hp.2 x rest
  | element => exact hb (ok_ends h hp.2 x rest)
  | offset => exact hb (ok_ends h hp.2 x rest)
  | arg a =>
    have := hp.2
    cases h with
    | nil => exact ⟨x, rest, rfl⟩
    | cons => simp at this
  | _ => trivial

theorem notACall_append {E : ExprParse.Env} {p : Elem} {ts us : List Token} (h : NotACall E p ts us) (x : Str) (rest : List Token) :
    NotACall E p ts (us ++ (.separator, x) :: rest) := by
  cases us with
  | nil =>
    cases p <;> first | trivial | (intro i n _ _ he; cases he)
  | cons t us =>
    cases p <;> first | trivial | exact h

theorem params_reads {E : ExprParse.Env} {op : Op} {size : Option Nat} (hs : ∀ k, size = some k → k < 4) {ps : List Elem} {ts : List Token} {o o' : Operands}
    (h : Parts E op size ps ts o o') (hp : ok ps = true) (x : Str) (rest : List Token) :
    params E op size ps (ts ++ (.separator, x) :: rest) o = some (o', rest) := by
  induction h with
  | nil => rfl
  | cons h1 h2 h3 ih =>
    have hf := ok_follow h3 hp x rest
    simp only [ok, Bool.and_eq_true] at hp
    rw [List.append_assoc, params, part_reads h1 hs hf (notACall_append h2 x rest)]
    exact ih hp.1

/-! ### The syntax -/

theorem letters_read {E : ExprParse.Env} {op : Op} {size : Option Nat} {p : Elem} {ts : List Token} {o o' : Operands} (h : Part E op size p ts o o')
    (hq : '?' ∉ letters p) (r : List Char) : elements (letters p ++ r) = cons (some p) (elements r) := by
  cases h with
  | reg hr =>
    rename_i c s n
    cases c <;> cases s <;> first | rfl | exact absurd (List.mem_singleton.2 rfl) hq
  | vec => rename_i v s k k' name n x _ _ _ _ _; cases v <;> cases s <;> first | rfl | exact absurd (by simp [letters]) hq
  | vecSingle => rename_i s name n x _ _; cases s <;> first | rfl | exact absurd (by simp [letters]) hq
  | controlName => rfl
  | controlNumber => rfl
  | matrix => rename_i s k name n x _ _ _ _; cases s <;> first | rfl | exact absurd (by simp [letters]) hq
  | mirrored => rfl
  | element => rfl
  | scalar => rename_i s n _; cases s <;> first | rfl | exact absurd (List.mem_singleton.2 rfl) hq
  | offset => rfl
  | forced h =>
    rename_i n
    have : ∀ n < 32, (Char.ofNat n).toNat = n := by decide
    have hn := this n (Reg.lt h)
    show cons (some (.forced (Char.ofNat n).toNat)) (elements r) = _
    rw [hn]
  | imm => rename_i t e _; cases t <;> first | rfl | exact absurd (List.mem_singleton.2 rfl) hq
  | sec => rename_i t e _; cases t <;> first | rfl | exact absurd (List.mem_singleton.2 rfl) hq
  | branchName => rfl
  | branchNumber => rfl
  | cond => rfl
  | arg => rename_i a n _; cases a <;> rfl
  | wb => rfl
  | lparen => rfl
  | rparen => rfl
  | comma => rfl

theorem parts_elements {E : ExprParse.Env} {op : Op} {size : Option Nat} {ps : List Elem} {ts : List Token} {o o' : Operands} (h : Parts E op size ps ts o o')
    (hq : '?' ∉ ps.flatMap letters) : elements (ps.flatMap letters) = some ps := by
  induction h with
  | nil => rfl
  | cons h1 _ _ ih =>
    simp only [List.flatMap_cons, List.mem_append, not_or] at hq
    rw [List.flatMap_cons, letters_read h1 hq.1, ih hq.2]
    rfl

/-! ### Rows that do not fit -/

/-- `e'` of another row takes exactly the text of `e`, if it does not refuse it. -/
def lock (e' e : Elem) : Bool :=
  match e', e with
  | .reg c _, .reg c' _ => c == c'
  | .reg .cpu _, .forced _ => true
  | .vec _ _, .vec _ _ => true
  | .sym c, .sym c' => c == c'
  | .imm _, .imm _ => true
  | .sec _, .sec _ => true
  | .element, .element => true
  | .offset, .offset => true
  | _, _ => false

/-- A row with the operands `es'` refuses every text of a row with the operands `es`. -/
def clash : List Elem → List Elem → Bool
  | [], p :: _ => match p with | .reg _ _ | .sym _ => true | _ => false
  | .sym _ :: _, [] => true
  | .imm _ :: _, [] => true
  | .reg .cpu _ :: _, .imm _ :: _ => true
  | .imm _ :: _, .sym '(' :: .reg .cpu _ :: _ => true
  | .sym '(' :: .reg .cpu _ :: _, .imm _ :: _ => true
  | .sym _ :: _, [.element] => true
  | e' :: es', e :: es => lock e' e && clash es' es
  | _, _ => false

theorem symbol_none {c : Char} {t : Tok} {x : Str} {ts : List Token} (h1 : t ≠ .comma) (h2 : t ≠ .lparen) (h3 : t ≠ .rparen) : symbol c ((t, x) :: ts) = none := by
  unfold symbol
  split
  · rename_i e; simp only [List.cons.injEq, Prod.mk.injEq] at e; exact absurd e.1.1 h2
  · rename_i e; simp only [List.cons.injEq, Prod.mk.injEq] at e; exact absurd e.1.1 h3
  · rename_i e; simp only [List.cons.injEq, Prod.mk.injEq] at e; exact absurd e.1.1 h1
  · rfl

theorem lock_takes {E : ExprParse.Env} {op op' : Op} {size size' : Option Nat} {p p' : Elem} {ts rest : List Token} {o o' u : Operands} (h : Part E op size p ts o o')
    (hl : lock p' p = true) (hf : follow p rest) (hn : NotACall E p ts rest) :
    elem E op' size' u p' (ts ++ rest) = none ∨ ∃ u', elem E op' size' u p' (ts ++ rest) = some (u', rest) := by
  cases h with
  | reg hr =>
    cases p' <;> simp only [lock, Bool.false_eq_true, beq_iff_eq] at hl
    subst hl
    right
    simp only [elem, register_iff.2 ⟨_, hr, rfl⟩, Option.map_some]
    exact ⟨_, rfl⟩
  | forced hr =>
    cases p' <;> simp only [lock, Bool.false_eq_true, beq_iff_eq] at hl
    rename_i c s
    cases c <;> simp only [Bool.false_eq_true] at hl
    right
    simp only [elem, register_iff.2 ⟨_, hr, rfl⟩, Option.map_some]
    exact ⟨_, rfl⟩
  | vec =>
    cases p' <;> simp only [lock, Bool.false_eq_true] at hl
    simp only [elem]
    split
    · exact .inl rfl
    · split
      · rename_i hv
        obtain ⟨_, _, _, _, _, _, _, he, _⟩ := vfpuRegister_some hv
        simp only [List.cons_append, List.nil_append, List.cons.injEq] at he
        obtain ⟨_, rfl⟩ := he
        split
        · exact .inl rfl
        · exact .inr ⟨_, rfl⟩
      · exact .inl rfl
  | vecSingle =>
    cases p' <;> simp only [lock, Bool.false_eq_true] at hl
    simp only [elem]
    split
    · exact .inl rfl
    · split
      · rename_i hv
        obtain ⟨_, _, _, _, _, _, _, he, _⟩ := vfpuRegister_some hv
        simp only [List.cons_append, List.nil_append, List.cons.injEq] at he
        obtain ⟨_, rfl⟩ := he
        split
        · exact .inl rfl
        · exact .inr ⟨_, rfl⟩
      · exact .inl rfl
  | lparen =>
    cases p' <;> simp only [lock, Bool.false_eq_true, beq_iff_eq] at hl
    subst hl
    exact .inr ⟨u, rfl⟩
  | rparen =>
    cases p' <;> simp only [lock, Bool.false_eq_true, beq_iff_eq] at hl
    subst hl
    exact .inr ⟨u, rfl⟩
  | comma =>
    cases p' <;> simp only [lock, Bool.false_eq_true, beq_iff_eq] at hl
    subst hl
    exact .inr ⟨u, rfl⟩
  | imm h =>
    cases p' <;> simp only [lock, Bool.false_eq_true] at hl
    right
    simp only [elem, immediate_reads h hf hn, Option.map_some]
    exact ⟨_, rfl⟩
  | sec h =>
    cases p' <;> simp only [lock, Bool.false_eq_true] at hl
    right
    simp only [elem, immediate_reads h hf hn, Option.map_some]
    exact ⟨_, rfl⟩
  | element h =>
    cases p' <;> simp only [lock, Bool.false_eq_true] at hl
    right
    simp only [elem, rspElement_iff.2 ⟨_, h, rfl, fun _ => hf⟩, Option.map_some]
    exact ⟨_, rfl⟩
  | offset h =>
    cases p' <;> simp only [lock, Bool.false_eq_true] at hl
    right
    simp only [elem, rspOffset_iff.2 ⟨_, h, rfl, fun _ => hf⟩, Option.map_some]
    exact ⟨_, rfl⟩
  | _ => cases p' <;> simp only [lock, Bool.false_eq_true] at hl

theorem isRegister_lparen {n : Nat} {ts : List Token} (hr : Reg .cpu n ts) (y : Str) (r : List Token) : isRegister ((.lparen, y) :: (ts ++ r)) = true := by
  simp only [isRegister]
  rw [register_iff.2 ⟨_, hr, rfl⟩]
  rfl

theorem params_none {E : ExprParse.Env} {op : Op} {size : Option Nat} {e : Elem} {es : List Elem} {ts : List Token} {o : Operands} (h : elem E op size o e ts = none) :
    params E op size (e :: es) ts o = none := by
  rw [params, h]

theorem clash_fails {E : ExprParse.Env} {op op' : Op} {size size' : Option Nat} {es' : List Elem} :
    ∀ {es : List Elem}, clash es' es = true → ∀ {ts : List Token} {o o2 u : Operands}, ok es = true → Parts E op size es ts o o2 → ∀ (x : Str) (rest : List Token),
    params E op' size' es' (ts ++ (.separator, x) :: rest) u = none := by
  induction es' with
  | nil =>
    intro es hc ts o o2 u _ h x rest
    cases h with
    | nil => cases hc
    | cons h1 _ _ =>
      cases h1 with
      | reg hr =>
        obtain ⟨t, r, rfl, ht⟩ := reg_shape hr
        obtain ⟨t, y⟩ := t
        have ht : t ≠ .separator := by rintro rfl; rcases ht with ⟨k, hk⟩ | hk <;> cases hk
        simp only [List.cons_append]
        cases t <;> first | rfl | exact absurd rfl ht
      | lparen => rfl
      | rparen => rfl
      | comma => rfl
      | _ => cases hc
  | cons e' es' ih =>
    intro es hc ts o o2 u hk h x rest
    rw [clash.eq_def] at hc
    split at hc
    · rename_i e; cases e
    · rename_i e; cases e
      cases h
      exact params_none (by rw [elem, List.nil_append, symbol_none (by simp) (by simp) (by simp)]; rfl)
    · rename_i e; cases e
      cases h
      exact params_none (by rw [elem, List.nil_append, immediate_separator]; rfl)
    · rename_i e; cases e
      cases h with
      | cons h1 _ _ =>
        cases h1 with
        | imm h => exact params_none (by rw [elem, List.append_assoc, imm_noRegister h]; rfl)
    · rename_i e; cases e
      cases h with
      | cons h1 _ h2 =>
        cases h1 with
        | lparen =>
          cases h2 with
          | cons h3 _ _ =>
            cases h3 with
            | reg hr =>
              refine params_none ?_
              rw [elem]
              simp only [List.cons_append, List.nil_append, List.append_assoc]
              unfold immediate
              rw [if_pos (isRegister_lparen hr _ _)]
              rfl
    · rename_i e; cases e
      cases h with
      | cons h1 _ h2 =>
        cases h1 with
        | imm h =>
          obtain ⟨⟨t, y⟩, l, rfl, h3, h4⟩ := imm_shape h
          by_cases ht : t = .lparen
          · subst ht
            rw [params, elem]
            simp only [List.cons_append, symbol, Option.map_some]
            refine params_none ?_
            rw [elem, List.append_assoc, imm_noRegister2 h]
            rfl
          · refine params_none ?_
            rw [elem, List.cons_append, List.cons_append, symbol_none _ ht _]
            · rfl
            · rintro rfl; cases h3
            · rintro rfl; cases h3
    · rename_i e; cases e
      cases h with
      | cons h1 _ h2 =>
        cases h2
        cases h1 with
        | element h =>
          refine params_none ?_
          rw [elem]
          cases h with
          | all => rw [List.nil_append, List.nil_append, symbol_none (by simp) (by simp) (by simp)]; rfl
          | name => simp only [List.cons_append]; rw [symbol_none (by simp) (by simp) (by simp)]; rfl
          | number => simp only [List.cons_append]; rw [symbol_none (by simp) (by simp) (by simp)]; rfl
    · rename_i e
      simp only [List.cons.injEq] at e
      obtain ⟨rfl, rfl⟩ := e
      simp only [Bool.and_eq_true] at hc
      cases h with
      | cons h1 h2 h3 =>
        have hf := ok_follow h3 hk x rest
        simp only [ok, Bool.and_eq_true] at hk
        rw [List.append_assoc, params]
        rcases lock_takes (op' := op') (size' := size') (u := u) h1 hc.1 hf (notACall_append h2 x rest) with hn | ⟨u', hn⟩
        · rw [hn]
        · rw [hn]
          exact ih hc.2 hk.1 h3 x rest
    · cases hc

end Armips.MipsParse
