import Verif.Lemmas.ArmLineRows
/-!
# Soundness of `may`
-/
namespace Armips.ArmLine
open ExprParse (Tok)
open Spec.ArmLine
open Spec.Arm (registerName Item)
open Spec.ExprParse (Writes NoCall Stops)
open MipsParse (starter writes_start prefixed_starter)

theorem writes_sign {E : ExprParse.Env} {r : Nat} {e : Expr} {ts : List Tok} (h : Writes E r e ts) :
    ∃ t l, ts = t :: l ∧ (t = .plus ∨ t = .minus → l ≠ []) := by
  induction h with
  | int v => exact ⟨_, _, rfl, by simp⟩
  | float v => exact ⟨_, _, rfl, by simp⟩
  | str s => exact ⟨_, _, rfl, by simp⟩
  | here => exact ⟨_, _, rfl, by simp⟩
  | ident n _ => exact ⟨_, _, rfl, by simp⟩
  | paren _ _ => exact ⟨_, _, rfl, by simp⟩
  | call n args _ _ => exact ⟨_, _, rfl, by simp⟩
  | pre hp h ih =>
    obtain ⟨t, l, rfl, _⟩ := ih
    exact ⟨_, _, rfl, by simp⟩
  | binary op _ _ ih _ =>
    obtain ⟨t, l, rfl, h1⟩ := ih
    exact ⟨t, _, rfl, fun _ => by simp⟩
  | conditional _ _ _ ih _ _ =>
    obtain ⟨t, l, rfl, h1⟩ := ih
    exact ⟨t, _, rfl, fun _ => by simp⟩
  | weaker _ _ ih => exact ih

theorem ends_first {E : ExprParse.Env} {a : List Abs} {ts : List Tok} (h : ConcL E a ts) (ha : endsImm a = true) (rest : List Tok) :
    ∃ t l, ts ++ .separator :: rest = t :: l ∧ goesOn t = false := by
  cases h with
  | nil => exact ⟨_, _, rfl, rfl⟩
  | cons h1 h2 =>
    cases h1 with
    | tok h _ => exact ⟨_, _, rfl, by simpa [endsImm] using ha⟩
    | _ => cases ha

theorem operand_none (E : ExprParse.Env) {ts : List Tok} (h : isOperand ts = true) : immediate E ts = none := by
  unfold immediate
  rw [h]
  rfl

theorem class_operand {c : Class} {n : Str} (h : c.Has n) (hc : c = .reg ∨ c = .cop ∨ c = .copNum) (ts : List Tok) : isOperand (.ident n :: ts) = true := by
  simp only [isOperand]
  rcases hc with rfl | rfl | rfl
  · rw [show (lookup n ArmParse.armRegisters).isSome = true from h]; simp
  · rw [show (lookup n copRegisters).isSome = true from h]; simp
  · rw [show (lookup n copNumbers).isSome = true from h]; simp

/-- A sign and a register is an expression. -/
theorem immediate_signed (E : ExprParse.Env) {n : Str} (hn : n ≠ lit ".") {t : Tok} (ht : t = .plus ∨ t = .minus) {u : Tok} (l : List Tok) (hu : goesOn u = false) :
    ∃ e, immediate E (t :: .ident n :: u :: l) = some (e, u :: l) := by
  have hw : ∀ e', Spec.ExprParse.prefixed t (.ident n E.file E.section_) = some e' → Writes E 12 e' [t, .ident n] := by
    intro e' h
    have h1 : Writes E 1 e' [t, .ident n] := .pre h (.ident n hn)
    have : ∀ k, k ≤ 11 → Writes E (1 + k) e' [t, .ident n] := by
      intro k
      induction k with
      | zero => intro _; exact h1
      | succ k ih => intro hk; exact .weaker (r := 1 + k) (by omega) (ih (by omega))
    exact this 11 (by omega)
  have key : ∀ e', Spec.ExprParse.prefixed t (.ident n E.file E.section_) = some e' → immediate E (t :: .ident n :: u :: l) = some (e', u :: l) := by
    intro e' h
    unfold immediate
    have := Props.expr_read (hw e' h) (stops_of (l := l) hu) (noCall_of hu)
    rw [show t :: Tok.ident n :: u :: l = [t, .ident n] ++ u :: l from rfl, this]
    rcases ht with rfl | rfl <;> rfl
  rcases ht with rfl | rfl
  · exact ⟨_, key _ rfl⟩
  · exact ⟨_, key _ rfl⟩

theorem register_notDot : ∀ p ∈ ArmParse.armRegisters, lit p.1 ≠ lit "." := by decide +kernel

/-- Constants. -/
theorem immediate_says {E : ExprParse.Env} (f : Expr → Vars) {a : List Abs} {ts : List Tok} (h : ConcL E a ts) (rest : List Tok) :
    (immStep a).Says E (fun ts => (immediate E ts).map fun r => (f r.1, r.2)) ts rest := by
  have fail : ∀ {ts : List Tok}, immediate E ts = none → (fun ts => (immediate E ts).map fun r => (f r.1, r.2)) ts = none := by
    intro ts h; simp [h]
  cases h with
  | nil => exact fail (immediate_none E rfl _)
  | cons h1 h2 =>
    have named : ∀ {a : Abs} {t : List Tok} (us : List Tok) (c : Class), Conc E a t → a.cls = some c → (c = .reg ∨ c = .cop ∨ c = .copNum) →
        immediate E (t ++ us) = none := by
      intro a t us c hc ha hcc
      obtain ⟨n, rfl, hn⟩ := conc_class hc ha
      exact operand_none E (class_operand hn hcc us)
    cases h1 with
    | reg h lo hi =>
      refine fail ?_
      rw [List.append_assoc]
      exact named _ .reg (.reg h lo hi) rfl (.inl rfl)
    | cop h =>
      refine fail ?_
      rw [List.append_assoc]
      exact named _ .cop (.cop h) rfl (.inr (.inl rfl))
    | copNum h =>
      refine fail ?_
      rw [List.append_assoc]
      exact named _ .copNum (.copNum h) rfl (.inr (.inr rfl))
    | @psr n h =>
      refine fail (operand_none E ?_)
      simp [isOperand, h]
    | mode _ _ => trivial
    | any => trivial
    | @imm e us h =>
      simp only [immStep]
      split
      · rename_i he
        obtain ⟨t, l, h3, h4⟩ := ends_first h2 he rest
        refine .inr ⟨f e, _, h2, ?_⟩
        simp only [List.append_assoc]
        rw [h3, immediate_reads h l h4]
        rfl
      · trivial
    | @tok t ht _ =>
      have other : ∀ us, (if starter t then Res.unknown else Res.fail).Says E (fun ts => (immediate E ts).map fun r => (f r.1, r.2)) ([t] ++ us) rest := by
        intro us
        split
        · trivial
        · rename_i hs
          exact fail (immediate_none E (by simpa using hs) _)
      cases h2 with
      | nil => exact other _
      | cons h3 h4 =>
        cases h3 with
        | @reg lo hi k t' h l1 l2 =>
          simp only [immStep]
          split
          · rename_i hc
            simp only [Bool.and_eq_true, Bool.or_eq_true, beq_iff_eq] at hc
            obtain ⟨u, l, h5, h6⟩ := ends_first h4 hc.2 rest
            obtain ⟨n, rfl⟩ := register_ident h
            have hn : n ≠ lit "." := by
              obtain ⟨p, hp, h7, -⟩ := lookup_some (register_iff.2 h)
              rw [← h7]
              exact register_notDot p hp
            obtain ⟨e, he⟩ := immediate_signed E hn hc.1 l h6
            refine .inr ⟨f e, _, h4, ?_⟩
            simp only [List.append_assoc, List.cons_append, List.nil_append]
            rw [h5, he]
            rfl
          · exact other _
        | _ => exact other _

/-- Symbols. -/
theorem symbol_says {E : ExprParse.Env} (v : Vars) {t : Tok} (ht : isIdent t = false) (b : Bool) {a : List Abs} {ts : List Tok} (h : ConcL E a ts) (rest : List Tok)
    (hsep : t ≠ .separator) : (symStep t b a).Says E (fun ts => (matchToken t b ts).map fun ts => (v, ts)) ts rest := by
  have other : ∀ (a : List Abs) (ts : List Tok) (u : Tok) (l : List Tok), ConcL E a ts → ts ++ .separator :: rest = u :: l → u ≠ t →
      (if b then Res.next a else Res.fail).Says E (fun ts => (matchToken t b ts).map fun ts => (v, ts)) ts rest := by
    intro a ts u l hc he hu
    cases b with
    | true =>
      refine .inr ⟨v, ts, hc, ?_⟩
      rw [he]
      simp [matchToken, hu]
    | false =>
      show _ = _
      rw [he]
      simp [matchToken, hu]
  have h' := h
  cases h with
  | nil => exact other _ _ _ _ .nil rfl (Ne.symm hsep)
  | @cons a as t' us h1 h2 =>
    have name : ∀ c, a.cls = some c → (if b then Res.next (a :: as) else Res.fail).Says E (fun ts => (matchToken t b ts).map fun ts => (v, ts)) (t' ++ us) rest := by
      intro c hc
      obtain ⟨n, rfl, -⟩ := conc_class h1 hc
      exact other _ _ (.ident n) _ h' rfl (by rintro rfl; cases ht)
    cases h1 with
    | reg h lo hi => exact name _ rfl
    | cop h => exact name _ rfl
    | copNum h => exact name _ rfl
    | psr h => exact name _ rfl
    | mode h1 h2 => exact name _ rfl
    | any => trivial
    | imm h =>
      simp only [symStep]
      split
      · trivial
      · rename_i hs
        obtain ⟨u, l, rfl, h3, -⟩ := constant_start h
        exact other _ _ u _ h' rfl (by rintro rfl; exact hs h3)
    | @tok u hu _ =>
      simp only [symStep]
      split
      · rename_i he
        subst he
        exact .inr ⟨v, us, h2, by simp [matchToken]⟩
      · rename_i he
        exact other _ _ u _ h' rfl he

theorem parseShift_other (E : ExprParse.Env) (i : Bool) {t : Tok} (ht : t ≠ .comma) (ts : List Tok) : parseShift E i (t :: ts) = some (none, t :: ts) := by
  unfold parseShift
  split <;> simp_all

theorem parseSign_other {t : Tok} (h1 : t ≠ .plus) (h2 : t ≠ .minus) (ts : List Tok) : parseSign (t :: ts) = (true, t :: ts) := by
  unfold parseSign
  split <;> simp_all

theorem writeback_other (E : ExprParse.Env) (v : Vars) {t : Tok} (h1 : t ≠ .exclamation) (ts : List Tok) :
    elem E v .writeback (t :: ts) = some ({ v with writeback := false }, t :: ts) := by
  unfold elem
  split <;> simp_all

/-- The first token, if it is not a symbol of the shape. -/
theorem first_ne {E : ExprParse.Env} {a : Abs} {ts : List Tok} (h : Conc E a ts) (ha : a ≠ .any) (t : Tok) (ht : isIdent t = false) (hi : a = .imm → starter t = false)
    (hn : a ≠ .tok t) : ∃ u l, ts = u :: l ∧ u ≠ t := by
  obtain ⟨u, l, rfl, -, h1⟩ := conc_first h ha
  refine ⟨u, l, rfl, ?_⟩
  rintro rfl
  rcases h1 with ⟨n, rfl⟩ | h1 | ⟨h1, h2⟩
  · cases ht
  · exact hn h1
  · rw [hi h1] at h2; cases h2

theorem shift_says {E : ExprParse.Env} (v : Vars) (i : Bool) {a : List Abs} {ts : List Tok} (h : ConcL E a ts) (rest : List Tok) :
    (step (.shift i) a).Says E (elem E v (.shift i)) ts rest := by
  have h' := h
  have keep : ∀ (a : List Abs) (ts : List Tok) (u : Tok) (l : List Tok), ConcL E a ts → ts ++ .separator :: rest = u :: l → u ≠ .comma →
      (Res.next a).Says E (elem E v (.shift i)) ts rest := by
    intro a ts u l hc he hu
    refine .inr ⟨{ v with shift := none }, ts, hc, ?_⟩
    rw [elem, he, parseShift_other E i hu]
    rfl
  cases h with
  | nil => exact keep _ _ _ _ .nil rfl (by simp)
  | @cons a as t' us h1 h2 =>
    by_cases hc : a = .tok .comma
    · subst hc
      cases h1
      cases h2 with
      | nil => simp only [step]; trivial
      | cons h3 h4 =>
        cases h3 with
        | imm h =>
          simp only [step]
          show elem E v _ _ = none
          obtain ⟨u, l, rfl, -, h5⟩ := constant_start h
          by_cases hi : ∃ n, u = .ident n
          · obtain ⟨n, rfl⟩ := hi
            have : shiftMode n = none := by
              cases hs : shiftMode n with
              | none => rfl
              | some r => exact absurd (shiftMode_reserved hs) (h5 n rfl)
            simp [elem, parseShift, this]
          · simp only [elem, List.cons_append, List.nil_append]
            unfold parseShift
            split <;> simp_all
        | @tok u hu _ =>
          simp only [step]
          show elem E v _ _ = none
          simp only [elem, List.cons_append, List.nil_append]
          unfold parseShift
          split
          · rename_i heq; cases heq; cases hu
          · rfl
          · simp_all
        | _ => simp only [step]; trivial
    · by_cases ha : a = .any
      · subst ha; simp only [step]; trivial
      · obtain ⟨u, l, rfl, hu⟩ := first_ne h1 ha .comma rfl (fun _ => rfl) hc
        have : step (.shift i) (a :: as) = .next (a :: as) := by
          cases a with
          | tok t => cases t <;> first | rfl | exact absurd rfl hc
          | any => exact absurd rfl ha
          | _ => rfl
        rw [this]
        exact keep _ _ u _ h' rfl hu

theorem sign_says {E : ExprParse.Env} (v : Vars) {a : List Abs} {ts : List Tok} (h : ConcL E a ts) (rest : List Tok) :
    (step .sign a).Says E (elem E v .sign) ts rest := by
  have h' := h
  have keep : ∀ (a : List Abs) (ts : List Tok) (u : Tok) (l : List Tok), ConcL E a ts → ts ++ .separator :: rest = u :: l → u ≠ .plus → u ≠ .minus →
      (Res.next a).Says E (elem E v .sign) ts rest := by
    intro a ts u l hc he hu hu'
    refine .inr ⟨{ v with signPlus := true }, ts, hc, ?_⟩
    rw [elem, he, parseSign_other hu hu']
  cases h with
  | nil => exact keep _ _ _ _ .nil rfl (by simp) (by simp)
  | @cons a as t' us h1 h2 =>
    by_cases hp : a = .tok .plus
    · subst hp; cases h1; exact .inr ⟨_, us, h2, rfl⟩
    · by_cases hm : a = .tok .minus
      · subst hm; cases h1; exact .inr ⟨_, us, h2, rfl⟩
      · by_cases ha : a = .any
        · subst ha; simp only [step]; trivial
        · by_cases hi : a = .imm
          · subst hi; simp only [step]; trivial
          · obtain ⟨u, l, rfl, hu⟩ := first_ne h1 ha .plus rfl (fun e => absurd e hi) hp
            obtain ⟨u', l', e, hu'⟩ := first_ne h1 ha .minus rfl (fun e => absurd e hi) hm
            cases e
            have : step .sign (a :: as) = .next (a :: as) := by
              cases a with
              | tok t => cases t <;> first | rfl | exact absurd rfl hp | exact absurd rfl hm
              | any => exact absurd rfl ha
              | imm => exact absurd rfl hi
              | _ => rfl
            rw [this]
            exact keep _ _ u _ h' rfl hu hu'

theorem writeback_says {E : ExprParse.Env} (v : Vars) {a : List Abs} {ts : List Tok} (h : ConcL E a ts) (rest : List Tok) :
    (step .writeback a).Says E (elem E v .writeback) ts rest := by
  have h' := h
  cases h with
  | nil => exact .inr ⟨_, [], .nil, writeback_other E v (by simp) _⟩
  | @cons a as t' us h1 h2 =>
    cases h1 with
    | @tok t ht _ =>
      by_cases he : t = .exclamation
      · subst he; exact .inr ⟨_, us, h2, rfl⟩
      · have : step .writeback (.tok t :: as) = .next (.tok t :: as) := by cases t <;> first | rfl | exact absurd rfl he
        rw [this]
        exact .inr ⟨_, _, h', writeback_other E v he _⟩
    | _ => simp only [step]; trivial

theorem step_says {E : ExprParse.Env} (v : Vars) (e : Elem) {a : List Abs} {ts : List Tok} (h : ConcL E a ts) (rest : List Tok) :
    (step e a).Says E (elem E v e) ts rest := by
  cases e with
  | reg s max => exact reg_says v s max h rest
  | forced n => exact forced_says v n h rest
  | cop s => exact cop_says v s h rest
  | copNumber => exact copNumber_says v h rest
  | transfer b => exact transfer_says v b h rest
  | imm k =>
    have := immediate_says (fun e => { v with imm := e, bitLen := k }) h rest
    rw [step]
    exact this
  | cpop =>
    have := immediate_says (fun e => { v with cpop := e, bitLen := 4 }) h rest
    rw [step]
    exact this
  | cpinf =>
    have := immediate_says (fun e => { v with cpinf := e, bitLen := 3 }) h rest
    rw [step]
    exact this
  | sym c b =>
    rw [step]
    cases hs : symbolTok c with
    | none => simp [Res.Says, elem, hs]
    | some t =>
      have he : elem E v (.sym c b) = fun ts => (matchToken t b ts).map fun ts => (v, ts) := by
        funext ts; simp only [elem, hs]
      rw [he]
      refine symbol_says v (symbol_notIdent hs) b h rest ?_
      rintro rfl
      unfold symbolTok at hs
      split at hs <;> cases hs
  | shift i => exact shift_says v i h rest
  | sign => exact sign_says v h rest
  | writeback => exact writeback_says v h rest
  | pseudo k =>
    cases h with
    | nil => simp only [step]; trivial
    | @cons a as t' us h1 h2 =>
      cases h1 with
      | @reg lo hi k' t h l1 l2 =>
        refine .inr ⟨{ v with shift := some ⟨k, true, k', .int 0⟩ }, us, h2, ?_⟩
        simp [elem, shiftAmount, register_reads h (register_le h)]
      | _ => simp only [step]; trivial
  | psr => cases h <;> (simp only [step]; trivial)
  | list m => cases h <;> (simp only [step]; trivial)

/-- A constant after a sign is no register. -/
theorem sign_register {E : ExprParse.Env} (v : Vars) (s : Slot) (m : Nat) {e : Expr} {ts : List Tok} (h : Constant E e ts) (rest : List Tok) :
    ∃ v' ts', elem E v .sign (ts ++ rest) = some (v', ts') ∧ ∀ v'', elem E v'' (.reg s m) ts' = none := by
  obtain ⟨t, l, rfl, h1⟩ := writes_sign h.1
  have hreg : ∀ u l', u ∈ t :: l → ∀ v'', elem E v'' (.reg s m) (u :: l') = none := by
    intro u l' hu v''
    by_cases hi : ∃ n, u = .ident n
    · obtain ⟨n, rfl⟩ := hi
      have : ∀ k, ¬ Register k (.ident n) := fun k hk => h.2 n hu (.inl ⟨k, .inl hk⟩)
      simp [elem, register_none this]
    · simp [elem, register_notIdent (fun n e => hi ⟨n, e⟩)]
  by_cases hs : t = .plus ∨ t = .minus
  · cases l with
    | nil => exact absurd rfl (h1 hs)
    | cons u l =>
      refine ⟨{ v with signPlus := (parseSign (t :: u :: l ++ rest)).1 }, u :: l ++ rest, ?_, hreg u _ (by simp)⟩
      rcases hs with rfl | rfl <;> rfl
  · refine ⟨{ v with signPlus := true }, t :: l ++ rest, ?_, hreg t _ (by simp)⟩
    rw [elem, List.cons_append, parseSign_other (fun e => hs (.inl e)) (fun e => hs (.inr e))]

/-- If `may` is false, then the pieces cannot read a text of this shape. -/
theorem may_sound {E : ExprParse.Env} : ∀ {es : List Elem} {a : List Abs} {ts : List Tok} (_ : may es a = false) (_ : ConcL E a ts) (rest : List Tok) (v : Vars),
    params E es (ts ++ .separator :: rest) v = none := by
  intro es
  induction es with
  | nil =>
    intro a ts hm h rest v
    cases h with
    | nil => cases hm
    | @cons a as t us h1 h2 =>
      by_cases ha : a = .any
      · subst ha; cases hm
      · obtain ⟨u, l, rfl, hu⟩ := first_ne h1 ha .separator rfl (fun _ => rfl) (by
          rintro rfl
          cases h1 with
          | tok _ h => exact h rfl)
        rw [List.append_assoc, List.cons_append]
        unfold params
        split <;> simp_all
  | cons e es ih =>
    intro a ts hm h rest v
    have gen : (match step e a with | .fail => false | .unknown => true | .next r => may es r) = false → params E (e :: es) (ts ++ .separator :: rest) v = none := by
      intro hm
      have := step_says v e h rest
      cases hs : step e a with
      | fail =>
        rw [hs] at this
        rw [params, show elem E v e _ = none from this]
      | unknown => rw [hs] at hm; cases hm
      | next r =>
        rw [hs] at this hm
        rcases this with h1 | ⟨v', us, h1, h2⟩
        · rw [params, h1]
        · rw [params, h2]
          exact ih hm h1 rest v'
    by_cases hx : ∃ s m es', e = .sign ∧ es = .reg s m :: es' ∧ ∃ as, a = .imm :: as
    · obtain ⟨s, m, es', rfl, rfl, as, rfl⟩ := hx
      cases h with
      | cons h1 h2 =>
        cases h1 with
        | imm h1 =>
          obtain ⟨v', ts', h3, h4⟩ := sign_register v s m h1 (_ ++ .separator :: rest)
          rw [List.append_assoc, params, h3]
          simp only
          rw [params, h4]
    · refine gen ?_
      unfold may at hm
      split at hm <;> simp_all
      exact hm

end Armips.ArmLine
