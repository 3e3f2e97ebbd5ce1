import Verif.Spec.Directive
import Verif.Props.ExprParse
/-!
# Directives: the pieces
-/
namespace Armips.Directive
open ExprParse (Tok next peek parse)
open Spec.ExprParse (Writes Stops NoCall commas)
open Spec.Directive (Params SymbolName Local begins closers funcs plain Switch LeafText CondText)

/-- Behind a comma or at the end of a line an expression ends. -/
theorem stops_separator (l : List Tok) : Stops 12 (.separator :: l) := by
  constructor
  · intro op h
    cases op <;> simp [Spec.ExprParse.symbol] at h
  · simp

theorem stops_comma (l : List Tok) : Stops 12 (.comma :: l) := by
  constructor
  · intro op h
    cases op <;> simp [Spec.ExprParse.symbol] at h
  · simp

theorem read_separator {E : ExprParse.Env} {e : Expr} {ts : List Tok} (h : Writes E 12 e ts) (l : List Tok) :
    parse E (ts ++ .separator :: l) = (some e, .separator :: l) :=
  Props.expr_read h (stops_separator l) (by intro i n _ _ h; simp at h)

theorem read_comma {E : ExprParse.Env} {e : Expr} {ts : List Tok} (h : Writes E 12 e ts) (l : List Tok) :
    parse E (ts ++ .comma :: l) = (some e, .comma :: l) :=
  Props.expr_read h (stops_comma l) (by intro i n _ _ h; simp at h)

/-- How an expression begins. -/
theorem writes_begin {E : ExprParse.Env} {r : Nat} {e : Expr} {ts : List Tok} (h : Writes E r e ts) :
    ∃ t l, ts = t :: l ∧ t ≠ .colon ∧ t ≠ .equ ∧ t ≠ .separator := by
  induction h with
  | int | float | str | here | ident => exact ⟨_, _, rfl, by simp, by simp, by simp⟩
  | paren => exact ⟨_, _, rfl, by simp, by simp, by simp⟩
  | call => exact ⟨_, _, rfl, by simp, by simp, by simp⟩
  | pre hp _ _ => exact ⟨_, _, rfl, by rintro rfl; simp [Spec.ExprParse.prefixed] at hp, by rintro rfl; simp [Spec.ExprParse.prefixed] at hp,
      by rintro rfl; simp [Spec.ExprParse.prefixed] at hp⟩
  | binary op _ _ ih _ => obtain ⟨t, l, rfl, h⟩ := ih; exact ⟨t, _, rfl, h⟩
  | conditional _ _ _ ih _ _ => obtain ⟨t, l, rfl, h⟩ := ih; exact ⟨t, _, rfl, h⟩
  | weaker _ _ ih => exact ih

theorem commas_cons (t : List Tok) (l : List (List Tok)) (hl : l ≠ []) : commas (t :: l) = t ++ .comma :: commas l := by
  cases l with
  | nil => exact absurd rfl hl
  | cons a b => rfl

/-- Parameters begin like expressions. -/
theorem params_begin {E : ExprParse.Env} {es : List Expr} {ts : List Tok} (h : Params E es ts) :
    ∃ t l, ts = t :: l ∧ t ≠ .colon ∧ t ≠ .equ ∧ t ≠ .separator := by
  obtain ⟨l, hl, hw, rfl, rfl⟩ := h
  cases l with
  | nil => exact absurd rfl hl
  | cons x xs =>
    obtain ⟨t, r, e, hh⟩ := writes_begin (hw x (List.mem_cons_self ..))
    cases xs with
    | nil => exact ⟨t, r, by simpa [commas] using e, hh⟩
    | cons y ys =>
      refine ⟨t, r ++ .comma :: commas ((y :: ys).map (·.2)), ?_, hh⟩
      rw [List.map_cons, commas_cons _ _ (by simp), e]
      rfl

theorem commas_length_le (l : List (Expr × List Tok)) {E : ExprParse.Env} (hw : ∀ x ∈ l, Writes E 12 x.1 x.2) : l.length ≤ (commas (l.map (·.2))).length := by
  induction l with
  | nil => simp
  | cons x xs ih =>
    have h1 := ih fun y hy => hw y (List.mem_cons_of_mem _ hy)
    obtain ⟨t, r, e, -⟩ := writes_begin (hw x (List.mem_cons_self ..))
    cases xs with
    | nil => simp [commas, e]
    | cons y ys =>
      rw [List.map_cons, commas_cons _ _ (by simp), e]
      simp only [List.length_cons, List.length_append] at h1 ⊢
      omega

/-- The loop over the further parameters. -/
theorem tail_read {E : ExprParse.Env} (rest : List Tok) : ∀ (l : List (Expr × List Tok)) (n : Nat), l ≠ [] → l.length ≤ n → (∀ x ∈ l, Writes E 12 x.1 x.2) →
    exprTail E n (.comma :: (commas (l.map (·.2)) ++ .separator :: rest)) = some (l.map (·.1), .separator :: rest) := by
  intro l
  induction l with
  | nil => intro n h; exact absurd rfl h
  | cons x xs ih =>
    intro n _ hn hw
    obtain ⟨n, rfl⟩ : ∃ m, n = m + 1 := ⟨n - 1, by simp only [List.length_cons] at hn; omega⟩
    have hx := hw x (List.mem_cons_self ..)
    cases xs with
    | nil =>
      simp only [List.map_cons, List.map_nil, commas, exprTail, read_separator hx rest]
    | cons y ys =>
      rw [List.map_cons, commas_cons _ _ (by simp), List.append_assoc, List.cons_append]
      simp only [exprTail, read_comma hx]
      rw [ih n (by simp) (by simp only [List.length_cons] at hn ⊢; omega) fun z hz => hw z (List.mem_cons_of_mem _ hz)]
      rfl

/-- A list of parameters is read, if their number is allowed. -/
theorem exprs_read {E : ExprParse.Env} {es : List Expr} {ts : List Tok} (h : Params E es ts) (min : Nat) (max : Option Nat) (hmin : min ≤ es.length)
    (hmax : ∀ m, max = some m → es.length ≤ m) (rest : List Tok) :
    exprs E min max (ts ++ .separator :: rest) = some (es, .separator :: rest) := by
  obtain ⟨l, hl, hw, rfl, rfl⟩ := h
  cases l with
  | nil => exact absurd rfl hl
  | cons x xs =>
    have hx := hw x (List.mem_cons_self ..)
    have hmax' : ¬ (max.any (· < xs.length + 1) = true) := by
      cases max with
      | none => simp
      | some m => have := hmax m rfl; simp at this ⊢; omega
    have hmin' : ¬ (xs.length + 1 < min) := by simp at hmin; omega
    cases xs with
    | nil =>
      simp only [List.map_cons, List.map_nil, commas, exprs, read_separator hx rest, List.length_cons, exprTail]
      rw [if_neg (by simpa using hmin'), if_neg (by simpa using hmax')]
    | cons y ys =>
      rw [List.map_cons, commas_cons _ _ (by simp), List.append_assoc, List.cons_append]
      simp only [exprs, read_comma hx]
      have hw' : ∀ z ∈ y :: ys, Writes E 12 z.1 z.2 := fun z hz => hw z (List.mem_cons_of_mem _ hz)
      rw [tail_read rest (y :: ys) _ (by simp) (by
        have := commas_length_le (y :: ys) hw'
        simp only [List.length_cons, List.length_append] at this ⊢
        omega) hw']
      simp only [List.length_map]
      rw [if_neg hmin', if_neg hmax']
      rfl

/-- Fewer or more parameters than allowed are refused. -/
theorem exprs_refuse {E : ExprParse.Env} {es : List Expr} {ts : List Tok} (h : Params E es ts) (min : Nat) (max : Option Nat)
    (hbad : es.length < min ∨ ∃ m, max = some m ∧ m < es.length) (rest : List Tok) :
    exprs E min max (ts ++ .separator :: rest) = none := by
  have hr := exprs_read h 0 none (by omega) (by simp) rest
  unfold exprs at hr ⊢
  cases hp : parse E (ts ++ .separator :: rest) with
  | mk o r =>
    rw [hp] at hr
    cases o with
    | none => rfl
    | some e =>
      simp only at hr ⊢
      cases ht : exprTail E r.length r with
      | none => rfl
      | some p =>
        obtain ⟨es', r'⟩ := p
        rw [ht] at hr
        simp at hr
        obtain ⟨rfl, -⟩ := hr
        simp only [List.length_cons] at hbad ⊢
        rcases hbad with h1 | ⟨m, rfl, h2⟩
        · rw [if_pos h1]
        · split
          · rfl
          · simp [h2]

theorem local_iff (n : Str) : isLocal n = true ↔ Local n := by
  unfold isLocal Local
  constructor
  · intro h
    match n, h with
    | [_], h => simp at h
    | a :: b :: r, h =>
      simp at h
      exact ⟨r, by rw [h.1, h.2]⟩
  · rintro ⟨r, rfl⟩
    simp

theorem bump_eq (st : St) (n : Str) : bump st n = begins st n := by
  unfold bump begins
  by_cases h : Local n
  · rw [if_pos h, if_pos ((local_iff n).2 h)]
  · rw [if_neg h, if_neg (fun h' => h ((local_iff n).1 h'))]

/-- Names for symbols are allowed. -/
theorem name_valid {n : Str} (h : SymbolName n) : SymTab.isValidSymbolName n = true := by
  obtain ⟨k, r, hk, rfl, hr, hd, hc⟩ := h
  obtain ⟨c, r, rfl⟩ : ∃ c r', r = c :: r' := by
    cases r with
    | nil => exact absurd rfl hr
    | cons c r => exact ⟨c, r, rfl⟩
  have hcm := hc c (List.mem_cons_self ..)
  have hne : c ≠ chr '@' := by rintro rfl; revert hcm; decide +kernel
  have hnd := hd c rfl
  have hall : (c :: r).all SymTab.isSymbolChar = true := by
    rw [List.all_eq_true]
    intro x hx
    have := hc x hx
    simp only [SymTab.isSymbolChar, SymTab.validSymbolCharacters, Bool.or_eq_true, List.contains_eq_mem, decide_eq_true_eq]
    exact Or.inl this
  have hat : lit "@" = [chr '@'] := by decide +kernel
  have hatat : lit "@@" = [chr '@', chr '@'] := by decide +kernel
  match k, hk with
  | 0, _ =>
    simp only [List.replicate_zero, List.nil_append, SymTab.isValidSymbolName, hat, hatat]
    simp only [List.isEmpty_cons, Bool.false_or, Bool.or_eq_true, beq_iff_eq, List.cons.injEq, hne, false_and, or_self, if_false, List.head?_cons,
      Option.some.injEq, List.getElem?_cons_zero, Option.getD_some, List.drop_zero, hall]
    rw [if_neg hnd]
  | 1, _ =>
    simp only [List.replicate_succ, List.replicate_zero, List.cons_append, List.nil_append, SymTab.isValidSymbolName, hat, hatat]
    simp [hne, hall, hnd]
  | 2, _ =>
    simp only [List.replicate_succ, List.replicate_zero, List.cons_append, List.nil_append, SymTab.isValidSymbolName, hat, hatat]
    simp [hall, hnd]

theorem switch_read {b : Bool} {t : Tok} (h : Switch b t) (l : List Tok) : onOff (t :: l) = some b := by
  have hne : lit "off" ≠ lit "on" := by decide +kernel
  cases h with
  | on => simp [onOff, peek, next]
  | off => simp [onOff, peek, next, hne]
  | onText h => simp [onOff, peek, next, h]
  | offText h => simp [onOff, peek, next, h, hne]

theorem switch_begin {b : Bool} {t : Tok} (h : Switch b t) : t ≠ .colon ∧ t ≠ .equ := by
  cases h <;> simp

end Armips.Directive
