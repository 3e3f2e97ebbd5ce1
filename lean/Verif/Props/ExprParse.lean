import Verif.Lemmas.ExprParse
/-!
# C13: precedence and associativity
-/
namespace Armips.Props
open Armips Armips.ExprParse Spec.ExprParse

/-- Whatever is written by the rules of precedence is read as what was meant, up to the first token that does not belong to it. -/
theorem expr_read {E : Env} {e : Expr} {ts rest : List Tok} (h : Writes E 12 e ts) (hs : Stops 12 rest) (hc : NoCall E ts rest) :
    parse E (ts ++ rest) = (some e, rest) := by
  unfold parse
  have := reads_of_writes h ((ts ++ rest).length + 1) (by simp; omega) rest hc hs
  rw [show expr E ((ts ++ rest).length + 2) (ts ++ rest) = _ from this]

/-- The same at the end of the tokens. -/
theorem expr_read_all {E : Env} {e : Expr} {ts : List Tok} (h : Writes E 12 e ts) : parse E ts = (some e, []) := by
  have := expr_read h (rest := []) ⟨(by intro op h; cases h), by simp⟩ (by intro _ _ _ _ h; cases h)
  rwa [List.append_nil] at this

/-- The rules of precedence are unambiguous. -/
theorem writes_unique {E : Env} {e e' : Expr} {ts : List Tok} (h : Writes E 12 e ts) (h' : Writes E 12 e' ts) : e = e' := by
  have := (expr_read_all h).symm.trans (expr_read_all h')
  injection this with h1 _
  injection h1

theorem writes_up {E : Env} {e : Expr} {ts : List Tok} {r : Nat} (h : Writes E r e ts) : ∀ k, r + k ≤ 12 → Writes E (r + k) e ts
  | 0, _ => h
  | k + 1, hk => Writes.weaker (r := r + k) (by omega) (writes_up h k (by omega))

theorem writes_le {E : Env} {e : Expr} {ts : List Tok} {r s : Nat} (h : Writes E r e ts) (hr : r ≤ s) (hs : s ≤ 12) : Writes E s e ts := by
  have := writes_up h (s - r) (by omega)
  rwa [show r + (s - r) = s by omega] at this

theorem writes_wrap {E : Env} {e : Expr} {ts : List Tok} {r s : Nat} (h : Writes E s e ts) (hs : s ≤ 12) (hr : r ≤ 12) :
    Writes E r e (wrap (decide (r < s)) ts) := by
  unfold wrap
  by_cases hrs : r < s
  · rw [decide_eq_true hrs, if_pos rfl]
    exact writes_le (.paren (writes_le h hs (by omega))) (by omega) hr
  · rw [decide_eq_false hrs]
    exact writes_le h (by omega) hr

theorem symbol_range (op : BinOp) : 2 ≤ (symbol op).2 ∧ (symbol op).2 ≤ 11 := by cases op <;> decide

theorem prefixed_un (op : UnOp) (e : Expr) : prefixed (unSymbol op) e = some (.un op e) := by cases op <;> rfl

mutual
theorem short_writes (E : Env) : ∀ (e : Expr) (r : Nat), r ≤ 12 → Writable E e → Writes E r e (short r e)
  | .invalid, _, _, h => by simp [Writable] at h
  | .int v, r, hr, _ => by simp only [short]; exact writes_le (.int v) (by omega) hr
  | .float v, r, hr, _ => by simp only [short]; exact writes_le (.float v) (by omega) hr
  | .ident n f s, r, hr, h => by
    simp only [Writable] at h
    obtain ⟨h1, rfl, rfl⟩ := h
    simp only [short]; exact writes_le (.ident n h1) (by omega) hr
  | .str s, r, hr, _ => by simp only [short]; exact writes_le (.str s) (by omega) hr
  | .memoryPos, r, hr, _ => by simp only [short]; exact writes_le .here (by omega) hr
  | .un op a, r, hr, h => by
    simp only [Writable] at h
    simp only [short]
    exact writes_wrap (.pre (prefixed_un op a) (short_writes E a 0 (by omega) h)) (by omega) hr
  | .bin op a b, r, hr, h => by
    simp only [Writable] at h
    simp only [short]
    have := symbol_range op
    exact writes_wrap (.binary op (short_writes E a _ (by omega) h.1) (short_writes E b _ (by omega) h.2)) (by omega) hr
  | .cond a b c, r, hr, h => by
    simp only [Writable] at h
    simp only [short]
    exact writes_wrap (.conditional (short_writes E a _ (by omega) h.1) (short_writes E b _ (by omega) h.2.1) (short_writes E c _ (by omega) h.2.2)) (by omega) hr
  | .toString_ a, r, hr, h => by
    simp only [Writable] at h
    simp only [short]
    exact writes_wrap (.pre rfl (short_writes E a 0 (by omega) h)) (by omega) hr
  | .call n args, r, hr, h => by
    simp only [Writable] at h
    obtain ⟨l, h1, h2, h3⟩ := shortArgs_writes E args h.2
    simp only [short]
    have := Writes.call (E := E) n l h.1 h3
    rw [h1, h2] at this
    exact writes_le this (by omega) hr
theorem shortArgs_writes (E : Env) : ∀ (args : Args), WritableArgs E args →
    ∃ l : List (Expr × List Tok), toArgs (l.map (·.1)) = args ∧ l.map (·.2) = shortArgs args ∧ ∀ x ∈ l, Writes E 12 x.1 x.2
  | .nil, _ => ⟨[], rfl, by simp [shortArgs], by simp⟩
  | .cons e r, h => by
    simp only [WritableArgs] at h
    obtain ⟨l, h1, h2, h3⟩ := shortArgs_writes E r h.2
    refine ⟨(e, short 12 e) :: l, by simp [toArgs, h1], by simp [shortArgs, h2], ?_⟩
    intro x hx
    rcases List.mem_cons.1 hx with rfl | hx
    · exact short_writes E e 12 (by omega) h.1
    · exact h3 x hx
end

mutual
theorem full_writes (E : Env) : ∀ (e : Expr), Writable E e → Writes E 0 e (full e)
  | .invalid, h => by simp [Writable] at h
  | .int v, _ => by simp only [full]; exact .int v
  | .float v, _ => by simp only [full]; exact .float v
  | .ident n f s, h => by
    simp only [Writable] at h
    obtain ⟨h1, rfl, rfl⟩ := h
    simp only [full]; exact .ident n h1
  | .str s, _ => by simp only [full]; exact .str s
  | .memoryPos, _ => by simp only [full]; exact .here
  | .un op a, h => by
    simp only [Writable] at h
    simp only [full]
    exact .paren (writes_le (.pre (prefixed_un op a) (full_writes E a h)) (by omega) (by omega))
  | .bin op a b, h => by
    simp only [Writable] at h
    simp only [full]
    have := symbol_range op
    exact .paren (writes_le (.binary op (writes_le (full_writes E a h.1) (by omega) (by omega)) (writes_le (full_writes E b h.2) (by omega) (by omega)))
      (by omega) (by omega))
  | .cond a b c, h => by
    simp only [Writable] at h
    simp only [full]
    exact .paren (.conditional (writes_le (full_writes E a h.1) (by omega) (by omega)) (writes_le (full_writes E b h.2.1) (by omega) (by omega))
      (writes_le (full_writes E c h.2.2) (by omega) (by omega)))
  | .toString_ a, h => by
    simp only [Writable] at h
    simp only [full]
    exact .paren (writes_le (.pre rfl (full_writes E a h)) (by omega) (by omega))
  | .call n args, h => by
    simp only [Writable] at h
    obtain ⟨l, h1, h2, h3⟩ := fullArgs_writes E args h.2
    simp only [full]
    have := Writes.call (E := E) n l h.1 h3
    rw [h1, h2] at this
    exact this
theorem fullArgs_writes (E : Env) : ∀ (args : Args), WritableArgs E args →
    ∃ l : List (Expr × List Tok), toArgs (l.map (·.1)) = args ∧ l.map (·.2) = fullArgs args ∧ ∀ x ∈ l, Writes E 12 x.1 x.2
  | .nil, _ => ⟨[], rfl, by simp [fullArgs], by simp⟩
  | .cons e r, h => by
    simp only [WritableArgs] at h
    obtain ⟨l, h1, h2, h3⟩ := fullArgs_writes E r h.2
    refine ⟨(e, full e) :: l, by simp [toArgs, h1], by simp [fullArgs, h2], ?_⟩
    intro x hx
    rcases List.mem_cons.1 hx with rfl | hx
    · exact writes_le (full_writes E e h.1) (by omega) (by omega)
    · exact h3 x hx
end

/-- Every expression, written with parentheses around every operator, is read back. -/
theorem expr_full {E : Env} {e : Expr} (h : Writable E e) : parse E (full e) = (some e, []) :=
  expr_read_all (writes_le (full_writes E e h) (by omega) (by omega))

/-- Every expression, written with parentheses only where the precedence requires them, is read back. -/
theorem expr_short {E : Env} {e : Expr} (h : Writable E e) : parse E (short 12 e) = (some e, []) :=
  expr_read_all (short_writes E e 12 (by omega) h)

/-! ### `short` has no more parentheses than needed -/

theorem wrap_length (b : Bool) (ts : List Tok) : (wrap b ts).length = ts.length + if b then 2 else 0 := by
  cases b <;> simp [wrap]

theorem short_le (e : Expr) (r s : Nat) (h : r ≤ s) : (short s e).length ≤ (short r e).length := by
  cases e <;> simp only [short, wrap_length, Nat.le_refl, decide_eq_true_eq] <;> (repeat' split) <;> omega

theorem short_wrap (e : Expr) (r s : Nat) : (short r e).length ≤ (short s e).length + 2 := by
  cases e <;> simp only [short, wrap_length, decide_eq_true_eq] <;> (repeat' split) <;> omega

theorem shortArgs_toArgs : ∀ l : List Expr, shortArgs (toArgs l) = l.map (short 12)
  | [] => rfl
  | e :: l => by rw [toArgs, shortArgs, shortArgs_toArgs l]; rfl

theorem commas_length : ∀ l : List (List Tok), (commas l).length = (l.map List.length).sum + (l.length - 1)
  | [] => rfl
  | t :: ts => by
    rw [commas_cons]
    have : ∀ ts : List (List Tok), (ts.flatMap fun x => Tok.comma :: x).length = (ts.map List.length).sum + ts.length := by
      intro ts
      induction ts with
      | nil => rfl
      | cons t ts ih => simp only [List.flatMap_cons, List.length_append, List.length_cons, ih, List.map_cons, List.sum_cons]; omega
    rw [List.length_append, this]
    simp only [List.map_cons, List.sum_cons, List.length_cons]
    omega

/-- Nothing shorter than `short` writes the expression. -/
theorem expr_shortest {E : Env} {r : Nat} {e : Expr} {ts : List Tok} (h : Writes E r e ts) : (short r e).length ≤ ts.length := by
  induction h with
  | int v => simp [short]
  | float v => simp [short]
  | str s => simp [short]
  | here => simp [short]
  | ident n h => simp [short]
  | @paren e ts h ih =>
    have := short_wrap e 0 12
    simp only [List.length_append, List.length_cons, List.length_nil]
    omega
  | call n args hf hw ih =>
    simp only [short, List.length_append, List.length_cons, List.length_nil]
    rw [shortArgs_toArgs, commas_length, commas_length]
    simp only [List.length_map, List.map_map]
    have : (args.map (List.length ∘ short 12 ∘ (·.1))).sum ≤ (args.map (List.length ∘ (·.2))).sum := by
      clear hw
      induction args with
      | nil => simp
      | cons x args ih' =>
        have h1 := ih x (by simp)
        have h2 := ih' fun y hy => ih y (List.mem_cons_of_mem _ hy)
        simp only [List.map_cons, List.sum_cons, Function.comp_apply] at h1 h2 ⊢
        omega
    omega
  | @pre t e e' ts hp hw ih =>
    have h1 := short_le e 0 1 (by omega)
    cases t <;> simp only [prefixed, reduceCtorEq, Option.some.injEq] at hp <;> subst hp <;>
      simp only [short, wrap_length, List.length_cons, decide_eq_true_eq] <;> simp <;> omega
  | binary op ha hb iha ihb =>
    simp only [short, wrap_length, List.length_append, List.length_cons, decide_eq_true_eq]
    simp
    omega
  | conditional ha hb hc iha ihb ihc =>
    simp only [short, wrap_length, List.length_append, List.length_cons, decide_eq_true_eq]
    simp
    omega
  | @weaker r e ts hr hw ih =>
    have := short_le e r (r + 1) (by omega)
    omega

/-- Binary operators of the same strength group to the left, whatever they are. -/
theorem expr_left {E : Env} {a b c : Expr} (ha : Writable E a) (hb : Writable E b) (hc : Writable E c) {op op' : BinOp} (h : (symbol op).2 = (symbol op').2) :
    parse E (full a ++ (symbol op).1 :: full b ++ (symbol op').1 :: full c) = (some (.bin op' (.bin op a b) c), []) := by
  have h1 := symbol_range op
  have h2 := symbol_range op'
  apply expr_read_all
  refine writes_le (.binary op' ?_ (writes_le (full_writes E c hc) (by omega) (by omega))) (by omega) (by omega)
  rw [← h]
  exact .binary op (writes_le (full_writes E a ha) (by omega) (by omega)) (writes_le (full_writes E b hb) (by omega) (by omega))

/-- An operator that binds more strongly on the right goes first. -/
theorem expr_stronger_right {E : Env} {a b c : Expr} (ha : Writable E a) (hb : Writable E b) (hc : Writable E c) {op op' : BinOp}
    (h : (symbol op').2 < (symbol op).2) :
    parse E (full a ++ (symbol op).1 :: (full b ++ (symbol op').1 :: full c)) = (some (.bin op a (.bin op' b c)), []) := by
  have h1 := symbol_range op
  have h2 := symbol_range op'
  apply expr_read_all
  refine writes_le (.binary op (writes_le (full_writes E a ha) (by omega) (by omega)) ?_) (by omega) (by omega)
  exact writes_le (.binary op' (writes_le (full_writes E b hb) (by omega) (by omega)) (writes_le (full_writes E c hc) (by omega) (by omega)))
    (by omega) (by omega)

/-- The conditional operator groups to the right. -/
theorem expr_conditional {E : Env} {a b c d e : Expr} (ha : Writable E a) (hb : Writable E b) (hc : Writable E c) (hd : Writable E d) (he : Writable E e) :
    parse E (full a ++ .question :: full b ++ .colon :: (full c ++ .question :: full d ++ .colon :: full e)) =
      (some (.cond a b (.cond c d e)), []) := by
  have up : ∀ {x : Expr} {r : Nat}, Writable E x → r ≤ 12 → Writes E r x (full x) := fun h hr => writes_le (full_writes E _ h) (by omega) hr
  exact expr_read_all (.conditional (up ha (by omega)) (up hb (by omega)) (.conditional (up hc (by omega)) (up hd (by omega)) (up he (by omega))))

/-- What is read from tokens without an opening parenthesis was written by the rules. (With parentheses this fails, see below.) -/
theorem expr_read_only_partial {E : Env} {e : Expr} {ts rest : List Tok} (hf : .lparen ∉ ts) (h : parse E ts = (some e, rest)) :
    ∃ pre, ts = pre ++ rest ∧ Writes E 12 e pre := by
  unfold parse at h
  rcases hr : expr E (ts.length + 2) ts with ⟨_ | e', r⟩
  · rw [hr] at h; cases h
  · rw [hr] at h
    injection h with h1 h2
    injection h1 with h1
    subst h1 h2
    exact expr_sound E _ ts e' r hf hr

/-- On failure no token is taken. -/
theorem expr_failure {E : Env} {ts rest : List Tok} (h : parse E ts = (none, rest)) : rest = ts := by
  unfold parse at h
  rcases hr : expr E (ts.length + 2) ts with ⟨_ | e', r⟩
  · rw [hr] at h
    injection h with _ h
    exact h.symm
  · rw [hr] at h; cases h

/-! ### Cases -/

/-- Some place, with the function `lo`. -/
def exprEnv : Env := ⟨1, 2, fun n => n = lit "lo"⟩

/-- `a + b * -(c - 1) << 2 == lo(x, .) ? 1 : ~y` -/
def exprExample : Expr :=
  .cond (.bin .equal (.bin .leftShift (.bin .add (.ident (lit "a") 1 2) (.bin .mult (.ident (lit "b") 1 2) (.un .neg (.bin .sub (.ident (lit "c") 1 2) (.int 1)))))
    (.int 2)) (.call (lit "lo") (.cons (.ident (lit "x") 1 2) (.cons .memoryPos .nil)))) (.int 1) (.un .bitNot (.ident (lit "y") 1 2))

example : Writable exprEnv exprExample := by
  simp only [exprExample, Writable, WritableArgs]
  decide

example : short 12 exprExample = [.ident (lit "a"), .plus, .ident (lit "b"), .mult, .minus, .lparen, .ident (lit "c"), .minus, .int 1, .rparen, .leftShift, .int 2,
    .equal, .ident (lit "lo"), .lparen, .ident (lit "x"), .comma, .ident (lit "."), .rparen, .question, .int 1, .colon, .tilde, .ident (lit "y")] := by
  decide +kernel

example : parse exprEnv [.int 1, .minus, .int 2, .minus, .int 3, .lparen, .ident (lit "r1"), .rparen] =
    (some (.bin .sub (.bin .sub (.int 1) (.int 2)) (.int 3)), [.lparen, .ident (lit "r1"), .rparen]) :=
  expr_read (ts := [.int 1, .minus, .int 2, .minus, .int 3])
    (writes_le (.binary .sub (.binary .sub (writes_le (.int 1) (by decide) (by decide)) (writes_le (.int 2) (by decide) (by decide)))
      (writes_le (.int 3) (by decide) (by decide))) (by decide) (by decide))
    ⟨by intro op h; cases op <;> simp [symbol] at h, by simp⟩ (by intro i n h; have := congrArg List.getLast? h; simp at this)

/-- Only one prefix operator is allowed: `- -1` and `!~1` are refused. -/
theorem expr_two_prefixes (E : Env) (v : Int) : parse E [.minus, .minus, .int v] = (none, [.minus, .minus, .int v]) ∧
    parse E [.exclamation, .tilde, .int v] = (none, [.exclamation, .tilde, .int v]) := ⟨rfl, rfl⟩

/-- `(1 2 - 3` is read as `-3`: what the failing parenthesis has taken is lost. -/
theorem expr_unclosed_wrong (E : Env) : parse E [.lparen, .int 1, .int 2, .minus, .int 3] = (some (.un .neg (.int 3)), []) := rfl

/-- So is `(1 +) * - 3`, although its parentheses match. -/
theorem expr_broken_wrong (E : Env) : parse E [.lparen, .int 1, .plus, .rparen, .mult, .minus, .int 3] = (some (.un .neg (.int 3)), []) := rfl

/-- A number. -/
def isInt : Tok → Bool
  | .int _ => true
  | _ => false

theorem wrap_ints (b : Bool) (ts : List Tok) : (wrap b ts).countP isInt = ts.countP isInt := by
  cases b <;> simp [wrap, isInt, List.countP_append]

theorem short_ints (e : Expr) (r s : Nat) : (short r e).countP isInt = (short s e).countP isInt := by
  cases e <;> simp only [short, wrap_ints]

theorem commas_ints : ∀ l : List (List Tok), (commas l).countP isInt = (l.map (List.countP isInt)).sum
  | [] => rfl
  | t :: ts => by
    rw [commas_cons, List.countP_append, List.countP_flatMap, List.map_cons, List.sum_cons]
    congr 1

/-- An expression is written with the numbers it has. -/
theorem writes_ints {E : Env} {r : Nat} {e : Expr} {ts : List Tok} (h : Writes E r e ts) : ts.countP isInt = (short 12 e).countP isInt := by
  induction h with
  | int v => simp [short]
  | float v => simp [short]
  | str s => simp [short]
  | here => simp [short]
  | ident n h => simp [short]
  | paren h ih => rw [← ih]; simp [isInt, List.countP_append]
  | call n args hf hw ih =>
    simp only [short, List.countP_append, List.countP_cons]
    rw [shortArgs_toArgs, commas_ints, commas_ints, List.map_map, List.map_map, List.map_map]
    congr 4
    apply List.map_congr_left
    intro x hx
    exact ih x hx
  | @pre t e e' ts hp hw ih =>
    cases t <;> simp only [prefixed, reduceCtorEq, Option.some.injEq] at hp <;> subst hp <;>
      simp only [short, wrap_ints, List.countP_cons, ih] <;> first | rfl | (rw [short_ints e 0 12] <;> simp [unSymbol] <;> rfl)
  | @binary op a b ta tb ha hb iha ihb =>
    simp only [short, wrap_ints, List.countP_cons, List.countP_append, iha, ihb]
    rw [short_ints a 12 (symbol op).2, short_ints b 12 ((symbol op).2 - 1)]
  | @conditional a b c ta tb tc ha hb hc iha ihb ihc =>
    simp only [short, wrap_ints, List.countP_cons, List.countP_append, iha, ihb, ihc]
    rw [short_ints a 11 12]
  | weaker hr hw ih => exact ih

/-- Neither was written by the rules. -/
theorem expr_not_written (E : Env) (e : Expr) : ¬ Writes E 12 e [.lparen, .int 1, .plus, .rparen, .mult, .minus, .int 3] ∧
    ¬ Writes E 12 e [.lparen, .int 1, .int 2, .minus, .int 3] := by
  constructor <;> intro h <;> have h1 := expr_read_all h
  · rw [expr_broken_wrong] at h1
    injection h1 with h1 _
    injection h1 with h1
    subst h1
    exact absurd (writes_ints h) (by decide)
  · rw [expr_unclosed_wrong] at h1
    injection h1 with h1 _
    injection h1 with h1
    subst h1
    exact absurd (writes_ints h) (by decide)

end Armips.Props
