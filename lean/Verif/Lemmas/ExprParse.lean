import Verif.Spec.ExprParse
/-! Lemmas about the parser of expressions. -/
namespace Armips.ExprParse
open Armips Spec.ExprParse

/-! ### Tokens are only taken, never put back -/

/-- A parser that gives back no more tokens than it got, and fewer if it succeeds. -/
def Shrinks {α : Type} (p : List Tok → Option α × List Tok) (ts : List Tok) : Prop := (p ts).2.length ≤ ts.length ∧ (∀ e, (p ts).1 = some e → (p ts).2.length < ts.length)

theorem next_length (ts : List Tok) : (next ts).2.length = ts.length - 1 := by cases ts <;> rfl

theorem next_le (ts : List Tok) : (next ts).2.length ≤ ts.length := by rw [next_length]; omega

/-- A token that is not the invalid one has been there. -/
theorem next_lt {ts : List Tok} (h : peek ts ≠ .invalid) : (next ts).2.length < ts.length := by
  cases ts with
  | nil => exact absurd rfl h
  | cons t ts => simp [next]

theorem primary_shrinks (E : Env) (rec : Parser) (ts : List Tok) (h : ∀ ts', ts'.length < ts.length → (rec ts').2.length ≤ ts'.length) :
    Shrinks (primary E rec) ts := by
  unfold Shrinks
  unfold primary
  split
  · simp
  · simp
  · simp
  · simp
  · rename_i l
    have := h l (by simp)
    have h2 := next_le (rec l).2
    simp only [List.length_cons]
    split <;> constructor <;> simp only <;> intros <;> omega
  · simp

theorem params_shrinks (rec : Parser) : ∀ (n : Nat) (first : Bool) (ts : List Tok), (∀ ts', ts'.length ≤ ts.length → Shrinks rec ts') →
    (params rec n first ts).2.length ≤ ts.length
  | 0, _, ts, _ => Nat.le_refl _
  | n + 1, first, ts, h => by
    rw [params]
    split
    · exact Nat.le_refl _
    · simp only
      generalize hts : (if first = true then ts else (next ts).2) = ts'
      have hl : ts'.length ≤ ts.length := by
        rw [← hts]
        split
        · exact Nat.le_refl _
        · exact next_le ts
      split
      · exact hl
      · have h1 := h ts' hl
        unfold Shrinks at h1
        rcases hr : rec ts' with ⟨_ | e, r⟩
        · rw [hr] at h1
          simp only at h1 ⊢
          omega
        · rw [hr] at h1
          simp only at h1 ⊢
          have := params_shrinks rec n false r (fun x hx => h x (by omega))
          rcases hp : params rec n false r with ⟨_ | e', r'⟩ <;> rw [hp] at this <;> simp only at this ⊢ <;> omega

theorem postfix_shrinks (E : Env) (rec : Parser) (ts : List Tok) (h : ∀ ts', ts'.length < ts.length → Shrinks rec ts') :
    Shrinks (postfixExpr E rec) ts := by
  have hp : ∀ ts, (∀ ts', ts'.length < ts.length → Shrinks rec ts') → Shrinks (primary E rec) ts :=
    fun ts h => primary_shrinks E rec ts fun ts' h' => (h ts' h').1
  unfold Shrinks
  unfold postfixExpr
  split
  · rename_i n l
    split
    · have h1 := params_shrinks rec (l.length + 1) true l (fun x hx => h x (by simp; omega))
      rcases hq : params rec (l.length + 1) true l with ⟨_ | e, r⟩
      · rw [hq] at h1
        simp only [List.length_cons] at h1 ⊢
        constructor
        · omega
        · intros; omega
      · rw [hq] at h1
        have := next_le r
        simp only [List.length_cons] at h1 ⊢
        constructor
        · omega
        · intros; omega
    · exact hp _ h
  · exact hp _ h

theorem unary_shrinks (E : Env) (rec : Parser) (ts : List Tok) (h : ∀ ts', ts'.length < ts.length → Shrinks rec ts') : Shrinks (unary E rec) ts := by
  have h1 := postfix_shrinks E rec ts h
  unfold Shrinks at h1 ⊢
  unfold unary
  rcases hp : postfixExpr E rec ts with ⟨_ | e, r⟩
  · rw [hp] at h1
    simp only at h1 ⊢
    have hn := next_le r
    have h2 := postfix_shrinks E rec (next r).2 (fun x hx => h x (by omega))
    unfold Shrinks at h2
    rcases hq : postfixExpr E rec (next r).2 with ⟨_ | e, r'⟩
    · rw [hq] at h2
      simp only at h2 ⊢
      exact ⟨by omega, by simp⟩
    · rw [hq] at h2
      simp only at h2 ⊢
      have := h2.2 e rfl
      exact ⟨by omega, fun _ _ => by omega⟩
  · rw [hp] at h1
    exact h1

/-- Tables do not know the invalid token. -/
def Valid (table : Tok → Option BinOp) : Prop := table .invalid = none

theorem loop_shrinks {table : Tok → Option BinOp} (hv : Valid table) {sub : Parser} : ∀ (n : Nat) (e : Expr) (ts : List Tok),
    (∀ ts', ts'.length < ts.length → Shrinks sub ts') → (chainLoop table sub n e ts).2.length ≤ ts.length
  | 0, e, ts, _ => Nat.le_refl _
  | n + 1, e, ts, h => by
    rw [chainLoop]
    cases ht : table (peek ts) with
    | none => exact Nat.le_refl _
    | some op =>
      have hlt : (next ts).2.length < ts.length := next_lt fun e => by rw [e, hv] at ht; cases ht
      simp only
      have h1 := h _ hlt
      unfold Shrinks at h1
      rcases hs : sub (next ts).2 with ⟨_ | e', r⟩
      · rw [hs] at h1
        simp only at h1 ⊢
        omega
      · rw [hs] at h1
        simp only at h1 ⊢
        have := loop_shrinks hv n (.bin op e e') r (fun x hx => h x (by omega))
        omega

theorem chain_shrinks {table : Tok → Option BinOp} (hv : Valid table) {sub : Parser} {ts : List Tok}
    (h : ∀ ts', ts'.length ≤ ts.length → Shrinks sub ts') : Shrinks (chain table sub) ts := by
  have h1 := h ts (Nat.le_refl _)
  unfold Shrinks at h1 ⊢
  unfold chain
  rcases hs : sub ts with ⟨_ | e, r⟩
  · rw [hs] at h1
    exact ⟨h1.1, by simp⟩
  · rw [hs] at h1
    simp only at h1 ⊢
    have h2 := h1.2 e rfl
    have := loop_shrinks hv r.length e r (fun x hx => h x (by omega))
    exact ⟨by omega, fun _ _ => by omega⟩

/-! ### Levels -/

/-- The table of a level. -/
def table : Nat → Tok → Option BinOp
  | 2 => mulOp | 3 => addOp | 4 => shiftOp | 5 => relOp | 6 => eqOp | 7 => bitAndOp | 8 => xorOp | 9 => bitOrOp | 10 => logAndOp | 11 => logOrOp
  | _ => fun _ => none

/-- The parser of a level from 1 to 11. -/
def level (E : Env) (rec : Parser) : Nat → Parser
  | 0 => unary E rec
  | 1 => unary E rec
  | k + 2 => chain (table (k + 2)) (level E rec (k + 1))

theorem level_logicalOr (E : Env) (rec : Parser) : logicalOr E rec = level E rec 11 := rfl

theorem table_valid (k : Nat) : Valid (table k) := by
  unfold Valid table
  split <;> rfl

theorem table_iff (k : Nat) (t : Tok) (op : BinOp) : table k t = some op ↔ (symbol op) = (t, k) := by
  constructor
  · intro h
    unfold table at h
    split at h
    all_goals first
      | (cases t <;> simp only [mulOp, addOp, shiftOp, relOp, eqOp, bitAndOp, xorOp, bitOrOp, logAndOp, logOrOp, reduceCtorEq] at h <;>
          (injection h with h; subst h; rfl))
      | cases h
  · intro h
    cases op <;> (simp only [symbol, Prod.mk.injEq] at h; obtain ⟨rfl, rfl⟩ := h; rfl)

theorem level_shrinks (E : Env) (rec : Parser) : ∀ (k : Nat) (ts : List Tok), (∀ ts', ts'.length < ts.length → Shrinks rec ts') →
    Shrinks (level E rec k) ts
  | 0, ts, h => unary_shrinks E rec ts h
  | 1, ts, h => unary_shrinks E rec ts h
  | k + 2, ts, h => chain_shrinks (table_valid _) fun ts' hl => level_shrinks E rec (k + 1) ts' fun x hx => h x (by omega)

theorem conditional_shrinks (E : Env) (rec : Parser) (ts : List Tok) (h : ∀ ts', ts'.length < ts.length → Shrinks rec ts') :
    Shrinks (conditional E rec) ts := by
  have h1 := level_shrinks E rec 11 ts h
  unfold Shrinks at h1 ⊢
  unfold conditional
  rw [level_logicalOr]
  rcases hs : level E rec 11 ts with ⟨_ | e, r⟩
  · rw [hs] at h1
    exact ⟨h1.1, by simp⟩
  · rw [hs] at h1
    simp only at h1 ⊢
    have h2 := h1.2 e rfl
    split
    · exact ⟨by simp only; omega, fun _ _ => by simp only; omega⟩
    · have hn := next_le r
      have h3 := h (next r).2 (by omega)
      unfold Shrinks at h3
      rcases hr : rec (next r).2 with ⟨_ | e2, r2⟩
      · rw [hr] at h3
        simp only at h3 ⊢
        exact ⟨by omega, by simp⟩
      · rw [hr] at h3
        simp only at h3 ⊢
        have h4 := next_le r2
        split
        · exact ⟨by simp only; omega, by simp⟩
        · have h5 := h (next r2).2 (by omega)
          unfold Shrinks at h5
          rcases hr3 : rec (next r2).2 with ⟨_ | e3, r3⟩
          · rw [hr3] at h5
            simp only at h5 ⊢
            exact ⟨by omega, by simp⟩
          · rw [hr3] at h5
            simp only at h5 ⊢
            exact ⟨by omega, fun _ _ => by omega⟩

theorem expr_shrinks (E : Env) : ∀ (n : Nat) (ts : List Tok), Shrinks (expr E n) ts
  | 0, ts => ⟨Nat.le_refl _, by simp [expr]⟩
  | n + 1, ts => conditional_shrinks E _ ts fun ts' _ => expr_shrinks E n ts'

/-! ### The bounds are enough -/

theorem loop_bound {table : Tok → Option BinOp} (hv : Valid table) {sub : Parser} (hs : ∀ ts, Shrinks sub ts) : ∀ (n m : Nat) (e : Expr) (ts : List Tok),
    ts.length ≤ n → ts.length ≤ m → chainLoop table sub n e ts = chainLoop table sub m e ts
  | 0, m, e, ts, h, _ => by
    have : ts = [] := List.length_eq_zero_iff.1 (by omega)
    subst this
    cases m with
    | zero => rfl
    | succ m => rw [chainLoop, chainLoop, show table (peek []) = none from hv]
  | n + 1, 0, e, ts, _, h => by
    have : ts = [] := List.length_eq_zero_iff.1 (by omega)
    subst this
    rw [chainLoop, chainLoop, show table (peek []) = none from hv]
  | n + 1, m + 1, e, ts, h, h' => by
    rw [chainLoop, chainLoop]
    cases ht : table (peek ts) with
    | none => rfl
    | some op =>
      have hlt : (next ts).2.length < ts.length := next_lt fun e => by rw [e, hv] at ht; cases ht
      simp only
      have h1 := (hs (next ts).2).1
      rcases hq : sub (next ts).2 with ⟨_ | e', r⟩
      · rfl
      · rw [hq] at h1
        simp only at h1 ⊢
        exact loop_bound hv hs n m _ r (by omega) (by omega)

theorem params_bound {rec : Parser} (hs : ∀ ts, Shrinks rec ts) : ∀ (n m : Nat) (first : Bool) (ts : List Tok), ts.length < n → ts.length < m →
    params rec n first ts = params rec m first ts
  | 0, _, _, _, h, _ => by omega
  | _ + 1, 0, _, _, _, h => by omega
  | n + 1, m + 1, first, ts, h, h' => by
    rw [params, params]
    split
    · rfl
    · simp only
      generalize hts : (if first = true then ts else (next ts).2) = ts'
      have hl : ts'.length ≤ ts.length := by
        rw [← hts]
        split
        · exact Nat.le_refl _
        · exact next_le ts
      split
      · rfl
      · have h1 := hs ts'
        unfold Shrinks at h1
        rcases hr : rec ts' with ⟨_ | e, r⟩
        · rfl
        · rw [hr] at h1
          have h2 := h1.2 e rfl
          simp only at h2 ⊢
          rw [params_bound hs n m false r (by omega) (by omega)]

/-- Two parsers that agree on shorter token lists. -/
def Agree (p q : Parser) (ts : List Tok) : Prop := ∀ ts', ts'.length < ts.length → p ts' = q ts'

theorem params_agree {p q : Parser} (hp : ∀ ts, Shrinks p ts) : ∀ (n : Nat) (first : Bool) (ts : List Tok), (∀ ts', ts'.length ≤ ts.length → p ts' = q ts') →
    params p n first ts = params q n first ts
  | 0, _, _, _ => rfl
  | n + 1, first, ts, h => by
    rw [params, params]
    split
    · rfl
    · simp only
      generalize hts : (if first = true then ts else (next ts).2) = ts'
      have hl : ts'.length ≤ ts.length := by
        rw [← hts]
        split
        · exact Nat.le_refl _
        · exact next_le ts
      split
      · rfl
      · rw [← h ts' hl]
        have h1 := (hp ts').1
        rcases hr : p ts' with ⟨_ | e, r⟩
        · rfl
        · rw [hr] at h1
          simp only at h1 ⊢
          rw [params_agree hp n false r fun x hx => h x (by omega)]

theorem primary_agree (E : Env) {p q : Parser} {ts : List Tok} (h : Agree p q ts) : primary E p ts = primary E q ts := by
  unfold primary
  split
  · rfl
  · rfl
  · rfl
  · rfl
  · rename_i l
    rw [h l (by simp)]
  · rfl

theorem postfix_agree (E : Env) {p q : Parser} (hp : ∀ ts, Shrinks p ts) {ts : List Tok} (h : Agree p q ts) : postfixExpr E p ts = postfixExpr E q ts := by
  unfold postfixExpr
  split
  · rename_i n l
    split
    · rw [params_agree hp _ _ l fun x hx => h x (by simp; omega)]
    · exact primary_agree E h
  · exact primary_agree E h

theorem unary_agree (E : Env) {p q : Parser} (hp : ∀ ts, Shrinks p ts) {ts : List Tok} (h : Agree p q ts) : unary E p ts = unary E q ts := by
  unfold unary
  rw [← postfix_agree E hp h]
  have h1 := (postfix_shrinks E p ts fun x _ => hp x).1
  rcases hr : postfixExpr E p ts with ⟨_ | e, r⟩
  · rw [hr] at h1
    simp only at h1 ⊢
    have := next_le r
    rw [postfix_agree E hp (ts := (next r).2) fun x hx => h x (by omega)]
  · rfl

theorem loop_agree {table : Tok → Option BinOp} {p q : Parser} (hp : ∀ ts, Shrinks p ts) : ∀ (n : Nat) (e : Expr) (ts : List Tok),
    (∀ ts', ts'.length ≤ ts.length → p ts' = q ts') → chainLoop table p n e ts = chainLoop table q n e ts
  | 0, _, _, _ => rfl
  | n + 1, e, ts, h => by
    rw [chainLoop, chainLoop]
    cases table (peek ts) with
    | none => rfl
    | some op =>
      simp only
      have hn := next_le ts
      rw [← h _ hn]
      have h1 := (hp (next ts).2).1
      rcases hr : p (next ts).2 with ⟨_ | e', r⟩
      · rfl
      · rw [hr] at h1
        simp only at h1 ⊢
        exact loop_agree hp n _ r fun x hx => h x (by omega)

theorem level_agree (E : Env) {p q : Parser} (hp : ∀ ts, Shrinks p ts) : ∀ (k : Nat) (ts : List Tok), Agree p q ts → level E p k ts = level E q k ts
  | 0, ts, h => unary_agree E hp h
  | 1, ts, h => unary_agree E hp h
  | k + 2, ts, h => by
    have hl : ∀ ts', ts'.length ≤ ts.length → level E p (k + 1) ts' = level E q (k + 1) ts' :=
      fun ts' hl => level_agree E hp (k + 1) ts' fun x hx => h x (by omega)
    have hs : ∀ ts, Shrinks (level E p (k + 1)) ts := fun ts => level_shrinks E p _ ts fun x _ => hp x
    show chain _ _ ts = chain _ _ ts
    unfold chain
    rw [← hl ts (Nat.le_refl _)]
    have h1 := (hs ts).1
    rcases hr : level E p (k + 1) ts with ⟨_ | e, r⟩
    · rfl
    · rw [hr] at h1
      simp only at h1 ⊢
      exact loop_agree hs _ _ r fun x hx => hl x (by omega)

theorem conditional_agree (E : Env) {p q : Parser} (hp : ∀ ts, Shrinks p ts) {ts : List Tok} (h : Agree p q ts) : conditional E p ts = conditional E q ts := by
  unfold conditional
  rw [level_logicalOr, level_logicalOr, ← level_agree E hp 11 ts h]
  have h1 := level_shrinks E p 11 ts fun x _ => hp x
  unfold Shrinks at h1
  rcases hr : level E p 11 ts with ⟨_ | e, r⟩
  · rfl
  · rw [hr] at h1
    have h2 := h1.2 e rfl
    simp only at h2 ⊢
    split
    · rfl
    · have hn := next_le r
      rw [← h (next r).2 (by omega)]
      have h3 := (hp (next r).2).1
      rcases hr2 : p (next r).2 with ⟨_ | e2, r2⟩
      · rfl
      · rw [hr2] at h3
        simp only at h3 ⊢
        have := next_le r2
        rw [← h (next r2).2 (by omega)]

/-- The nesting bound plays no role as soon as it exceeds the number of tokens. -/
theorem expr_bound (E : Env) : ∀ (n m : Nat) (ts : List Tok), ts.length < n → ts.length < m → expr E n ts = expr E m ts
  | 0, _, _, h, _ => by omega
  | _ + 1, 0, _, _, h => by omega
  | n + 1, m + 1, ts, h, h' => by
    show conditional E (expr E n) ts = conditional E (expr E m) ts
    exact conditional_agree E (expr_shrinks E n) fun x hx => expr_bound E n m x (by omega) (by omega)

/-! ### Written expressions are read -/

theorem writes_head {E : Env} {r : Nat} {e : Expr} {ts : List Tok} (h : Writes E r e ts) : ∃ t l, ts = t :: l ∧ t ≠ .rparen := by
  induction h with
  | int v => exact ⟨_, _, rfl, by simp⟩
  | float v => exact ⟨_, _, rfl, by simp⟩
  | str s => exact ⟨_, _, rfl, by simp⟩
  | here => exact ⟨_, _, rfl, by simp⟩
  | ident n h => exact ⟨_, _, rfl, by simp⟩
  | paren h ih => exact ⟨_, _, rfl, by simp⟩
  | call n args h h' ih => exact ⟨_, _, rfl, by simp⟩
  | pre h h' ih =>
    refine ⟨_, _, rfl, ?_⟩
    rintro rfl
    cases h
  | binary op h h' ih ih' =>
    obtain ⟨t, l, rfl, ht⟩ := ih
    exact ⟨t, _, rfl, ht⟩
  | conditional h h' h'' ih ih' ih'' =>
    obtain ⟨t, l, rfl, ht⟩ := ih
    exact ⟨t, _, rfl, ht⟩
  | weaker h h' ih => exact ih

/-- What it means that the parser reads an expression of a level. -/
def Reads (E : Env) (n r : Nat) (e : Expr) (ts : List Tok) : Prop := ∀ rest, NoCall E ts rest →
  match r with
  | 0 => postfixExpr E (expr E n) (ts ++ rest) = (some e, rest)
  | 1 => unary E (expr E n) (ts ++ rest) = (some e, rest)
  | 12 => Stops 12 rest → conditional E (expr E n) (ts ++ rest) = (some e, rest)
  | k => Stops (k - 1) rest →
    level E (expr E n) k (ts ++ rest) = chainLoop (table k) (level E (expr E n) (k - 1)) rest.length e rest

theorem loop_stops {k : Nat} {sub : Parser} {rest : List Tok} (h : ∀ op, rest.head? = some (symbol op).1 → k < (symbol op).2) (n : Nat) (e : Expr) :
    chainLoop (table k) sub n e rest = (some e, rest) := by
  cases n with
  | zero => rfl
  | succ n =>
    rw [chainLoop]
    have : table k (peek rest) = none := by
      cases ht : table k (peek rest) with
      | none => rfl
      | some op =>
        have hs := (table_iff _ _ _).1 ht
        cases rest with
        | nil => rw [show peek [] = .invalid from rfl, table_valid] at ht; cases ht
        | cons t rest =>
          have := h op (by rw [hs]; rfl)
          rw [hs] at this
          exact absurd this (Nat.lt_irrefl _)
    rw [this]

theorem stops_mono {r s : Nat} {rest : List Tok} (h : Stops r rest) (hs : s ≤ r) (h12 : s < 12) : Stops s rest :=
  ⟨fun op ho => Nat.lt_of_le_of_lt hs (h.1 op ho), fun e => by omega⟩

/-- A level from 1 to 11 before a token that is no operator of the level. -/
theorem Reads.level {E : Env} {n r : Nat} {e : Expr} {ts : List Tok} (h : Reads E n r e ts) (h1 : 1 ≤ r) (h11 : r ≤ 11) {rest : List Tok}
    (hc : NoCall E ts rest) (hs : Stops r rest) : level E (expr E n) r (ts ++ rest) = (some e, rest) := by
  have := h rest hc
  match r, h1, h11, hs, this with
  | 1, _, _, _, this => exact this
  | k + 2, _, _, hs, this =>
    have h2 : Armips.ExprParse.level E (expr E n) (k + 2) (ts ++ rest) =
        chainLoop (table (k + 2)) (Armips.ExprParse.level E (expr E n) (k + 1)) rest.length e rest := by
      have hk : k + 2 ≠ 12 := by omega
      match k, this, hk, hs with
      | 0, this, _, hs => exact this (stops_mono hs (by omega) (by omega))
      | 1, this, _, hs => exact this (stops_mono hs (by omega) (by omega))
      | 2, this, _, hs => exact this (stops_mono hs (by omega) (by omega))
      | 3, this, _, hs => exact this (stops_mono hs (by omega) (by omega))
      | 4, this, _, hs => exact this (stops_mono hs (by omega) (by omega))
      | 5, this, _, hs => exact this (stops_mono hs (by omega) (by omega))
      | 6, this, _, hs => exact this (stops_mono hs (by omega) (by omega))
      | 7, this, _, hs => exact this (stops_mono hs (by omega) (by omega))
      | 8, this, _, hs => exact this (stops_mono hs (by omega) (by omega))
      | 9, this, _, hs => exact this (stops_mono hs (by omega) (by omega))
    rw [h2]
    exact loop_stops hs.1 _ _

/-- `Reads` for the levels of binary operators. -/
theorem reads_level {E : Env} {n k : Nat} {e : Expr} {ts : List Tok} (hk : k ≤ 9) : Reads E n (k + 2) e ts ↔
    ∀ rest, NoCall E ts rest → Stops (k + 1) rest →
      Armips.ExprParse.level E (expr E n) (k + 2) (ts ++ rest) =
        chainLoop (table (k + 2)) (Armips.ExprParse.level E (expr E n) (k + 1)) rest.length e rest := by
  match k, hk with
  | 0, _ => exact Iff.rfl
  | 1, _ => exact Iff.rfl
  | 2, _ => exact Iff.rfl
  | 3, _ => exact Iff.rfl
  | 4, _ => exact Iff.rfl
  | 5, _ => exact Iff.rfl
  | 6, _ => exact Iff.rfl
  | 7, _ => exact Iff.rfl
  | 8, _ => exact Iff.rfl
  | 9, _ => exact Iff.rfl

theorem reads_weaker {E : Env} {n r : Nat} {e : Expr} {ts : List Tok} (hr : r < 12) (h : Reads E n r e ts) : Reads E n (r + 1) e ts := by
  match r, hr with
  | 0, _ =>
    intro rest hc
    have := h rest hc
    show unary E (expr E n) (ts ++ rest) = _
    unfold unary
    rw [show postfixExpr E (expr E n) (ts ++ rest) = _ from this]
  | k + 1, hr =>
    by_cases h11 : k = 10
    · subst h11
      intro rest hc hs
      have := h.level (by omega) (by omega) hc (stops_mono hs (by omega) (by omega))
      show conditional E (expr E n) (ts ++ rest) = _
      unfold conditional
      rw [level_logicalOr, this]
      simp only
      rw [if_pos]
      intro hq
      cases rest with
      | nil => cases hq
      | cons t rest => exact hs.2 rfl (by simpa [peek, next] using hq)
    · rw [reads_level (by omega)]
      intro rest hc hs
      have := h.level (by omega) (by omega) hc hs
      show chain _ _ _ = _
      unfold chain
      rw [this]

theorem commas_cons (t : List Tok) : ∀ ts : List (List Tok), commas (t :: ts) = t ++ ts.flatMap fun x => .comma :: x
  | [] => by simp [commas]
  | t' :: ts => by
    rw [commas, commas_cons t' ts]
    · simp
    · simp

/-- Reading of the further parameters. -/
theorem params_reads {E : Env} {n : Nat} (rest : List Tok) : ∀ (args : List (Expr × List Tok)),
    (∀ x ∈ args, (∃ t l, x.2 = t :: l ∧ t ≠ .rparen) ∧ ∀ rest, NoCall E x.2 rest → Stops 12 rest → expr E n (x.2 ++ rest) = (some x.1, rest)) →
    ∀ k, args.length < k →
    params (expr E n) k false ((args.map (·.2)).flatMap (fun x => .comma :: x) ++ .rparen :: rest) = (some (toArgs (args.map (·.1))), .rparen :: rest)
  | [], _, k, hk => by
    cases k with
    | zero => omega
    | succ k =>
      show params _ (k + 1) false (.rparen :: rest) = _
      rw [params, if_pos (show peek (Tok.rparen :: rest) = .rparen from rfl)]; rfl
  | x :: args, h, k, hk => by
    cases k with
    | zero => omega
    | succ k =>
      rw [List.map_cons, List.flatMap_cons, List.cons_append, List.cons_append, List.append_assoc]
      have hx := (h x (by simp)).2 ((args.map (·.2)).flatMap (fun x => .comma :: x) ++ .rparen :: rest) (by
        intro i m _ _ he
        cases args with
        | nil => simp at he
        | cons y args => simp at he) (by
        constructor
        · intro op he
          cases args <;> cases op <;> simp [symbol] at he
        · intro _ he
          cases args <;> simp at he)
      have ih := params_reads rest args (fun y hy => h y (List.mem_cons_of_mem _ hy)) k (by simpa using hk)
      rw [params]
      rw [if_neg (by simp [peek, next])]
      simp only [Bool.false_eq_true, if_false]
      rw [if_neg (by simp [peek, next])]
      simp only [List.cons_append, next]
      rw [hx]
      simp only
      rw [ih]
      rfl

theorem unaryOp_eq (t : Tok) (e : Expr) : unaryOp t e = prefixed t e := by cases t <;> rfl

theorem stops_symbol (op : BinOp) (l : List Tok) : Stops ((symbol op).2 - 1) ((symbol op).1 :: l) := by
  constructor
  · intro op' h
    cases op <;> cases op' <;> simp [symbol] at h ⊢
  · intro h
    cases op <;> simp [symbol] at h

theorem reads_of_writes {E : Env} {r : Nat} {e : Expr} {ts : List Tok} (h : Writes E r e ts) : ∀ n, ts.length ≤ n → Reads E n r e ts := by
  induction h with
  | int v => intro n _ rest _; rfl
  | float v => intro n _ rest _; rfl
  | str s => intro n _ rest _; rfl
  | here =>
    intro n _ rest hc
    show postfixExpr E (expr E n) (.ident (lit ".") :: rest) = _
    have hp : primary E (expr E n) (.ident (lit ".") :: rest) = (some .memoryPos, rest) := by simp [primary]
    unfold postfixExpr
    split
    · rename_i m l heq
      injection heq with h1 h2
      injection h1 with h1
      subst h1 h2
      rw [if_neg]
      · exact hp
      · intro hf
        exact hc [] _ rfl hf rfl
    · exact hp
  | ident m hm =>
    intro n _ rest hc
    show postfixExpr E (expr E n) (.ident m :: rest) = _
    have hp : primary E (expr E n) (.ident m :: rest) = (some (.ident m E.file E.section_), rest) := by simp [primary, hm]
    unfold postfixExpr
    split
    · rename_i m' l heq
      injection heq with h1 h2
      injection h1 with h1
      subst h1 h2
      rw [if_neg]
      · exact hp
      · intro hf
        exact hc [] _ rfl hf rfl
    · exact hp
  | @paren e ts h ih =>
    intro n hn rest hc
    obtain ⟨m, rfl⟩ : ∃ m, n = m + 1 := ⟨n - 1, by simp at hn; omega⟩
    have := ih m (by simp at hn; omega) (.rparen :: rest) (by intro _ _ _ _ h; simp at h) ⟨by intro op h; cases op <;> simp [symbol] at h, by simp⟩
    show postfixExpr E (expr E (m + 1)) (.lparen :: ts ++ [.rparen] ++ rest) = _
    simp only [List.cons_append, List.append_assoc, List.nil_append]
    unfold postfixExpr
    simp only
    unfold primary
    simp only
    rw [show expr E (m + 1) (ts ++ .rparen :: rest) = _ from this]
    rfl
  | call m args hf hw ih =>
    intro n hn rest hc
    show postfixExpr E (expr E n) (_ ++ rest) = _
    have hlen : ∀ x ∈ args, x.2.length < n := by
      intro x hx
      have : x.2.length ≤ (commas (args.map (·.2))).length := by
        clear hn hw ih hf hc
        induction args with
        | nil => cases hx
        | cons y args ih =>
          rw [List.map_cons, commas_cons]
          rcases List.mem_cons.1 hx with rfl | hx
          · simp
          · have h1 := ih hx
            cases args with
            | nil => cases hx
            | cons z args =>
              rw [List.map_cons, commas_cons] at h1
              simp only [List.map_cons, List.flatMap_cons, List.length_append, List.length_cons] at h1 ⊢
              omega
      simp at hn
      omega
    have hr : ∀ x ∈ args, (∃ t l, x.2 = t :: l ∧ t ≠ .rparen) ∧
        ∀ rest, NoCall E x.2 rest → Stops 12 rest → expr E n (x.2 ++ rest) = (some x.1, rest) := by
      intro x hx
      refine ⟨writes_head (hw x hx), ?_⟩
      intro rest hc hs
      have hl := hlen x hx
      obtain ⟨k, rfl⟩ : ∃ k, n = k + 1 := ⟨n - 1, by omega⟩
      exact ih x hx k (by omega) rest hc hs
    simp only [List.cons_append, List.append_assoc, List.nil_append]
    unfold postfixExpr
    simp only
    rw [if_pos hf]
    have key : params (expr E n) ((commas (args.map (·.2)) ++ .rparen :: rest).length + 1) true (commas (args.map (·.2)) ++ .rparen :: rest) =
        (some (toArgs (args.map (·.1))), .rparen :: rest) := by
      cases args with
      | nil =>
        show params _ ((Tok.rparen :: rest).length + 1) true (.rparen :: rest) = _
        rw [params, if_pos (show peek (Tok.rparen :: rest) = .rparen from rfl)]; rfl
      | cons x args =>
        obtain ⟨⟨t, l, ht, hne⟩, hx⟩ := hr x (by simp)
        rw [List.map_cons, commas_cons, List.append_assoc, params]
        rw [if_neg (by rw [ht]; simpa [peek, next] using hne)]
        simp only [if_true]
        rw [if_neg (by simp)]
        rw [hx _ (by
          intro i m _ _ he
          cases args with
          | nil => simp at he
          | cons y args => simp at he) (by
          constructor
          · intro op he
            cases args <;> cases op <;> simp [symbol] at he
          · intro _ he
            cases args <;> simp at he)]
        simp only
        rw [params_reads rest args (fun y hy => hr y (List.mem_cons_of_mem _ hy))]
        · rfl
        · have : args.length ≤ ((args.map (·.2)).flatMap fun x => Tok.comma :: x).length := by
            clear hr hlen ih hw hc hn
            induction args with
            | nil => simp
            | cons y args ih => simp only [List.map_cons, List.flatMap_cons, List.length_append, List.length_cons] at ih ⊢; omega
          rw [ht]
          simp only [List.length_append, List.length_cons]
          omega
    rw [key]
    rfl
  | @pre t e e' ts hp hw ih =>
    intro n hn rest hc
    have := ih n (by simp at hn; omega) rest (fun i m hi => hc (t :: i) m (by rw [hi]; rfl))
    show unary E (expr E n) (t :: ts ++ rest) = _
    have hpf : postfixExpr E (expr E n) (t :: ts ++ rest) = (none, t :: ts ++ rest) := by
      cases t <;> first | (cases hp; done) | rfl
    unfold unary
    rw [hpf]
    simp only [List.cons_append, next, peek]
    rw [show postfixExpr E (expr E n) (ts ++ rest) = _ from this]
    simp only
    rw [unaryOp_eq, hp]
  | @binary op a b ta tb hwa hwb iha ihb =>
    intro n hn
    obtain ⟨k, hk, hk9⟩ : ∃ k, (symbol op).2 = k + 2 ∧ k ≤ 9 := by cases op <;> exact ⟨_, rfl, by decide⟩
    have ha : Reads E n (k + 2) a ta := hk ▸ iha n (by simp at hn; omega)
    have hb : Reads E n (k + 1) b tb := by
      have := ihb n (by simp at hn; omega)
      rw [hk] at this
      exact this
    rw [hk, reads_level hk9]
    intro rest hc hs
    have hop := stops_symbol op (tb ++ rest)
    rw [hk] at hop
    rw [List.append_assoc, List.cons_append]
    rw [(reads_level hk9).1 ha ((symbol op).1 :: (tb ++ rest)) (by intro _ _ _ _ h; cases op <;> simp [symbol] at h) hop]
    rw [List.length_cons, chainLoop]
    have ht : table (k + 2) (peek ((symbol op).1 :: (tb ++ rest))) = some op := (table_iff _ _ _).2 (by rw [← hk]; rfl)
    rw [ht]
    simp only [next]
    rw [hb.level (by omega) (by omega) (fun i m hi => hc (ta ++ (symbol op).1 :: i) m (by rw [hi]; simp)) hs]
    simp only
    exact loop_bound (table_valid _) (fun ts => level_shrinks E _ _ ts fun x _ => expr_shrinks E n x) _ _ _ _ (by simp) (Nat.le_refl _)
  | @conditional a b c ta tb tc hwa hwb hwc iha ihb ihc =>
    intro n hn rest hc hs
    obtain ⟨m, rfl⟩ : ∃ m, n = m + 1 := ⟨n - 1, by simp at hn; omega⟩
    have ha := (iha (m + 1) (by simp at hn; omega)).level (by omega) (by omega)
      (rest := .question :: (tb ++ .colon :: (tc ++ rest))) (by intro _ _ _ _ h; simp at h) ⟨by intro op h; cases op <;> simp [symbol] at h, by simp⟩
    have hb := ihb m (by simp at hn; omega) (.colon :: (tc ++ rest)) (by intro _ _ _ _ h; simp at h) ⟨by intro op h; cases op <;> simp [symbol] at h, by simp⟩
    have hc' := ihc m (by simp at hn; omega) rest (fun i x hi => hc (ta ++ .question :: tb ++ .colon :: i) x (by rw [hi]; simp)) hs
    show conditional E (expr E (m + 1)) _ = _
    have e : ta ++ .question :: tb ++ .colon :: tc ++ rest = ta ++ .question :: (tb ++ .colon :: (tc ++ rest)) := by simp
    rw [e]
    unfold conditional
    rw [level_logicalOr, ha]
    simp only [peek, next, ne_eq, not_true, if_false]
    rw [show expr E (m + 1) (tb ++ .colon :: (tc ++ rest)) = _ from hb]
    simp only [peek, next, ne_eq, not_true, if_false]
    rw [show expr E (m + 1) (tc ++ rest) = _ from hc']
  | weaker hr h ih => exact fun n hn => reads_weaker hr (ih n hn)

/-! ### Without parentheses nothing else is read -/

/-- There is no opening parenthesis. -/
def Flat (ts : List Tok) : Prop := .lparen ∉ ts

/-- Only what is written is read, from tokens without parentheses. -/
def Sound (E : Env) (r : Nat) (p : Parser) : Prop := ∀ ts e rest, Flat ts → p ts = (some e, rest) → ∃ pre, ts = pre ++ rest ∧ Writes E r e pre

theorem Flat.rest {pre rest : List Tok} (h : Flat (pre ++ rest)) : Flat rest := fun hm => h (List.mem_append_right _ hm)

theorem flat_next {ts : List Tok} (h : Flat ts) : Flat (next ts).2 := by
  cases ts with
  | nil => exact h
  | cons t ts => exact fun hm => h (List.mem_cons_of_mem _ hm)

theorem postfix_flat (E : Env) (rec : Parser) {ts : List Tok} (h : Flat ts) : postfixExpr E rec ts = primary E rec ts := by
  unfold postfixExpr
  split
  · exact absurd (by simp) h
  · rfl

theorem primary_flat (E : Env) (rec : Parser) {ts : List Tok} (h : Flat ts) :
    (∃ t l e, ts = t :: l ∧ primary E rec ts = (some e, l) ∧ Writes E 0 e [t]) ∨ primary E rec ts = (none, ts) := by
  unfold primary
  split
  · exact .inl ⟨_, _, _, rfl, rfl, .float _⟩
  · rename_i n l
    refine .inl ⟨_, _, _, rfl, rfl, ?_⟩
    split
    · rename_i hn; subst hn; exact .here
    · rename_i hn; exact .ident _ hn
  · exact .inl ⟨_, _, _, rfl, rfl, .str _⟩
  · exact .inl ⟨_, _, _, rfl, rfl, .int _⟩
  · exact absurd (by simp) h
  · exact .inr rfl

theorem unary_sound (E : Env) (rec : Parser) : Sound E 1 (unary E rec) := by
  intro ts e rest hf h
  unfold unary at h
  rw [postfix_flat E rec hf] at h
  rcases primary_flat E rec hf with ⟨t, l, e', rfl, h1, h2⟩ | h1
  · rw [h1] at h
    injection h with h3 h4
    injection h3 with h3
    subst h3 h4
    exact ⟨[t], rfl, .weaker (by omega) h2⟩
  · rw [h1] at h
    simp only at h
    rw [postfix_flat E rec (flat_next hf)] at h
    rcases primary_flat E rec (flat_next hf) with ⟨t, l, e', h2, h3, h4⟩ | h2
    · rw [h3] at h
      injection h with h5 h6
      subst h6
      rw [unaryOp_eq] at h5
      cases ts with
      | nil => cases h2
      | cons t' ts =>
        simp only [next] at h2
        subst h2
        exact ⟨[t', t], rfl, .pre h5 h4⟩
    · rw [h2] at h
      cases h

theorem loop_sound {E : Env} {k : Nat} {sub : Parser} (hs : Sound E (k + 1) sub) : ∀ (n : Nat) (e : Expr) (ts : List Tok) (e' : Expr) (rest pre : List Tok),
    Flat ts → Writes E (k + 2) e pre → chainLoop (table (k + 2)) sub n e ts = (some e', rest) → ∃ pre', ts = pre' ++ rest ∧ Writes E (k + 2) e' (pre ++ pre')
  | 0, e, ts, e', rest, pre, _, hw, h => by
    injection h with h1 h2
    injection h1 with h1
    subst h1 h2
    exact ⟨[], rfl, by rwa [List.append_nil]⟩
  | n + 1, e, ts, e', rest, pre, hf, hw, h => by
    rw [chainLoop] at h
    cases ht : table (k + 2) (peek ts) with
    | none =>
      rw [ht] at h
      injection h with h1 h2
      injection h1 with h1
      subst h1 h2
      exact ⟨[], rfl, by rwa [List.append_nil]⟩
    | some op =>
      rw [ht] at h
      simp only at h
      have hsy := (table_iff _ _ _).1 ht
      cases ts with
      | nil => rw [show peek [] = .invalid from rfl, table_valid] at ht; cases ht
      | cons t ts =>
        simp only [next, peek] at h hsy
        rcases hq : sub ts with ⟨_ | e2, r⟩
        · rw [hq] at h; cases h
        · rw [hq] at h
          have hf' : Flat ts := flat_next hf
          obtain ⟨p2, rfl, hw2⟩ := hs ts e2 r hf' hq
          have hb : Writes E (k + 2) (.bin op e e2) (pre ++ t :: p2) := by
            have := Writes.binary (E := E) op (a := e) (b := e2) (ta := pre) (tb := p2) (by rw [hsy]; exact hw) (by rw [hsy]; exact hw2)
            rw [hsy] at this
            exact this
          obtain ⟨p3, rfl, hw3⟩ := loop_sound hs n _ r e' rest _ hf'.rest hb h
          exact ⟨t :: p2 ++ p3, by simp, by simpa using hw3⟩

theorem level_sound (E : Env) (rec : Parser) : ∀ k, k ≤ 10 → Sound E (k + 1) (level E rec (k + 1))
  | 0, _ => unary_sound E rec
  | k + 1, hk => by
    intro ts e rest hf h
    have ih := level_sound E rec k (by omega)
    rw [show level E rec (k + 1 + 1) ts = chain (table (k + 2)) (level E rec (k + 1)) ts from rfl] at h
    unfold chain at h
    rcases hq : level E rec (k + 1) ts with ⟨_ | e2, r⟩
    · rw [hq] at h; cases h
    · rw [hq] at h
      obtain ⟨p1, rfl, hw⟩ := ih ts e2 r hf hq
      obtain ⟨p2, rfl, hw2⟩ := loop_sound ih _ e2 r e rest p1 hf.rest (.weaker (by omega) hw) h
      exact ⟨p1 ++ p2, by simp, hw2⟩

theorem conditional_sound (E : Env) {rec : Parser} (hr : Sound E 12 rec) : Sound E 12 (conditional E rec) := by
  intro ts e rest hf h
  unfold conditional at h
  rw [level_logicalOr] at h
  rcases hq : level E rec 11 ts with ⟨_ | e1, r1⟩
  · rw [hq] at h; cases h
  · rw [hq] at h
    simp only at h
    obtain ⟨p1, rfl, hw1⟩ := level_sound E rec 10 (by omega) ts e1 r1 hf hq
    split at h
    · injection h with h1 h2
      injection h1 with h1
      subst h1 h2
      exact ⟨p1, rfl, .weaker (by omega) hw1⟩
    · rename_i hq1
      cases r1 with
      | nil => exact (hq1 (by simp [peek, next])).elim
      | cons t r1 =>
        have ht : t = .question := by simpa [peek, next] using hq1
        subst ht
        simp only [next] at h
        rcases hq2 : rec r1 with ⟨_ | e2, r2⟩
        · rw [hq2] at h; cases h
        · rw [hq2] at h
          simp only at h
          have hf1 : Flat r1 := flat_next hf.rest
          obtain ⟨p2, rfl, hw2⟩ := hr r1 e2 r2 hf1 hq2
          split at h
          · cases h
          · rename_i hc
            cases r2 with
            | nil => exact (hc (by simp [peek, next])).elim
            | cons t r2 =>
              have ht : t = .colon := by simpa [peek, next] using hc
              subst ht
              simp only [next] at h
              rcases hq3 : rec r2 with ⟨_ | e3, r3⟩
              · rw [hq3] at h; cases h
              · rw [hq3] at h
                have hf2 : Flat r2 := flat_next hf1.rest
                obtain ⟨p3, rfl, hw3⟩ := hr r2 e3 r3 hf2 hq3
                injection h with h1 h2
                injection h1 with h1
                subst h1 h2
                exact ⟨p1 ++ .question :: p2 ++ .colon :: p3, by simp, .conditional hw1 hw2 hw3⟩

theorem expr_sound (E : Env) : ∀ n, Sound E 12 (expr E n)
  | 0 => by intro _ _ _ _ h; cases h
  | n + 1 => conditional_sound E (expr_sound E n)

end Armips.ExprParse
