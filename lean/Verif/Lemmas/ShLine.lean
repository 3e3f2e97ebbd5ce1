import Verif.Spec.ShLine
import Verif.Lemmas.ArmLineRead
/-!
# Lemmas about SuperH lines

`Sim` relates the tokens of a line to those of `Model/Sh.lean`, in which an expression is one token. Every row of the table does the same with both.
-/
namespace Armips.ShLine
open ExprParse (Tok)
open Sh (Op Operands)
open ArmLine (fromTable lookup goesOn stops_of noCall_of parse_none)
open MipsParse (starter writes_start)
open Spec.ExprParse (Writes)
open Spec.ShLine

/-- Where in the operands something stands: at the start, after `#` or `@(`, after a comma, elsewhere. -/
inductive Mode | first | inner | later | after
  deriving DecidableEq

/-- The name of a register. -/
def regText : Bool → Nat → Str
  | false, n => regName n
  | true, n => chr '@' :: regName n

/-- The same text. `im` says that the rows can have a constant at the start. -/
inductive Sim (E : ExprParse.Env) (rest : List Tok) (im : Bool) : Mode → List Sh.Tok → List Tok → Prop
  | stop {md} : Sim E rest im md [] (.separator :: rest)
  | reg {md n a t} (b : Bool) : n < 16 → Sim E rest im .after a t → Sim E rest im md (.reg b n :: a) (.ident (regText b n) :: t)
  | name {md s a t} : s ∈ special → md ≠ .inner → (md = .first → im = false) → Sim E rest im .after a t →
      Sim E rest im md (.ident s :: a) (.ident (lit s) :: t)
  | imm {md e es a h t} : Constant E e es → md = .first ∨ md = .inner → goesOn h = false → Sim E rest im .after a (h :: t) →
      Sim E rest im md (.imm e :: a) (es ++ h :: t)
  | comma {a t} : Sim E rest im .later a t → Sim E rest im .after (.comma :: a) (.comma :: t)
  | hash {a t} : Sim E rest im .inner a t → Sim E rest im .first (.hash :: a) (.hash :: t)
  | atParen {md a t} : md = .first ∨ md = .later → Sim E rest im .inner a t →
      Sim E rest im md (.ident "@" :: .lpar :: a) (.ident (lit "@") :: .lparen :: t)
  | atMinus {a t} : Sim E rest im .after a t → Sim E rest im .later (.ident "@" :: .minus :: a) (.ident (lit "@") :: .minus :: t)
  | rpar {a t} : Sim E rest im .after a t → Sim E rest im .after (.rpar :: a) (.rparen :: t)
  | plus {a t} : Sim E rest im .after a t → Sim E rest im .after (.plus :: a) (.plus :: t)

/-- Where an item with `@` may stand. -/
def okAt (rec : Mode → List Char → Bool) (md : Mode) : List Char → Bool
  | 't' :: rest => rec .after rest
  | 's' :: rest => rec .after rest
  | '(' :: rest => decide (md = .first ∨ md = .later) && rec .inner rest
  | '-' :: rest => decide (md = .later) && rec .after rest
  | _ => true

/-- Where an item may stand. -/
def okItem (im : Bool) (rec : Mode → List Char → Bool) (md : Mode) (c : Char) (rest : List Char) : Bool :=
  match c with
  | 't' => rec .after rest
  | 's' => rec .after rest
  | 'i' => decide (md = .first ∧ im = true ∨ md = .inner) && rec .after (Sh.size 0 rest).2 &&
    decide ((Sh.size 0 rest).2 = [] ∨ (Sh.size 0 rest).2.head? = some ',' ∨ (Sh.size 0 rest).2.head? = some ')')
  | '@' => okAt rec md rest
  | '#' => decide (md = .first) && rec .inner rest
  | ',' => decide (md = .after) && rec .later rest
  | ')' => decide (md = .after) && rec .after rest
  | '+' => decide (md = .after) && rec .after rest
  | '(' => false
  | '-' => false
  | _ => true

/-- Where the items of a syntax may stand. -/
def ok (im freg : Bool) : Nat → Mode → List Char → Bool
  | _, _, [] => true
  | 0, _, _ :: _ => true
  | k + 1, md, c :: rest =>
    (match if freg then Sh.forcedNames.find? fun f => f.toList.isPrefixOf (c :: rest) else none with
      | some f => ok im freg k .after ((c :: rest).drop f.length)
      | none => true) && okItem im (ok im freg k) md c rest

/-! ### Names -/

theorem register_reg {n : Nat} (h : n < 16) (b : Bool) (ts : List Tok) : register (.ident (regText b n) :: ts) = some (n, ts) := by
  have : ∀ n < 16, ∀ b, lookup (regText b n) registers = some n := by decide +kernel
  simp [register, fromTable, this n h b]

theorem registers_names : ∀ x ∈ registers, ∃ n < 16, ∃ b, lit x.1 = regText b n := by decide +kernel

theorem register_not {n : Str} (h : ∀ k < 16, ∀ b, n ≠ regText b k) (ts : List Tok) : register (.ident n :: ts) = none := by
  have : lookup n registers = none := by
    cases h' : lookup n registers with
    | none => rfl
    | some k =>
      unfold lookup at h'
      obtain ⟨x, h1, -⟩ := Option.map_eq_some_iff.1 h'
      have h2 := List.find?_some h1
      obtain ⟨k, hk, b, hb⟩ := registers_names x (List.mem_of_find?_eq_some h1)
      exact absurd ((by simpa using h2 : lit x.1 = n).symm.trans hb) (h k hk b)
  simp [register, fromTable, this]

theorem register_notIdent {t : Tok} (h : ∀ n, t ≠ .ident n) (ts : List Tok) : register (t :: ts) = none := by
  unfold register fromTable
  split
  · rename_i heq; cases heq; exact absurd rfl (h _)
  · rfl

theorem special_not : ∀ s ∈ special, ∀ k < 16, ∀ b, lit s ≠ regText b k := by decide +kernel
theorem at_not : ∀ k < 16, ∀ b, lit "@" ≠ regText b k := by decide +kernel

theorem register_special {s : String} (h : s ∈ special) (ts : List Tok) : register (.ident (lit s) :: ts) = none :=
  register_not (special_not s h) ts

theorem register_at (ts : List Tok) : register (.ident (lit "@") :: ts) = none := register_not at_not ts

theorem notReserved {E : ExprParse.Env} {n : Str} (h : ¬ Reserved E n) : ∀ k < 16, ∀ b, n ≠ regText b k := by
  intro k hk b e
  apply h
  left
  cases b
  · exact ⟨k, hk, .inl e⟩
  · exact ⟨k, hk, .inr e⟩

theorem constant_start {E : ExprParse.Env} {e : Expr} {ts : List Tok} (h : Constant E e ts) :
    ∃ t l, ts = t :: l ∧ starter t = true ∧ (∀ n, t = .ident n → ¬ Reserved E n) ∧
      (t = .lparen → ∃ t' l', l = t' :: l' ∧ ∀ n, t' = .ident n → ¬ Reserved E n) := by
  obtain ⟨t, l, rfl, h1, h2⟩ := writes_start h.1
  refine ⟨t, l, rfl, h1, fun n e => h.2 n (by simp [e]), fun hl => ?_⟩
  obtain ⟨t', l', rfl, -⟩ := h2 hl
  exact ⟨t', l', rfl, fun n e => h.2 n (by simp [e])⟩

theorem register_constant {E : ExprParse.Env} {e : Expr} {ts : List Tok} (h : Constant E e ts) (r : List Tok) : register (ts ++ r) = none := by
  obtain ⟨t, l, rfl, -, h2, -⟩ := constant_start h
  by_cases hi : ∃ n, t = .ident n
  · obtain ⟨n, rfl⟩ := hi
    exact register_not (notReserved (h2 n rfl)) _
  · exact register_notIdent (fun n e => hi ⟨n, e⟩) _

/-! ### Immediates -/

theorem immediate_reads {E : ExprParse.Env} {e : Expr} {es : List Tok} (h : Constant E e es) {t : Tok} (l : List Tok) (ht : goesOn t = false) :
    immediate E (es ++ t :: l) = some (e, t :: l) := by
  have hr : (register (skipParen (es ++ t :: l))).isSome = false := by
    obtain ⟨t', l', he, -, h2, h3⟩ := constant_start h
    by_cases hp : t' = .lparen
    · subst hp
      obtain ⟨t2, l2, rfl, h4⟩ := h3 rfl
      subst he
      simp only [List.cons_append, skipParen]
      by_cases hi : ∃ n, t2 = .ident n
      · obtain ⟨n, rfl⟩ := hi
        rw [register_not (notReserved (h4 n rfl))]; rfl
      · rw [register_notIdent (fun n e => hi ⟨n, e⟩)]; rfl
    · have : skipParen (es ++ t :: l) = es ++ t :: l := by
        subst he
        cases t' <;> first | rfl | exact absurd rfl hp
      rw [this, register_constant h]; rfl
  unfold immediate
  rw [hr, Props.expr_read h.1 (stops_of ht) (noCall_of ht)]
  simp

theorem immediate_none (E : ExprParse.Env) {t : Tok} (ht : starter t = false) (ts : List Tok) : immediate E (t :: ts) = none := by
  have := parse_none E ht ts
  unfold immediate
  split
  · rfl
  · generalize ExprParse.parse E (t :: ts) = p at this
    obtain ⟨_ | e, r⟩ := p
    · rfl
    · cases this

theorem immediate_reg (E : ExprParse.Env) {n : Nat} (h : n < 16) (b : Bool) (ts : List Tok) : immediate E (.ident (regText b n) :: ts) = none := by
  unfold immediate
  rw [show skipParen (.ident (regText b n) :: ts) = .ident (regText b n) :: ts from rfl, register_reg h]
  rfl

/-- `@` in front of a parenthesis would be a label. -/
theorem immediate_at {E : ExprParse.Env} (h : E.isFn (lit "@") = false) (ts : List Tok) :
    ∃ e, immediate E (.ident (lit "@") :: .lparen :: ts) = some (e, .lparen :: ts) := by
  have hw : Writes E 12 (.ident (lit "@") E.file E.section_) [.ident (lit "@")] := Props.writes_le (.ident _ (by decide)) (by omega) (by omega)
  have hr : register (skipParen (.ident (lit "@") :: .lparen :: ts)) = none := register_at _
  have := Props.expr_read (rest := .lparen :: ts) hw ⟨(by intro op ho; cases op <;> cases ho), (by simp)⟩ (by
    intro i n hi hn
    have : i = [] := by cases i with | nil => rfl | cons a i => simp at hi
    subst this
    simp only [List.nil_append, List.cons.injEq, Tok.ident.injEq, and_true] at hi
    rw [← hi, h] at hn
    cases hn)
  refine ⟨.ident (lit "@") E.file E.section_, ?_⟩
  unfold immediate
  rw [hr]
  simp only [Option.isSome_none, Bool.false_eq_true, if_false]
  rw [show (Tok.ident (lit "@") :: .lparen :: ts) = [.ident (lit "@")] ++ .lparen :: ts from rfl, this]

/-- In an expression a parenthesis after a name is a call. -/
theorem writes_call {E : ExprParse.Env} {r : Nat} {e : Expr} {ts : List Tok} (h : Writes E r e ts) :
    ∀ n l, ts = .ident n :: .lparen :: l → E.isFn n = true := by
  induction h with
  | int | float | str | here | ident => intro _ _ h; cases h
  | paren => intro _ _ h; cases h
  | call n args hn => intro _ _ h; cases h; exact hn
  | pre hp _ _ => intro _ _ h; cases h; cases hp
  | @binary op a b ta tb _ _ ih _ =>
    intro n l h
    match ta, ih, h with
    | [], _, h => cases op <;> cases h
    | [_], _, h => cases op <;> cases h
    | _ :: _ :: _, ih, h => cases h; exact ih _ _ rfl
  | @conditional a b c ta tb tc _ _ _ ih _ _ =>
    intro n l h
    match ta, ih, h with
    | [], _, h => cases h
    | [_], _, h => cases h
    | _ :: _ :: _, ih, h => cases h; exact ih _ _ rfl
  | weaker _ _ ih => exact ih

/-! ### Forced registers -/

theorem names_reg : ∀ f ∈ Sh.forcedNames, ∀ n < 16, ∀ b, (regText b n = lit f) = (Sh.Tok.names f (.reg b n) = true) := by
  have : ∀ f ∈ Sh.forcedNames, ∀ n < 16, ∀ b, decide (regText b n = lit f) = Sh.Tok.names f (.reg b n) := by decide +kernel
  intro f hf n hn b
  rw [← this f hf n hn b]
  simp

theorem names_special : ∀ f ∈ Sh.forcedNames, ∀ s ∈ special, (lit s = lit f) = (Sh.Tok.names f (.ident s) = true) := by
  have : ∀ f ∈ Sh.forcedNames, ∀ s ∈ special, decide (lit s = lit f) = Sh.Tok.names f (.ident s) := by decide +kernel
  intro f hf s hs
  rw [← this f hf s hs]
  simp

theorem names_at : ∀ f ∈ Sh.forcedNames, lit "@" ≠ lit f ∧ Sh.Tok.names f (.ident "@") = false := by decide +kernel

theorem forced_reserved : ∀ f ∈ Sh.forcedNames, (∃ k < 16, lit f = regName k) ∨ ∃ s ∈ special, lit f = lit s := by decide +kernel

theorem constant_forced {E : ExprParse.Env} {e : Expr} {es : List Tok} (h : Constant E e es) {f : String} (hf : f ∈ Sh.forcedNames) (r : List Tok) :
    ∀ n l, es ++ r = .ident n :: l → n ≠ lit f := by
  obtain ⟨t, l, rfl, -, h2, -⟩ := constant_start h
  intro n l' he hn
  cases he
  apply h2 n rfl
  rcases forced_reserved f hf with ⟨k, hk, h⟩ | ⟨s, hs, h⟩
  · exact .inl ⟨k, hk, .inl (hn.trans h)⟩
  · exact .inr (.inl ⟨s, hs, hn.trans h⟩)

theorem forced_none {enc : List Char} {ts : List Tok} (h : ∀ f ∈ Sh.forcedNames, ∀ n l, ts = .ident n :: l → n ≠ lit f) : forced enc ts = none := by
  unfold forced
  split
  · rename_i f n l hf
    rw [if_neg (h f (List.mem_of_find?_eq_some hf) n l rfl)]
  · rfl

theorem sh_forced_none {enc : List Char} {ts : List Sh.Tok} (h : ∀ f ∈ Sh.forcedNames, ∀ t l, ts = t :: l → t.names f = false) :
    Sh.forced enc ts = none := by
  unfold Sh.forced
  split
  · rename_i f t l hf
    rw [h f (List.mem_of_find?_eq_some hf) t l rfl]
    rfl
  · rfl

theorem forced_sim {E : ExprParse.Env} {rest : List Tok} {im : Bool} {md : Mode} {ats : List Sh.Tok} {ts : List Tok} (h : Sim E rest im md ats ts)
    (enc : List Char) : (Sh.forced enc ats = none ∧ forced enc ts = none) ∨ ∃ f a t, (Sh.forcedNames.find? fun f => f.toList.isPrefixOf enc) = some f ∧
      Sh.forced enc ats = some (enc.drop f.length, a) ∧ forced enc ts = some (enc.drop f.length, t) ∧ Sim E rest im .after a t := by
  have hid : ∀ (t : Sh.Tok) (n : Str) (a : List Sh.Tok) (l : List Tok), Sim E rest im .after a l →
      (∀ f ∈ Sh.forcedNames, (n = lit f) = (t.names f = true)) →
      (Sh.forced enc (t :: a) = none ∧ forced enc (.ident n :: l) = none) ∨ ∃ f a' t', (Sh.forcedNames.find? fun f => f.toList.isPrefixOf enc) = some f ∧
        Sh.forced enc (t :: a) = some (enc.drop f.length, a') ∧ forced enc (.ident n :: l) = some (enc.drop f.length, t') ∧ Sim E rest im .after a' t' := by
    intro t n a l hs hn
    unfold Sh.forced forced
    cases hf : Sh.forcedNames.find? fun f => f.toList.isPrefixOf enc with
    | none => exact .inl ⟨rfl, rfl⟩
    | some f =>
      have := hn f (List.mem_of_find?_eq_some hf)
      by_cases hc : n = lit f
      · right
        have hc' : t.names f = true := by rw [← this]; exact hc
        exact ⟨f, a, l, rfl, by simp [hc'], by simp [hc], hs⟩
      · left
        have hc' : ¬ t.names f = true := by rw [← this]; exact hc
        exact ⟨by simp [hc'], by simp [hc]⟩
  cases h with
  | stop => exact .inl ⟨sh_forced_none (by simp), forced_none (by simp)⟩
  | reg b hn hs => exact hid _ _ _ _ hs fun f hf => names_reg f hf _ hn b
  | name hs _ _ h => exact hid _ _ _ _ h fun f hf => names_special f hf _ hs
  | imm hc _ _ _ => exact .inl ⟨sh_forced_none (by simp [Sh.Tok.names]), forced_none fun f hf => constant_forced hc hf _⟩
  | comma | hash | rpar | plus => exact .inl ⟨sh_forced_none (by simp [Sh.Tok.names]), forced_none (by simp)⟩
  | atParen | atMinus =>
    refine .inl ⟨sh_forced_none ?_, forced_none ?_⟩
    · intro f hf t l he
      cases he
      exact (names_at f hf).2
    · intro f hf n l he
      cases he
      exact (names_at f hf).1

/-! ### Items -/

theorem stuck {E : ExprParse.Env} {freg : Bool} {enc : List Char} (h : enc = [] ∨ enc.head? = some ',' ∨ enc.head? = some ')') (k : Nat) (ts : List Tok)
    (o : Operands) : parseLoop E freg k enc (.lparen :: ts) o = none := by
  have hf : ∀ enc, forced enc (.lparen :: ts) = none := fun enc => forced_none (by simp)
  cases enc with
  | nil => cases k <;> rfl
  | cons c r =>
    cases k with
    | zero => rfl
    | succ k =>
      rw [parseLoop, hf]
      simp only [List.head?_cons, Option.some.injEq, reduceCtorEq, false_or] at h
      rcases h with rfl | rfl <;> simp [item, matchSymbol, symbolToken]

theorem match_constant {E : ExprParse.Env} {e : Expr} {es : List Tok} (h : Constant E e es) (r : List Tok) {c : Char}
    (hc : c ≠ '(' ∧ c ≠ '-' ∧ c ≠ '+') : matchSymbol c (es ++ r) = none := by
  obtain ⟨t, l, rfl, h1, -⟩ := constant_start h
  simp only [List.cons_append, matchSymbol]
  rw [if_neg]
  intro hs
  unfold symbolToken at hs
  split at hs <;> simp_all <;> subst hs <;> cases h1

/-- What an item does. -/
inductive Step (E : ExprParse.Env) (rest : List Tok) (im freg : Bool) (k : Nat) :
    Option (List Char × List Sh.Tok × Operands) → Option (List Char × List Tok × Operands) → Prop
  | none : Step E rest im freg k none none
  | some {enc a t o md} : Sim E rest im md a t → ok im freg k md enc = true → Step E rest im freg k (some (enc, a, o)) (some (enc, t, o))
  | stuck {enc t o} : enc = [] ∨ enc.head? = some ',' ∨ enc.head? = some ')' → Step E rest im freg k none (some (enc, .lparen :: t, o))

theorem step_register {E : ExprParse.Env} {rest : List Tok} {im : Bool} {md : Mode} {ats : List Sh.Tok} {ts : List Tok} (h : Sim E rest im md ats ts) {freg : Bool}
    {k : Nat} {enc : List Char} (hok : ok im freg k .after enc = true) (f : Nat → Operands) :
    Step E rest im freg k ((Sh.parseRegister ats).map fun (r, ts) => (enc, ts, f r)) ((register ts).map fun (r, ts) => (enc, ts, f r)) := by
  cases h with
  | stop => rw [register_notIdent (by simp)]; exact .none
  | reg b hn hs => rw [register_reg hn]; exact .some hs hok
  | name hs _ _ h => rw [register_special hs]; exact .none
  | imm hc _ _ _ => rw [register_constant hc]; exact .none
  | comma | hash | rpar | plus => rw [register_notIdent (by simp)]; exact .none
  | atParen | atMinus => rw [register_at]; exact .none

theorem step_imm {E : ExprParse.Env} (hat : E.isFn (lit "@") = false) {rest : List Tok} {im : Bool} {md : Mode} {ats : List Sh.Tok} {ts : List Tok}
    (h : Sim E rest im md ats ts) {freg : Bool} {k : Nat} {enc : List Char} (hmd : md = .first ∧ im = true ∨ md = .inner)
    (hok : ok im freg k .after (Sh.size 0 enc).2 = true)
    (hen : (Sh.size 0 enc).2 = [] ∨ (Sh.size 0 enc).2.head? = some ',' ∨ (Sh.size 0 enc).2.head? = some ')') (o : Operands) :
    Step E rest im freg k (Sh.item 'i' enc ats o) (item E 'i' enc ts o) := by
  have hnone : ∀ ats ts, (∀ e a, ats ≠ .imm e :: a) → immediate E ts = none → Step E rest im freg k (Sh.item 'i' enc ats o) (item E 'i' enc ts o) := by
    intro ats ts h1 h2
    have e1 : Sh.item 'i' enc ats o = none := by
      simp only [Sh.item]
    have e2 : item E 'i' enc ts o = none := by simp [item, h2]
    rw [e1, e2]
    exact .none
  cases h with
  | stop => exact hnone _ _ (by simp) (immediate_none E rfl _)
  | reg b hn hs => exact hnone _ _ (by simp) (immediate_reg E hn b _)
  | name hs h1 h2 h => rcases hmd with ⟨rfl, hi⟩ | rfl <;> simp_all
  | imm hc _ hg hs =>
    simp only [Sh.item, item, immediate_reads hc _ hg]
    split
    · exact .some hs hok
    · exact .none
  | comma | hash | rpar => exact hnone _ _ (by simp) (immediate_none E rfl _)
  | plus => rcases hmd with ⟨h, -⟩ | h <;> cases h
  | @atParen _ a t _ _ =>
    obtain ⟨e, he⟩ := immediate_at hat t
    simp only [Sh.item, item, he]
    split
    · exact .stuck hen
    · exact .none
  | atMinus => rcases hmd with ⟨h, -⟩ | h <;> cases h

/-- The symbols. -/
theorem step_symbol {E : ExprParse.Env} {rest : List Tok} {im : Bool} {md md' : Mode} {ats : List Sh.Tok} {ts : List Tok} (h : Sim E rest im md ats ts)
    {freg : Bool} {k : Nat} {enc : List Char} {c : Char}
    (hc : c = '#' ∧ md = .first ∧ md' = .inner ∨ c = ',' ∧ md = .after ∧ md' = .later ∨ c = ')' ∧ md = .after ∧ md' = .after ∨ c = '+' ∧ md = .after ∧ md' = .after ∨
      symbolToken c = none)
    (hok : symbolToken c = none ∨ ok im freg k md' enc = true) (o : Operands) :
    Step E rest im freg k ((Sh.matchSymbol c ats).map fun ts => (enc, ts, o)) ((matchSymbol c ts).map fun ts => (enc, ts, o)) := by
  by_cases hn : symbolToken c = none
  · have e1 : matchSymbol c ts = none := by
      cases ts with
      | nil => rfl
      | cons t l => simp [matchSymbol, hn]
    have hne : c ≠ '(' ∧ c ≠ ')' ∧ c ≠ ',' ∧ c ≠ '#' ∧ c ≠ '-' ∧ c ≠ '+' := by
      refine ⟨?_, ?_, ?_, ?_, ?_, ?_⟩ <;> (rintro rfl; cases hn)
    have e2 : Sh.matchSymbol c ats = none := by
      unfold Sh.matchSymbol
      obtain ⟨h1, h2, h3, h4, h5, h6⟩ := hne
      split <;> simp_all
    rw [e1, e2]
    exact .none
  · have hk := hok.resolve_left hn
    clear hok
    have hc : c = '#' ∧ md = .first ∧ md' = .inner ∨ c = ',' ∧ md = .after ∧ md' = .later ∨ c = ')' ∧ md = .after ∧ md' = .after ∨
        c = '+' ∧ md = .after ∧ md' = .after := by
      rcases hc with h | h | h | h | h
      · exact .inl h
      · exact .inr (.inl h)
      · exact .inr (.inr (.inl h))
      · exact .inr (.inr (.inr h))
      · exact absurd h hn
    cases h with
    | stop => rcases hc with ⟨rfl, -⟩ | ⟨rfl, -⟩ | ⟨rfl, -⟩ | ⟨rfl, -⟩ <;> exact .none
    | reg b hn hs => rcases hc with ⟨rfl, -⟩ | ⟨rfl, -⟩ | ⟨rfl, -⟩ | ⟨rfl, -⟩ <;> exact .none
    | name => rcases hc with ⟨rfl, -⟩ | ⟨rfl, -⟩ | ⟨rfl, -⟩ | ⟨rfl, -⟩ <;> exact .none
    | imm h1 h2 _ _ =>
      rcases hc with ⟨rfl, -⟩ | ⟨rfl, -⟩ | ⟨rfl, -⟩ | ⟨rfl, h, -⟩
      · rw [match_constant h1 _ (by decide)]; exact .none
      · rw [match_constant h1 _ (by decide)]; exact .none
      · rw [match_constant h1 _ (by decide)]; exact .none
      · subst h; rcases h2 with h2 | h2 <;> cases h2
    | comma hs => rcases hc with ⟨rfl, h, -⟩ | ⟨rfl, -, rfl⟩ | ⟨rfl, -⟩ | ⟨rfl, -⟩ <;> first | cases h | exact .some hs hk | exact .none
    | hash hs => rcases hc with ⟨rfl, -, rfl⟩ | ⟨rfl, h, -⟩ | ⟨rfl, h, -⟩ | ⟨rfl, h, -⟩ <;> first | cases h | exact .some hs hk
    | atParen | atMinus => rcases hc with ⟨rfl, -⟩ | ⟨rfl, -⟩ | ⟨rfl, -⟩ | ⟨rfl, -⟩ <;> exact .none
    | rpar hs => rcases hc with ⟨rfl, h, -⟩ | ⟨rfl, -⟩ | ⟨rfl, -, rfl⟩ | ⟨rfl, -⟩ <;> first | cases h | exact .some hs hk | exact .none
    | plus hs => rcases hc with ⟨rfl, h, -⟩ | ⟨rfl, -⟩ | ⟨rfl, -⟩ | ⟨rfl, -, rfl⟩ <;> first | cases h | exact .some hs hk | exact .none

/-! ### Items with `@` -/

theorem reg_at (b : Bool) (n : Nat) : ((regText b n).head? = some (chr '@')) = (b = true) := by
  cases b
  · simp only [regText, regName, Bool.false_eq_true, eq_iff_iff, iff_false]
    rw [lit, String.toList_append]
    show ¬ some _ = some _
    decide
  · simp [regText]

theorem special_at : ∀ s ∈ special, (lit s).head? ≠ some (chr '@') ∧ s.toList.head? ≠ some '@' := by decide +kernel

/-- The rest of an item with `@` does not stand in front of a constant. -/
theorem at_constant {E : ExprParse.Env} {e : Expr} {es : List Tok} (h : Constant E e es) {t : Tok} (l : List Tok) (ht : goesOn t = false) (enc : List Char)
    (hen : enc.head? ≠ some '-') (o : Operands) : item E '@' enc (es ++ t :: l) o = none := by
  have hr := register_constant h (t :: l)
  obtain ⟨t', l', he, -, h2, -⟩ := constant_start h
  have hcall := writes_call h.1
  subst he
  simp only [List.cons_append] at hr ⊢
  simp only [item]
  split
  · rename_i n ts heq
    cases heq
    split
    · rename_i hn
      have hp : matchSymbol '(' (l' ++ t :: l) = none := by
        cases l' with
        | nil =>
          simp only [List.nil_append, matchSymbol, symbolToken]
          rw [if_neg (by rintro ⟨⟩; cases ht)]
        | cons x l' =>
          simp only [List.cons_append, matchSymbol, symbolToken]
          rw [if_neg]
          intro hx
          cases hx
          exact h2 n rfl (.inr (.inr ⟨hcall n l' rfl, hn⟩))
      unfold at_
      split
      · rw [hr]; rfl
      · rw [hr]; rfl
      · rw [hp]; rfl
      · exact absurd rfl hen
      · rfl
    · rfl
  · rfl

theorem after_symbol {E : ExprParse.Env} {rest : List Tok} {im : Bool} {ats : List Sh.Tok} {ts : List Tok} (h : Sim E rest im .after ats ts) {c : Char}
    (hc : c = '(' ∨ c = '-') : Sh.matchSymbol c ats = none ∧ matchSymbol c ts = none := by
  cases h with
  | imm _ h => rcases h with h | h <;> cases h
  | atParen h => rcases h with h | h <;> cases h
  | _ => rcases hc with rfl | rfl <;> exact ⟨rfl, rfl⟩

theorem step_at {E : ExprParse.Env} {rest : List Tok} {im : Bool} {md : Mode} {ats : List Sh.Tok} {ts : List Tok}
    (h : Sim E rest im md ats ts) {freg : Bool} {k : Nat} {enc : List Char} (hok : okAt (ok im freg k) md enc = true) (o : Operands) :
    Step E rest im freg k (Sh.item '@' enc ats o) (item E '@' enc ts o) := by
  cases h with
  | stop => exact .none
  | @reg _ n a t b hn hs =>
    cases b
    · have : item E '@' enc (.ident (regText false n) :: t) o = none := by
        simp only [item]
        rw [if_neg]
        rw [reg_at]; simp
      rw [this]
      exact .none
    · have e : item E '@' enc (.ident (regText true n) :: t) o = at_ (regText true n) t o enc := by
        simp only [item]
        rw [if_pos]
        rw [reg_at]
      rw [e]
      obtain ⟨p1, p2⟩ := after_symbol hs (.inl rfl)
      obtain ⟨m1, m2⟩ := after_symbol hs (.inr rfl)
      simp only [Sh.item]
      unfold at_
      unfold okAt at hok
      split at hok
      · rw [register_reg hn]; exact .some hs hok
      · rw [register_reg hn]; exact .some hs hok
      · simp only [p1, p2]; exact .none
      · simp only [m1, m2]; exact .none
      · split <;> simp_all <;> exact .none
  | @name _ s a t hs _ _ h =>
    obtain ⟨h1, h2⟩ := special_at s hs
    simp only [Sh.item, item, if_neg h1, if_neg h2]
    exact .none
  | imm hc hm hg hs =>
    rw [at_constant hc _ hg _ _ o]
    · exact .none
    · intro he
      cases enc with
      | nil => cases he
      | cons c enc =>
        cases he
        rcases hm with rfl | rfl <;> simp [okAt] at hok
  | comma | hash | rpar | plus => exact .none
  | @atParen _ a t hm hs =>
    have e : item E '@' enc (.ident (lit "@") :: .lparen :: t) o = at_ (lit "@") (.lparen :: t) o enc := by
      simp only [item]
      rw [if_pos (by decide)]
    have e' : ("@".toList.head? = some '@') := by decide
    rw [e]
    simp only [Sh.item, if_pos e']
    unfold at_
    unfold okAt at hok
    split at hok
    · rw [register_at]; exact .none
    · rw [register_at]; exact .none
    · simp only [Bool.and_eq_true] at hok
      exact .some hs hok.2
    · exact .none
    · split <;> simp_all <;> exact .none
  | @atMinus a t hs =>
    have e : item E '@' enc (.ident (lit "@") :: .minus :: t) o = at_ (lit "@") (.minus :: t) o enc := by
      simp only [item]
      rw [if_pos (by decide)]
    have e' : ("@".toList.head? = some '@') := by decide
    rw [e]
    simp only [Sh.item, if_pos e']
    unfold at_
    unfold okAt at hok
    split at hok
    · rw [register_at]; exact .none
    · rw [register_at]; exact .none
    · exact .none
    · simp only [Bool.and_eq_true] at hok
      exact .some hs hok.2
    · split <;> simp_all <;> exact .none

/-! ### The loop -/

theorem step_item {E : ExprParse.Env} (hat : E.isFn (lit "@") = false) {rest : List Tok} {im : Bool} {md : Mode} {ats : List Sh.Tok} {ts : List Tok}
    (h : Sim E rest im md ats ts) {freg : Bool} {k : Nat} {c : Char} {enc : List Char} (hok : ok im freg (k + 1) md (c :: enc) = true) (o : Operands) :
    Step E rest im freg k (Sh.item c enc ats o) (item E c enc ts o) := by
  rw [ok, Bool.and_eq_true] at hok
  have hok := hok.2
  unfold okItem at hok
  split at hok
  · exact step_register h hok fun r => { o with grt := r }
  · exact step_register h hok fun r => { o with grs := r }
  · simp only [Bool.and_eq_true, decide_eq_true_eq] at hok
    exact step_imm hat h hok.1.1 hok.1.2 hok.2 o
  · exact step_at h hok o
  · simp only [Bool.and_eq_true, decide_eq_true_eq] at hok
    exact step_symbol h (.inl ⟨rfl, hok.1, rfl⟩) (.inr hok.2) o
  · simp only [Bool.and_eq_true, decide_eq_true_eq] at hok
    exact step_symbol h (.inr (.inl ⟨rfl, hok.1, rfl⟩)) (.inr hok.2) o
  · simp only [Bool.and_eq_true, decide_eq_true_eq] at hok
    exact step_symbol h (.inr (.inr (.inl ⟨rfl, hok.1, rfl⟩))) (.inr hok.2) o
  · simp only [Bool.and_eq_true, decide_eq_true_eq] at hok
    exact step_symbol h (.inr (.inr (.inr (.inl ⟨rfl, hok.1, rfl⟩)))) (.inr hok.2) o
  · cases hok
  · cases hok
  · rename_i h1 h2 h3 h4 h5 h6 h7 h8 h9 h10
    have hs : symbolToken c = none := by
      unfold symbolToken
      split <;> first | rfl | contradiction
    have e1 : Sh.item c enc ats o = (Sh.matchSymbol c ats).map fun ts => (enc, ts, o) := by
      unfold Sh.item
      split <;> first | rfl | contradiction
    have e2 : item E c enc ts o = (matchSymbol c ts).map fun ts => (enc, ts, o) := by
      unfold item
      split <;> first | rfl | contradiction
    rw [e1, e2]
    exact step_symbol (md' := .after) h (.inr (.inr (.inr (.inr hs)))) (.inl hs) o

/-- A row does the same with both. -/
theorem loop_sim {E : ExprParse.Env} (hat : E.isFn (lit "@") = false) {rest : List Tok} {im freg : Bool} : ∀ (k : Nat) (md : Mode) (enc : List Char)
    (ats : List Sh.Tok) (ts : List Tok) (o : Operands), Sim E rest im md ats ts → ok im freg k md enc = true →
    parseLoop E freg k enc ts o = (Sh.parseLoop freg k enc ats o).map fun o => (o, rest)
  | k, md, [], ats, ts, o, h, _ => by
    have e : Sh.parseLoop freg k [] ats o = if ats.isEmpty then some o else none := by cases k <;> simp [Sh.parseLoop]
    rw [e]
    cases h with
    | stop => cases k <;> rfl
    | @imm _ _ es a t l hc _ _ _ =>
      obtain ⟨t, l, rfl, h1, -⟩ := constant_start hc
      cases k <;> cases t <;> first | rfl | cases h1
    | _ => cases k <;> rfl
  | 0, md, c :: enc, ats, ts, o, h, _ => by simp [parseLoop, Sh.parseLoop]
  | k + 1, md, c :: enc, ats, ts, o, h, hok => by
    have hstep := step_item hat h hok o
    have hitem : (match item E c enc ts o with | some (enc, ts, o) => parseLoop E freg k enc ts o | none => none) =
        (match Sh.item c enc ats o with | some (enc, ts, o) => Sh.parseLoop freg k enc ts o | none => none).map fun o => (o, rest) := by
      generalize Sh.item c enc ats o = x, item E c enc ts o = y at hstep
      cases hstep with
      | none => rfl
      | some hs ho => exact loop_sim hat k _ _ _ _ _ hs ho
      | stuck he => exact stuck he k _ _
    rw [parseLoop, Sh.parseLoop]
    cases freg with
    | false => exact hitem
    | true =>
      rcases forced_sim h (c :: enc) with ⟨e1, e2⟩ | ⟨f, a, t, hf, e1, e2, hs⟩
      · simp only [if_true, e1, e2]
        exact hitem
      · simp only [if_true, e1, e2]
        rw [ok, Bool.and_eq_true] at hok
        have h1 := hok.1
        simp only [if_true, hf] at h1
        exact loop_sim hat k _ _ _ _ _ hs h1

end Armips.ShLine
