import Verif.Spec.MipsMacroLine
import Verif.Lemmas.MipsParseRows
/-!
# Lines that are macros and lines that are instructions

No macro takes the text of an instruction or of another macro: the pairs of rows that can have the same name are checked one by one, as for the
instructions.
-/
namespace Armips.MipsParse
open ExprParse (Tok)
open Mips (Slot ImmType SecType Op Operands Version Flag Parsed MacroRow)
open Spec.MipsParse
open Spec.ExprParse (NoCall)

/-- The operand of a letter, as far as it matters for whether a text is taken. -/
def macroElem : Char → Elem
  | 't' => .reg .cpu .grt
  | 'd' => .reg .cpu .grd
  | 's' => .reg .cpu .grs
  | 'S' => .reg .fpu .frs
  | 'i' => .imm .i16
  | 'I' => .imm .i16
  | c => .sym c

theorem macroItem_elem (E : ExprParse.Env) (op : Op) (size : Option Nat) (c : Char) (p : Parsed) (o : Operands) (ts : List Token) :
    (macroItem E c p ts).map Prod.snd = (elem E op size o (macroElem c) ts).map Prod.snd := by
  unfold macroItem macroElem
  split <;> simp only [elem, Option.map_map, Function.comp_def]

theorem macroLoop_none (E : ExprParse.Env) (op : Op) (size : Option Nat) : ∀ (cs : List Char) (ts : List Token) (p : Parsed) (o : Operands),
    params E op size (cs.map macroElem) ts o = none → macroLoop E cs ts p = none
  | [], ts, p, o, h => by
    simp only [List.map_nil] at h
    unfold params at h
    unfold macroLoop
    split at h <;> simp_all
  | c :: cs, ts, p, o, h => by
    rw [List.map_cons, params] at h
    rw [macroLoop]
    have := macroItem_elem E op size c p o ts
    cases hm : macroItem E c p ts with
    | none => rfl
    | some r =>
      rw [hm] at this
      cases he : elem E op size o (macroElem c) ts with
      | none => rw [he] at this; cases this
      | some r' =>
        rw [he] at this h
        simp only [Option.map_some, Option.some.injEq] at this
        simp only at h ⊢
        rw [this]
        exact macroLoop_none E op size cs r'.2 r.1 r'.1 h

/-! ### A text that is written is read -/

theorem number_nat (n : Nat) : number (n : Int) = some n := by
  unfold number
  rw [if_neg (by omega)]
  simp

theorem macroItem_reads {E : ExprParse.Env} {c : Char} {ts rest : List Token} {p p' : Parsed} (h : MacroPart E c ts p p')
    (hf : follow (macroElem c) rest) (hn : c = 'i' ∨ c = 'I' → NoCall E (ts.map Prod.fst) (rest.map Prod.fst)) :
    macroItem E c p (ts ++ rest) = some (p', rest) := by
  cases h with
  | grs hr => simp only [macroItem, register_iff.2 ⟨_, hr, rfl⟩, Option.map_some, number_nat]
  | grt hr => simp only [macroItem, register_iff.2 ⟨_, hr, rfl⟩, Option.map_some, number_nat]
  | grd hr => simp only [macroItem, register_iff.2 ⟨_, hr, rfl⟩, Option.map_some, number_nat]
  | frs hr => simp only [macroItem, register_iff.2 ⟨_, hr, rfl⟩, Option.map_some, number_nat]
  | prim hi => simp only [macroItem, immediate_reads hi hf (hn (.inl rfl)), Option.map_some]
  | sec hi => simp only [macroItem, immediate_reads hi hf (hn (.inr rfl)), Option.map_some]
  | comma => rfl
  | lparen => rfl
  | rparen => rfl

/-- The text of a macro is a text of the operands that the letters stand for. -/
theorem macroPart_part {E : ExprParse.Env} {c : Char} {ts : List Token} {p p' : Parsed} (op : Op) (size : Option Nat) (o : Operands)
    (h : MacroPart E c ts p p') : ∃ o', Part E op size (macroElem c) ts o o' := by
  cases h with
  | grs hr => exact ⟨_, .reg hr⟩
  | grt hr => exact ⟨_, .reg hr⟩
  | grd hr => exact ⟨_, .reg hr⟩
  | frs hr => exact ⟨_, .reg hr⟩
  | prim hi => exact ⟨_, .imm hi⟩
  | sec hi => exact ⟨_, .imm hi⟩
  | comma => exact ⟨_, .comma⟩
  | lparen => exact ⟨_, .lparen⟩
  | rparen => exact ⟨_, .rparen⟩

theorem macroElem_call {E : ExprParse.Env} {c : Char} {ts rest : List Token}
    (h : c = 'i' ∨ c = 'I' → NoCall E (ts.map Prod.fst) (rest.map Prod.fst)) : NotACall E (macroElem c) ts rest := by
  unfold macroElem
  split <;> first | trivial | exact h (.inl rfl) | exact h (.inr rfl)

theorem macroParts_parts {E : ExprParse.Env} {cs : List Char} {ts : List Token} {p p' : Parsed} (op : Op) (size : Option Nat)
    (h : MacroParts E cs ts p p') : ∀ o, ∃ o', Parts E op size (cs.map macroElem) ts o o' := by
  induction h with
  | nil => exact fun o => ⟨o, .nil⟩
  | cons h1 h2 _ ih =>
    intro o
    obtain ⟨o1, ho1⟩ := macroPart_part op size o h1
    obtain ⟨o2, ho2⟩ := ih o1
    exact ⟨o2, .cons ho1 (macroElem_call h2) ho2⟩

theorem noCall_append {E : ExprParse.Env} {c : Char} {ts us : List Token} (h : c = 'i' ∨ c = 'I' → NoCall E (ts.map Prod.fst) (us.map Prod.fst)) (x : Str)
    (rest : List Token) : c = 'i' ∨ c = 'I' → NoCall E (ts.map Prod.fst) ((us ++ (Tok.separator, x) :: rest).map Prod.fst) :=
  fun hc => notACall_append (p := .imm .i16) (h hc) x rest

theorem macroLoop_reads {E : ExprParse.Env} (op : Op) {cs : List Char} {ts : List Token} {p p' : Parsed} (h : MacroParts E cs ts p p')
    (hk : ok (cs.map macroElem) = true) (x : Str) (rest : List Token) : macroLoop E cs (ts ++ (.separator, x) :: rest) p = some (p', rest) := by
  induction h with
  | nil => rfl
  | cons h1 h2 h3 ih =>
    obtain ⟨o1, ho1⟩ := macroParts_parts op none h3 (blank none none)
    have hf := ok_follow ho1 hk x rest
    simp only [List.map_cons, ok, Bool.and_eq_true] at hk
    rw [List.append_assoc, macroLoop, macroItem_reads h1 hf (noCall_append h2 x rest)]
    exact ih hk.1

/-! ### Texts that a macro refuses -/

/-- A macro with the operands `es'` refuses every text of a row with the operands `es`. -/
def refuses : List Elem → List Elem → Bool
  | .imm _ :: _, .reg .cpu _ :: _ => true
  | .reg _ _ :: es', .reg _ _ :: es => refuses es' es
  | .sym c :: es', .sym c' :: es => c == c' && refuses es' es
  | es', es => clash es' es

theorem reg_takes {c c' : Cls} {n : Nat} {ts : List Token} (h : Reg c n ts) (rest : List Token) :
    register c' (ts ++ rest) = none ∨ ∃ k, register c' (ts ++ rest) = some (k, rest) := by
  cases h with
  | name h1 h2 =>
    have : ∀ (a : Tok × Str) (i : Str), a.1 = .ident i → registerNumber 32 (a :: rest) = none := by
      rintro ⟨a, y⟩ i rfl
      rfl
    simp only [List.cons_append, List.nil_append, register, registerTable]
    split
    · rw [this _ _ rfl]
      simp only
      cases lookup _ c'.names <;> simp
    · cases lookup _ c'.names <;> simp
  | dollar h1 h2 =>
    simp only [List.cons_append, List.nil_append, register, registerTable, registerNumber]
    split <;> cases lookup _ c'.names <;> simp
  | number h1 h2 h3 =>
    simp only [List.cons_append, List.nil_append, register, registerTable, registerNumber]
    split
    · split
      · rename_i e
        split at e
        · injection e with e
          exact .inr ⟨_, by rw [← e]⟩
        · cases e
      · simp
    · simp

theorem refuses_fails {E : ExprParse.Env} {op op' : Op} {size size' : Option Nat} {es' : List Elem} :
    ∀ {es : List Elem}, refuses es' es = true → ∀ {ts : List Token} {o o2 u : Operands}, ok es = true → Parts E op size es ts o o2 →
    ∀ (x : Str) (rest : List Token), params E op' size' es' (ts ++ (.separator, x) :: rest) u = none := by
  induction es' with
  | nil =>
    intro es hc ts o o2 u hk h x rest
    rw [refuses.eq_def] at hc
    exact clash_fails hc hk h x rest
  | cons e' es' ih =>
    intro es hc ts o o2 u hk h x rest
    rw [refuses.eq_def] at hc
    split at hc
    · rename_i e; cases e
      cases h with
      | cons h1 _ _ =>
        cases h1 with
        | reg hr =>
          refine params_none ?_
          obtain ⟨⟨t, y⟩, r, rfl, ht⟩ := reg_shape hr
          have hl : ∀ l : List Token, isRegister (((t, y) :: r) ++ l) = true := by
            intro l
            have h2 := (register_iff (rest := l)).2 ⟨_, hr, rfl⟩
            unfold isRegister
            split
            · rename_i e
              simp only [List.cons_append, List.cons.injEq, Prod.mk.injEq] at e
              obtain ⟨⟨rfl, -⟩, -⟩ := e
              rcases ht with ⟨k, hk⟩ | hk <;> cases hk
            · rw [h2]; rfl
          rw [elem, List.append_assoc]
          unfold immediate
          rw [if_pos (hl _)]
          rfl
    · rename_i e; cases e
      cases h with
      | cons h1 _ h3 =>
        simp only [ok, Bool.and_eq_true] at hk
        cases h1 with
        | reg hr =>
          rename_i c1 s1 c2 s2 es ts r ha n
          rw [List.append_assoc, params, elem]
          rcases reg_takes (c' := c1) hr (r ++ (Tok.separator, x) :: rest) with hn | ⟨k, hn⟩
          · rw [hn]; rfl
          · rw [hn]
            exact ih hc hk.1 h3 x rest
    · rename_i e; cases e
      simp only [Bool.and_eq_true] at hc
      cases h with
      | cons h1 h2 h3 =>
        have hf := ok_follow h3 hk x rest
        simp only [ok, Bool.and_eq_true] at hk
        rw [List.append_assoc, params]
        rcases lock_takes (op' := op') (size' := size') (u := u) (p' := .sym _) h1 hc.1 hf (notACall_append h2 x rest) with hn | ⟨u', hn⟩
        · rw [hn]
        · rw [hn]
          exact ih hc.2 hk.1 h3 x rest
    · exact clash_fails hc hk h x rest

/-! ### The table of macros -/

/-- The first letters, the names and the operands of the macros. -/
def macroTable : List (Nat × List Nat × List Elem) := [
  (6382195, [97, 98, 115], [.reg .cpu .grd, .sym ',', .reg .cpu .grs]),
  (6578530, [100, 97, 98, 115], [.reg .cpu .grd, .sym ',', .reg .cpu .grs]),
  (27753, [108, 105], [.reg .cpu .grs, .sym ',', .imm .i16]),
  (7104814, [108, 105, 46, 117], [.reg .cpu .grs, .sym ',', .imm .i16]),
  (7104814, [108, 105, 46, 108], [.reg .cpu .grs, .sym ',', .imm .i16]),
  (27745, [108, 97], [.reg .cpu .grs, .sym ',', .imm .i16]),
  (7102766, [108, 97, 46, 117], [.reg .cpu .grs, .sym ',', .imm .i16]),
  (7102766, [108, 97, 46, 108], [.reg .cpu .grs, .sym ',', .imm .i16]),
  (7104814, [108, 105, 46, 115], [.reg .fpu .frs, .sym ',', .imm .i16]),
  (27746, [108, 98], [.reg .cpu .grs, .sym ',', .imm .i16]),
  (7103093, [108, 98, 117], [.reg .cpu .grs, .sym ',', .imm .i16]),
  (27752, [108, 104], [.reg .cpu .grs, .sym ',', .imm .i16]),
  (7104629, [108, 104, 117], [.reg .cpu .grs, .sym ',', .imm .i16]),
  (27767, [108, 119], [.reg .cpu .grs, .sym ',', .imm .i16]),
  (7108469, [108, 119, 117], [.reg .cpu .grs, .sym ',', .imm .i16]),
  (27748, [108, 100], [.reg .cpu .grs, .sym ',', .imm .i16]),
  (27756, [108, 108], [.reg .cpu .grs, .sym ',', .imm .i16]),
  (7105636, [108, 108, 100], [.reg .cpu .grs, .sym ',', .imm .i16]),
  (7108451, [108, 119, 99, 49], [.reg .fpu .frs, .sym ',', .imm .i16]),
  (7089779, [108, 46, 115], [.reg .fpu .frs, .sym ',', .imm .i16]),
  (7108451, [108, 119, 99, 50], [.reg .fpu .frs, .sym ',', .imm .i16]),
  (7103587, [108, 100, 99, 49], [.reg .fpu .frs, .sym ',', .imm .i16]),
  (7089764, [108, 46, 100], [.reg .fpu .frs, .sym ',', .imm .i16]),
  (7103587, [108, 100, 99, 50], [.reg .fpu .frs, .sym ',', .imm .i16]),
  (7103022, [108, 98, 46, 117], [.reg .cpu .grs, .sym ',', .imm .i16]),
  (7103093, [108, 98, 117, 46, 117], [.reg .cpu .grs, .sym ',', .imm .i16]),
  (7104558, [108, 104, 46, 117], [.reg .cpu .grs, .sym ',', .imm .i16]),
  (7104629, [108, 104, 117, 46, 117], [.reg .cpu .grs, .sym ',', .imm .i16]),
  (7108398, [108, 119, 46, 117], [.reg .cpu .grs, .sym ',', .imm .i16]),
  (7108469, [108, 119, 117, 46, 117], [.reg .cpu .grs, .sym ',', .imm .i16]),
  (7103534, [108, 100, 46, 117], [.reg .cpu .grs, .sym ',', .imm .i16]),
  (7105582, [108, 108, 46, 117], [.reg .cpu .grs, .sym ',', .imm .i16]),
  (7105636, [108, 108, 100, 46, 117], [.reg .cpu .grs, .sym ',', .imm .i16]),
  (7108451, [108, 119, 99, 49, 46, 117], [.reg .fpu .frs, .sym ',', .imm .i16]),
  (7089779, [108, 46, 115, 46, 117], [.reg .fpu .frs, .sym ',', .imm .i16]),
  (7108451, [108, 119, 99, 50, 46, 117], [.reg .fpu .frs, .sym ',', .imm .i16]),
  (7103587, [108, 100, 99, 49, 46, 117], [.reg .fpu .frs, .sym ',', .imm .i16]),
  (7089764, [108, 46, 100, 46, 117], [.reg .fpu .frs, .sym ',', .imm .i16]),
  (7103587, [108, 100, 99, 50, 46, 117], [.reg .fpu .frs, .sym ',', .imm .i16]),
  (7103022, [108, 98, 46, 108], [.reg .cpu .grs, .sym ',', .imm .i16]),
  (7103093, [108, 98, 117, 46, 108], [.reg .cpu .grs, .sym ',', .imm .i16]),
  (7104558, [108, 104, 46, 108], [.reg .cpu .grs, .sym ',', .imm .i16]),
  (7104629, [108, 104, 117, 46, 108], [.reg .cpu .grs, .sym ',', .imm .i16]),
  (7108398, [108, 119, 46, 108], [.reg .cpu .grs, .sym ',', .imm .i16]),
  (7108469, [108, 119, 117, 46, 108], [.reg .cpu .grs, .sym ',', .imm .i16]),
  (7103534, [108, 100, 46, 108], [.reg .cpu .grs, .sym ',', .imm .i16]),
  (7105582, [108, 108, 46, 108], [.reg .cpu .grs, .sym ',', .imm .i16]),
  (7105636, [108, 108, 100, 46, 108], [.reg .cpu .grs, .sym ',', .imm .i16]),
  (7108451, [108, 119, 99, 49, 46, 108], [.reg .fpu .frs, .sym ',', .imm .i16]),
  (7089779, [108, 46, 115, 46, 108], [.reg .fpu .frs, .sym ',', .imm .i16]),
  (7108451, [108, 119, 99, 50, 46, 108], [.reg .fpu .frs, .sym ',', .imm .i16]),
  (7103587, [108, 100, 99, 49, 46, 108], [.reg .fpu .frs, .sym ',', .imm .i16]),
  (7089764, [108, 46, 100, 46, 108], [.reg .fpu .frs, .sym ',', .imm .i16]),
  (7103587, [108, 100, 99, 50, 46, 108], [.reg .fpu .frs, .sym ',', .imm .i16]),
  (7695464, [117, 108, 104], [.reg .cpu .grd, .sym ',', .imm .i16, .sym '(', .reg .cpu .grs, .sym ')']),
  (7695464, [117, 108, 104], [.reg .cpu .grd, .sym ',', .sym '(', .reg .cpu .grs, .sym ')']),
  (7695464, [117, 108, 104, 117], [.reg .cpu .grd, .sym ',', .imm .i16, .sym '(', .reg .cpu .grs, .sym ')']),
  (7695464, [117, 108, 104, 117], [.reg .cpu .grd, .sym ',', .sym '(', .reg .cpu .grs, .sym ')']),
  (7695479, [117, 108, 119], [.reg .cpu .grd, .sym ',', .imm .i16, .sym '(', .reg .cpu .grs, .sym ')']),
  (7695479, [117, 108, 119], [.reg .cpu .grd, .sym ',', .sym '(', .reg .cpu .grs, .sym ')']),
  (7695460, [117, 108, 100], [.reg .cpu .grd, .sym ',', .imm .i16, .sym '(', .reg .cpu .grs, .sym ')']),
  (7695460, [117, 108, 100], [.reg .cpu .grd, .sym ',', .sym '(', .reg .cpu .grs, .sym ')']),
  (29538, [115, 98], [.reg .cpu .grs, .sym ',', .imm .i16]),
  (29544, [115, 104], [.reg .cpu .grs, .sym ',', .imm .i16]),
  (29559, [115, 119], [.reg .cpu .grs, .sym ',', .imm .i16]),
  (29540, [115, 100], [.reg .cpu .grs, .sym ',', .imm .i16]),
  (29539, [115, 99], [.reg .cpu .grs, .sym ',', .imm .i16]),
  (7562084, [115, 99, 100], [.reg .cpu .grs, .sym ',', .imm .i16]),
  (7567203, [115, 119, 99, 49], [.reg .fpu .frs, .sym ',', .imm .i16]),
  (7548531, [115, 46, 115], [.reg .fpu .frs, .sym ',', .imm .i16]),
  (7567203, [115, 119, 99, 50], [.reg .fpu .frs, .sym ',', .imm .i16]),
  (7562339, [115, 100, 99, 49], [.reg .fpu .frs, .sym ',', .imm .i16]),
  (7548516, [115, 46, 100], [.reg .fpu .frs, .sym ',', .imm .i16]),
  (7562339, [115, 100, 99, 50], [.reg .fpu .frs, .sym ',', .imm .i16]),
  (7561774, [115, 98, 46, 117], [.reg .cpu .grs, .sym ',', .imm .i16]),
  (7563310, [115, 104, 46, 117], [.reg .cpu .grs, .sym ',', .imm .i16]),
  (7567150, [115, 119, 46, 117], [.reg .cpu .grs, .sym ',', .imm .i16]),
  (7562286, [115, 100, 46, 117], [.reg .cpu .grs, .sym ',', .imm .i16]),
  (7562030, [115, 99, 46, 117], [.reg .cpu .grs, .sym ',', .imm .i16]),
  (7562084, [115, 99, 100, 46, 117], [.reg .cpu .grs, .sym ',', .imm .i16]),
  (7567203, [115, 119, 99, 49, 46, 117], [.reg .fpu .frs, .sym ',', .imm .i16]),
  (7548531, [115, 46, 115, 46, 117], [.reg .fpu .frs, .sym ',', .imm .i16]),
  (7567203, [115, 119, 99, 50, 46, 117], [.reg .fpu .frs, .sym ',', .imm .i16]),
  (7562339, [115, 100, 99, 49, 46, 117], [.reg .fpu .frs, .sym ',', .imm .i16]),
  (7548516, [115, 46, 100, 46, 117], [.reg .fpu .frs, .sym ',', .imm .i16]),
  (7562339, [115, 100, 99, 50, 46, 117], [.reg .fpu .frs, .sym ',', .imm .i16]),
  (7561774, [115, 98, 46, 108], [.reg .cpu .grs, .sym ',', .imm .i16]),
  (7563310, [115, 104, 46, 108], [.reg .cpu .grs, .sym ',', .imm .i16]),
  (7567150, [115, 119, 46, 108], [.reg .cpu .grs, .sym ',', .imm .i16]),
  (7562286, [115, 100, 46, 108], [.reg .cpu .grs, .sym ',', .imm .i16]),
  (7562030, [115, 99, 46, 108], [.reg .cpu .grs, .sym ',', .imm .i16]),
  (7562084, [115, 99, 100, 46, 108], [.reg .cpu .grs, .sym ',', .imm .i16]),
  (7567203, [115, 119, 99, 49, 46, 108], [.reg .fpu .frs, .sym ',', .imm .i16]),
  (7548531, [115, 46, 115, 46, 108], [.reg .fpu .frs, .sym ',', .imm .i16]),
  (7567203, [115, 119, 99, 50, 46, 108], [.reg .fpu .frs, .sym ',', .imm .i16]),
  (7562339, [115, 100, 99, 49, 46, 108], [.reg .fpu .frs, .sym ',', .imm .i16]),
  (7548516, [115, 46, 100, 46, 108], [.reg .fpu .frs, .sym ',', .imm .i16]),
  (7562339, [115, 100, 99, 50, 46, 108], [.reg .fpu .frs, .sym ',', .imm .i16]),
  (7697256, [117, 115, 104], [.reg .cpu .grd, .sym ',', .imm .i16, .sym '(', .reg .cpu .grs, .sym ')']),
  (7697256, [117, 115, 104], [.reg .cpu .grd, .sym ',', .sym '(', .reg .cpu .grs, .sym ')']),
  (7697271, [117, 115, 119], [.reg .cpu .grd, .sym ',', .imm .i16, .sym '(', .reg .cpu .grs, .sym ')']),
  (7697271, [117, 115, 119], [.reg .cpu .grd, .sym ',', .sym '(', .reg .cpu .grs, .sym ')']),
  (7697252, [117, 115, 100], [.reg .cpu .grd, .sym ',', .imm .i16, .sym '(', .reg .cpu .grs, .sym ')']),
  (7697252, [117, 115, 100], [.reg .cpu .grd, .sym ',', .sym '(', .reg .cpu .grs, .sym ')']),
  (6450292, [98, 108, 116], [.reg .cpu .grs, .sym ',', .reg .cpu .grt, .sym ',', .imm .i16]),
  (6450292, [98, 108, 116], [.reg .cpu .grs, .sym ',', .imm .i16, .sym ',', .imm .i16]),
  (6449012, [98, 103, 116], [.reg .cpu .grs, .sym ',', .reg .cpu .grt, .sym ',', .imm .i16]),
  (6449012, [98, 103, 116], [.reg .cpu .grs, .sym ',', .imm .i16, .sym ',', .imm .i16]),
  (6450292, [98, 108, 116, 117], [.reg .cpu .grs, .sym ',', .reg .cpu .grt, .sym ',', .imm .i16]),
  (6450292, [98, 108, 116, 117], [.reg .cpu .grs, .sym ',', .imm .i16, .sym ',', .imm .i16]),
  (6449012, [98, 103, 116, 117], [.reg .cpu .grs, .sym ',', .reg .cpu .grt, .sym ',', .imm .i16]),
  (6449012, [98, 103, 116, 117], [.reg .cpu .grs, .sym ',', .imm .i16, .sym ',', .imm .i16]),
  (6448997, [98, 103, 101], [.reg .cpu .grs, .sym ',', .reg .cpu .grt, .sym ',', .imm .i16]),
  (6448997, [98, 103, 101], [.reg .cpu .grs, .sym ',', .imm .i16, .sym ',', .imm .i16]),
  (6450277, [98, 108, 101], [.reg .cpu .grs, .sym ',', .reg .cpu .grt, .sym ',', .imm .i16]),
  (6450277, [98, 108, 101], [.reg .cpu .grs, .sym ',', .imm .i16, .sym ',', .imm .i16]),
  (6448997, [98, 103, 101, 117], [.reg .cpu .grs, .sym ',', .reg .cpu .grt, .sym ',', .imm .i16]),
  (6448997, [98, 103, 101, 117], [.reg .cpu .grs, .sym ',', .imm .i16, .sym ',', .imm .i16]),
  (6450277, [98, 108, 101, 117], [.reg .cpu .grs, .sym ',', .reg .cpu .grt, .sym ',', .imm .i16]),
  (6450277, [98, 108, 101, 117], [.reg .cpu .grs, .sym ',', .imm .i16, .sym ',', .imm .i16]),
  (6450789, [98, 110, 101], [.reg .cpu .grs, .sym ',', .imm .i16, .sym ',', .imm .i16]),
  (6448497, [98, 101, 113], [.reg .cpu .grs, .sym ',', .imm .i16, .sym ',', .imm .i16]),
  (6450292, [98, 108, 116, 108], [.reg .cpu .grs, .sym ',', .reg .cpu .grt, .sym ',', .imm .i16]),
  (6450292, [98, 108, 116, 108], [.reg .cpu .grs, .sym ',', .imm .i16, .sym ',', .imm .i16]),
  (6449012, [98, 103, 116, 108], [.reg .cpu .grs, .sym ',', .reg .cpu .grt, .sym ',', .imm .i16]),
  (6449012, [98, 103, 116, 108], [.reg .cpu .grs, .sym ',', .imm .i16, .sym ',', .imm .i16]),
  (6450292, [98, 108, 116, 117, 108], [.reg .cpu .grs, .sym ',', .reg .cpu .grt, .sym ',', .imm .i16]),
  (6450292, [98, 108, 116, 117, 108], [.reg .cpu .grs, .sym ',', .imm .i16, .sym ',', .imm .i16]),
  (6449012, [98, 103, 116, 117, 108], [.reg .cpu .grs, .sym ',', .reg .cpu .grt, .sym ',', .imm .i16]),
  (6449012, [98, 103, 116, 117, 108], [.reg .cpu .grs, .sym ',', .imm .i16, .sym ',', .imm .i16]),
  (6448997, [98, 103, 101, 108], [.reg .cpu .grs, .sym ',', .reg .cpu .grt, .sym ',', .imm .i16]),
  (6448997, [98, 103, 101, 108], [.reg .cpu .grs, .sym ',', .imm .i16, .sym ',', .imm .i16]),
  (6450277, [98, 108, 101, 108], [.reg .cpu .grs, .sym ',', .reg .cpu .grt, .sym ',', .imm .i16]),
  (6450277, [98, 108, 101, 108], [.reg .cpu .grs, .sym ',', .imm .i16, .sym ',', .imm .i16]),
  (6448997, [98, 103, 101, 117, 108], [.reg .cpu .grs, .sym ',', .reg .cpu .grt, .sym ',', .imm .i16]),
  (6448997, [98, 103, 101, 117, 108], [.reg .cpu .grs, .sym ',', .imm .i16, .sym ',', .imm .i16]),
  (6450277, [98, 108, 101, 117, 108], [.reg .cpu .grs, .sym ',', .reg .cpu .grt, .sym ',', .imm .i16]),
  (6450277, [98, 108, 101, 117, 108], [.reg .cpu .grs, .sym ',', .imm .i16, .sym ',', .imm .i16]),
  (6450789, [98, 110, 101, 108], [.reg .cpu .grs, .sym ',', .imm .i16, .sym ',', .imm .i16]),
  (6448497, [98, 101, 113, 108], [.reg .cpu .grs, .sym ',', .imm .i16, .sym ',', .imm .i16]),
  (7564404, [115, 108, 116], [.reg .cpu .grd, .sym ',', .reg .cpu .grs, .sym ',', .imm .i16]),
  (7564404, [115, 108, 116, 117], [.reg .cpu .grd, .sym ',', .reg .cpu .grs, .sym ',', .imm .i16]),
  (7563124, [115, 103, 116], [.reg .cpu .grd, .sym ',', .reg .cpu .grs, .sym ',', .imm .i16]),
  (7563124, [115, 103, 116, 117], [.reg .cpu .grd, .sym ',', .reg .cpu .grs, .sym ',', .imm .i16]),
  (7563109, [115, 103, 101], [.reg .cpu .grd, .sym ',', .reg .cpu .grs, .sym ',', .reg .cpu .grt]),
  (7563109, [115, 103, 101], [.reg .cpu .grd, .sym ',', .reg .cpu .grs, .sym ',', .imm .i16]),
  (7564389, [115, 108, 101], [.reg .cpu .grd, .sym ',', .reg .cpu .grs, .sym ',', .reg .cpu .grt]),
  (7564389, [115, 108, 101], [.reg .cpu .grd, .sym ',', .reg .cpu .grs, .sym ',', .imm .i16]),
  (7563109, [115, 103, 101, 117], [.reg .cpu .grd, .sym ',', .reg .cpu .grs, .sym ',', .reg .cpu .grt]),
  (7563109, [115, 103, 101, 117], [.reg .cpu .grd, .sym ',', .reg .cpu .grs, .sym ',', .imm .i16]),
  (7564389, [115, 108, 101, 117], [.reg .cpu .grd, .sym ',', .reg .cpu .grs, .sym ',', .reg .cpu .grt]),
  (7564389, [115, 108, 101, 117], [.reg .cpu .grd, .sym ',', .reg .cpu .grs, .sym ',', .imm .i16]),
  (7564901, [115, 110, 101], [.reg .cpu .grd, .sym ',', .reg .cpu .grs, .sym ',', .reg .cpu .grt]),
  (7564901, [115, 110, 101], [.reg .cpu .grd, .sym ',', .reg .cpu .grs, .sym ',', .imm .i16]),
  (7562609, [115, 101, 113], [.reg .cpu .grd, .sym ',', .reg .cpu .grs, .sym ',', .reg .cpu .grt]),
  (7562609, [115, 101, 113], [.reg .cpu .grd, .sym ',', .reg .cpu .grs, .sym ',', .imm .i16]),
  (7499628, [114, 111, 108], [.reg .cpu .grd, .sym ',', .reg .cpu .grs, .sym ',', .reg .cpu .grt]),
  (7499628, [114, 111, 108], [.reg .cpu .grd, .sym ',', .reg .cpu .grs, .sym ',', .imm .i16]),
  (7499634, [114, 111, 114], [.reg .cpu .grd, .sym ',', .reg .cpu .grs, .sym ',', .reg .cpu .grt]),
  (7499634, [114, 111, 114], [.reg .cpu .grd, .sym ',', .reg .cpu .grs, .sym ',', .imm .i16])]

theorem macroTable_eq : (Mips.macros.map fun m => (key (m.name.toList.map Char.toNat), m.name.toList.map Char.toNat, m.args.toList.map macroElem)) = macroTable := by
  decide +kernel

theorem macros_ok : (macroTable.all fun m => ok m.2.2 && m.2.1.all fun c => c < 128 && c != 66 && c != 83) = true := by decide +kernel

set_option maxRecDepth 100000 in
theorem macros_apart : allPairs (fun a b => !a.1.beq b.1 || !(a.2.1 == b.2.1) || refuses a.2.2 b.2.2) macroTable = true := by decide +kernel

set_option maxRecDepth 100000 in
theorem macros_instructions : (rowKeys.zip rowTable).all (fun r => macroTable.all fun m => !r.1.beq m.1 || !overlap m.2.1 r.2.1 || refuses m.2.2 r.2.2) = true := by
  decide +kernel

/-- A macro in the table. -/
def macroOf (m : MacroRow) : Nat × List Nat × List Elem :=
  (key (m.name.toList.map Char.toNat), m.name.toList.map Char.toNat, m.args.toList.map macroElem)

theorem macroTable_map : macroTable = Mips.macros.map macroOf := macroTable_eq.symm

theorem macro_mem {m : MacroRow} (h : m ∈ Mips.macros) : ok (m.args.toList.map macroElem) = true ∧ (∀ c ∈ m.name.toList, c.toNat < 128 ∧ c ≠ 'B' ∧ c ≠ 'S') := by
  have := List.all_eq_true.1 macros_ok (macroOf m) (by rw [macroTable_map]; exact List.mem_map_of_mem h)
  simp only [macroOf, Bool.and_eq_true, List.all_eq_true, decide_eq_true_eq, bne_iff_ne, ne_eq, List.mem_map, forall_exists_index, and_imp,
    forall_apply_eq_imp_iff₂] at this
  refine ⟨this.1, fun c hc => ?_⟩
  obtain ⟨⟨h1, h2⟩, h3⟩ := this.2 c hc
  exact ⟨h1, fun e => h2 (by rw [e]; rfl), fun e => h3 (by rw [e]; rfl)⟩

theorem lit_inj_ascii : ∀ {l l' : List Char}, (∀ c ∈ l, c.toNat < 128) → (∀ c ∈ l', c.toNat < 128) → l.map chr = l'.map chr → l = l'
  | [], [], _, _, _ => rfl
  | [], _ :: _, _, _, h => by cases h
  | _ :: _, [], _, _, h => by cases h
  | a :: l, b :: l', h1, h2, h => by
    simp only [List.map_cons, List.cons.injEq] at h
    rw [chr_eq (h1 a (by simp)) (h2 b (by simp)) h.1, lit_inj_ascii (fun c hc => h1 c (by simp [hc])) (fun c hc => h2 c (by simp [hc])) h.2]

/-- A name without patterns stands for itself. -/
theorem decodeName_self : ∀ {l : List Char}, (∀ c ∈ l, c ≠ 'B' ∧ c ≠ 'S') → ∀ x, decodeName l (l.map chr) x = some x
  | [], _, _ => rfl
  | c :: l, h, x => by
    have hc := h c (by simp)
    rw [List.map_cons, decodeName.eq_def]
    simp only [hc.1, hc.2, if_false, if_true]
    exact decodeName_self (fun c hc => h c (by simp [hc])) x

/-! ### Lines -/

/-- A macro is read as it is written. -/
theorem macroLine_reads {E : ExprParse.Env} {m : MacroRow} {ts : List Token} {p : Parsed} (hm : m ∈ Mips.macros) (h : MacroText E m ts p) (x y : Str)
    (rest : List Token) : macroLine E ((.ident (lit m.name), x) :: (ts ++ (.separator, y) :: rest)) = some ((m, p), rest) := by
  obtain ⟨hok, hasc⟩ := macro_mem hm
  obtain ⟨op⟩ : Nonempty Op := ⟨Mips.opcodes.head (by decide +kernel)⟩
  obtain ⟨s, t, hst⟩ := List.append_of_mem hm
  unfold macroLine
  rw [hst]
  apply findSome_first
  · intro m' hm'
    have hmem : m' ∈ Mips.macros := by rw [hst]; simp [hm']
    obtain ⟨-, hasc'⟩ := macro_mem hmem
    unfold macroRow
    split
    · rename_i hn
      have hn : m.name.toList = m'.name.toList := lit_inj_ascii (fun c hc => (hasc c hc).1) (fun c hc => (hasc' c hc).1) hn
      have ha := macros_apart
      rw [macroTable_map, hst, List.map_append, List.map_cons] at ha
      have ha := allPairs_append ha (macroOf m') (List.mem_map_of_mem hm')
      simp only [macroOf, hn, beq_self_eq_true, Bool.not_true, Bool.or_false, Bool.or_eq_true, Bool.not_eq_true'] at ha
      rcases ha with ha | ha
      · exact absurd (Nat.beq_refl _) (by rw [ha]; decide)
      · obtain ⟨o', ho'⟩ := macroParts_parts op none h (blank none none)
        rw [macroLoop_none E op none _ _ _ (blank none none) (refuses_fails ha hok ho' y rest)]
        rfl
    · rfl
  · unfold macroRow
    rw [if_pos rfl, macroLoop_reads op h hok]
    rfl

/-- No macro takes an instruction. -/
theorem macroLine_instruction {E : ExprParse.Env} {op : Op} {name : Str} {ts : List Token} {o : Operands} (hm : op ∈ Mips.opcodes)
    (h : Text E op name ts o) (x y : Str) (rest : List Token) : macroLine E ((.ident name, x) :: (ts ++ (.separator, y) :: rest)) = none := by
  obtain ⟨ps, size, cond, hmask, hn, hp⟩ := h
  obtain ⟨es, he, hq, hok, hkey, hasc, hro⟩ := row_mem hm
  have hps : elements op.mask.toList = some ps := by rw [hmask]; exact parts_elements hp (hmask ▸ hq)
  have heq : es = ps := Option.some.inj (he.symm.trans hps)
  subst heq
  unfold macroLine
  rw [List.findSome?_eq_none_iff]
  intro m hmm
  obtain ⟨-, hasc'⟩ := macro_mem hmm
  unfold macroRow
  split
  · rename_i hnm
    have hd : decodeName m.name.toList name ⟨none, none⟩ = some ⟨none, none⟩ := by
      rw [hnm]; exact decodeName_self (fun c hc => (hasc' c hc).2) _
    have ho := overlap_of hd (decodeName_of hn ⟨none, none⟩) (fun c hc => (hasc' c hc).1) hasc
    have hk' : plainKey (m.name.toList.map Char.toNat) = true := by
      unfold plainKey
      rw [List.all_eq_true]
      intro c hc
      obtain ⟨d, hd, rfl⟩ := List.mem_map.1 (List.mem_of_mem_take hc)
      have := (hasc' d hd).2
      simp only [Bool.and_eq_true, bne_iff_ne, ne_eq]
      exact ⟨fun e => this.1 (Char.ext (UInt32.toNat_inj.1 e)), fun e => this.2 (Char.ext (UInt32.toNat_inj.1 e))⟩
    have hk := overlap_key ho hk' hkey
    have ha := macros_instructions
    rw [keys_map, rowTable_map, zip_map_two, List.all_map, List.all_eq_true] at ha
    have ha := List.all_eq_true.1 (ha op hm) (macroOf m) (by rw [macroTable_map]; exact List.mem_map_of_mem hmm)
    have ho' : overlap (m.name.toList.map Char.toNat) (nameOf op) = true := ho
    simp only [macroOf, he, Option.getD_some, ho', Bool.not_true, Bool.or_false, Bool.or_eq_true, Bool.not_eq_true'] at ha
    rcases ha with ha | ha
    · rw [hk] at ha
      exact absurd (Nat.beq_refl _) (by unfold nameOf at ha; rw [ha]; decide)
    · rw [macroLoop_none E op none _ _ _ (blank none none) (refuses_fails ha hok hp y rest)]
      rfl
  · rfl

end Armips.MipsParse
