import Verif.Model.Expand
import Verif.Spec.Expand
import Verif.Lemmas.SymbolTable
/-!
# Lemmas about the replacement of tokens
-/
namespace Armips.Expand
open ExprParse (Tok)
open Spec.Expand

/-- The value of a name as the tokenizer finds it. -/
def found (S : State) (C : Place) (n : Str) : Option (List Tok) :=
  match S.symbols.findEquation n C.file C.section_ with
  | some i => S.values[i]?
  | none => none

/-! ## Expansion -/

theorem expansion_append {E : Str → Option (List Tok)} {a b a' b' : List Tok} (h₁ : Expansion E a a') (h₂ : Expansion E b b') :
    Expansion E (a ++ b) (a' ++ b') := by
  induction h₁ with
  | nil => exact h₂
  | keep h _ ih => exact .keep h ih
  | subst h hv _ _ ih => rw [List.append_assoc]; exact .subst h hv ih

theorem expansion_split {E : Str → Option (List Tok)} {x c : List Tok} (h : Expansion E x c) :
    ∀ {a b : List Tok}, x = a ++ b → ∃ a' b', c = a' ++ b' ∧ Expansion E a a' ∧ Expansion E b b' := by
  induction h with
  | nil =>
    intro a b hx
    have := List.append_eq_nil_iff.mp hx.symm
    rw [this.1, this.2]; exact ⟨[], [], rfl, .nil, .nil⟩
  | @keep t ts ts' hk h ih =>
    intro a b hx
    cases a with
    | nil => exact ⟨[], t :: ts', rfl, .nil, by rw [List.nil_append] at hx; rw [← hx]; exact .keep hk h⟩
    | cons y a =>
      simp only [List.cons_append, List.cons.injEq] at hx
      obtain ⟨a', b', hc, h₁, h₂⟩ := ih hx.2
      exact ⟨t :: a', b', by rw [hc]; rfl, by rw [← hx.1]; exact .keep hk h₁, h₂⟩
  | @subst n v v' ts ts' hv h₁ h₂ _ ih =>
    intro a b hx
    cases a with
    | nil => exact ⟨[], v' ++ ts', rfl, .nil, by rw [List.nil_append] at hx; rw [← hx]; exact .subst hv h₁ h₂⟩
    | cons y a =>
      simp only [List.cons_append, List.cons.injEq] at hx
      obtain ⟨a', b', hc, h₃, h₄⟩ := ih hx.2
      exact ⟨v' ++ a', b', by rw [hc, List.append_assoc], by rw [← hx.1]; exact .subst hv h₁ h₃, h₄⟩

theorem expansion_unique {E : Str → Option (List Tok)} {ts a : List Tok} (h₁ : Expansion E ts a) : ∀ {b}, Expansion E ts b → a = b := by
  induction h₁ with
  | nil => intro b h₂; cases h₂; rfl
  | keep hk _ ih =>
    intro b h₂
    cases h₂ with
    | keep _ h => rw [ih h]
    | subst hv _ _ => rw [hk _ rfl] at hv; cases hv
  | subst hv _ _ ih₁ ih₂ =>
    intro b h₂
    cases h₂ with
    | keep hk _ => rw [hk _ rfl] at hv; cases hv
    | subst hv' h h' =>
      rw [hv] at hv'; cases hv'
      rw [ih₁ h, ih₂ h']

theorem expansion_self {E : Str → Option (List Tok)} : ∀ {ts : List Tok}, (∀ n, .ident n ∈ ts → E n = none) → Expansion E ts ts
  | [], _ => .nil
  | t :: ts, h => .keep (fun n hn => h n (by rw [hn]; exact List.mem_cons_self)) (expansion_self fun n hn => h n (List.mem_cons_of_mem _ hn))

/-! ## Names without capitals -/

theorem small_lower {n : Str} (h : Small n) : n.map lower = n := by
  induction n with
  | nil => rfl
  | cons b n ih =>
    rw [List.map_cons, ih fun x hx => h x (List.mem_cons_of_mem _ hx)]
    have := h b List.mem_cons_self
    unfold lower
    rw [if_neg this]

/-! ## Rounds -/

theorem fresh_append (a b : List Tok) : fresh (a ++ b) = fresh a ++ fresh b := List.map_append
theorem fresh_cons (a : Tok) (b : List Tok) : fresh (a :: b) = ⟨a, false⟩ :: fresh b := rfl

theorem round_ident (S : State) (C : Place) (n : Str) (ts : List CTok) : round S C [] (⟨.ident n, false⟩ :: ts) = equRound S C n ts := rfl

theorem round_other (S : State) (C : Place) (R : List Replacement) (t : Tok) (ts : List CTok) (h : ∀ n, t ≠ .ident n) :
    round S C R (⟨t, false⟩ :: ts) = .done (⟨t, true⟩ :: ts) := by
  cases t <;> first | rfl | exact absurd rfl (h _)

theorem equRound_free {S : State} {C : Place} {n : Str} {ts : List CTok} (h : S.symbols.findEquation n C.file C.section_ = none) :
    equRound S C n ts = .done (⟨.ident n, true⟩ :: ts) := by
  simp only [equRound, h]

theorem equRound_before {S : State} {C : Place} {n : Str} {ts : List CTok} {i : Nat} (h : S.symbols.findEquation n C.file C.section_ = some i)
    (he : ts.head?.map CTok.tok = some .equ) : equRound S C n ts = .done (⟨.ident n, false⟩ :: ts) := by
  simp only [equRound, h, he, if_true]

theorem equRound_value {S : State} {C : Place} {n : Str} {ts : List CTok} {i : Nat} {v : List Tok}
    (h : S.symbols.findEquation n C.file C.section_ = some i) (he : ¬ts.head?.map CTok.tok = some .equ) (hv : S.values[i]? = some v) (hn : v ≠ []) :
    equRound S C n ts = .again (fresh v ++ ts) := by
  cases v with
  | nil => exact absurd rfl hn
  | cons a v => simp only [equRound, h, if_neg he, hv]

/-! ## Reading -/

theorem ticks_add (S : State) (C : Place) (R : List Replacement) (a b : Nat) (r : Reader) :
    ticks S C R (a + b) r = ticks S C R b (ticks S C R a r) := by
  induction a generalizing r with
  | zero => rw [Nat.zero_add]; rfl
  | succ a ih => rw [Nat.succ_add]; simp only [ticks]; exact ih _

theorem tick_done {S : State} {C : Place} {R : List Replacement} {t u : CTok} {ts us : List CTok} {got : List Tok}
    (h : round S C R (t :: ts) = .done (u :: us)) : tick S C R (.at got (t :: ts)) = .at (got ++ [u.tok]) us := by
  simp only [tick, h]

theorem tick_again {S : State} {C : Place} {R : List Replacement} {t : CTok} {ts us : List CTok} {got : List Tok}
    (h : round S C R (t :: ts) = .again us) : tick S C R (.at got (t :: ts)) = .at got us := by
  simp only [tick, h]

/-- Values mention only names that were defined later. -/
def Ranked (S : State) (C : Place) : Prop :=
  ∀ i v m j, S.values[i]? = some v → .ident m ∈ v → S.symbols.findEquation m C.file C.section_ = some j → i < j

/-- Equations have values. -/
def Sound (S : State) (C : Place) : Prop := ∀ n i, S.symbols.findEquation n C.file C.section_ = some i → i < S.values.length

theorem head_append (a : List Tok) (rest : List CTok) (ha : .equ ∉ a) (hr : rest.head?.map CTok.tok ≠ some .equ) :
    (fresh a ++ rest).head?.map CTok.tok ≠ some .equ := by
  cases a with
  | nil => exact hr
  | cons x a =>
    intro h
    apply ha
    have : x = .equ := by simpa [fresh] using h
    rw [this]; exact List.mem_cons_self

theorem read_ranked {S : State} {C : Place} (hs : Sound S C) (hr : Ranked S C) (hn : [] ∉ S.values) (hq : ∀ v ∈ S.values, .equ ∉ v) :
    ∀ (k : Nat) (v : List Tok), (∀ n i, .ident n ∈ v → S.symbols.findEquation n C.file C.section_ = some i → S.values.length ≤ i + k) →
      ∀ (got : List Tok) (rest : List CTok), ∃ (n : Nat) (out : List Tok), ticks S C [] n (.at got (fresh v ++ rest)) = .at (got ++ out) rest ∧
        (.equ ∉ v → rest.head?.map CTok.tok ≠ some .equ → Expansion (found S C) v out ∧ ∀ m, .ident m ∈ out → found S C m = none) := by
  intro k
  induction k with
  | zero =>
    intro v
    induction v with
    | nil => intro _ got rest; exact ⟨0, [], by rw [List.append_nil]; rfl, fun _ _ => ⟨.nil, fun _ hm => by cases hm⟩⟩
    | cons t v ih =>
      intro h got rest
      have hdone : round S C [] (⟨t, false⟩ :: (fresh v ++ rest)) = .done (⟨t, true⟩ :: (fresh v ++ rest)) ∧ (∀ n, t = .ident n → found S C n = none) := by
        by_cases ht : ∃ n, t = .ident n
        · obtain ⟨n, rfl⟩ := ht
          have hf : S.symbols.findEquation n C.file C.section_ = none := by
            cases hf : S.symbols.findEquation n C.file C.section_ with
            | none => rfl
            | some i =>
              have h1 := h n i List.mem_cons_self hf
              have h2 := hs n i hf
              omega
          refine ⟨by rw [round_ident, equRound_free hf], ?_⟩
          intro m hm; cases hm
          simp only [found, hf]
        · exact ⟨round_other S C [] t _ fun n hn => ht ⟨n, hn⟩, fun n hn => absurd ⟨n, hn⟩ ht⟩
      obtain ⟨n, out, h1, h2⟩ := ih (fun n i hm => h n i (List.mem_cons_of_mem _ hm)) (got ++ [t]) rest
      refine ⟨n + 1, t :: out, ?_, ?_⟩
      · rw [fresh_cons, List.cons_append]
        simp only [ticks]
        rw [tick_done hdone.1, h1, List.append_assoc]; rfl
      · intro hv hrest
        have := h2 (fun hc => hv (List.mem_cons_of_mem _ hc)) hrest
        refine ⟨.keep hdone.2 this.1, ?_⟩
        intro m hm
        rcases List.mem_cons.mp hm with hm | hm
        · exact hdone.2 m hm.symm
        · exact this.2 m hm
  | succ k ihk =>
    intro v
    induction v with
    | nil => intro _ got rest; exact ⟨0, [], by rw [List.append_nil]; rfl, fun _ _ => ⟨.nil, fun _ hm => by cases hm⟩⟩
    | cons t v ih =>
      intro h got rest
      have htail := ih (fun n i hm => h n i (List.mem_cons_of_mem _ hm))
      by_cases ht : ∃ n i, t = .ident n ∧ S.symbols.findEquation n C.file C.section_ = some i
      · obtain ⟨n, i, rfl, hf⟩ := ht
        by_cases he : (fresh v ++ rest).head?.map CTok.tok = some .equ
        · obtain ⟨m, out, h1, h2⟩ := htail (got ++ [.ident n]) rest
          refine ⟨m + 1, .ident n :: out, ?_, ?_⟩
          · rw [fresh_cons, List.cons_append]
            simp only [ticks]
            rw [tick_done (by rw [round_ident, equRound_before hf he]), h1, List.append_assoc]; rfl
          · intro hv hrest
            exact absurd he (head_append v rest (fun hc => hv (List.mem_cons_of_mem _ hc)) hrest)
        · have hi := hs n i hf
          have hval : S.values[i]? = some S.values[i] := List.getElem?_eq_getElem hi
          have hmem : S.values[i] ∈ S.values := List.getElem_mem hi
          have hne : S.values[i] ≠ [] := fun hc => hn (by rw [← hc]; exact hmem)
          obtain ⟨a, out₁, h1, h2⟩ := ihk S.values[i] (by
            intro m j hm hj
            have := hr i _ m j hval hm hj
            have := h n i List.mem_cons_self hf
            omega) got (fresh v ++ rest)
          obtain ⟨b, out₂, h3, h4⟩ := htail (got ++ out₁) rest
          refine ⟨(a + b) + 1, out₁ ++ out₂, ?_, ?_⟩
          · rw [fresh_cons, List.cons_append]
            simp only [ticks]
            rw [tick_again (by rw [round_ident, equRound_value hf he hval hne]), ticks_add, h1, h3, List.append_assoc]
          · intro hv hrest
            have hv' : .equ ∉ v := fun hc => hv (List.mem_cons_of_mem _ hc)
            have e1 := h2 (hq _ hmem) (head_append v rest hv' hrest)
            have e2 := h4 hv' hrest
            refine ⟨.subst (by simp only [found, hf, hval]) e1.1 e2.1, ?_⟩
            intro m hm
            rcases List.mem_append.mp hm with hm | hm
            · exact e1.2 m hm
            · exact e2.2 m hm
      · have hdone : round S C [] (⟨t, false⟩ :: (fresh v ++ rest)) = .done (⟨t, true⟩ :: (fresh v ++ rest)) ∧
            (∀ n, t = .ident n → found S C n = none) := by
          by_cases ht' : ∃ n, t = .ident n
          · obtain ⟨n, rfl⟩ := ht'
            have hf : S.symbols.findEquation n C.file C.section_ = none := by
              cases hf : S.symbols.findEquation n C.file C.section_ with
              | none => rfl
              | some i => exact absurd ⟨n, i, rfl, hf⟩ ht
            refine ⟨by rw [round_ident, equRound_free hf], ?_⟩
            intro m hm; cases hm
            simp only [found, hf]
          · exact ⟨round_other S C [] t _ fun n hn => ht' ⟨n, hn⟩, fun n hn => absurd ⟨n, hn⟩ ht'⟩
        obtain ⟨n, out, h1, h2⟩ := htail (got ++ [t]) rest
        refine ⟨n + 1, t :: out, ?_, ?_⟩
        · rw [fresh_cons, List.cons_append]
          simp only [ticks]
          rw [tick_done hdone.1, h1, List.append_assoc]; rfl
        · intro hv hrest
          have := h2 (fun hc => hv (List.mem_cons_of_mem _ hc)) hrest
          refine ⟨.keep hdone.2 this.1, ?_⟩
          intro m hm
          rcases List.mem_cons.mp hm with hm | hm
          · exact hdone.2 m hm.symm
          · exact this.2 m hm

/-! ## Definitions -/

theorem upTo_append (a b : List Tok) (h : .separator ∉ a) : upToSeparator (a ++ b) = a ++ upToSeparator b := by
  induction a with
  | nil => rfl
  | cons x a ih =>
    have hx : x ≠ .separator := fun hc => h (by rw [hc]; exact List.mem_cons_self)
    simp only [upToSeparator, List.cons_append, List.takeWhile_cons, decide_eq_true hx, if_true]
    have := ih fun hc => h (List.mem_cons_of_mem _ hc)
    simp only [upToSeparator] at this
    rw [this]

theorem scan_accepted {S : State} {C : Place} {name : Str} (hsep : ∀ v ∈ S.values, .separator ∉ v) :
    ∀ (n : Nat) (ts got v : List Tok), scan S C name n got (fresh ts) = some (.accepted v) →
      ∃ v', v = got ++ v' ∧ Expansion (found S C) (upToSeparator ts) v' ∧ .equ ∉ v' ∧ .separator ∉ v' ∧ .ident name ∉ v' ∧
        (∀ m, .ident m ∈ v' → S.symbols.findEquation m C.file C.section_ = none) ∧
        ((∀ w ∈ S.values, SmallToks w) → SmallToks ts → SmallToks v') := by
  intro n
  induction n with
  | zero => intro ts got v h; cases h
  | succ n ih =>
    intro ts got v h
    cases ts with
    | nil =>
      simp only [fresh, List.map_nil, scan, Option.some.injEq, Scan.accepted.injEq] at h
      exact ⟨[], by rw [List.append_nil, h], .nil, by simp, by simp, by simp, by simp, fun _ _ m hm => by cases hm⟩
    | cons t ts =>
      rw [fresh_cons] at h
      have plain : (∀ n, t = .ident n → S.symbols.findEquation n C.file C.section_ = none) →
          ∃ v', v = got ++ v' ∧ Expansion (found S C) (upToSeparator (t :: ts)) v' ∧ .equ ∉ v' ∧ .separator ∉ v' ∧ .ident name ∉ v' ∧
            (∀ m, .ident m ∈ v' → S.symbols.findEquation m C.file C.section_ = none) ∧
            ((∀ w ∈ S.values, SmallToks w) → SmallToks (t :: ts) → SmallToks v') := by
        intro hfree
        have hd : round S C [] (⟨t, false⟩ :: fresh ts) = .done (⟨t, true⟩ :: fresh ts) := by
          by_cases ht : ∃ n, t = .ident n
          · obtain ⟨n, rfl⟩ := ht
            rw [round_ident, equRound_free (hfree n rfl)]
          · exact round_other S C [] t _ fun n hn => ht ⟨n, hn⟩
        simp only [scan, hd] at h
        by_cases h1 : t = .separator
        · rw [if_pos h1] at h
          simp only [Option.some.injEq, Scan.accepted.injEq] at h
          refine ⟨[], by rw [List.append_nil, h], ?_, by simp, by simp, by simp, by simp, fun _ _ m hm => by cases hm⟩
          rw [h1]; exact .nil
        · rw [if_neg h1] at h
          by_cases h2 : t = .ident name
          · rw [if_pos h2] at h; cases h
          · rw [if_neg h2] at h
            by_cases h3 : t = .equ
            · rw [if_pos h3] at h; cases h
            · rw [if_neg h3] at h
              obtain ⟨v', e, hx, he, hs, hi, hf, hl⟩ := ih ts (got ++ [t]) v h
              refine ⟨t :: v', by rw [e, List.append_assoc]; rfl, ?_, ?_, ?_, ?_, ?_, ?_⟩
              · have : upToSeparator (t :: ts) = t :: upToSeparator ts := by
                  simp only [upToSeparator, List.takeWhile_cons, decide_eq_true h1, if_true]
                rw [this]
                refine .keep ?_ hx
                intro n hn
                simp only [found, hfree n hn]
              · intro hc; rcases List.mem_cons.mp hc with hc | hc
                · exact h3 hc.symm
                · exact he hc
              · intro hc; rcases List.mem_cons.mp hc with hc | hc
                · exact h1 hc.symm
                · exact hs hc
              · intro hc; rcases List.mem_cons.mp hc with hc | hc
                · exact h2 hc.symm
                · exact hi hc
              · intro m hc; rcases List.mem_cons.mp hc with hc | hc
                · exact hfree m hc.symm
                · exact hf m hc
              · intro hw hts m hc; rcases List.mem_cons.mp hc with hc | hc
                · exact hts m (by rw [hc]; exact List.mem_cons_self)
                · exact hl hw (fun m hm => hts m (List.mem_cons_of_mem _ hm)) m hc
      by_cases ht : ∃ m i, t = .ident m ∧ S.symbols.findEquation m C.file C.section_ = some i
      · obtain ⟨m, i, rfl, hf⟩ := ht
        by_cases he : (fresh ts).head?.map CTok.tok = some .equ
        · exfalso
          simp only [scan, round_ident, equRound_before hf he] at h
          rw [if_neg (by simp)] at h
          split at h
          · cases h
          · rw [if_neg (by simp)] at h
            cases ts with
            | nil => cases he
            | cons u us =>
              have hu : u = .equ := by simpa [fresh] using he
              subst hu
              cases n with
              | zero => cases h
              | succ n =>
                rw [fresh_cons] at h
                simp only [scan, round_other S C [] .equ (fresh us) (by intro n hn; cases hn)] at h
                rw [if_neg (by simp), if_neg (by simp), if_pos trivial] at h
                cases h
        · cases hv : S.values[i]? with
          | none =>
            exfalso
            simp only [scan, round_ident, equRound, hf, if_neg he, hv] at h
            cases h
          | some w =>
            cases w with
            | nil =>
              exfalso
              simp only [scan, round_ident, equRound, hf, if_neg he, hv] at h
              cases h
            | cons a w =>
              simp only [scan, round_ident, equRound_value hf he hv (by simp)] at h
              rw [← fresh_append] at h
              have hmem : (a :: w) ∈ S.values := List.mem_of_getElem? hv
              obtain ⟨v', e, hx, h1, h2, h3, h4, h5⟩ := ih ((a :: w) ++ ts) got v h
              refine ⟨v', e, ?_, h1, h2, h3, h4, ?_⟩
              · rw [upTo_append _ _ (hsep _ hmem)] at hx
                obtain ⟨p, q, hpq, hp, hq⟩ := expansion_split hx rfl
                have : upToSeparator (.ident m :: ts) = .ident m :: upToSeparator ts := by
                  simp only [upToSeparator, List.takeWhile_cons, decide_eq_true (show Tok.ident m ≠ .separator by simp), if_true]
                rw [this, hpq]
                exact .subst (by simp only [found, hf, hv]) hp hq
              · intro hw hts
                refine h5 hw ?_
                intro x hx'
                rcases List.mem_append.mp hx' with hx' | hx'
                · exact hw _ hmem x hx'
                · exact hts x (List.mem_cons_of_mem _ hx')
      · refine plain ?_
        intro n hn
        cases hf : S.symbols.findEquation n C.file C.section_ with
        | none => rfl
        | some i => exact absurd ⟨n, i, hn, hf⟩ ht

/-! ## Histories -/

theorem key_lower {n : Str} (h : Small n) (f s : Int) : (SymTab.key n f s).name = n := small_lower h

/-- The value of a name as the tokenizer found it before the definition number `i`. -/
def foundBefore (S : State) (C : Place) (i : Nat) (n : Str) : Option (List Tok) :=
  match S.symbols.findEquation n C.file C.section_ with
  | some j => if j < i then S.values[j]? else none
  | none => none

theorem findEquation_iff {t : SymTab} {n : Str} {f s : Int} {i : Nat} :
    t.findEquation n f s = some i ↔ t.symbols (SymTab.key n f s) = some (.equation i) := by
  unfold SymTab.findEquation
  cases h : t.symbols (SymTab.key n f s) with
  | none => simp
  | some x => cases x <;> simp

/-- What is kept by all that happens to the definitions. -/
structure Inv (ds : List Def) (S : State) : Prop where
  len : S.values.length = ds.length
  bound : ∀ k i, S.symbols.symbols k = some (.equation i) → ∃ d, ds[i]? = some d ∧ k = SymTab.key d.name d.file d.section_
  made : ∀ i d, ds[i]? = some d → S.symbols.symbols (SymTab.key d.name d.file d.section_) = some (.equation i)
  later : ∀ i d v m j, ds[i]? = some d → S.values[i]? = some v → .ident m ∈ v →
    S.symbols.findEquation m d.file d.section_ = some j → i < j
  noEqu : ∀ v ∈ S.values, .equ ∉ v
  noSep : ∀ v ∈ S.values, .separator ∉ v
  small : ∀ v ∈ S.values, SmallToks v
  smallNames : ∀ d ∈ ds, Small d.name
  smallValues : ∀ d ∈ ds, SmallToks d.value
  stored : ∀ i d v, ds[i]? = some d → S.values[i]? = some v → Expansion (foundBefore S ⟨d.file, d.section_⟩ i) d.value v

theorem inv_start : Inv [] {} where
  len := rfl
  bound := fun k i h => by cases h
  made := fun i d h => by cases h
  later := fun i d v m j h => by cases h
  noEqu := fun v h => by cases h
  noSep := fun v h => by cases h
  small := fun v h => by cases h
  smallNames := fun v h => by cases h
  smallValues := fun v h => by cases h
  stored := fun i d v h => by cases h

theorem getLabel_equation (t : SymTab) (n : Str) (f s : Int) (k : SymbolKey) (i : Nat) :
    (t.getLabel n f s).1.symbols k = some (.equation i) ↔ t.symbols k = some (.equation i) := by
  unfold SymTab.getLabel
  split
  · rfl
  · cases h : t.symbols (SymTab.key n f s) with
    | some x => cases x <;> simp [h]
    | none =>
      simp only [h, SymTab.setSymbol]
      by_cases hk : k = SymTab.key n f s
      · rw [hk]; simp [h]
      · simp [hk]

theorem inv_label {ds : List Def} {S : State} (h : Inv ds S) (n : Str) (f s : Int) :
    Inv ds { S with symbols := (S.symbols.getLabel n f s).1 } where
  len := h.len
  bound := fun k i hk => h.bound k i ((getLabel_equation _ _ _ _ _ _).mp hk)
  made := fun i d hd => (getLabel_equation _ _ _ _ _ _).mpr (h.made i d hd)
  later := fun i d v m j hd hv hm hj =>
    h.later i d v m j hd hv hm (findEquation_iff.mpr ((getLabel_equation _ _ _ _ _ _).mp (findEquation_iff.mp hj)))
  noEqu := h.noEqu
  noSep := h.noSep
  small := h.small
  smallNames := h.smallNames
  smallValues := h.smallValues
  stored := by
    intro i d v hd hv
    have := h.stored i d v hd hv
    have e : foundBefore { S with symbols := (S.symbols.getLabel n f s).1 } ⟨d.file, d.section_⟩ i = foundBefore S ⟨d.file, d.section_⟩ i := by
      funext m
      have : (S.symbols.getLabel n f s).1.findEquation m d.file d.section_ = S.symbols.findEquation m d.file d.section_ := by
        apply Option.ext
        intro j
        rw [findEquation_iff, findEquation_iff]
        exact getLabel_equation _ _ _ _ _ _
      simp only [foundBefore, this]
    rw [e]; exact this

theorem expansion_congr {E E' : Str → Option (List Tok)} {a b : List Tok} (h : Expansion E a b) (he : ∀ n, E n = E' n) : Expansion E' a b := by
  have : E = E' := funext he
  rw [← this]; exact h

theorem inv_equ {ds : List Def} {S S' : State} (h : Inv ds S) {n : Nat} {C : Place} {name : Str} {value : List Tok} (hname : Small name)
    (hval : SmallToks value) (ha : equDirective n S C name value = some (some S')) :
    Inv (ds ++ [⟨name, C.file, C.section_, upToSeparator value⟩]) S' := by
  unfold equDirective at ha
  split at ha
  · cases ha
  rename_i hvalid
  split at ha
  · cases ha
  rename_i hex
  have hvalid : SymTab.isValidSymbolName name = true := by simpa using hvalid
  have hnew : S.symbols.symbols (SymTab.key name C.file C.section_) = none := by
    cases hk : S.symbols.symbols (SymTab.key name C.file C.section_) with
    | none => rfl
    | some x => exfalso; apply hex; simp [SymTab.symbolExists, hvalid, hk]
  unfold addEquation at ha
  split at ha
  · cases ha
  · rename_i v hscan
    simp only [Option.some.injEq] at ha
    obtain ⟨v', hv', hx, heq, hsep, hid, hfree, hsm⟩ := scan_accepted h.noSep n value [] v hscan
    rw [List.nil_append] at hv'
    subst hv'
    have hsym : ∀ k, S'.symbols.symbols k = if k = SymTab.key name C.file C.section_ then some (.equation S.values.length) else S.symbols.symbols k := by
      intro k
      rw [← ha]
      simp only [SymTab.addEquation, hvalid, SymTab.symbolExists, hnew]
      simp [SymTab.setSymbol]
    have hvals : S'.values = S.values ++ [v] := by rw [← ha]
    have hold : ∀ {i : Nat} {w : List Tok}, S'.values[i]? = some w → i < S.values.length → S.values[i]? = some w := by
      intro i w hw hi
      rw [hvals, List.getElem?_append_left hi] at hw; exact hw
    have holdD : ∀ {i : Nat} {d : Def}, (ds ++ [⟨name, C.file, C.section_, upToSeparator value⟩])[i]? = some d →
        (i < S.values.length ∧ ds[i]? = some d) ∨ (i = S.values.length ∧ d = ⟨name, C.file, C.section_, upToSeparator value⟩) := by
      intro i d hd
      by_cases hi : i < ds.length
      · left; rw [List.getElem?_append_left hi] at hd; exact ⟨by rw [h.len]; exact hi, hd⟩
      · right
        rw [List.getElem?_append_right (by omega)] at hd
        have : i - ds.length = 0 := by
          cases hz : i - ds.length with
          | zero => rfl
          | succ z => rw [hz] at hd; simp at hd
        rw [this] at hd
        simp only [List.getElem?_cons_zero, Option.some.injEq] at hd
        exact ⟨by rw [h.len]; omega, hd.symm⟩
    have hlt : ∀ {k : SymbolKey} {i : Nat}, S.symbols.symbols k = some (.equation i) → i < S.values.length := by
      intro k i hk
      obtain ⟨d, hd, _⟩ := h.bound k i hk
      rw [h.len]
      exact (List.getElem?_eq_some_iff.mp hd).1
    have hbefore : ∀ (D : Place) (i : Nat), i ≤ S.values.length → ∀ m, foundBefore S D i m = foundBefore S' D i m := by
      intro D i hi m
      simp only [foundBefore]
      by_cases hk : SymTab.key m D.file D.section_ = SymTab.key name C.file C.section_
      · have e1 : S'.symbols.findEquation m D.file D.section_ = some S.values.length := by
          rw [findEquation_iff, hsym, if_pos hk]
        have e2 : S.symbols.findEquation m D.file D.section_ = none := by
          unfold SymTab.findEquation; rw [hk, hnew]
        rw [e1, e2]
        simp only
        rw [if_neg (by omega)]
      · have e1 : S'.symbols.findEquation m D.file D.section_ = S.symbols.findEquation m D.file D.section_ := by
          unfold SymTab.findEquation; rw [hsym, if_neg hk]
        rw [e1]
        cases hf : S.symbols.findEquation m D.file D.section_ with
        | none => rfl
        | some j =>
          simp only
          have hj := hlt (findEquation_iff.mp hf)
          rw [hvals, List.getElem?_append_left hj]
    constructor
    · rw [hvals]; simp [h.len]
    · intro k i hk
      rw [hsym] at hk
      split at hk
      · rename_i hkey
        simp only [Option.some.injEq, SymbolInfo.equation.injEq] at hk
        refine ⟨⟨name, C.file, C.section_, upToSeparator value⟩, ?_, hkey⟩
        rw [← hk, h.len, List.getElem?_append_right (Nat.le_refl _)]
        simp
      · obtain ⟨d, hd, hk'⟩ := h.bound k i hk
        refine ⟨d, ?_, hk'⟩
        rw [List.getElem?_append_left (List.getElem?_eq_some_iff.mp hd).1]; exact hd
    · intro i d hd
      rw [hsym]
      rcases holdD hd with ⟨hi, hd⟩ | ⟨hi, hd⟩
      · have hm := h.made i d hd
        rw [if_neg, hm]
        intro hc; rw [hc, hnew] at hm; cases hm
      · rw [hd]; simp only [if_true]; rw [hi]
    · intro i d w m j hd hw hm hj
      rw [findEquation_iff, hsym] at hj
      rcases holdD hd with ⟨hi, hd⟩ | ⟨hi, hd⟩
      · split at hj
        · simp only [Option.some.injEq, SymbolInfo.equation.injEq] at hj
          omega
        · exact h.later i d w m j hd (hold hw hi) hm (findEquation_iff.mpr hj)
      · have hw' : w = v := by
          rw [hvals, hi, List.getElem?_append_right (Nat.le_refl _)] at hw
          simpa using hw.symm
        subst hw'
        rw [hd] at hj
        simp only at hj
        exfalso
        split at hj
        · rename_i hk
          have h1 : m = name := by
            have := congrArg SymbolKey.name hk
            rw [key_lower (hsm h.small hval m hm), key_lower hname] at this
            exact this
          rw [h1] at hm
          exact hid hm
        · have := hfree m hm
          rw [findEquation_iff.mpr hj] at this
          cases this
    · intro w hw
      rw [hvals] at hw
      rcases List.mem_append.mp hw with hw | hw
      · exact h.noEqu w hw
      · rw [List.mem_singleton.mp hw]; exact heq
    · intro w hw
      rw [hvals] at hw
      rcases List.mem_append.mp hw with hw | hw
      · exact h.noSep w hw
      · rw [List.mem_singleton.mp hw]; exact hsep
    · intro w hw
      rw [hvals] at hw
      rcases List.mem_append.mp hw with hw | hw
      · exact h.small w hw
      · rw [List.mem_singleton.mp hw]; exact hsm h.small hval
    · intro d hd
      rcases List.mem_append.mp hd with hd | hd
      · exact h.smallNames d hd
      · rw [List.mem_singleton.mp hd]; exact hname
    · intro d hd
      rcases List.mem_append.mp hd with hd | hd
      · exact h.smallValues d hd
      · rw [List.mem_singleton.mp hd]
        exact fun m hm => hval m (List.takeWhile_subset _ hm)
    · intro i d w hd hw
      rcases holdD hd with ⟨hi, hd⟩ | ⟨hi, hd⟩
      · exact expansion_congr (h.stored i d w hd (hold hw hi)) (hbefore _ i (by omega))
      · have hw' : w = v := by
          rw [hvals, hi, List.getElem?_append_right (Nat.le_refl _)] at hw
          simpa using hw.symm
        subst hw'
        rw [hd, hi]
        refine expansion_congr hx ?_
        intro m
        rw [← hbefore _ _ (Nat.le_refl _) m]
        simp only [found, foundBefore]
        cases hf : S.symbols.findEquation m C.file C.section_ with
        | none => rfl
        | some j => simp only; rw [if_pos (hlt (findEquation_iff.mp hf))]
  · cases ha

theorem made_inv {ds : List Def} {S : State} (h : Made ds S) : Inv ds S := by
  induction h with
  | start => exact inv_start
  | label n f s _ ih => exact inv_label ih n f s
  | equ hn hv ha _ ih => exact inv_equ ih hn hv ha

theorem inv_sound {ds : List Def} {S : State} (h : Inv ds S) (C : Place) : Sound S C := by
  intro n i hf
  obtain ⟨d, hd, _⟩ := h.bound _ i (findEquation_iff.mp hf)
  rw [h.len]
  exact (List.getElem?_eq_some_iff.mp hd).1

theorem inv_ranked {ds : List Def} {S : State} (h : Inv ds S) (C : Place)
    (hfile : (∀ d ∈ ds, Spec.Sym.kind d.name ≠ .static_) ∨ ∀ d ∈ ds, d.file = C.file)
    (hord : ds.Pairwise fun a b => a.section_ ≤ b.section_) (hlast : ∀ d ∈ ds, d.section_ ≤ C.section_) : Ranked S C := by
  intro i v m j hv hm hj
  have hi : i < ds.length := by rw [← h.len]; exact (List.getElem?_eq_some_iff.mp hv).1
  have hd : ds[i]? = some ds[i] := List.getElem?_eq_getElem hi
  obtain ⟨e, he, hkey⟩ := h.bound _ j (findEquation_iff.mp hj)
  refine Classical.byContradiction fun hle => ?_
  have hle : j ≤ i := by omega
  have hmem : v ∈ S.values := List.mem_of_getElem? hv
  have hem : e ∈ ds := List.mem_of_getElem? he
  have hname : m = e.name := by
    have := congrArg SymbolKey.name hkey
    rw [key_lower (h.small v hmem m hm), key_lower (h.smallNames e hem)] at this
    exact this
  have hsec : e.section_ ≤ ds[i].section_ := by
    have hj' := List.getElem?_eq_some_iff.mp he
    rcases Nat.lt_or_eq_of_le hle with hlt | heq
    · have := List.pairwise_iff_getElem.mp hord j i hj'.1 hi hlt
      rw [← hj'.2]; exact this
    · subst heq
      rw [← hj'.2]
      exact Int.le_refl _
  have hlasti := hlast ds[i] (List.getElem_mem hi)
  have same : SymTab.key m ds[i].file ds[i].section_ = SymTab.key m C.file C.section_ := by
    simp only [SymTab.key, SymbolKey.mk.injEq, true_and]
    rw [← hname] at hkey
    simp only [SymTab.key, SymbolKey.mk.injEq, true_and] at hkey
    unfold SymTab.setFileSectionValues at hkey ⊢
    by_cases h0 : m[0]? = some (chr '@')
    · by_cases h1 : m[1]? = some (chr '@')
      · simp only [h0, h1, if_true, ne_eq, not_true_eq_false, if_false, true_and] at hkey ⊢
        omega
      · simp only [h0, h1, if_true, ne_eq, not_false_eq_true, true_and, and_true] at hkey ⊢
        rcases hfile with hfile | hfile
        · exfalso
          apply hfile e hem
          rw [← hname]
          cases m with
          | nil => cases h0
          | cons a m =>
            simp only [List.getElem?_cons_zero, Option.some.injEq] at h0
            cases m with
            | nil => simp [Spec.Sym.kind, h0]
            | cons b m =>
              simp only [List.getElem?_cons_succ, List.getElem?_cons_zero, Option.some.injEq] at h1
              simp [Spec.Sym.kind, h0, h1]
        · exact hfile _ (List.getElem_mem hi)
    · simp only [h0, if_false, true_and]
  have := h.later i ds[i] v m j hd hv hm (by
    rw [findEquation_iff] at hj ⊢
    rw [same]; exact hj)
  omega

/-! ## Written values -/

theorem small_cons {t : Tok} {ts : List Tok} (h : SmallToks (t :: ts)) : SmallToks ts := fun n hn => h n (List.mem_cons_of_mem _ hn)

theorem expansion_written {E₁ E : Str → Option (List Tok)} {w v : List Tok} (h : Expansion E₁ w v) (hw : SmallToks w)
    (hu : ∀ n u, E₁ n = some u → SmallToks u)
    (hstep : ∀ n u, Small n → E₁ n = some u → ∃ x, E n = some x ∧ ∀ out, Expansion E u out → Expansion E x out) :
    ∀ out, Expansion E v out → Expansion E w out := by
  induction h with
  | nil => exact fun out h => h
  | keep hk _ ih =>
    intro out ho
    obtain ⟨a, b, e, ha, hb⟩ := expansion_split (a := [_]) ho rfl
    rw [e]
    exact expansion_append (a := [_]) ha (ih (small_cons hw) b hb)
  | subst hv _ _ ih₁ ih₂ =>
    intro out ho
    obtain ⟨a, b, e, ha, hb⟩ := expansion_split ho rfl
    obtain ⟨x, hx, hall⟩ := hstep _ _ (hw _ List.mem_cons_self) hv
    rw [e]
    exact .subst hx (hall a (ih₁ (hu _ _ hv) a ha)) (ih₂ (small_cons hw) b hb)

theorem global_key {n : Str} (h : Spec.Sym.kind n = .global) (f s : Int) : SymTab.key n f s = ⟨n.map lower, -1, -1⟩ := by
  have : n[0]? ≠ some (chr '@') := by
    intro h0
    cases n with
    | nil => cases h0
    | cons a n =>
      simp only [List.getElem?_cons_zero, Option.some.injEq] at h0
      cases n with
      | nil => simp [Spec.Sym.kind, h0] at h
      | cons b n => simp only [Spec.Sym.kind, h0, if_true] at h; split at h <;> cases h
  simp only [SymTab.key, SymTab.setFileSectionValues, if_neg this]

theorem key_global {m n : Str} {f s f' s' : Int} (hn : Spec.Sym.kind n = .global) (h : SymTab.key m f s = SymTab.key n f' s') (hm : Small m)
    (hsn : Small n) : m = n := by
  have := congrArg SymbolKey.name h
  rw [key_lower hm, key_lower hsn] at this
  exact this

/-- With global names only, a definition is found everywhere. -/
theorem found_global {ds : List Def} {S : State} (h : Inv ds S) (hg : ∀ d ∈ ds, Spec.Sym.kind d.name = .global) {n : Str} (hn : Small n) (C : Place)
    (i : Nat) : S.symbols.findEquation n C.file C.section_ = some i ↔ ∃ d, ds[i]? = some d ∧ d.name = n := by
  rw [findEquation_iff]
  constructor
  · intro hi
    obtain ⟨d, hd, hk⟩ := h.bound _ i hi
    have hm : d ∈ ds := List.mem_of_getElem? hd
    exact ⟨d, hd, (key_global (hg d hm) hk hn (h.smallNames d hm)).symm⟩
  · rintro ⟨d, hd, rfl⟩
    have hm : d ∈ ds := List.mem_of_getElem? hd
    have := h.made i d hd
    rw [global_key (hg d hm)] at this ⊢
    exact this

theorem meaning_iff {ds : List Def} {S : State} (h : Inv ds S) (hg : ∀ d ∈ ds, Spec.Sym.kind d.name = .global) {n : Str} (i : Nat) (d : Def)
    (hd : ds[i]? = some d) (hn : d.name = n) : meaning ds n = some d.value := by
  unfold meaning
  cases hf : ds.find? fun d => d.name = n with
  | none =>
    have := List.find?_eq_none.mp hf d (List.mem_of_getElem? hd)
    simp [hn] at this
  | some e =>
    have he : e.name = n := by simpa using List.find?_some hf
    have hem : e ∈ ds := List.mem_of_find?_eq_some hf
    obtain ⟨j, hj⟩ := List.getElem?_of_mem hem
    have hdm : d ∈ ds := List.mem_of_getElem? hd
    have h1 := h.made j e hj
    have h2 := h.made i d hd
    rw [global_key (hg e hem), he] at h1
    rw [global_key (hg d hdm), hn] at h2
    rw [h1] at h2
    simp only [Option.some.injEq, SymbolInfo.equation.injEq] at h2
    subst h2
    rw [hj] at hd
    simp only [Option.some.injEq] at hd
    rw [hd]; rfl

theorem meaning_none {ds : List Def} {n : Str} (h : ∀ (i : Nat) (d : Def), ds[i]? = some d → d.name ≠ n) : meaning ds n = none := by
  unfold meaning
  cases hf : ds.find? fun d => d.name = n with
  | none => rfl
  | some e =>
    have he : e.name = n := by simpa using List.find?_some hf
    obtain ⟨j, hj⟩ := List.getElem?_of_mem (List.mem_of_find?_eq_some hf)
    exact absurd he (h j e hj)

theorem written_value {ds : List Def} {S : State} (h : Inv ds S) (hg : ∀ d ∈ ds, Spec.Sym.kind d.name = .global) :
    ∀ (k i : Nat) (d : Def) (v : List Tok), i < k → ds[i]? = some d → S.values[i]? = some v →
      ∀ out, Expansion (meaning ds) v out → Expansion (meaning ds) d.value out := by
  intro k
  induction k with
  | zero => intro i d v hi; omega
  | succ k ih =>
    intro i d v hi hd hv
    refine expansion_written (h.stored i d v hd hv) (h.smallValues d (List.mem_of_getElem? hd)) ?_ ?_
    · intro n u hu
      simp only [foundBefore] at hu
      split at hu
      · split at hu
        · exact h.small u (List.mem_of_getElem? hu)
        · cases hu
      · cases hu
    · intro n u hn hu
      simp only [foundBefore] at hu
      split at hu
      · rename_i j hj
        split at hu
        · rename_i hji
          obtain ⟨e, he, hen⟩ := (found_global h hg hn ⟨d.file, d.section_⟩ j).mp hj
          exact ⟨e.value, meaning_iff h hg j e he hen, ih j e u (by omega) he hu⟩
        · cases hu
      · cases hu

theorem written_all {ds : List Def} {S : State} (h : Inv ds S) (hg : ∀ d ∈ ds, Spec.Sym.kind d.name = .global) (C : Place) {ts out : List Tok}
    (hts : SmallToks ts) (hx : Expansion (found S C) ts out) : Expansion (meaning ds) out out → Expansion (meaning ds) ts out := by
  refine fun ho => expansion_written hx hts ?_ ?_ out ho
  · intro n u hu
    simp only [found] at hu
    split at hu
    · exact h.small u (List.mem_of_getElem? hu)
    · cases hu
  · intro n u hn hu
    simp only [found] at hu
    split at hu
    · rename_i j hj
      obtain ⟨e, he, hen⟩ := (found_global h hg hn C j).mp hj
      exact ⟨e.value, meaning_iff h hg j e he hen, written_value h hg (j + 1) j e u (by omega) he hu⟩
    · cases hu

theorem expansion_small {E : Str → Option (List Tok)} {ts out : List Tok} (h : Expansion E ts out) (hu : ∀ n u, E n = some u → SmallToks u) :
    SmallToks ts → SmallToks out := by
  induction h with
  | nil => exact fun h => h
  | keep _ _ ih =>
    intro hs m hm
    rcases List.mem_cons.mp hm with hm | hm
    · exact hs m (by rw [hm]; exact List.mem_cons_self)
    · exact ih (small_cons hs) m hm
  | subst hv _ _ ih₁ ih₂ =>
    intro hs m hm
    rcases List.mem_append.mp hm with hm | hm
    · exact ih₁ (hu _ _ hv) m hm
    · exact ih₂ (small_cons hs) m hm

theorem expansion_nonempty {E : Str → Option (List Tok)} {ts out : List Tok} (h : Expansion E ts out) (hu : ∀ n u, E n = some u → u ≠ []) :
    ts ≠ [] → out ≠ [] := by
  induction h with
  | nil => exact fun h => h
  | keep _ _ _ => intro _ hc; cases hc
  | subst hv _ _ ih₁ _ =>
    intro _ hc
    exact ih₁ (hu _ _ hv) (List.append_eq_nil_iff.mp hc).1

theorem inv_nonempty {ds : List Def} {S : State} (h : Inv ds S) (hd : ∀ d ∈ ds, d.value ≠ []) :
    ∀ (k i : Nat) (v : List Tok), i < k → S.values[i]? = some v → v ≠ [] := by
  intro k
  induction k with
  | zero => intro i v hi; omega
  | succ k ih =>
    intro i v hi hv
    have hlt : i < ds.length := by rw [← h.len]; exact (List.getElem?_eq_some_iff.mp hv).1
    refine expansion_nonempty (h.stored i ds[i] v (List.getElem?_eq_getElem hlt) hv) ?_ (hd _ (List.getElem_mem hlt))
    intro n u hu
    simp only [foundBefore] at hu
    split at hu
    · rename_i j _
      split at hu
      · exact ih j u (by omega) hu
      · cases hu
    · cases hu

theorem inv_no_empty {ds : List Def} {S : State} (h : Inv ds S) (hd : ∀ d ∈ ds, d.value ≠ []) : [] ∉ S.values := by
  intro hc
  obtain ⟨i, hi⟩ := List.getElem?_of_mem hc
  exact inv_nonempty h hd (i + 1) i [] (by omega) hi rfl

/-- All tokens are read, in finitely many rounds. -/
theorem read_all {ds : List Def} {S : State} (h : Inv ds S) (C : Place)
    (hfile : (∀ d ∈ ds, Spec.Sym.kind d.name ≠ .static_) ∨ ∀ d ∈ ds, d.file = C.file)
    (hord : ds.Pairwise fun a b => a.section_ ≤ b.section_) (hlast : ∀ d ∈ ds, d.section_ ≤ C.section_) (hd : ∀ d ∈ ds, d.value ≠ [])
    (ts : List Tok) : ∃ (n : Nat) (out : List Tok), ticks S C [] n (.at [] (fresh ts)) = .at out [] ∧
      (.equ ∉ ts → Expansion (found S C) ts out ∧ ∀ m, .ident m ∈ out → found S C m = none) := by
  obtain ⟨n, out, h1, h2⟩ := read_ranked (inv_sound h C) (inv_ranked h C hfile hord hlast) (inv_no_empty h hd) h.noEqu S.values.length ts
    (fun n i _ _ => by omega) [] []
  rw [List.append_nil, List.nil_append] at h1
  exact ⟨n, out, h1, fun he => h2 he (by simp)⟩

theorem scan_ends {S : State} {C : Place} {name : Str} : ∀ (n : Nat) (got got' out : List Tok) (ts : List CTok),
    ticks S C [] n (.at got' ts) = .at out [] → ∃ r, scan S C name (n + 1) got ts = some r := by
  intro n
  induction n with
  | zero =>
    intro got got' out ts h
    simp only [ticks, Reader.at.injEq] at h
    rw [h.2]
    exact ⟨_, rfl⟩
  | succ n ih =>
    intro got got' out ts h
    cases ts with
    | nil => exact ⟨_, rfl⟩
    | cons t ts =>
      simp only [ticks] at h
      cases hr : round S C [] (t :: ts) with
      | crash => exact ⟨.crashed, by rw [scan]; simp only [hr]⟩
      | again us =>
        simp only [tick, hr] at h
        obtain ⟨r, h'⟩ := ih got got' out us h
        exact ⟨r, by rw [scan]; simp only [hr]; exact h'⟩
      | done us =>
        cases us with
        | nil => exact ⟨.crashed, by rw [scan]; simp only [hr]⟩
        | cons u us =>
          simp only [tick, hr] at h
          obtain ⟨r, h'⟩ := ih (got ++ [u.tok]) (got' ++ [u.tok]) out us h
          rw [scan]; simp only [hr]
          split
          · exact ⟨_, rfl⟩
          · split
            · exact ⟨_, rfl⟩
            · split
              · exact ⟨_, rfl⟩
              · exact ⟨r, h'⟩

/-! ## Macro arguments -/

theorem round_param {S : State} {C : Place} {R : List Replacement} {n : Str} {r : Replacement} {ts : List CTok}
    (h : R.find? (fun r => r.name = n) = some r) : round S C R (⟨.ident n, false⟩ :: ts) =
      match r.value with
      | [] => .crash
      | .ident m :: vs => equRound S C m (fresh vs ++ ts)
      | v :: vs => .again (⟨v, false⟩ :: fresh vs ++ ts) := by
  simp only [round, h]
  simp
  rfl

theorem round_free {S : State} {C : Place} {R : List Replacement} {n : Str} {ts : List CTok}
    (h : R.find? (fun r => r.name = n) = none) (hf : S.symbols.findEquation n C.file C.section_ = none) :
    round S C R (⟨.ident n, false⟩ :: ts) = .done (⟨.ident n, true⟩ :: ts) := by
  simp only [round, h]
  simp [equRound_free hf]

/-- Tokens without names of parameters or equs are read as they are. -/
theorem read_plain {S : State} {C : Place} {R : List Replacement} : ∀ (v : List Tok),
    (∀ n, .ident n ∈ v → R.find? (fun r => r.name = n) = none ∧ S.symbols.findEquation n C.file C.section_ = none) →
    ∀ (got : List Tok) (rest : List CTok), ticks S C R v.length (.at got (fresh v ++ rest)) = .at (got ++ v) rest := by
  intro v
  induction v with
  | nil => intro _ got rest; rw [List.append_nil]; rfl
  | cons t v ih =>
    intro h got rest
    have hd : round S C R (⟨t, false⟩ :: (fresh v ++ rest)) = .done (⟨t, true⟩ :: (fresh v ++ rest)) := by
      by_cases ht : ∃ n, t = .ident n
      · obtain ⟨n, rfl⟩ := ht
        have := h n List.mem_cons_self
        exact round_free this.1 this.2
      · exact round_other S C R t _ fun n hn => ht ⟨n, hn⟩
    rw [fresh_cons, List.cons_append]
    simp only [List.length_cons, ticks]
    rw [tick_done hd, ih (fun n hn => h n (List.mem_cons_of_mem _ hn)), List.append_assoc]; rfl

/-- `putIn` on a list of replacements. -/
def substituted (R : List Replacement) : Tok → List Tok
  | .ident n => match R.find? (fun r => r.name = n) with
    | some r => r.value
    | none => [.ident n]
  | t => [t]

theorem substituted_eq (R : List Replacement) (t : Tok) : substituted R t = putIn (R.map fun r => (r.name, r.value)) t := by
  cases t <;> try rfl
  rename_i n
  simp only [substituted, putIn]
  induction R with
  | nil => rfl
  | cons r R ih =>
    simp only [List.find?_cons, List.map_cons, List.lookup_cons]
    by_cases h : r.name = n
    · have h' : (n == r.name) = true := by rw [h]; exact BEq.rfl
      simp only [decide_eq_true h, h']
      rfl
    · have h' : (n == r.name) = false := by
        rw [beq_eq_false_iff_ne]; exact fun hc => h hc.symm
      simp only [decide_eq_false h, h']
      exact ih

theorem read_macro {S : State} {C : Place} {R : List Replacement}
    (hne : ∀ r ∈ R, r.value ≠ [])
    (hequ : ∀ r ∈ R, ∀ n, .ident n ∈ r.value → S.symbols.findEquation n C.file C.section_ = none)
    (htail : ∀ r ∈ R, ∀ n, .ident n ∈ r.value.tail → R.find? (fun q => q.name = n) = none) :
    ∀ (v : List Tok), (∀ n, .ident n ∈ v → S.symbols.findEquation n C.file C.section_ = none) →
    ∀ (got : List Tok), ∃ n, ticks S C R n (.at got (fresh v)) = .at (got ++ v.flatMap (substituted R)) [] := by
  intro v
  induction v with
  | nil => intro _ got; exact ⟨0, by simp [ticks, fresh]⟩
  | cons t v ih =>
    intro h got
    have ih := ih fun n hn => h n (List.mem_cons_of_mem _ hn)
    rw [fresh_cons, List.flatMap_cons, ← List.append_assoc]
    obtain ⟨k, hk⟩ := ih (got ++ substituted R t)
    by_cases ht : ∃ n, t = .ident n
    · obtain ⟨n, rfl⟩ := ht
      cases hf : R.find? (fun r => r.name = n) with
      | none =>
        have hs : substituted R (.ident n) = [.ident n] := by simp only [substituted, hf]
        rw [hs] at hk ⊢
        refine ⟨k + 1, ?_⟩
        simp only [ticks]
        rw [tick_done (round_free hf (h n List.mem_cons_self)), hk]
      | some r =>
        have hmem : r ∈ R := List.mem_of_find?_eq_some hf
        have hs : substituted R (.ident n) = r.value := by simp only [substituted, hf]
        rw [hs] at hk ⊢
        cases hv : r.value with
        | nil => exact absurd hv (hne r hmem)
        | cons x vs =>
          have plain := read_plain (S := S) (C := C) (R := R) vs (fun m hm =>
            ⟨htail r hmem m (by rw [hv]; exact hm), hequ r hmem m (by rw [hv]; exact List.mem_cons_of_mem _ hm)⟩) (got ++ [x]) (fresh v)
          rw [hv] at hk
          have hfin : got ++ [x] ++ vs = got ++ x :: vs := by rw [List.append_assoc]; rfl
          by_cases hx : ∃ m, x = .ident m
          · obtain ⟨m, rfl⟩ := hx
            refine ⟨(vs.length + k) + 1, ?_⟩
            simp only [ticks]
            rw [tick_done (u := ⟨.ident m, true⟩) (us := fresh vs ++ fresh v) (by
              rw [round_param hf, hv]
              exact equRound_free (hequ r hmem m (by rw [hv]; exact List.mem_cons_self)))]
            rw [ticks_add, plain, hfin, hk]
          · refine ⟨((vs.length + k) + 1) + 1, ?_⟩
            simp only [ticks]
            rw [tick_again (us := ⟨x, false⟩ :: (fresh vs ++ fresh v)) (by
              rw [round_param hf, hv]
              cases x <;> first | rfl | exact absurd ⟨_, rfl⟩ hx)]
            rw [tick_done (round_other S C R x _ fun m hm => hx ⟨m, hm⟩), ticks_add, plain, hfin, hk]
    · have hs : substituted R t = [t] := by
        cases t <;> first | rfl | exact absurd ⟨_, rfl⟩ ht
      rw [hs] at hk ⊢
      refine ⟨k + 1, ?_⟩
      simp only [ticks]
      rw [tick_done (round_other S C R t _ fun n hn => ht ⟨n, hn⟩), hk]

/-! ## Names of labels in macros -/

theorem hexDigits_length (k : Nat) : ∀ (f n : Nat), n < 16 ^ k → 0 < k → (hexDigits f n).length ≤ k := by
  induction k with
  | zero => intro f n _ h; omega
  | succ k ih =>
    intro f n hn _
    cases f with
    | zero => exact Nat.zero_le _
    | succ f =>
      unfold hexDigits
      split
      · simp
      · rename_i h16
        have hk : 0 < k := by
          cases k with
          | zero => simp at hn; omega
          | succ k => omega
        have := ih f (n / 16) (by rw [Nat.pow_succ] at hn; omega) hk
        simp only [List.length_append, List.length_singleton]
        omega

theorem fmt08x_length {n : Nat} (h : n < 2 ^ 32) : (fmt08x n).length = 8 := by
  have := hexDigits_length 8 (n + 1) n (by simpa using h) (by omega)
  unfold fmt08x
  simp only [List.length_append, List.length_replicate]
  omega

theorem counter_split {a b : Str} {x y : Nat} (hx : x < 2 ^ 32) (hy : y < 2 ^ 32) (h : a ++ counterText x = b ++ counterText y) :
    a = b ∧ x = y := by
  have hl := congrArg List.length h
  unfold counterText at *
  simp only [List.length_append, fmt08x_length hx, fmt08x_length hy] at hl
  have := List.append_inj h (by omega)
  refine ⟨this.1, ?_⟩
  have e := congrArg SymTab.hexVal this.2
  rwa [SymTab.hexVal_fmt08x, SymTab.hexVal_fmt08x] at e

theorem at_shift (k : Nat) (m y y' : Str) : List.replicate (k + 1) (chr '@') ++ (m ++ chr '_' :: y) ≠ m ++ chr '_' :: y' := by
  induction m with
  | nil =>
    intro h
    rw [List.replicate_succ] at h
    simp only [List.nil_append, List.cons_append, List.cons.injEq] at h
    exact absurd h.1 (by decide)
  | cons a m ih =>
    intro h
    rw [List.replicate_succ] at h
    simp only [List.cons_append, List.cons.injEq] at h
    apply ih
    rw [← h.2, ← h.1]
    have : List.replicate k (chr '@') ++ chr '@' :: (m ++ chr '_' :: y) = (List.replicate k (chr '@') ++ [chr '@']) ++ (m ++ chr '_' :: y) := by
      simp
    rw [this, ← List.replicate_succ']

end Armips.Expand
