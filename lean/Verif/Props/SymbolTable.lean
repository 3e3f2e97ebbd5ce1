import Verif.Lemmas.SymbolTable
/-!
# C14, C15 (symbol table part), C16, C17: symbols
-/
namespace Armips.Props
open Armips.SymTab Armips.Spec.Sym

/-- C14. In any history of a symbol table, two successful lookups return the same label exactly when they denote the same
symbol: equal names up to case, in the same file for `@` names and in the same section for `@@` names. -/
theorem label_identity (before between : List SymTab.Op) (n₁ : Str) (f₁ s₁ : Int) (n₂ : Str) (f₂ s₂ : Int) (i j : Nat)
    (t₁ t₂ : SymTab)
    (h₁ : (SymTab.run {} before).getLabel n₁ f₁ s₁ = (t₁, some i))
    (h₂ : (t₁.run between).getLabel n₂ f₂ s₂ = (t₂, some j)) :
    i = j ↔ SameSymbol n₁ f₁ s₁ n₂ f₂ s₂ := by
  have w0 := run_wf wf_empty before
  have w1 := getLabel_wf w0.1 n₁ f₁ s₁
  have g1 := getLabel_some (t := SymTab.run {} before) (i := i) (by rw [h₁])
  rw [h₁] at w1 g1
  have w2 := run_wf w1.1 between
  have w3 := getLabel_wf w2.1 n₂ f₂ s₂
  have g2 := getLabel_some (t := t₁.run between) (i := j) (by rw [h₂])
  rw [h₂] at w3 g2
  have g1' := w3.2.1 _ _ (w2.2.1 _ _ g1)
  rw [← key_eq_iff]
  constructor
  · intro h; subst h; exact w3.1.inj _ _ _ g1' g2
  · intro h
    simp only at g2
    rw [← h, g1'] at g2
    simpa using g2

example : (SymTab.run {} [.getLabel (lit "x") 0 0]).getLabel (lit "@@Loop") 1 2 =
    ((SymTab.run {} [.getLabel (lit "x") 0 0, .getLabel (lit "@@Loop") 1 2]), some 1) ∧
    (((SymTab.run {} [.getLabel (lit "x") 0 0, .getLabel (lit "@@Loop") 1 2])).getLabel (lit "@@lOOp") 7 2).2 = some 1 ∧
    (((SymTab.run {} [.getLabel (lit "x") 0 0, .getLabel (lit "@@Loop") 1 2])).getLabel (lit "@@loop") 1 3).2 = some 2 := by
  exact ⟨Prod.ext rfl (by decide +kernel), by decide +kernel, by decide +kernel⟩

/-- C14. A lookup fails exactly for an ill-formed name or a name that is an equ. -/
theorem label_lookup_fails (ops : List SymTab.Op) (n : Str) (f s : Int) :
    ((SymTab.run {} ops).getLabel n f s).2 = none ↔
      isValidSymbolName n = false ∨ ((SymTab.run {} ops).findEquation n f s).isSome := by
  rw [getLabel_none]
  unfold findEquation
  cases h : (SymTab.run {} ops).symbols (key n f s) with
  | none => simp
  | some x => cases x <;> simp

/-- C14. The names accepted are those of the specification (for strings without a zero byte, which no source token
contains). -/
theorem valid_name (s : Str) (h0 : 0#8 ∉ s) : isValidSymbolName s = true ↔ ValidName s := by
  match s with
  | [] => exact ⟨fun h => absurd h (by decide +kernel), fun ⟨pre, c, rest, _, h, _⟩ => by simp at h⟩
  | a :: r =>
    by_cases ha : a = chr '@'
    · subst ha
      match r with
      | [] =>
        refine ⟨fun h => absurd h (by decide +kernel), fun ⟨pre, c, rest, hp, h, hc, _⟩ => ?_⟩
        rcases hp with rfl | rfl | rfl
        · simp at h; rw [← h.1] at hc; exact absurd hc at_not_start
        · simp at h
        · simp at h
      | b :: r =>
        by_cases hb : b = chr '@'
        · subst hb
          match r with
          | [] =>
            refine ⟨fun h => absurd h (by decide +kernel), fun ⟨pre, c, rest, hp, h, hc, _⟩ => ?_⟩
            rcases hp with rfl | rfl | rfl
            · simp at h; rw [← h.1] at hc; exact absurd hc at_not_start
            · simp at h; rw [← h.1] at hc; exact absurd hc at_not_start
            · simp at h
          | c :: r =>
            have h0' : 0#8 ∉ c :: r := fun hm => h0 (by simp only [List.mem_cons] at hm ⊢; exact .inr (.inr hm))
            rw [show isValidSymbolName (chr '@' :: chr '@' :: c :: r) =
              (if 48 ≤ c.toNat ∧ c.toNat ≤ 57 then false else (c :: r).all isSymbolChar) from by
                simp [isValidSymbolName, lit_at, lit_atat], ident_iff c r h0']
            constructor
            · exact fun h => ⟨[chr '@', chr '@'], c, r, .inr (.inr rfl), rfl, h⟩
            · intro ⟨pre, c', rest, hp, h, hc⟩
              rcases hp with rfl | rfl | rfl
              · simp at h; rw [← h.1] at hc; exact absurd hc.1 at_not_start
              · simp at h; rw [← h.1] at hc; exact absurd hc.1 at_not_start
              · simp at h; rw [h.1, h.2]; exact hc
        · have h0' : 0#8 ∉ b :: r := fun hm => h0 (by simp only [List.mem_cons] at hm ⊢; exact .inr hm)
          rw [show isValidSymbolName (chr '@' :: b :: r) =
            (if 48 ≤ b.toNat ∧ b.toNat ≤ 57 then false else (b :: r).all isSymbolChar) from by
              simp [isValidSymbolName, lit_at, lit_atat, hb], ident_iff b r h0']
          constructor
          · exact fun h => ⟨[chr '@'], b, r, .inr (.inl rfl), rfl, h⟩
          · intro ⟨pre, c', rest, hp, h, hc⟩
            rcases hp with rfl | rfl | rfl
            · simp at h; rw [← h.1] at hc; exact absurd hc.1 at_not_start
            · simp at h; rw [h.1, h.2]; exact hc
            · simp at h; exact absurd h.1 hb
    · rw [show isValidSymbolName (a :: r) =
        (if 48 ≤ a.toNat ∧ a.toNat ≤ 57 then false else (a :: r).all isSymbolChar) from by
          simp [isValidSymbolName, lit_at, lit_atat, ha], ident_iff a r h0]
      constructor
      · exact fun h => ⟨[], a, r, .inl rfl, rfl, h⟩
      · intro ⟨pre, c', rest, hp, h, hc⟩
        rcases hp with rfl | rfl | rfl
        · simp at h; rw [h.1, h.2]; exact hc
        · simp at h; exact absurd h.1 ha
        · simp at h; exact absurd h.1 ha

example : isValidSymbolName (lit "@@loop_1") = true ∧ isValidSymbolName (lit "@@1x") = false ∧
    0#8 ∉ lit "@@loop_1" := by decide +kernel

/-- C14. The characters the tokenizer puts into an identifier: letters, digits (not at the start), `_`, `.` and `@`. -/
theorem identifier_characters : ∀ (c : Byte) (first : Bool), isValidSymbolCharacter c first = true ↔
    (Letter c ∨ (first = false ∧ Digit c) ∨ Extra c ∨ c = chr '@') := by
  have h : ∀ c : Byte, ∀ first : Bool, isValidSymbolCharacter c first = true ↔
      (((65 ≤ c.toNat ∧ c.toNat ≤ 90) ∨ (97 ≤ c.toNat ∧ c.toNat ≤ 122)) ∨ (first = false ∧ 48 ≤ c.toNat ∧ c.toNat ≤ 57) ∨
        (c = chr '_' ∨ c = chr '.') ∨ c = chr '@') := by decide +kernel
  exact h

/-- C15. A name that is used as label cannot become an equ any more. -/
theorem label_then_equ (ops between : List SymTab.Op) (n₁ n₂ : Str) (f₁ s₁ f₂ s₂ : Int) (r : Nat)
    (h : ((SymTab.run {} ops).getLabel n₁ f₁ s₁).2.isSome) (hs : SameSymbol n₁ f₁ s₁ n₂ f₂ s₂) :
    ((((SymTab.run {} ops).getLabel n₁ f₁ s₁).1.run between).addEquation n₂ f₂ s₂ r).2 = false := by
  obtain ⟨i, hi⟩ := Option.isSome_iff_exists.1 h
  have w0 := run_wf wf_empty ops
  have w1 := getLabel_wf w0.1 n₁ f₁ s₁
  have g1 := getLabel_some hi
  have w2 := run_wf w1.1 between
  have g2 := w2.2.1 _ _ g1
  rw [(key_eq_iff _ _ _ _ _ _).2 hs] at g2
  unfold addEquation
  split
  · rfl
  · rename_i hv
    rw [if_pos]
    simp [symbolExists, g2]
    simpa using hv

example : ((SymTab.run {} []).getLabel (lit "a") 0 0).2.isSome ∧ SameSymbol (lit "a") 0 0 (lit "A") 3 4 :=
  ⟨by decide +kernel, by
    rw [← key_eq_iff]; decide +kernel⟩

/-- C15. A name that is an equ cannot be looked up as a label nor become another equ. -/
theorem equ_then_label (ops between : List SymTab.Op) (n₁ n₂ : Str) (f₁ s₁ f₂ s₂ : Int) (r r' : Nat)
    (h : ((SymTab.run {} ops).addEquation n₁ f₁ s₁ r).2 = true) (hs : SameSymbol n₁ f₁ s₁ n₂ f₂ s₂) :
    ((((SymTab.run {} ops).addEquation n₁ f₁ s₁ r).1.run between).getLabel n₂ f₂ s₂).2 = none ∧
    ((((SymTab.run {} ops).addEquation n₁ f₁ s₁ r).1.run between).addEquation n₂ f₂ s₂ r').2 = false ∧
    (((SymTab.run {} ops).addEquation n₁ f₁ s₁ r).1.run between).findEquation n₂ f₂ s₂ = some r := by
  have w0 := run_wf wf_empty ops
  have w1 := addEquation_wf w0.1 n₁ f₁ s₁ r
  have w2 := run_wf w1.1 between
  have g1 : ((SymTab.run {} ops).addEquation n₁ f₁ s₁ r).1.symbols (key n₁ f₁ s₁) = some (.equation r) := by
    unfold addEquation at h ⊢
    split at h
    · simp at h
    · rename_i hv
      split at h
      · simp at h
      · rename_i he
        rw [if_neg hv, if_neg he]
        simp [setSymbol]
  have g2 := w2.2.1 _ _ g1
  rw [(key_eq_iff _ _ _ _ _ _).2 hs] at g2
  refine ⟨getLabel_none.2 (.inr ⟨r, g2⟩), ?_, by simp [findEquation, g2]⟩
  revert g2
  generalize (((SymTab.run {} ops).addEquation n₁ f₁ s₁ r).1.run between) = t
  intro g2
  unfold addEquation
  split
  · rfl
  · rename_i hv
    rw [if_pos]
    simp [symbolExists, g2]
    simpa using hv

example : ((SymTab.run {} []).addEquation (lit "@a") 1 0 5).2 = true ∧ SameSymbol (lit "@a") 1 0 (lit "@A") 1 4 :=
  ⟨by decide +kernel, by
    rw [← key_eq_iff]; decide +kernel⟩

/-- C16. A generated label name differs, even up to case, from every name generated later in the run, whatever the
kinds of both and whatever happened in between, and is a valid symbol name. -/
theorem generated_names_fresh (t : SymTab) (l₁ l₂ : Bool) (between : List SymTab.Op) (t' : SymTab) (name : Str)
    (h : t.getUniqueLabelName l₁ = (t', name)) :
    isValidSymbolName name = true ∧ ¬ SameText name ((t'.run between).getUniqueLabelName l₂).2 := by
  have hn : name = uname t.uniqueCount l₁ := by rw [← getUnique_eq, h]
  have hc : t.uniqueCount < t'.uniqueCount := by
    have : (t.getUniqueLabelName l₁).1.uniqueCount = t.uniqueCount + 1 := rfl
    rw [h] at this; simp only at this; omega
  subst hn
  refine ⟨uname_valid _ _, ?_⟩
  rw [getUnique_eq, ← map_lower_eq_iff, uname_lower, uname_lower]
  intro he
  have := (uname_inj he).1
  have := run_count t' between
  omega

example : (SymTab.getUniqueLabelName {} true).2 = lit "@@__armips_label_00000000__" ∧
    ((SymTab.getUniqueLabelName {} true).1.getUniqueLabelName false).2 = lit "__armips_label_00000001__" := by
  decide +kernel

/-- C16, limits of the freshness: the generated names live in the same name space as the user's, so a program that
defines `__armips_label_00000000__` itself shares that label. -/
theorem generated_names_can_clash :
    ((SymTab.run {} [.getLabel (lit "__armips_label_00000000__") 0 0]).getUniqueLabelName false).2 =
      lit "__armips_label_00000000__" := by decide +kernel

/-- C17. Section lookup returns the section of the (first) closest label at or before the address, -1 if there is none
within 2^31-1. -/
theorem findSection_closest (t : SymTab) (address : Int) :
    SectionOf (t.labels.map fun l => ⟨l.value, l.section_⟩) address (t.findSection address) := by
  have := findSection_fold address t.labels [] (-1, 2 ^ 31 - 1) (.inr ⟨by simp, rfl⟩)
  simpa [findSection] using this

/-- C17, the specification determines the result. -/
theorem sectionOf_unique (marks : List Mark) (address r r' : Int) (h : SectionOf marks address r)
    (h' : SectionOf marks address r') : r = r' := by
  rcases h with ⟨b, m, a, e, h1, h2, h3, h4, h5⟩ | ⟨h1, h2⟩ <;>
  rcases h' with ⟨b', m', a', e', h1', h2', h3', h4', h5'⟩ | ⟨h1', h2'⟩
  · subst e
    rcases split_cases e' with ⟨rfl, rfl⟩ | hm | hm
    · rw [h3, h3']
    · have := h4' _ hm h1
      have hm' : m' ∈ b ++ m :: a := by rw [e']; simp
      simp only [List.mem_append, List.mem_cons] at hm'
      rcases hm' with x | x | x
      · have := h4 _ x h1'; omega
      · subst x; omega
      · have := h5 _ x h1'; omega
    · have := h4 _ hm h1'
      have hm' : m ∈ b' ++ m' :: a' := by rw [← e']; simp
      simp only [List.mem_append, List.mem_cons] at hm'
      rcases hm' with x | x | x
      · have := h4' _ x h1; omega
      · subst x; omega
      · have := h5' _ x h1; omega
  · have := h1' m (by rw [e]; simp) h1; omega
  · have := h1 m' (by rw [e']; simp) h1'; omega
  · rw [h2, h2']

example : SectionOf [⟨0, 1⟩, ⟨8, 2⟩, ⟨8, 3⟩, ⟨16, 4⟩] 10 2 := by
  refine .inl ⟨[⟨0, 1⟩], ⟨8, 2⟩, [⟨8, 3⟩, ⟨16, 4⟩], rfl, ?_⟩
  simp

/-- C17, limit: labels that are referenced but not yet defined take part with value 0. -/
theorem findSection_counts_undefined :
    let t := SymTab.run {} [.getLabel (lit "later") 0 3]
    t.findSection 5 = 4 ∧ ∀ l ∈ t.labels, l.defined = false := by decide +kernel

end Armips.Props
