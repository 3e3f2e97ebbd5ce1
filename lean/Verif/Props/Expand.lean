import Verif.Lemmas.Expand
/-!
# C55, C56: replacement of equs and macro parameters

`Made ds S`: the definitions `ds` have been accepted, in this order. `ticks … n (.at [] (fresh ts))` is the tokenizer after `n` rounds of the loop
of `processElement` on the tokens `ts`; `.at out []` means that it has come to the end and delivered `out`.
-/
namespace Armips.Props
open Expand ExprParse Spec.Expand Spec.Sym

/-- A program: the sections are those at the time of the definitions, so they only grow; `C` is the place where the tokens are read. -/
structure InOrder (ds : List Def) (C : Place) : Prop where
  sections : ds.Pairwise fun a b => a.section_ ≤ b.section_
  now : ∀ d ∈ ds, d.section_ ≤ C.section_

/-! ## C55 -/

/-- In a program that is one file, or has no static equs (`@name`), with values that are not empty: any tokens are read to the end. -/
theorem equ_terminates_partial (ds : List Def) (S : State) (C : Place) (h : Made ds S) (ho : InOrder ds C)
    (hf : (∀ d ∈ ds, kind d.name ≠ .static_) ∨ ∀ d ∈ ds, d.file = C.file) (hv : ∀ d ∈ ds, d.value ≠ []) (ts : List Tok) :
    ∃ n out, ticks S C [] n (.at [] (fresh ts)) = .at out [] := by
  obtain ⟨n, out, h1, _⟩ := read_all (made_inv h) C hf ho.sections ho.now hv ts
  exact ⟨n, out, h1⟩

/-- … and the next definition is accepted or refused, in finitely many rounds. -/
theorem equ_definition_terminates_partial (ds : List Def) (S : State) (C : Place) (h : Made ds S) (ho : InOrder ds C)
    (hf : (∀ d ∈ ds, kind d.name ≠ .static_) ∨ ∀ d ∈ ds, d.file = C.file) (hv : ∀ d ∈ ds, d.value ≠ []) (name : Str) (value : List Tok) :
    ∃ n r, equDirective n S C name value = some r := by
  obtain ⟨n, out, h1, _⟩ := read_all (made_inv h) C hf ho.sections ho.now hv value
  obtain ⟨r, hr⟩ := scan_ends (name := name) n [] [] out (fresh value) h1
  refine ⟨n + 1, ?_⟩
  unfold equDirective
  split
  · exact ⟨_, rfl⟩
  · split
    · exact ⟨_, rfl⟩
    · unfold addEquation
      rw [hr]
      cases r <;> exact ⟨_, rfl⟩

/-- With global names, what is read is the text with every name replaced by the value that was written for it, until no name is left. (Values
are expanded when they are defined and again when they are used; the result is the same.) -/
theorem equ_expands_partial (ds : List Def) (S : State) (C : Place) (h : Made ds S) (ho : InOrder ds C) (hg : ∀ d ∈ ds, kind d.name = .global)
    (hv : ∀ d ∈ ds, d.value ≠ []) (ts : List Tok) (hts : SmallToks ts) (hq : .equ ∉ ts) :
    ∃ n out, ticks S C [] n (.at [] (fresh ts)) = .at out [] ∧ Expansion (meaning ds) ts out := by
  have hi := made_inv h
  obtain ⟨n, out, h1, h2⟩ := read_all hi C (Or.inl fun d hd hc => by rw [hg d hd] at hc; cases hc) ho.sections ho.now hv ts
  obtain ⟨hx, hfin⟩ := h2 hq
  refine ⟨n, out, h1, written_all hi hg C hts hx (expansion_self ?_)⟩
  intro m hm
  have hsm : Small m := expansion_small hx (by
    intro n u hu
    simp only [found] at hu
    split at hu
    · exact hi.small u (List.mem_of_getElem? hu)
    · cases hu) hts m hm
  have hnone := hfin m hm
  refine meaning_none fun i d hd hdn => ?_
  have hf := (found_global hi hg hsm C i).mpr ⟨d, hd, hdn⟩
  have hlt := inv_sound hi C m i hf
  simp only [found, hf] at hnone
  rw [List.getElem?_eq_getElem hlt] at hnone
  cases hnone

/-- There is at most one such text. -/
theorem expansion_is_unique (value : Str → Option (List Tok)) (ts a b : List Tok) (ha : Expansion value ts a) (hb : Expansion value ts b) : a = b :=
  expansion_unique ha hb

/-- The result of the reader does not change after it has come to the end. -/
theorem equ_result_unique (S : State) (C : Place) (R : List Replacement) (ts a b : List Tok) (n m : Nat)
    (ha : ticks S C R n (.at [] (fresh ts)) = .at a []) (hb : ticks S C R m (.at [] (fresh ts)) = .at b []) : a = b := by
  have stay : ∀ k out, ticks S C R k (.at out []) = .at out [] := by
    intro k
    induction k with
    | zero => intro out; rfl
    | succ k ih => intro out; exact ih out
  have h1 := ticks_add S C R n m (.at [] (fresh ts))
  have h2 := ticks_add S C R m n (.at [] (fresh ts))
  rw [ha, stay] at h1
  rw [hb, stay, Nat.add_comm, h1] at h2
  injection h2

/-- A definition that comes back to its own name, directly or through earlier ones, is refused: no value of an accepted one holds a name
that is defined at that place already. -/
theorem equ_recursion_refused (n : Nat) (ds : List Def) (S S' : State) (C : Place) (name : Str) (value : List Tok) (h : Made ds S)
    (ha : equDirective n S C name value = some (some S')) : ∃ v, S'.values = S.values ++ [v] ∧ .ident name ∉ v ∧
      ∀ m, .ident m ∈ v → S.symbols.findEquation m C.file C.section_ = none := by
  unfold equDirective at ha
  split at ha
  · cases ha
  · split at ha
    · cases ha
    · unfold addEquation at ha
      split at ha
      · cases ha
      · rename_i v hs
        obtain ⟨v', e, _, _, _, h1, h2, _⟩ := scan_accepted (made_inv h).noSep n value [] v hs
        rw [List.nil_append] at e
        subst e
        simp only [Option.some.injEq] at ha
        exact ⟨v, by rw [← ha], h1, h2⟩
      · cases ha

/-- Non-vacuity: `a equ b + 1`, `b equ c * 2`, in one file; then `a - b`. -/
example : ∃ S, Made [⟨lit "a", 0, 0, [.ident (lit "b"), .plus, .int 1]⟩, ⟨lit "b", 0, 1, [.ident (lit "c"), .mult, .int 2]⟩] S ∧
    ticks S ⟨0, 2⟩ [] 20 (.at [] (fresh [.ident (lit "a"), .minus, .ident (lit "b")])) =
      .at [.ident (lit "c"), .mult, .int 2, .plus, .int 1, .minus, .ident (lit "c"), .mult, .int 2] [] := by
  have s1 : Small (lit "a") := by unfold Small; decide
  have s2 : Small (lit "b") := by unfold Small; decide
  have s3 : Small (lit "c") := by unfold Small; decide
  have t1 : SmallToks [.ident (lit "b"), .plus, .int 1] := by
    intro n hn; simp at hn; rw [hn]; exact s2
  have t2 : SmallToks [.ident (lit "c"), .mult, .int 2] := by
    intro n hn; simp at hn; rw [hn]; exact s3
  refine ⟨_, Made.equ (n := 9) (C := ⟨0, 1⟩) s2 t2 rfl (Made.equ (ds := []) (n := 9) (C := ⟨0, 0⟩) s1 t1 rfl .start), ?_⟩
  decide +kernel

/-- Two sources: file 2 says `@a equ c`, then includes file 1 with `c equ @a`. Both are accepted, since `@a` is not defined in file 1. Back
in file 2, reading `c` never ends. -/
theorem equ_loop_wrong : ∃ ds S, Made ds S ∧ InOrder ds ⟨2, 0⟩ ∧ (∀ d ∈ ds, d.value ≠ []) ∧
    ∀ n, ticks S ⟨2, 0⟩ [] n (.at [] (fresh [.ident (lit "c")])) ≠ .crashed ∧
      ∀ out, ticks S ⟨2, 0⟩ [] n (.at [] (fresh [.ident (lit "c")])) ≠ .at out [] := by
  have s1 : Small (lit "@a") := by unfold Small; decide
  have s2 : Small (lit "c") := by unfold Small; decide
  have t1 : SmallToks [.ident (lit "@a")] := by intro n hn; simp at hn; rw [hn]; exact s1
  have t2 : SmallToks [.ident (lit "c")] := by intro n hn; simp at hn; rw [hn]; exact s2
  refine ⟨_, _, Made.equ (n := 9) (C := ⟨1, 0⟩) s2 t1 rfl (Made.equ (ds := []) (n := 9) (C := ⟨2, 0⟩) s1 t2 rfl .start), ?_, ?_, ?_⟩
  · constructor
    · simp
    · intro d hd; simp at hd; rcases hd with hd | hd <;> rw [hd] <;> exact Int.le_refl 0
  · intro d hd; simp at hd; rcases hd with hd | hd <;> rw [hd] <;> decide
  · generalize hS : State.mk _ _ = S
    have e1 : tick S ⟨2, 0⟩ [] (.at [] (fresh [.ident (lit "c")])) = .at [] (fresh [.ident (lit "@a")]) := by subst hS; decide +kernel
    have e2 : tick S ⟨2, 0⟩ [] (.at [] (fresh [.ident (lit "@a")])) = .at [] (fresh [.ident (lit "c")]) := by subst hS; decide +kernel
    have cyc : ∀ n, (ticks S ⟨2, 0⟩ [] n (.at [] (fresh [.ident (lit "c")])) = .at [] (fresh [.ident (lit "c")]) ∨
          ticks S ⟨2, 0⟩ [] n (.at [] (fresh [.ident (lit "c")])) = .at [] (fresh [.ident (lit "@a")])) ∧
        (ticks S ⟨2, 0⟩ [] n (.at [] (fresh [.ident (lit "@a")])) = .at [] (fresh [.ident (lit "c")]) ∨
          ticks S ⟨2, 0⟩ [] n (.at [] (fresh [.ident (lit "@a")])) = .at [] (fresh [.ident (lit "@a")])) := by
      intro n
      induction n with
      | zero => exact ⟨Or.inl rfl, Or.inr rfl⟩
      | succ n ih => simp only [ticks, e1, e2]; exact ⟨ih.2, ih.1⟩
    intro n
    constructor
    · rcases (cyc n).1 with h | h <;> rw [h] <;> exact fun hc => by cases hc
    · intro out
      rcases (cyc n).1 with h | h <;> rw [h] <;> exact fun hc => by cases hc

/-- `-equ Foo foo` on the command line: the name is compared with capitals and looked up without. It is accepted, and reading `foo` never ends. -/
theorem equ_capital_wrong : ∃ S, addEquation 9 {} ⟨0, 0⟩ (lit "Foo") [.ident (lit "foo")] = some (some S) ∧
    ∀ n, ticks S ⟨0, 0⟩ [] n (.at [] (fresh [.ident (lit "foo")])) = .at [] (fresh [.ident (lit "foo")]) := by
  refine ⟨_, rfl, ?_⟩
  generalize hS : State.mk _ _ = S
  have e : tick S ⟨0, 0⟩ [] (.at [] (fresh [.ident (lit "foo")])) = .at [] (fresh [.ident (lit "foo")]) := by subst hS; decide +kernel
  intro n
  induction n with
  | zero => rfl
  | succ n ih => simp only [ticks, e]; exact ih

/-- `x equ ::` is accepted, with an empty value; reading `x` crashes. -/
theorem equ_empty_wrong : ∃ ds S, Made ds S ∧ ticks S ⟨0, 0⟩ [] 1 (.at [] (fresh [.ident (lit "x")])) = .crashed := by
  have s1 : Small (lit "x") := by unfold Small; decide
  refine ⟨_, _, Made.equ (ds := []) (n := 9) (C := ⟨0, 0⟩) (value := [.separator, .separator]) s1 (by intro n hn; simp at hn) rfl .start, ?_⟩
  decide +kernel

/-! ## Macro arguments -/

/-- In a macro call, each parameter is replaced by its argument, all at once: provided no argument has the name of a parameter or of a label
of the macro behind its first token, and no equ is involved. -/
theorem macro_arguments_partial (S : State) (C : Place) (M : Macro) (args : List (List Tok))
    (hne : ∀ a ∈ args, a ≠ [])
    (hequ : ∀ r ∈ replacements M args, ∀ n, .ident n ∈ r.value → S.symbols.findEquation n C.file C.section_ = none)
    (hcont : ∀ n, .ident n ∈ M.content → S.symbols.findEquation n C.file C.section_ = none)
    (htail : ∀ a ∈ args, ∀ n, .ident n ∈ a.tail → n ∉ M.params ∧ n ∉ M.labels) :
    ∃ n, ticks S C (replacements M args) n (.at [] (fresh M.content)) =
      .at (M.content.flatMap (putIn ((replacements M args).map fun r => (r.name, r.value)))) [] := by
  have hmem : ∀ r ∈ replacements M args, (r.value ∈ args ∧ r.name ∈ M.params) ∨ (∃ x, r.value = [.ident x] ∧ r.name ∈ M.labels) := by
    intro r hr
    rcases List.mem_append.mp hr with hr | hr
    · obtain ⟨p, hp, rfl⟩ := List.mem_map.mp hr
      exact Or.inl ⟨(List.of_mem_zip hp).2, (List.of_mem_zip hp).1⟩
    · obtain ⟨l, hl, rfl⟩ := List.mem_map.mp hr
      exact Or.inr ⟨_, rfl, (List.mem_filter.mp hl).1⟩
  have hfind : ∀ n, n ∉ M.params → n ∉ M.labels → (replacements M args).find? (fun q => q.name = n) = none := by
    intro n h1 h2
    rw [List.find?_eq_none]
    intro r hr hc
    have hc : r.name = n := by simpa using hc
    rcases hmem r hr with h | ⟨_, _, h⟩
    · exact h1 (by rw [← hc]; exact h.2)
    · exact h2 (by rw [← hc]; exact h)
  obtain ⟨n, hn⟩ := read_macro (S := S) (C := C) (R := replacements M args)
    (by
      intro r hr
      rcases hmem r hr with h | ⟨x, hx, _⟩
      · exact hne _ h.1
      · rw [hx]; simp)
    hequ
    (by
      intro r hr m hm
      rcases hmem r hr with h | ⟨x, hx, _⟩
      · have := htail _ h.1 m hm
        exact hfind m this.1 this.2
      · rw [hx] at hm; simp at hm)
    M.content hcont []
  refine ⟨n, ?_⟩
  rw [hn, List.nil_append, show substituted (replacements M args) = _ from funext fun t => substituted_eq _ t]

/-- Non-vacuity: `.macro m,a,b`, `a: b + a`, called as `m b, a`: the parameters are exchanged, not replaced twice. -/
example : ticks {} ⟨0, 0⟩ (replacements ⟨lit "m", [lit "a", lit "b"], [], 0, [.ident (lit "a"), .ident (lit "b")]⟩ [[.ident (lit "b")], [.ident (lit "a")]])
    20 (.at [] (fresh [.ident (lit "a"), .ident (lit "b")])) = .at [.ident (lit "b"), .ident (lit "a")] [] := by decide +kernel

/-- `.macro m,a` with the content `a`, called as `m 1+a`, where `a` is a label: the argument is put in for the `a` of the argument again and again.
Reading never ends (and the token list grows without bound). -/
theorem macro_argument_wrong : ∀ n, ∃ got left,
    ticks {} ⟨0, 0⟩ (replacements ⟨lit "m", [lit "a"], [], 0, [.ident (lit "a")]⟩ [[.int 1, .plus, .ident (lit "a")]]) n
      (.at [] (fresh [.ident (lit "a")])) = .at got left ∧ left ≠ [] := by
  generalize hR : replacements ⟨lit "m", [lit "a"], [], 0, [.ident (lit "a")]⟩ [[.int 1, .plus, .ident (lit "a")]] = R
  have step : ∀ got, tick {} ⟨0, 0⟩ R (.at got (fresh [.ident (lit "a")])) = .at got (fresh [.int 1, .plus, .ident (lit "a")]) ∧
      tick {} ⟨0, 0⟩ R (.at got (fresh [.int 1, .plus, .ident (lit "a")])) = .at (got ++ [.int 1]) (fresh [.plus, .ident (lit "a")]) ∧
      tick {} ⟨0, 0⟩ R (.at got (fresh [.plus, .ident (lit "a")])) = .at (got ++ [.plus]) (fresh [.ident (lit "a")]) := by
    intro got; subst hR; exact ⟨rfl, rfl, rfl⟩
  have all : ∀ n got left, left = fresh [.ident (lit "a")] ∨ left = fresh [.int 1, .plus, .ident (lit "a")] ∨ left = fresh [.plus, .ident (lit "a")] →
      ∃ got' left', ticks {} ⟨0, 0⟩ R n (.at got left) = .at got' left' ∧ left' ≠ [] := by
    intro n
    induction n with
    | zero =>
      intro got left h
      refine ⟨got, left, rfl, ?_⟩
      rcases h with h | h | h <;> rw [h] <;> exact fun hc => by cases hc
    | succ n ih =>
      intro got left h
      simp only [ticks]
      rcases h with h | h | h
      · rw [h, (step got).1]; exact ih _ _ (Or.inr (Or.inl rfl))
      · rw [h, (step got).2.1]; exact ih _ _ (Or.inr (Or.inr rfl))
      · rw [h, (step got).2.2]; exact ih _ _ (Or.inl rfl)
  exact fun n => all n [] _ (Or.inl rfl)

/-! ## C56 -/

/-- The names that a macro gives to its labels, in the expansions number `a` and `b`: they are equal only for the same label in the same
expansion. (The number of an expansion is below 2^32.) -/
theorem macro_labels_distinct (mac l l' : Str) (a b : Nat) (hl : Small l) (hl' : Small l') (ha : a < 2 ^ 32) (hb : b < 2 ^ 32)
    (h : fullName mac l a = fullName mac l' b) : l = l' ∧ a = b := by
  have low : ∀ {s : Str} (k : Nat), Small s → (s.drop k).map lower = s.drop k := by
    intro s k hs
    exact small_lower fun b hb => hs b (List.mem_of_mem_drop hb)
  have e1 : lit "@@" = List.replicate 2 (chr '@') := by decide
  have e2 : lit "@" = List.replicate 1 (chr '@') := by decide
  have e3 : lit "_" = [chr '_'] := by decide
  have form : ∀ (s : Str) (c : Nat), Small s → ∃ k rest, k ≤ 2 ∧ s = List.replicate k (chr '@') ++ rest ∧
      fullName mac s c = (List.replicate k (chr '@') ++ (mac.map lower ++ chr '_' :: (rest ++ [chr '_']))) ++ counterText c := by
    intro s c hs
    unfold fullName
    split
    · rename_i hk
      refine ⟨2, s.drop 2, by omega, ?_, by rw [low 2 hs, e1, e3]; simp⟩
      simp only [SymTab.isLocalSymbol, Bool.and_eq_true, beq_iff_eq] at hk
      rcases s with _ | ⟨x, _ | ⟨y, s⟩⟩ <;> simp_all [List.replicate]
    · split
      · rename_i hk
        refine ⟨1, s.drop 1, by omega, ?_, by rw [low 1 hs, e2, e3]; simp⟩
        simp only [isStaticSymbol, beq_iff_eq] at hk
        rcases s with _ | ⟨x, s⟩ <;> simp_all [List.replicate]
      · refine ⟨0, s, by omega, by simp, by rw [small_lower hs, e3]; simp⟩
  obtain ⟨k, r, _, hs, hn⟩ := form l a hl
  obtain ⟨k', r', _, hs', hn'⟩ := form l' b hl'
  rw [hn, hn'] at h
  obtain ⟨h1, h2⟩ := counter_split ha hb h
  refine ⟨?_, h2⟩
  have hk : k = k' := by
    rcases Nat.lt_trichotomy k k' with hlt | heq | hgt
    · exfalso
      obtain ⟨d, rfl⟩ : ∃ d, k' = k + (d + 1) := ⟨k' - k - 1, by omega⟩
      rw [← List.replicate_append_replicate, List.append_assoc] at h1
      exact at_shift d _ _ _ (List.append_cancel_left h1).symm
    · exact heq
    · exfalso
      obtain ⟨d, rfl⟩ : ∃ d, k = k' + (d + 1) := ⟨k - k' - 1, by omega⟩
      rw [← List.replicate_append_replicate, List.append_assoc] at h1
      exact at_shift d _ _ _ (List.append_cancel_left h1)
  subst hk
  have h3 := List.append_cancel_left (List.append_cancel_left h1)
  simp only [List.cons.injEq, true_and] at h3
  rw [hs, hs', List.append_cancel_right h3]

/-- The labels of one call are put in under names that are all different. -/
theorem macro_call_labels (M : Macro) (args : List (List Tok)) (hM : M.counter < 2 ^ 32) (hl : ∀ l ∈ M.labels, Small l) (l l' : Str)
    (h : l ∈ M.labels) (h' : l' ∈ M.labels) (hn : l ≠ l') : fullName M.name l M.counter ≠ fullName M.name l' M.counter :=
  fun hc => hn (macro_labels_distinct M.name l l' _ _ (hl l h) (hl l' h') hM hM hc).1

/-- A label that no argument and no parameter names stands for its own name in the expansion. -/
theorem macro_label_renamed (M : Macro) (args : List (List Tok)) (l : Str) (h : l ∈ M.labels) (hp : l ∉ M.params) (ha : [.ident l] ∉ args) :
    (replacements M args).find? (fun r => r.name = l) = some ⟨l, [.ident (fullName M.name l M.counter)]⟩ := by
  have hargs : ∀ as : List (List Tok), [.ident l] ∉ as → (identArgs as).contains l = false := by
    intro as
    induction as with
    | nil => intro _; rfl
    | cons a as ih =>
      intro hn
      have h1 := ih fun hc => hn (List.mem_cons_of_mem _ hc)
      unfold identArgs
      split
      · rename_i heq; cases heq
      · rename_i n as' heq
        simp only [List.cons.injEq] at heq
        rw [← heq.2]
        simp only [List.contains_cons, h1, Bool.or_false, beq_eq_false_iff_ne, ne_eq]
        intro hc
        apply hn
        rw [heq.1, hc]; exact List.mem_cons_self
      · rename_i a' as' _ heq
        simp only [List.cons.injEq] at heq
        rw [← heq.2]; exact h1
  unfold replacements
  rw [List.find?_append]
  have h1 : ((M.params.zip args).map fun p => (⟨p.1, p.2⟩ : Replacement)).find? (fun r => r.name = l) = none := by
    rw [List.find?_eq_none]
    intro r hr hc
    obtain ⟨p, hpm, rfl⟩ := List.mem_map.mp hr
    have hc : p.1 = l := by simpa using hc
    exact hp (by rw [← hc]; exact (List.of_mem_zip hpm).1)
  rw [h1, Option.none_or]
  have hm : l ∈ M.labels.filter fun l => !(identArgs args).contains l := List.mem_filter.mpr ⟨h, by rw [hargs args ha]; rfl⟩
  generalize M.labels.filter _ = ls at hm
  induction ls with
  | nil => cases hm
  | cons x ls ih =>
    simp only [List.map_cons, List.find?_cons]
    by_cases hx : x = l
    · rw [hx]; simp
    · simp only [decide_eq_false hx]
      rcases List.mem_cons.mp hm with hc | hm
      · exact absurd hc.symm hx
      · exact ih hm

/-- A label keeps its scope (global, static or local) unless the name of the macro starts with `@`. -/
theorem macro_label_scope (mac l : Str) (c : Nat) (hm : mac.head? ≠ some (chr '@')) (hm' : mac ≠ []) : kind (fullName mac l c) = kind l := by
  obtain ⟨x, mac, rfl⟩ := List.exists_cons_of_ne_nil hm'
  have hx : x ≠ chr '@' := fun hc => hm (by rw [hc]; rfl)
  have hlow : lower x ≠ chr '@' := by
    have : ∀ y : Byte, y ≠ chr '@' → lower y ≠ chr '@' := by
      have h : ∀ i : Fin 256, BitVec.ofFin (w := 8) i ≠ chr '@' → lower (BitVec.ofFin (w := 8) i) ≠ chr '@' := by decide +kernel
      exact fun y => h y.toFin
    exact this x hx
  have e1 : lit "@@" = [chr '@', chr '@'] := by decide
  have e2 : lit "@" = [chr '@'] := by decide
  have e3 : lit "_" = [chr '_'] := by decide
  unfold fullName
  split
  · rename_i hk
    simp only [SymTab.isLocalSymbol, Bool.and_eq_true, beq_iff_eq] at hk
    rcases l with _ | ⟨a, _ | ⟨b, l⟩⟩
    · simp at hk
    · simp at hk
    · simp only [List.getElem?_cons_zero, List.getElem?_cons_succ, Option.some.injEq] at hk
      rw [e1]
      simp [kind, hk.1, hk.2]
  · rename_i hk
    split
    · rename_i hs
      simp only [isStaticSymbol, beq_iff_eq] at hs
      simp only [SymTab.isLocalSymbol, Bool.and_eq_true, beq_iff_eq] at hk
      rcases l with _ | ⟨a, l⟩
      · simp at hs
      · simp only [List.getElem?_cons_zero, Option.some.injEq] at hs
        rw [e2]
        rcases l with _ | ⟨b, l⟩
        · simp [kind, hs, hlow]
        · have hb : b ≠ chr '@' := fun hc => hk (by simp [hs, hc])
          simp [kind, hs, hb, hlow]
    · rename_i hs
      simp only [isStaticSymbol, beq_iff_eq] at hs
      have hl : kind l = .global := by
        rcases l with _ | ⟨a, _ | ⟨b, l⟩⟩
        · rfl
        · have : a ≠ chr '@' := fun hc => hs (by simp [hc])
          simp [kind, this]
        · have : a ≠ chr '@' := fun hc => hs (by simp [hc])
          simp [kind, this]
      rw [hl, e3]
      simp [kind, hlow]
      split <;> simp_all

/-- Non-vacuity: the local label `@@loop` of the macro `wait` in its third expansion. -/
example : fullName (lit "wait") (lit "@@loop") 2 = lit "@@wait_loop_00000002" ∧ fullName (lit "wait") (lit "x") 26 = lit "wait_x_0000001a" := by
  decide +kernel

/-- Labels of different macros can meet: the label `c` of the macro `a_b`, and the label `b_c` of the macro `a`. -/
theorem macro_labels_meet_wrong : fullName (lit "a_b") (lit "c") 0 = fullName (lit "a") (lit "b_c") 0 := by decide +kernel

end Armips.Props
