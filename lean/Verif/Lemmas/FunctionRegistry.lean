import Verif.Model.FunctionRegistry
namespace Armips.Registry

def mkB (f : String × Builtin × Nat × Nat) : FuncEntry := ⟨.builtin f.2.1, f.2.2.1, f.2.2.2, f.2.1.safety⟩
def mkL (f : String × LabelFn × Nat × Nat) : FuncEntry := ⟨.label f.2.1, f.2.2.1, f.2.2.2, .unsafe_⟩

theorem registerEntry_entries (r : Registry) (reg name e n) :
    (r.registerEntry reg name e).1.entries n = (r.entries n).or (if n = name then some e else none) := by
  unfold registerEntry
  cases h : r.entries name with
  | none =>
    simp only
    by_cases hn : n = name
    · subst hn; simp [h]
    · simp [hn]
  | some x =>
    simp only
    by_cases hn : n = name
    · subst hn; simp [h]
    · simp [hn]

theorem addFunctions_entries (reg : Bool) (fs : List (String × Builtin × Nat × Nat)) (r : Registry) (n : Str) :
    (fs.foldl (fun r f => r.addFunction reg f) r).entries n =
      (r.entries n).or ((fs.find? (fun f => decide (n = lit f.1))).map mkB) := by
  induction fs generalizing r with
  | nil => simp
  | cons f fs ih =>
    rw [List.foldl_cons, ih]
    unfold addFunction
    rw [registerEntry_entries]
    by_cases hn : n = lit f.1
    · simp [hn, mkB]
    · simp [hn, List.find?_cons]

theorem addLabelFunctions_entries (fs : List (String × LabelFn × Nat × Nat)) (r : Registry) (n : Str) :
    (fs.foldl addLabelFunction r).entries n =
      (r.entries n).or ((fs.find? (fun f => decide (n = lit f.1))).map mkL) := by
  induction fs generalizing r with
  | nil => simp
  | cons f fs ih =>
    rw [List.foldl_cons, ih]
    unfold addLabelFunction
    rw [registerEntry_entries]
    by_cases hn : n = lit f.1
    · simp [hn, mkL]
    · simp [hn, List.find?_cons]

theorem addFunctions_arch (fs : List (String × Builtin × Nat × Nat)) (r : Registry) (n : Str) :
    n ∈ (fs.foldl (fun r f => r.addFunction true f) r).architectureFunctions ↔
      n ∈ r.architectureFunctions ∨ (r.entries n = none ∧ (fs.find? (fun f => decide (n = lit f.1))).isSome) := by
  induction fs generalizing r with
  | nil => simp
  | cons f fs ih =>
    rw [List.foldl_cons, ih]
    have hE := registerEntry_entries r true (lit f.1) (mkB f) n
    have hA : n ∈ (r.addFunction true f).architectureFunctions ↔
        n ∈ r.architectureFunctions ∨ (n = lit f.1 ∧ r.entries n = none) := by
      unfold addFunction registerEntry
      cases h : r.entries (lit f.1) with
      | none =>
        simp only [if_true, List.mem_append, List.mem_singleton]
        constructor
        · rintro (h' | h')
          · exact .inl h'
          · exact .inr ⟨h', h' ▸ h⟩
        · rintro (h' | h')
          · exact .inl h'
          · exact .inr h'.1
      | some x =>
        simp only
        constructor
        · exact fun h' => .inl h'
        · rintro (h' | ⟨rfl, h'⟩)
          · exact h'
          · rw [h] at h'; simp at h'
    have hE' : (r.addFunction true f).entries n = (r.entries n).or (if n = lit f.1 then some (mkB f) else none) := hE
    rw [hA, hE']
    by_cases hn : n = lit f.1
    · simp only [hn, if_true, List.find?_cons, decide_true, Option.isSome_some, and_true, true_and]
      cases r.entries (lit f.1) <;> simp
    · simp [hn, List.find?_cons]

/-- The entry of a generic function. -/
def genericEntry (n : Str) : Option FuncEntry :=
  ((genericFunctions.find? (fun f => decide (n = lit f.1))).map mkB).or
    ((labelFunctions.find? (fun f => decide (n = lit f.1))).map mkL)

/-- The entry of an architecture's function. -/
def archEntry (a : ArchId) (n : Str) : Option FuncEntry :=
  ((archFunctions a).find? (fun f => decide (n = lit f.1))).map mkB

theorem registerGeneric_entries (n : Str) : (registerGeneric {}).entries n = genericEntry n := by
  unfold registerGeneric
  rw [addLabelFunctions_entries, addFunctions_entries]
  simp [genericEntry]

theorem registerEntry_arch (r : Registry) (n e) :
    (r.registerEntry false n e).1.architectureFunctions = r.architectureFunctions := by
  unfold registerEntry
  split <;> simp

theorem registerGeneric_arch : (registerGeneric {}).architectureFunctions = [] := by
  have h1 : ∀ (fs : List (String × Builtin × Nat × Nat)) (r : Registry), r.architectureFunctions = [] →
      (fs.foldl (fun r f => r.addFunction false f) r).architectureFunctions = [] := by
    intro fs
    induction fs with
    | nil => intro r h; exact h
    | cons f fs ih =>
      intro r h
      apply ih
      exact (registerEntry_arch r _ _).trans h
  have h2 : ∀ (fs : List (String × LabelFn × Nat × Nat)) (r : Registry), r.architectureFunctions = [] →
      (fs.foldl addLabelFunction r).architectureFunctions = [] := by
    intro fs
    induction fs with
    | nil => intro r h; exact h
    | cons f fs ih =>
      intro r h
      apply ih
      exact (registerEntry_arch r _ _).trans h
  exact h2 _ _ (h1 _ _ rfl)

/-- A function defined by `.expfunc`. -/
def IsUser (e : FuncEntry) : Prop := ∃ f, e.kind = .user f ∧ e.safety = .unsafe_

/-- Invariant of a run whose current architecture is `a`. -/
structure Inv (r : Registry) (a : ArchId) : Prop where
  generic : ∀ n e, genericEntry n = some e → r.entries n = some e
  kinds : ∀ n e, r.entries n = some e →
    genericEntry n = some e ∨ (genericEntry n = none ∧ n ∉ r.architectureFunctions ∧ IsUser e) ∨
    (genericEntry n = none ∧ n ∈ r.architectureFunctions ∧ archEntry a n = some e)
  arch : ∀ n, n ∈ r.architectureFunctions → r.entries n = archEntry a n ∧ genericEntry n = none ∧ r.entries n ≠ none
  present : ∀ n, (archEntry a n).isSome → (r.entries n).isSome

theorem inv_start : Inv (registerGeneric {}) .invalid := by
  refine ⟨?_, ?_, ?_, ?_⟩
  · intro n e h; rw [registerGeneric_entries]; exact h
  · intro n e h; rw [registerGeneric_entries] at h; exact .inl h
  · intro n h; rw [registerGeneric_arch] at h; simp at h
  · intro n h; simp [archEntry, archFunctions] at h

theorem inv_user {r a} (h : Inv r a) (n k f) : Inv (r.addUserFunction n k f) a := by
  unfold addUserFunction registerEntry
  cases hn : r.entries n with
  | some x => exact h
  | none =>
    have hg : genericEntry n = none := by
      cases hg : genericEntry n with
      | none => rfl
      | some e => rw [h.generic n e hg] at hn; simp at hn
    have ha : n ∉ r.architectureFunctions := fun hm => (h.arch n hm).2.2 hn
    simp only
    refine ⟨?_, ?_, ?_, ?_⟩
    · intro m e hm
      simp only
      split
      · rename_i hmn; rw [hmn, hg] at hm; simp at hm
      · exact h.generic m e hm
    · intro m e hm
      simp only at hm
      split at hm
      · rename_i hmn
        simp at hm
        subst hmn hm
        exact .inr (.inl ⟨hg, by simpa using ha, f, rfl, rfl⟩)
      · simpa using h.kinds m e hm
    · intro m hm
      simp only [Bool.false_eq_true, if_false] at hm
      have hmn : m ≠ n := fun e => ha (e ▸ hm)
      simpa [hmn] using h.arch m hm
    · intro m hm
      simp only
      split
      · rfl
      · exact h.present m hm

theorem inv_arch {r a} (h : Inv r a) (b : ArchId) : Inv (r.updateArchitecture b) b := by
  obtain ⟨r', hr'⟩ : ∃ r' : Registry, r' =
    { entries := fun n => if n ∈ r.architectureFunctions then none else r.entries n, architectureFunctions := [] } :=
    ⟨_, rfl⟩
  have hE : ∀ n, r'.entries n = if n ∈ r.architectureFunctions then none else r.entries n := by
    intro n; rw [hr']
  have hA0 : r'.architectureFunctions = [] := by rw [hr']
  have e1 : ∀ n, (r.updateArchitecture b).entries n = (r'.entries n).or (archEntry b n) := by
    intro n
    unfold updateArchitecture
    simp only [← hr']
    rw [addFunctions_entries]; rfl
  have e2 : ∀ n, n ∈ (r.updateArchitecture b).architectureFunctions ↔ r'.entries n = none ∧ (archEntry b n).isSome := by
    intro n
    unfold updateArchitecture
    simp only [← hr']
    rw [addFunctions_arch, hA0]
    simp [archEntry]
  refine ⟨?_, ?_, ?_, ?_⟩
  · intro n e hn
    have := h.generic n e hn
    have hna : n ∉ r.architectureFunctions := by
      intro hm; have := (h.arch n hm).2.1; rw [hn] at this; simp at this
    rw [e1, hE, if_neg hna, this]; rfl
  · intro n e hn
    rw [e1] at hn
    rw [e2]
    cases hr : r'.entries n with
    | some x =>
      rw [hr] at hn; simp at hn; subst hn
      rw [hE] at hr
      split at hr
      · simp at hr
      · rename_i hna
        rcases h.kinds n x hr with hk | hk | hk
        · exact .inl hk
        · exact .inr (.inl ⟨hk.1, by simp, hk.2.2⟩)
        · exact absurd hk.2.1 hna
    | none =>
      rw [hr] at hn; simp at hn
      refine .inr (.inr ⟨?_, ?_, hn⟩)
      · cases hg : genericEntry n with
        | none => rfl
        | some x =>
          have h1 := h.generic n x hg
          have hna : n ∉ r.architectureFunctions := by
            intro hm; have := (h.arch n hm).2.1; rw [hg] at this; simp at this
          rw [hE, if_neg hna, h1] at hr; simp at hr
      · simp [hn]
  · intro n hn
    rw [e2] at hn
    rw [e1, hn.1]
    refine ⟨by simp, ?_, ?_⟩
    · cases hg : genericEntry n with
      | none => rfl
      | some x =>
        have h1 := h.generic n x hg
        have hna : n ∉ r.architectureFunctions := by
          intro hm; have := (h.arch n hm).2.1; rw [hg] at this; simp at this
        have := hn.1
        rw [hE, if_neg hna, h1] at this; simp at this
    · have := hn.2
      cases h : archEntry b n <;> simp_all
  · intro n hn
    rw [e1]
    cases r'.entries n <;> simp [hn]

/-- The architecture selected last. -/
def lastArch (ops : List Op) : ArchId := ops.foldl (fun a op => match op with | .arch b => b | .user .. => a) .invalid

theorem inv_run (ops : List Op) : Inv (run ops) (lastArch ops) := by
  unfold run lastArch
  generalize hr : registerGeneric {} = r
  have h : Inv r .invalid := hr ▸ inv_start
  clear hr
  revert h
  generalize ArchId.invalid = a
  intro h
  induction ops generalizing r a with
  | nil => exact h
  | cons op ops ih =>
    rw [List.foldl_cons, List.foldl_cons]
    cases op with
    | user n k f => exact ih _ _ (inv_user h n k f)
    | arch b => exact ih _ _ (inv_arch h b)

end Armips.Registry

namespace Armips.Registry

/-- Entries of user functions come from the history. -/
theorem user_from_history (ops : List Op) (n : Str) (e : FuncEntry) (f : Ctx → List Value → Ev Value)
    (h : (run ops).entries n = some e) (hk : e.kind = .user f) :
    ∃ k, Op.user n k f ∈ ops ∧ e.minParams = k ∧ e.maxParams = k := by
  have key : ∀ (ops : List Op) (r : Registry) (n e f), (ops.foldl step r).entries n = some e → e.kind = .user f →
        r.entries n = some e ∨ ∃ k, Op.user n k f ∈ ops ∧ e.minParams = k ∧ e.maxParams = k := by
    intro ops
    induction ops with
    | nil => intro r n e f h _; exact .inl h
    | cons op ops ih =>
      intro r n e f h hk
      rw [List.foldl_cons] at h
      rcases ih (r.step op) n e f h hk with h1 | ⟨k, h1, h2⟩
      · cases op with
        | user m k g =>
          simp only [step, addUserFunction, registerEntry_entries] at h1
          rw [Option.or_eq_some_iff] at h1
          rcases h1 with h1 | ⟨_, h1⟩
          · exact .inl h1
          · split at h1
            · rename_i hnm
              simp at h1; subst h1
              simp at hk; subst hk hnm
              exact .inr ⟨k, by simp, rfl, rfl⟩
            · simp at h1
        | arch a =>
          simp only [step, updateArchitecture] at h1
          rw [addFunctions_entries, Option.or_eq_some_iff] at h1
          rcases h1 with h1 | ⟨_, h1⟩
          · simp only at h1
            split at h1
            · simp at h1
            · exact .inl h1
          · simp only [Option.map_eq_some_iff] at h1
            obtain ⟨row, _, h1⟩ := h1
            subst h1
            simp [mkB] at hk
      · exact .inr ⟨k, List.mem_cons_of_mem _ h1, h2⟩
  rcases key ops (registerGeneric {}) n e f h hk with h1 | h1
  · rw [registerGeneric_entries] at h1
    unfold genericEntry at h1
    rw [Option.or_eq_some_iff] at h1
    rcases h1 with h1 | ⟨_, h1⟩ <;>
    · simp only [Option.map_eq_some_iff] at h1
      obtain ⟨row, _, h1⟩ := h1
      subst h1
      simp [mkB, mkL] at hk
  · exact h1

theorem genericEntry_row : ∀ f ∈ genericFunctions, genericEntry (lit f.1) = some (mkB f) := by
  have h : ∀ f ∈ genericFunctions, genericFunctions.find? (fun g => decide (lit f.1 = lit g.1)) = some f := by
    decide +kernel
  intro f hf
  unfold genericEntry
  rw [h f hf]; rfl

theorem genericEntry_label : ∀ f ∈ labelFunctions, genericEntry (lit f.1) = some (mkL f) := by
  have h : ∀ f ∈ labelFunctions, labelFunctions.find? (fun g => decide (lit f.1 = lit g.1)) = some f ∧
      genericFunctions.find? (fun g => decide (lit f.1 = lit g.1)) = none := by
    decide +kernel
  intro f hf
  unfold genericEntry
  rw [(h f hf).1, (h f hf).2]; rfl

theorem archEntry_row (a : ArchId) : ∀ f ∈ archFunctions a,
    archEntry a (lit f.1) = some (mkB f) ∧ genericEntry (lit f.1) = none := by
  have h : ∀ f ∈ archFunctions a, (archFunctions a).find? (fun g => decide (lit f.1 = lit g.1)) = some f ∧
      genericFunctions.find? (fun g => decide (lit f.1 = lit g.1)) = none ∧
      labelFunctions.find? (fun g => decide (lit f.1 = lit g.1)) = none := by
    cases a <;> decide +kernel
  intro f hf
  unfold archEntry genericEntry
  rw [(h f hf).1, (h f hf).2.1, (h f hf).2.2]; exact ⟨rfl, rfl⟩

end Armips.Registry
