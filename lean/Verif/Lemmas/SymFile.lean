import Verif.Spec.SymFile
/-! Lemmas about the symbol file. -/
namespace Armips.SymFile
open Armips Spec.Sym

/-- What a module has to contain. -/
structure Holds (v : View) (m : Module) : Prop where
  symbols : m.symbols.Nodup
  symbols_iff : ∀ x, x ∈ m.symbols ↔ (m.file, x) ∈ v.labels
  data : m.data.Nodup
  data_iff : ∀ x, x ∈ m.data ↔ (m.file, x) ∈ v.data
  functions : m.functions = (v.functions.filter fun f => f.1 = m.file).map (·.2)

/-- The state agrees with the history. -/
structure Inv (s : State) (v : View) : Prop where
  enabled : s.enabled = v.on
  files : (s.modules.map (·.file)).Nodup
  first : (s.modules.map (·.file))[0]? = some none
  cur : (s.modules.map (·.file))[s.cur]? = some v.cur
  holds : ∀ m ∈ s.modules, Holds v m
  labels : ∀ x ∈ v.labels, x.1 ∈ s.modules.map (·.file)
  data : ∀ x ∈ v.data, x.1 ∈ s.modules.map (·.file)
  functions : ∀ x ∈ v.functions, x.1 ∈ s.modules.map (·.file)
  opened : match v.opened with
    | none => s.func = none
    | some (f, _) => f = v.cur ∧ s.func = some (v.closed.filter fun x => x.1 = f).length

theorem inv_start : Inv State.start {} where
  enabled := rfl
  files := by simp [State.start]
  first := rfl
  cur := rfl
  holds := by
    intro m hm
    simp only [State.start, List.mem_singleton] at hm
    subst hm
    exact ⟨by simp, by simp, by simp, by simp, rfl⟩
  labels := by simp
  data := by simp
  functions := by simp [View.functions, View.close]
  opened := rfl

/-- The current module. -/
theorem Inv.module {s : State} {v : View} (h : Inv s v) : ∃ m, s.modules[s.cur]? = some m ∧ m.file = v.cur ∧ m ∈ s.modules := by
  have := h.cur
  rw [List.getElem?_map] at this
  obtain ⟨m, h1, h2⟩ := Option.map_eq_some_iff.1 this
  exact ⟨m, h1, h2, List.mem_of_getElem? h1⟩

/-- Changing the current module. -/
theorem set_module {s : State} {v : View} (h : Inv s v) {m : Module} (hm : s.modules[s.cur]? = some m) (m' : Module) (hf : m'.file = m.file) :
    ((s.modules.set s.cur m').map (·.file)) = s.modules.map (·.file) ∧
    ∀ x ∈ s.modules.set s.cur m', x = m' ∨ (x ∈ s.modules ∧ x.file ≠ v.cur) := by
  have hcur := h.cur
  have hnd := h.files
  constructor
  · rw [List.map_set]
    apply List.ext_getElem?
    intro i
    rw [List.getElem?_set]
    split
    · rename_i hi
      subst hi
      rw [List.getElem?_map, hm]
      have : s.cur < (s.modules.map (·.file)).length := by
        rw [List.length_map]
        exact (List.getElem?_eq_some_iff.1 hm).1
      rw [if_pos this, Option.map_some, hf]
    · rfl
  · intro x hx
    obtain ⟨i, hi⟩ := List.getElem?_of_mem hx
    rw [List.getElem?_set] at hi
    split at hi
    · split at hi
      · left; exact (Option.some.inj hi).symm
      · cases hi
    · rename_i hne
      right
      refine ⟨List.mem_of_getElem? hi, fun e => hne ?_⟩
      have hxi : (s.modules.map (·.file))[i]? = some v.cur := by rw [List.getElem?_map, hi, ← e]; rfl
      exact (List.getElem?_inj (List.getElem?_eq_some_iff.1 hcur).1 hnd).1 (hcur.trans hxi.symm)

theorem inv_label {s : State} {v : View} (h : Inv s v) (a : Int) (n : List Nat) :
    ∃ s', step s (.label a n) = some s' ∧ Inv s' (v.next (.label a n)) := by
  simp only [step, View.next]
  by_cases hon : v.on = true
  · have hs : s.enabled = true := h.enabled.trans hon
    rw [if_pos hs, if_pos hon]
    obtain ⟨m, hm, hf, hmem⟩ := h.module
    rw [hm]
    refine ⟨_, rfl, ?_⟩
    have hf' : (addLabel m a n).file = m.file := by unfold addLabel; split <;> rfl
    obtain ⟨e1, e2⟩ := set_module h hm (addLabel m a n) hf'
    have hh := h.holds m hmem
    refine ⟨h.enabled, by rw [e1]; exact h.files, by rw [e1]; exact h.first, by rw [e1]; exact h.cur, ?_, ?_, ?_, ?_, h.opened⟩
    · intro x hx
      rcases e2 x hx with rfl | ⟨hx, hxf⟩
      · refine ⟨?_, ?_, ?_, ?_, ?_⟩
        · unfold addLabel
          split
          · exact hh.symbols
          · rename_i hn
            rw [List.nodup_append]
            refine ⟨hh.symbols, by simp, ?_⟩
            intro y hy z hz e
            rw [List.mem_singleton] at hz
            exact hn (hz ▸ e ▸ hy)
        · intro x
          have hi := hh.symbols_iff x
          rw [hf] at hi
          rw [hf', hf]
          simp only [List.mem_append, List.mem_singleton, ← hi, Prod.mk.injEq, true_and]
          unfold addLabel
          split
          · rename_i hin
            constructor
            · exact .inl
            · rintro (h | rfl)
              · exact h
              · exact hin
          · simp
        · have : (addLabel m a n).data = m.data := by unfold addLabel; split <;> rfl
          rw [this]; exact hh.data
        · have : (addLabel m a n).data = m.data := by unfold addLabel; split <;> rfl
          rw [this, hf']; exact hh.data_iff
        · have : (addLabel m a n).functions = m.functions := by unfold addLabel; split <;> rfl
          rw [this, hf']; exact hh.functions
      · have hx' := h.holds x hx
        refine ⟨hx'.symbols, ?_, hx'.data, hx'.data_iff, hx'.functions⟩
        intro y
        rw [hx'.symbols_iff]
        simp only [List.mem_append, List.mem_singleton, Prod.mk.injEq, hxf, false_and, or_false]
    · intro x hx
      rw [e1]
      rcases List.mem_append.1 hx with hx | hx
      · exact h.labels x hx
      · rw [List.mem_singleton] at hx
        subst hx
        exact List.mem_map.2 ⟨m, hmem, hf⟩
    · rw [e1]; exact h.data
    · rw [e1]; exact h.functions
  · have hs : ¬ s.enabled = true := by rw [h.enabled]; exact hon
    rw [if_neg hs, if_neg hon]
    exact ⟨s, rfl, h⟩

theorem inv_data {s : State} {v : View} (h : Inv s v) (a : Int) (n : Nat) (t : DataType) :
    ∃ s', step s (.data a n t) = some s' ∧ Inv s' (v.next (.data a n t)) := by
  simp only [step, View.next]
  by_cases hon : v.on = true
  · have hs : s.enabled = true := h.enabled.trans hon
    rw [if_pos hs, if_pos hon]
    obtain ⟨m, hm, hf, hmem⟩ := h.module
    rw [hm]
    refine ⟨_, rfl, ?_⟩
    have hf' : (addData m a n t).file = m.file := by unfold addData; split <;> rfl
    obtain ⟨e1, e2⟩ := set_module h hm (addData m a n t) hf'
    have hh := h.holds m hmem
    refine ⟨h.enabled, by rw [e1]; exact h.files, by rw [e1]; exact h.first, by rw [e1]; exact h.cur, ?_, ?_, ?_, ?_, h.opened⟩
    · intro x hx
      rcases e2 x hx with rfl | ⟨hx, hxf⟩
      · refine ⟨?_, ?_, ?_, ?_, ?_⟩
        · have : (addData m a n t).symbols = m.symbols := by unfold addData; split <;> rfl
          rw [this]; exact hh.symbols
        · have : (addData m a n t).symbols = m.symbols := by unfold addData; split <;> rfl
          rw [this, hf']; exact hh.symbols_iff
        · unfold addData
          split
          · exact hh.data
          · rename_i hn
            rw [List.nodup_append]
            refine ⟨hh.data, by simp, ?_⟩
            intro y hy z hz e
            rw [List.mem_singleton] at hz
            exact hn (hz ▸ e ▸ hy)
        · intro x
          have hi := hh.data_iff x
          rw [hf] at hi
          rw [hf', hf]
          simp only [List.mem_append, List.mem_singleton, ← hi, Prod.mk.injEq, true_and]
          unfold addData
          split
          · rename_i hin
            constructor
            · exact .inl
            · rintro (h | rfl)
              · exact h
              · exact hin
          · simp
        · have : (addData m a n t).functions = m.functions := by unfold addData; split <;> rfl
          rw [this, hf']; exact hh.functions
      · have hx' := h.holds x hx
        refine ⟨hx'.symbols, hx'.symbols_iff, hx'.data, ?_, hx'.functions⟩
        intro y
        rw [hx'.data_iff]
        simp only [List.mem_append, List.mem_singleton, Prod.mk.injEq, hxf, false_and, or_false]
    · rw [e1]; exact h.labels
    · intro x hx
      rw [e1]
      rcases List.mem_append.1 hx with hx | hx
      · exact h.data x hx
      · rw [List.mem_singleton] at hx
        subst hx
        exact List.mem_map.2 ⟨m, hmem, hf⟩
    · rw [e1]; exact h.functions
  · have hs : ¬ s.enabled = true := by rw [h.enabled]; exact hon
    rw [if_neg hs, if_neg hon]
    exact ⟨s, rfl, h⟩

theorem functions_opened {v : View} {f : Option Nat} {a : Int} (h : v.opened = some (f, a)) : v.functions = v.closed ++ [(f, a, 0)] := by
  unfold View.functions View.close
  rw [h]

theorem functions_none {v : View} (h : v.opened = none) : v.functions = v.closed := by
  unfold View.functions View.close
  rw [h]; simp

/-- The functions of the current module while one is open. -/
theorem current_functions {s : State} {v : View} (h : Inv s v) {m : Module} (hm : m ∈ s.modules) (hf : m.file = v.cur) {a : Int}
    (ho : v.opened = some (v.cur, a)) :
    m.functions = ((v.closed.filter fun x => x.1 = v.cur).map (·.2)) ++ [(a, 0)] := by
  rw [(h.holds m hm).functions, functions_opened ho, List.filter_append, List.map_append, hf]
  congr 1
  simp

theorem inv_endFunction {s : State} {v : View} (h : Inv s v) (b : Int) :
    ∃ s', endFunction s b = some s' ∧ Inv s' (v.next (.endFunction b)) := by
  have hop := h.opened
  cases ho : v.opened with
  | none =>
    rw [ho] at hop
    refine ⟨{ s with errs := s.errs + 1 }, by unfold endFunction; rw [hop], ?_⟩
    have hv : v.next (.endFunction b) = v := by
      simp only [View.next, View.close, ho, List.append_nil]
      cases v; simp only at ho; subst ho; rfl
    rw [hv]
    exact ⟨h.enabled, h.files, h.first, h.cur, h.holds, h.labels, h.data, h.functions, h.opened⟩
  | some p =>
    obtain ⟨f, a⟩ := p
    rw [ho] at hop
    obtain ⟨rfl, hfn⟩ := hop
    obtain ⟨m, hm, hf, hmem⟩ := h.module
    have hfs := current_functions h hmem hf ho
    have hlen : ((v.closed.filter fun x => decide (x.1 = v.cur)).map (·.2)).length = (v.closed.filter fun x => decide (x.1 = v.cur)).length :=
      List.length_map ..
    have hget : m.functions[(v.closed.filter fun x => decide (x.1 = v.cur)).length]? = some (a, 0) := by
      rw [hfs, List.getElem?_append_right (by rw [hlen]; exact Nat.le_refl _), hlen]; simp
    have hset : m.functions.set (v.closed.filter fun x => decide (x.1 = v.cur)).length (a, span a b) =
        ((v.closed.filter fun x => decide (x.1 = v.cur)).map (·.2)) ++ [(a, span a b)] := by
      rw [hfs, List.set_append_right _ _ (by rw [hlen]; exact Nat.le_refl _), hlen]; simp
    unfold endFunction
    rw [hfn]
    simp only [hm, hget]
    refine ⟨_, rfl, ?_⟩
    rw [hset]
    have hv : v.next (.endFunction b) = { v with closed := v.closed ++ [(v.cur, a, span a b)], opened := none } := by
      simp only [View.next, View.close, ho]; rfl
    rw [hv]
    obtain ⟨e1, e2⟩ := set_module h hm { m with functions := ((v.closed.filter fun x => decide (x.1 = v.cur)).map (·.2)) ++ [(a, span a b)] } rfl
    refine ⟨h.enabled, by rw [e1]; exact h.files, by rw [e1]; exact h.first, by rw [e1]; exact h.cur, ?_, by rw [e1]; exact h.labels,
      by rw [e1]; exact h.data, ?_, rfl⟩
    · intro x hx
      rcases e2 x hx with rfl | ⟨hx, hxf⟩
      · have hh := h.holds m hmem
        refine ⟨hh.symbols, hh.symbols_iff, hh.data, hh.data_iff, ?_⟩
        rw [functions_none rfl]
        simp [List.filter_append, hf]
      · have hh := h.holds x hx
        refine ⟨hh.symbols, hh.symbols_iff, hh.data, hh.data_iff, ?_⟩
        rw [hh.functions, functions_opened ho, functions_none rfl, List.filter_append, List.filter_append]
        have : ¬ v.cur = x.file := fun e => hxf e.symm
        simp [this]
    · intro x hx
      rw [e1]
      rw [functions_none rfl] at hx
      rcases List.mem_append.1 hx with hx | hx
      · exact h.functions x (by rw [functions_opened ho]; exact List.mem_append_left _ hx)
      · rw [List.mem_singleton] at hx
        subst hx
        exact List.mem_map.2 ⟨m, hmem, hf⟩

theorem inv_startFunction {s : State} {v : View} (h : Inv s v) (a : Int) :
    ∃ s', step s (.startFunction a) = some s' ∧ Inv s' (v.next (.startFunction a)) := by
  have h1 : ∃ s1, (if s.func ≠ none then endFunction s a else some s) = some s1 ∧ Inv s1 (v.next (.endFunction a)) := by
    by_cases hn : s.func = none
    · rw [if_neg (by simpa using hn)]
      refine ⟨s, rfl, ?_⟩
      have hop := h.opened
      have ho : v.opened = none := by
        cases ho : v.opened with
        | none => rfl
        | some p =>
          rw [ho] at hop
          rw [hn] at hop
          cases hop.2
      have hv : v.next (.endFunction a) = v := by
        simp only [View.next, View.close, ho, List.append_nil]
        cases v; simp only at ho; subst ho; rfl
      rw [hv]; exact h
    · rw [if_pos hn]
      exact inv_endFunction h a
  obtain ⟨s1, h1, hi⟩ := h1
  simp only [step]
  rw [h1, Option.bind_some]
  obtain ⟨m, hm, hf, hmem⟩ := hi.module
  rw [hm, Option.map_some]
  refine ⟨_, rfl, ?_⟩
  have hv : v.next (.startFunction a) = { v.next (.endFunction a) with opened := some ((v.next (.endFunction a)).cur, a) } := rfl
  rw [hv]
  have ho : (v.next (.endFunction a)).opened = none := rfl
  generalize v.next (.endFunction a) = w at hi ho hf
  obtain ⟨e1, e2⟩ := set_module hi hm { m with functions := m.functions ++ [(a, 0)] } rfl
  have hfs := (hi.holds m hmem).functions
  rw [functions_none ho] at hfs
  refine ⟨hi.enabled, by rw [e1]; exact hi.files, by rw [e1]; exact hi.first, by rw [e1]; exact hi.cur, ?_, by rw [e1]; exact hi.labels,
      by rw [e1]; exact hi.data, ?_, ?_⟩
  · intro x hx
    rcases e2 x hx with rfl | ⟨hx, hxf⟩
    · have hh := hi.holds m hmem
      refine ⟨hh.symbols, hh.symbols_iff, hh.data, hh.data_iff, ?_⟩
      rw [functions_opened rfl]
      simp [List.filter_append, hf, hfs]
    · have hh := hi.holds x hx
      refine ⟨hh.symbols, hh.symbols_iff, hh.data, hh.data_iff, ?_⟩
      have hfo : ({ w with opened := some (w.cur, a) } : View).functions = w.closed ++ [(w.cur, a, 0)] := functions_opened rfl
      rw [hh.functions, functions_none ho]
      show _ = List.map _ (List.filter _ (w.closed ++ [(w.cur, a, 0)]))
      have : ¬ w.cur = x.file := fun e => hxf e.symm
      simp [List.filter_append, this]
  · intro x hx
    rw [e1]
    rw [functions_opened rfl] at hx
    rcases List.mem_append.1 hx with hx | hx
    · exact hi.functions x (by rw [functions_none ho]; exact hx)
    · rw [List.mem_singleton] at hx
      subst hx
      exact List.mem_map.2 ⟨m, hmem, hf⟩
  · refine ⟨rfl, ?_⟩
    rw [hfs, List.length_map, hf]

theorem inv_startModule {s : State} {v : View} (h : Inv s v) (f : Nat) (ho : v.opened = none) :
    ∃ s', step s (.startModule f) = some s' ∧ Inv s' (v.next (.startModule f)) := by
  have hfn : s.func = none := by have := h.opened; rw [ho] at this; exact this
  simp only [step]
  cases hi : s.modules.findIdx? (fun m => decide (m.file = some f)) with
  | some i =>
    refine ⟨_, rfl, h.enabled, h.files, h.first, ?_, ?_, h.labels, h.data, h.functions, ?_⟩
    · obtain ⟨h1, h2, _⟩ := List.findIdx?_eq_some_iff_getElem.1 hi
      rw [List.getElem?_map, List.getElem?_eq_getElem h1]
      simpa [View.next] using h2
    · intro m hm
      have := h.holds m hm
      exact ⟨this.symbols, this.symbols_iff, this.data, this.data_iff, this.functions⟩
    · simp only [View.next, ho]; exact hfn
  | none =>
    have hnew : some f ∉ s.modules.map (·.file) := by
      intro hm
      obtain ⟨m, hm, he⟩ := List.mem_map.1 hm
      have := List.findIdx?_eq_none_iff.1 hi m hm
      simp [he] at this
    have hpos : s.modules ≠ [] := by
      intro e
      have := h.first
      rw [e] at this; cases this
    refine ⟨_, rfl, h.enabled, ?_, ?_, ?_, ?_, ?_, ?_, ?_, ?_⟩
    · rw [List.map_append, List.nodup_append]
      refine ⟨h.files, by simp, ?_⟩
      intro x hx y hy e
      simp only [List.map_cons, List.map_nil, List.mem_singleton] at hy
      exact hnew (hy ▸ e ▸ hx)
    · rw [List.map_append, List.getElem?_append_left (by simpa using List.length_pos_iff.2 hpos)]
      exact h.first
    · simp [View.next]
    · intro m hm
      rcases List.mem_append.1 hm with hm | hm
      · have := h.holds m hm
        exact ⟨this.symbols, this.symbols_iff, this.data, this.data_iff, this.functions⟩
      · rw [List.mem_singleton] at hm
        subst hm
        refine ⟨by simp, ?_, by simp, ?_, ?_⟩
        · intro x
          refine ⟨fun h => (by cases h), fun hx => absurd (h.labels _ hx) hnew⟩
        · intro x
          refine ⟨fun h => (by cases h), fun hx => absurd (h.data _ hx) hnew⟩
        · have : (v.functions.filter fun x => decide (x.1 = some f)) = [] := by
            rw [List.filter_eq_nil_iff]
            intro x hx hf
            rw [decide_eq_true_iff] at hf
            exact hnew (hf ▸ h.functions x hx)
          show [] = ((v.functions.filter fun x => decide (x.1 = some f)).map _)
          rw [this]; rfl
    · intro x hx; rw [List.map_append]; exact List.mem_append_left _ (h.labels x hx)
    · intro x hx; rw [List.map_append]; exact List.mem_append_left _ (h.data x hx)
    · intro x hx; rw [List.map_append]; exact List.mem_append_left _ (h.functions x hx)
    · simp only [View.next, ho]; exact hfn

theorem inv_endModule {s : State} {v : View} (h : Inv s v) (f : Nat) :
    ∃ s', step s (.endModule f) = some s' ∧ Inv s' (v.next (.endModule f)) := by
  obtain ⟨m, hm, hf, hmem⟩ := h.module
  simp only [step, hm, Option.map_some]
  refine ⟨_, rfl, ?_⟩
  by_cases hc : v.cur = some f
  · rw [if_neg (by rw [hf]; simpa using hc)]
    have h0 : ¬ s.cur = 0 := by
      intro e
      have h1 := h.cur
      rw [e, h.first, hc] at h1
      cases h1
    rw [if_neg h0]
    simp only [View.next, if_pos hc]
    have key : Inv { s with func := none, cur := 0 } { v with cur := none, closed := v.closed ++ v.close fun _ => 0, opened := none } := by
      have hfun : ({ v with cur := none, closed := v.closed ++ v.close fun _ => 0, opened := none } : View).functions = v.functions := by
        rw [functions_none rfl]; rfl
      refine ⟨h.enabled, h.files, h.first, h.first, ?_, h.labels, h.data, by rw [hfun]; exact h.functions, rfl⟩
      intro m hm
      have := h.holds m hm
      exact ⟨this.symbols, this.symbols_iff, this.data, this.data_iff, by rw [hfun]; exact this.functions⟩
    split
    · exact ⟨key.enabled, key.files, key.first, key.cur, key.holds, key.labels, key.data, key.functions, key.opened⟩
    · rename_i hn
      have hn' : s.func = none := by simpa using hn
      exact ⟨key.enabled, key.files, key.first, key.cur, key.holds, key.labels, key.data, key.functions, hn'⟩
  · rw [if_pos (by rw [hf]; exact hc)]
    simp only [View.next, if_neg hc]
    exact h

theorem inv_step {s : State} {v : View} (h : Inv s v) (o : Op) (hc : ∀ f, o = .startModule f → v.opened = none) :
    ∃ s', step s o = some s' ∧ Inv s' (v.next o) := by
  cases o with
  | enable b => exact ⟨_, rfl, rfl, h.files, h.first, h.cur, fun m hm => ⟨(h.holds m hm).symbols, (h.holds m hm).symbols_iff, (h.holds m hm).data,
      (h.holds m hm).data_iff, (h.holds m hm).functions⟩, h.labels, h.data, h.functions, h.opened⟩
  | label a n => exact inv_label h a n
  | data a n t => exact inv_data h a n t
  | startModule f => exact inv_startModule h f (hc f rfl)
  | endModule f => exact inv_endModule h f
  | startFunction a => exact inv_startFunction h a
  | endFunction b => exact inv_endFunction h b

theorem inv_run : ∀ (ops : List Op) {s : State} {v : View}, Inv s v →
    (∀ a f b, ops = a ++ .startModule f :: b → (a.foldl View.next v).opened = none) → ∃ s', run s ops = some s' ∧ Inv s' (ops.foldl View.next v)
  | [], s, v, h, _ => ⟨s, rfl, h⟩
  | o :: ops, s, v, h, hc => by
    obtain ⟨s1, h1, h2⟩ := inv_step h o (fun f e => hc [] f ops (by rw [e]; rfl))
    obtain ⟨s2, h3, h4⟩ := inv_run ops h2 (fun a f b e => hc (o :: a) f b (by rw [e]; rfl))
    exact ⟨s2, by rw [run, h1, Option.bind_some, h3], h4⟩

/-! ### Order -/

theorem textLe_refl : ∀ s, textLe s s = true
  | [] => rfl
  | a :: s => by simp [textLe, textLe_refl s]

theorem textLe_total : ∀ s t, (textLe s t || textLe t s) = true
  | [], _ => by simp [textLe]
  | _ :: _, [] => by simp [textLe]
  | a :: s, b :: t => by
    have ih := textLe_total s t
    simp only [textLe, Bool.or_eq_true, Bool.and_eq_true, decide_eq_true_eq] at ih ⊢
    by_cases h : a = b
    · subst h
      rcases ih with ih | ih
      · exact .inl (.inr ⟨rfl, ih⟩)
      · exact .inr (.inr ⟨rfl, ih⟩)
    · rcases Nat.lt_or_gt_of_ne h with h | h
      · exact .inl (.inl h)
      · exact .inr (.inl h)

theorem textLe_trans : ∀ s t u, textLe s t = true → textLe t u = true → textLe s u = true
  | [], _, _, _, _ => by simp [textLe]
  | _ :: _, [], _, h, _ => by simp [textLe] at h
  | _ :: _, _ :: _, [], _, h => by simp [textLe] at h
  | a :: s, b :: t, c :: u, h, h' => by
    simp only [textLe, Bool.or_eq_true, Bool.and_eq_true, decide_eq_true_eq] at h h' ⊢
    rcases h with h | ⟨rfl, h⟩
    · rcases h' with h' | ⟨rfl, h'⟩
      · exact .inl (by omega)
      · exact .inl h
    · rcases h' with h' | ⟨rfl, h'⟩
      · exact .inl h'
      · exact .inr ⟨rfl, textLe_trans s t u h h'⟩

theorem entryLe_total (x y : Int × List Nat) : (entryLe x y || entryLe y x) = true := by
  unfold entryLe
  by_cases h : x.1 = y.1
  · simp only [h, ne_eq, not_true, if_false]
    exact textLe_total _ _
  · rw [if_pos h, if_pos (fun e => h e.symm), Bool.or_eq_true, decide_eq_true_eq, decide_eq_true_eq]
    omega

theorem entryLe_trans (x y z : Int × List Nat) (h : entryLe x y = true) (h' : entryLe y z = true) : entryLe x z = true := by
  unfold entryLe at *
  by_cases h1 : x.1 = y.1
  · by_cases h2 : y.1 = z.1
    · simp only [h1, h2, ne_eq, not_true, if_false] at h h' ⊢
      exact textLe_trans _ _ _ h h'
    · simp only [h1, h2, ne_eq, not_true, not_false_eq_true, if_false, if_true] at h h' ⊢
      exact h'
  · by_cases h2 : y.1 = z.1
    · simp only [h1, ← h2, ne_eq, not_true, not_false_eq_true, if_false, if_true] at h h' ⊢
      exact h
    · simp only [h1, h2, ne_eq, not_false_eq_true, if_true, decide_eq_true_eq] at h h'
      rw [if_pos (by omega), decide_eq_true_eq]
      omega

theorem insert_perm (e : Int × List Nat) : ∀ l, (insert e l).Perm (e :: l)
  | [] => .refl _
  | x :: l => by
    unfold insert
    split
    · exact .refl _
    · exact ((insert_perm e l).cons x).trans (.swap e x l)

theorem sort_perm : ∀ l : List (Int × List Nat), (l.foldr insert []).Perm l
  | [] => .refl _
  | x :: l => (insert_perm x _).trans ((sort_perm l).cons x)

theorem insert_pairwise (e : Int × List Nat) : ∀ l, l.Pairwise (fun x y => entryLe x y = true) → (insert e l).Pairwise fun x y => entryLe x y = true
  | [], _ => by simp [insert]
  | x :: l, h => by
    unfold insert
    have h' := List.pairwise_cons.1 h
    split
    · rename_i he
      refine List.pairwise_cons.2 ⟨?_, h⟩
      intro y hy
      rcases List.mem_cons.1 hy with rfl | hy
      · exact he
      · exact entryLe_trans _ _ _ he (h'.1 y hy)
    · rename_i he
      refine List.pairwise_cons.2 ⟨?_, insert_pairwise e l h'.2⟩
      intro y hy
      rcases List.mem_cons.1 ((insert_perm e l).mem_iff.1 hy) with rfl | hy
      · have := entryLe_total y x
        rw [Bool.or_eq_true] at this
        exact this.resolve_left he
      · exact h'.1 y hy

theorem sort_pairwise : ∀ l : List (Int × List Nat), (l.foldr insert []).Pairwise fun x y => entryLe x y = true
  | [] => .nil
  | x :: l => insert_pairwise x _ (sort_pairwise l)

/-! ### Numbers -/

theorem hexDigit_value : ∀ d < 16, (if hexDigit d < 58 then hexDigit d - 48 else hexDigit d - 55) = d := by decide

theorem hexValue_digits : ∀ (ds : List Nat) (v : Nat), (∀ d ∈ ds, d < 16) →
    (ds.map hexDigit).foldl (fun v d => 16 * v + (if d < 58 then d - 48 else d - 55)) v = ds.foldl (fun v d => 16 * v + d) v
  | [], _, _ => rfl
  | d :: ds, v, h => by
    simp only [List.map_cons, List.foldl_cons]
    rw [hexDigit_value d (h d (by simp))]
    exact hexValue_digits ds _ fun x hx => h x (List.mem_cons_of_mem _ hx)

theorem fold_zeros (ds : List Nat) : ∀ k, k ≤ (ds.takeWhile (· = 0)).length → (ds.drop k).foldl (fun v d => 16 * v + d) 0 = ds.foldl (fun v d => 16 * v + d) 0 := by
  induction ds with
  | nil => intro k _; simp
  | cons d ds ih =>
    intro k hk
    cases k with
    | zero => rfl
    | succ k =>
      by_cases hd : d = 0
      · subst hd
        rw [List.takeWhile_cons_of_pos (by simp), List.length_cons] at hk
        rw [List.drop_succ_cons, ih k (by omega)]
        rfl
      · rw [List.takeWhile_cons_of_neg (by simpa using hd)] at hk
        simp at hk

theorem fold_digits (n : Nat) : ∀ k v, ((List.range k).reverse.map fun i => n / 16 ^ i % 16).foldl (fun v d => 16 * v + d) v = v * 16 ^ k + n % 16 ^ k
  | 0, v => by simp [Nat.mod_one]
  | k + 1, v => by
    rw [List.range_succ, List.reverse_append, List.reverse_singleton, List.singleton_append, List.map_cons, List.foldl_cons, fold_digits n k]
    rw [Nat.pow_succ, Nat.mod_mul, Nat.add_mul, Nat.mul_comm 16 v, Nat.mul_assoc, Nat.mul_comm 16 (16 ^ k), Nat.mul_comm (n / 16 ^ k % 16)]
    omega

theorem hex_value {w n : Nat} (hn : n < 2 ^ 64) : hexValue (hex w n) = n := by
  unfold hexValue hex
  simp only
  rw [hexValue_digits _ _ (by
    intro d hd
    have := List.mem_of_mem_drop hd
    obtain ⟨i, _, rfl⟩ := List.mem_map.1 this
    omega)]
  rw [fold_zeros _ _ (Nat.min_le_right _ _)]
  rw [fold_digits]
  omega

theorem hex_length {w n : Nat} (hw : w ≤ 16) : w ≤ (hex w n).length := by
  unfold hex
  simp only [List.length_map, List.length_drop, List.length_reverse, List.length_range]
  omega

theorem hex_digits {w n : Nat} : ∀ c ∈ hex w n, (48 ≤ c ∧ c ≤ 57) ∨ (65 ≤ c ∧ c ≤ 70) := by
  intro c hc
  unfold hex at hc
  obtain ⟨d, hd, rfl⟩ := List.mem_map.1 hc
  have := List.mem_of_mem_drop hd
  obtain ⟨i, _, rfl⟩ := List.mem_map.1 this
  unfold hexDigit
  split <;> omega

theorem drop_first (ds : List Nat) (k : Nat) (hk : k = (ds.takeWhile (· = 0)).length) (h : k < ds.length) : ∃ d, (ds.drop k)[0]? = some d ∧ d ≠ 0 := by
  induction ds generalizing k with
  | nil => simp at h
  | cons d ds ih =>
    by_cases hd : d = 0
    · subst hd
      rw [List.takeWhile_cons_of_pos (by simp), List.length_cons] at hk
      subst hk
      rw [List.drop_succ_cons]
      exact ih _ rfl (by simpa using h)
    · rw [List.takeWhile_cons_of_neg (by simpa using hd)] at hk
      subst hk
      exact ⟨d, rfl, hd⟩

theorem hex_first {w n : Nat} (h : w < (hex w n).length) : (hex w n)[0]? ≠ some 48 := by
  unfold hex at h ⊢
  simp only at h ⊢
  generalize hds : ((List.range 16).reverse.map fun i => n / 16 ^ i % 16) = ds at h ⊢
  have hl : ds.length = 16 := by rw [← hds]; simp
  have hlt : ∀ d ∈ ds, d < 16 := by
    intro d hd
    rw [← hds] at hd
    obtain ⟨i, _, rfl⟩ := List.mem_map.1 hd
    omega
  clear hds
  rw [List.length_map, List.length_drop, hl] at h
  have hk : (ds.takeWhile (· = 0)).length < 16 - w := by omega
  rw [Nat.min_eq_right (by omega)]
  obtain ⟨d, h1, h2⟩ := drop_first ds _ rfl (by omega)
  rw [List.getElem?_map, h1, Option.map_some]
  have hd := hlt d (List.mem_of_mem_drop (List.mem_of_getElem? h1))
  intro e
  injection e with e
  unfold hexDigit at e
  split at e <;> omega

theorem textLe_iff : ∀ s t, textLe s t = true ↔ s ≤ t
  | [], t => by simp [textLe]
  | a :: s, [] => by simp [textLe]
  | a :: s, b :: t => by
    rw [List.cons_le_cons_iff, ← textLe_iff s t]
    simp [textLe]

theorem entryLe_iff (x y : Int × List Nat) : entryLe x y = true ↔ Before x y := by
  unfold entryLe Before
  rw [← textLe_iff]
  by_cases h : x.1 = y.1
  · rw [if_neg (by simpa using h), h]
    simp
  · rw [if_pos h, decide_eq_true_iff]
    simp [h]

/-! ### The entries -/

theorem flatMap_append_perm' {α β : Type} (f g : α → List β) : ∀ l : List α, (l.flatMap fun x => f x ++ g x).Perm (l.flatMap f ++ l.flatMap g)
  | [] => by simp
  | x :: l => by
    simp only [List.flatMap_cons, List.append_assoc]
    refine List.Perm.append_left _ ?_
    refine ((flatMap_append_perm' f g l).append_left (g x)).trans ?_
    rw [← List.append_assoc, ← List.append_assoc]
    exact List.perm_append_comm.append_right _

theorem find_filter {α : Type} (p q : α → Bool) : ∀ l : List α, (l.filter p).find? q = l.find? fun x => p x && q x
  | [] => rfl
  | x :: l => by
    by_cases hp : p x = true
    · rw [List.filter_cons_of_pos hp]
      by_cases hq : q x = true
      · simp [List.find?_cons, hp, hq]
      · simp [List.find?_cons, hp, hq, find_filter p q l]
    · rw [List.filter_cons_of_neg hp, find_filter p q l]
      simp [List.find?_cons, hp]

theorem sizeAt_eq {v : View} {m : Module} (h : Holds v m) (a : Int) :
    symbolSize m a = v.sizeAt m.file a := by
  unfold View.sizeAt symbolSize
  rw [h.functions, List.find?_map, find_filter]
  have : (fun x : Option Nat × Int × Nat => decide (x.1 = m.file) && ((fun f : Int × Nat => decide (f.1 = a)) ∘ (·.2)) x) =
      fun f => decide (f.1 = m.file ∧ f.2.1 = a) := by
    funext x; simp
  rw [this]
  cases v.functions.find? fun f => decide (f.1 = m.file ∧ f.2.1 = a) <;> rfl

theorem symbolText_eq {v : View} {m : Module} (h : Holds v m) (version : Nat) (a : Int) (n : List Nat) :
    symbolText version m a n = v.labelText hex version (m.file, a, n) := by
  unfold symbolText View.labelText
  simp only
  rw [sizeAt_eq h]
  have hl : lower = toLower := rfl
  by_cases h1 : version = 1
  · subst h1
    simp [hl]
  · rw [if_neg h1, if_neg h1]
    by_cases h0 : version = 0 ∨ v.sizeAt m.file a = 0
    · rw [if_pos h0, if_neg (by omega)]
    · rw [if_neg h0, if_pos (by omega)]
      simp

theorem dataText_eq (d : Nat × DataType) : dataPrefix d.2 ++ hex 4 d.1 = dataText hex d := by
  obtain ⟨n, t⟩ := d
  cases t <;> simp [dataPrefix, dataText]

/-- All labels of a state. -/
def allLabels (s : State) : List (Option Nat × Int × List Nat) := s.modules.flatMap fun m => m.symbols.map fun x => (m.file, x)

/-- All data of a state. -/
def allData (s : State) : List (Option Nat × Int × Nat × DataType) := s.modules.flatMap fun m => m.data.map fun x => (m.file, x)

theorem nodup_tagged {α : Type} (g : Module → List α) : ∀ ms : List Module, (ms.map (·.file)).Nodup → (∀ m ∈ ms, (g m).Nodup) →
    (ms.flatMap fun m => (g m).map fun x => (m.file, x)).Nodup
  | [], _, _ => by simp
  | m :: ms, h, hg => by
    rw [List.map_cons, List.nodup_cons] at h
    rw [List.flatMap_cons, List.nodup_append]
    refine ⟨?_, nodup_tagged g ms h.2 (fun x hx => hg x (List.mem_cons_of_mem _ hx)), ?_⟩
    · have := hg m (by simp)
      unfold List.Nodup at this ⊢
      rw [List.pairwise_map]
      exact this.imp fun hne e => hne (by injection e)
    · intro x hx y hy e
      obtain ⟨a, _, rfl⟩ := List.mem_map.1 hx
      obtain ⟨m', hm', hy⟩ := List.mem_flatMap.1 hy
      obtain ⟨b, _, rfl⟩ := List.mem_map.1 hy
      exact h.1 (List.mem_map.2 ⟨m', hm', by injection e with e _; exact e.symm⟩)

theorem allLabels_mem {s : State} {v : View} (h : Inv s v) (x) : x ∈ allLabels s ↔ x ∈ v.labels := by
  unfold allLabels
  rw [List.mem_flatMap]
  constructor
  · rintro ⟨m, hm, hx⟩
    obtain ⟨y, hy, rfl⟩ := List.mem_map.1 hx
    exact ((h.holds m hm).symbols_iff y).1 hy
  · intro hx
    obtain ⟨m, hm, hf⟩ := List.mem_map.1 (h.labels x hx)
    exact ⟨m, hm, List.mem_map.2 ⟨x.2, ((h.holds m hm).symbols_iff x.2).2 (by rw [hf]; exact hx), by rw [hf]⟩⟩

theorem allData_mem {s : State} {v : View} (h : Inv s v) (x) : x ∈ allData s ↔ x ∈ v.data := by
  unfold allData
  rw [List.mem_flatMap]
  constructor
  · rintro ⟨m, hm, hx⟩
    obtain ⟨y, hy, rfl⟩ := List.mem_map.1 hx
    exact ((h.holds m hm).data_iff y).1 hy
  · intro hx
    obtain ⟨m, hm, hf⟩ := List.mem_map.1 (h.data x hx)
    exact ⟨m, hm, List.mem_map.2 ⟨x.2, ((h.holds m hm).data_iff x.2).2 (by rw [hf]; exact hx), by rw [hf]⟩⟩

theorem sorted_perm {s : State} {v : View} (h : Inv s v) (version : Nat) :
    (sorted version s).Perm ((allLabels s).map (fun l => (l.2.1, v.labelText hex version l)) ++
      (allData s).map fun d => (d.2.1, dataText hex d.2.2)) := by
  refine (sort_perm _).trans ?_
  unfold moduleEntries
  refine (flatMap_append_perm' _ _ _).trans ?_
  unfold allLabels allData
  rw [List.map_flatMap, List.map_flatMap]
  have e1 : (s.modules.flatMap fun m => m.symbols.map fun x => (x.1, symbolText version m x.1 x.2)) =
      s.modules.flatMap fun m => (m.symbols.map fun x => (m.file, x)).map fun l => (l.2.1, v.labelText hex version l) := by
    rw [List.flatMap_def, List.flatMap_def]
    congr 1
    apply List.map_congr_left
    intro m hm
    rw [List.map_map]
    apply List.map_congr_left
    intro x _
    simp only [Function.comp_apply]
    rw [symbolText_eq (h.holds m hm)]
  have e2 : (s.modules.flatMap fun m => m.data.map fun d => (d.1, dataPrefix d.2.2 ++ hex 4 d.2.1)) =
      s.modules.flatMap fun m => (m.data.map fun x => (m.file, x)).map fun d => (d.2.1, dataText hex d.2.2) := by
    rw [List.flatMap_def, List.flatMap_def]
    congr 1
    apply List.map_congr_left
    intro m _
    rw [List.map_map]
    apply List.map_congr_left
    intro x _
    simp only [Function.comp_apply]
    rw [dataText_eq]
  rw [e1, e2]

theorem sorted_pairwise (version : Nat) (s : State) : (sorted version s).Pairwise Before := by
  have := sort_pairwise (s.modules.flatMap (moduleEntries version))
  exact this.imp fun h => (entryLe_iff _ _).1 h

end Armips.SymFile
