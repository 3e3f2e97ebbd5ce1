import Verif.Spec.Logger
/-!
# C47: a run fails if and only if an error was reported
-/
namespace Armips.Props
open Armips Logger Spec.Log

private theorem setFlags_fields (l : Logger) (t : ErrorType) :
    (l.setFlags t).queue = l.queue ∧ (l.setFlags t).suppressLevel = l.suppressLevel ∧
    (l.setFlags t).errorOnWarning = l.errorOnWarning ∧ (l.setFlags t).errors = l.errors ∧
    ((l.setFlags t).error = true ↔
      l.error = true ∨ t = .error ∨ t = .fatalError ∨ (t = .warning ∧ l.errorOnWarning = true)) := by
  cases t <;> simp [setFlags] <;> split <;> simp_all

private theorem printEntry_fold (es : List (ErrorType × String)) (l : Logger) :
    (es.foldl printEntry l).queue = l.queue ∧ (es.foldl printEntry l).suppressLevel = l.suppressLevel ∧
    (es.foldl printEntry l).errorOnWarning = l.errorOnWarning ∧
    (es.foldl printEntry l).errors = l.errors ++ es.map (·.2) ∧
    ((es.foldl printEntry l).error = true ↔ l.error = true ∨
      ∃ t ∈ es.map (·.1), t = .error ∨ t = .fatalError ∨ (t = .warning ∧ l.errorOnWarning = true)) := by
  induction es generalizing l with
  | nil => simp
  | cons e es ih =>
    obtain ⟨h1, h2, h3, h4, h5⟩ := ih (printEntry l e)
    obtain ⟨f1, f2, f3, f4, f5⟩ := setFlags_fields { l with errors := l.errors ++ [e.2] } e.1
    simp only [List.foldl_cons]
    refine ⟨h1.trans f1, h2.trans f2, h3.trans f3, ?_, ?_⟩
    · rw [h4, printEntry, f4]; simp
    · rw [h5]
      have e3 : (printEntry l e).errorOnWarning = l.errorOnWarning := f3
      rw [e3]
      simp only [printEntry, f5, List.map_cons, List.mem_cons, exists_eq_or_imp, or_assoc]

private structure Rel (h : List Op) (l : Logger) : Prop where
  sup : l.suppressLevel = suppressed h
  wae : l.errorOnWarning = warningsAreErrors h
  que : ∀ t, (t ∈ l.queue.map (·.1)) ↔ Waiting t h
  quet : l.queue.map (·.2) = waitingTexts h
  err : l.error = true ↔ Failed h
  txt : l.errors = printedTexts h

private theorem rel_step (h : List Op) (l : Logger) (r : Rel h l) (o : Op) : Rel (o :: h) (l.step o) := by
  obtain ⟨h1, h2, h3, h4, h5, h6⟩ := r
  cases o with
  | clear => constructor <;> simp [step, clear, suppressed, warningsAreErrors, Waiting, Failed, waitingTexts, printedTexts, h1]
  | print t s =>
    simp only [step, printError]
    by_cases hs : l.suppressLevel = 0
    · rw [if_neg (by simp [hs])]
      obtain ⟨f1, f2, f3, f4, f5⟩ := setFlags_fields { l with errors := l.errors ++ [s] } t
      constructor
      · rw [f2]; simpa [suppressed] using h1
      · rw [f3]; simpa [warningsAreErrors] using h2
      · rw [f1]; simpa [Waiting] using h3
      · rw [f1]; simpa [waitingTexts] using h4
      · rw [f5]; simp only [Failed, Serious, ← h1, hs, ← h2, h5, true_and]
        exact Or.comm
      · rw [f4]; simp [printedTexts, ← h1, hs, h6]
    · rw [if_pos hs]
      constructor
      · simpa [suppressed] using h1
      · simpa [warningsAreErrors] using h2
      · simpa [Waiting] using h3
      · simpa [waitingTexts] using h4
      · simp [Failed, ← h1, hs, h5]
      · simp [printedTexts, ← h1, hs, h6]
  | queue t s =>
    simp only [step, queueError]
    by_cases hs : l.suppressLevel = 0
    · rw [if_neg (by simp [hs])]
      constructor
      · simpa [suppressed] using h1
      · simpa [warningsAreErrors] using h2
      · intro t'
        simp only [Waiting, ← h1, hs, and_true, ← h3, List.map_append, List.mem_append, List.map_cons, List.map_nil,
          List.mem_singleton]
        constructor
        · rintro (a | a)
          · exact .inr a
          · exact .inl a.symm
        · rintro (a | a)
          · exact .inr a.symm
          · exact .inl a
      · simp [waitingTexts, ← h1, hs, ← h4]
      · simpa [Failed] using h5
      · simpa [printedTexts] using h6
    · rw [if_pos hs]
      constructor
      · simpa [suppressed] using h1
      · simpa [warningsAreErrors] using h2
      · intro t'; simp [Waiting, ← h1, hs, ← h3]
      · simp [waitingTexts, ← h1, hs, h4]
      · simpa [Failed] using h5
      · simpa [printedTexts] using h6
  | printQueue =>
    obtain ⟨f1, f2, f3, f4, f5⟩ := printEntry_fold l.queue l
    simp only [step, printQueue]
    constructor
    · rw [f2]; simpa [suppressed] using h1
    · rw [f3]; simpa [warningsAreErrors] using h2
    · rw [f1]; simpa [Waiting] using h3
    · rw [f1]; simpa [waitingTexts] using h4
    · rw [f5]
      simp only [Failed, Serious, h5, h3, h2]
      exact Or.comm
    · rw [f4, h6, h4]; rfl
  | clearQueue => constructor <;> simp [step, clearQueue, suppressed, warningsAreErrors, Waiting, Failed, waitingTexts, printedTexts, h1, h2, h5, h6]
  | setErrorOnWarning b =>
    constructor <;> simp [step, setErrorOnWarning, suppressed, warningsAreErrors, Waiting, Failed, waitingTexts, printedTexts, h1, h5, h6, h4]
    simpa using h3
  | setSilent b =>
    constructor <;> simp [step, setSilent, suppressed, warningsAreErrors, Waiting, Failed, waitingTexts, printedTexts, h1, h2, h5, h6, h4]
    simpa using h3
  | suppress =>
    constructor <;> simp [step, suppressErrors, suppressed, warningsAreErrors, Waiting, Failed, waitingTexts, printedTexts, h1, h2, h5, h6, h4]
    simpa using h3
  | unsuppress =>
    simp only [step, unsuppressErrors]
    split
    · constructor <;> simp [suppressed, warningsAreErrors, Waiting, Failed, waitingTexts, printedTexts, h1, h2, h5, h6, h4]
      simpa using h3
    · constructor <;> simp [suppressed, warningsAreErrors, Waiting, Failed, waitingTexts, printedTexts, ← h1, h2, h5, h6, h4]
      · omega
      · simpa using h3

private theorem rel_run (ops : List Op) : Rel ops.reverse (run ops) := by
  have gen : ∀ (ops h : List Op) (l : Logger), Rel h l → Rel (ops.reverse ++ h) (ops.foldl step l) := by
    intro ops
    induction ops with
    | nil => intro h l r; simpa using r
    | cons o os ih =>
      intro h l r
      have := ih (o :: h) (l.step o) (rel_step h l r o)
      simpa using this
  have h0 : Rel [] {} := by constructor <;> simp [suppressed, warningsAreErrors, Waiting, Failed, waitingTexts, printedTexts]
  simpa [run] using gen ops [] {} h0

/-- **C47.** After any history of diagnostics the error state is set exactly when an unsuppressed error, fatal error or
(in warnings-as-errors mode) warning was printed, directly or through the queue, since the last reset. -/
theorem logger_failed (ops : List Op) : (run ops).error = true ↔ Failed ops.reverse := (rel_run ops).err

/-- **C47.** The list of reported messages is exactly the printed ones, in order. -/
theorem logger_errors (ops : List Op) : (run ops).errors = printedTexts ops.reverse := (rel_run ops).txt

/-- **C47.** Notices never make a run fail. -/
theorem logger_notice (ops : List Op)
    (h : ∀ o ∈ ops, (∀ t s, o = .print t s → t = .notice) ∧ (∀ t s, o = .queue t s → t = .notice)) :
    (run ops).error = false := by
  have wt : ∀ (h : List Op), (∀ o ∈ h, (∀ t s, o = .print t s → t = .notice) ∧ (∀ t s, o = .queue t s → t = .notice)) →
      (∀ t, Waiting t h → t = .notice) ∧ ¬ Failed h := by
    intro h
    induction h with
    | nil => simp [Waiting, Failed]
    | cons o os ih =>
      intro hm
      obtain ⟨i1, i2⟩ := ih (fun o ho => hm o (by simp [ho]))
      have ho := hm o (by simp)
      cases o with
      | print t s =>
        have := ho.1 t s rfl
        subst this
        exact ⟨by simpa [Waiting] using i1, by simp [Failed, Serious, i2]⟩
      | queue t s =>
        have := ho.2 t s rfl
        subst this
        refine ⟨?_, by simpa [Failed] using i2⟩
        intro t ht
        simp only [Waiting] at ht
        rcases ht with ⟨rfl, _⟩ | ht
        · rfl
        · exact i1 t ht
      | printQueue =>
        refine ⟨by simpa [Waiting] using i1, ?_⟩
        simp only [Failed, not_or, i2, not_false_eq_true, and_true]
        rintro ⟨t, hw, hs⟩
        have := i1 t hw
        subst this
        simp [Serious] at hs
      | clear => simp [Waiting, Failed]
      | clearQueue => exact ⟨by simp [Waiting], by simpa [Failed] using i2⟩
      | _ => exact ⟨by simpa [Waiting] using i1, by simpa [Failed] using i2⟩
  have := (wt ops.reverse (by simpa using h)).2
  rw [← logger_failed] at this
  simpa using this

/-- **C47.** Diagnostics queued during a pass and discarded before printing do not count. -/
theorem logger_discarded (ops : List Op) (qs : List (ErrorType × String)) (rest : List Op) :
    (run (ops ++ qs.map (fun q => .queue q.1 q.2) ++ .clearQueue :: rest)).error =
      (run (ops ++ .clearQueue :: rest)).error := by
  unfold run
  simp only [List.foldl_append, List.foldl_cons]
  congr 2
  generalize ops.foldl step {} = l
  induction qs generalizing l with
  | nil => rfl
  | cons q qs ih =>
    simp only [List.map_cons, List.foldl_cons]
    rw [ih]
    simp only [step, queueError, clearQueue]
    split <;> rfl

-- a history with all ingredients: a discarded error, a suppressed one, a printed warning in both modes
example : (run [.queue .error "a", .clearQueue, .suppress, .print .error "b", .unsuppress, .print .warning "c"]).error = false
  ∧ (run [.setErrorOnWarning true, .queue .warning "c", .printQueue]).error = true
  ∧ (run [.suppress, .unsuppress, .queue .notice "n", .printQueue, .print .error "x"]).errors = ["n", "x"] := by decide

end Armips.Props
