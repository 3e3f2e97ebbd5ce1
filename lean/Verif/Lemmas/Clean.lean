import Verif.Spec.Instr
import Verif.Lemmas.Expression
/-! Lemmas about computations without errors. -/
namespace Armips.Spec.Instr

theorem noErrors_append {a b : List Diag} : NoErrors (a ++ b) ↔ NoErrors a ∧ NoErrors b := by
  simp only [NoErrors, List.mem_append]
  exact ⟨fun h => ⟨fun d hd => h d (.inl hd), fun d hd => h d (.inr hd)⟩,
    fun h d hd => hd.elim (h.1 d) (h.2 d)⟩

theorem noErrors_nil : NoErrors [] := fun _ h => nomatch h

@[simp] theorem clean_ok {α} {a b : α} : Clean (.ok a []) b ↔ a = b := by
  constructor
  · rintro ⟨ds, h, -⟩; exact (Ev.ok.inj h).1
  · rintro rfl; exact ⟨[], rfl, noErrors_nil⟩

@[simp] theorem clean_pure {α} {a b : α} : Clean (Pure.pure a : Ev α) b ↔ a = b := clean_ok

@[simp] theorem clean_ub {α} {b : α} : ¬ Clean (Ev.ub : Ev α) b := by rintro ⟨ds, h, -⟩; cases h

@[simp] theorem clean_bind {α β} {x : Ev α} {f : α → Ev β} {b : β} :
    Clean (x >>= f) b ↔ ∃ a, Clean x a ∧ Clean (f a) b := by
  constructor
  · rintro ⟨ds, h, hn⟩
    obtain ⟨a, m₁, m₂, h1, h2, h3⟩ := Ev.bind_ok h
    rw [h3, noErrors_append] at hn
    exact ⟨a, ⟨m₁, h1, hn.1⟩, ⟨m₂, h2, hn.2⟩⟩
  · rintro ⟨a, ⟨m₁, h1, hn1⟩, ⟨m₂, h2, hn2⟩⟩
    refine ⟨m₁ ++ m₂, ?_, noErrors_append.2 ⟨hn1, hn2⟩⟩
    rw [h1, Ev.ok_bind, h2]

@[simp] theorem clean_queue {t : ErrorType} {s : String} : Clean (Ev.queue t s) () ↔ t = .warning ∨ t = .notice := by
  constructor
  · rintro ⟨ds, h, hn⟩
    simp only [Ev.queue, Ev.ok.injEq, true_and] at h
    subst h
    exact hn _ (List.mem_singleton.2 rfl)
  · intro h
    refine ⟨_, rfl, ?_⟩
    intro d hd
    rw [List.mem_singleton] at hd
    subst hd
    exact h

theorem clean_unique {α} {x : Ev α} {a b : α} (h : Clean x a) (h' : Clean x b) : a = b := by
  obtain ⟨ds, h, -⟩ := h
  obtain ⟨ds', h', -⟩ := h'
  rw [h] at h'
  exact (Ev.ok.inj h').1

theorem evaluates_unique {E : Env} {a : ArchId} {c : Ctx} {e : Expr} {v w : Value} (h : Evaluates E a c e v)
    (h' : Evaluates E a c e w) : v = w := clean_unique h h'

theorem not_clean_fail {α} {t : ErrorType} {s : String} {k : Unit → Ev α} {b : α} (h : t = .error) :
    ¬ Clean (Ev.queue t s >>= k) b := by
  subst h
  rw [clean_bind]
  rintro ⟨⟨⟩, h, -⟩
  simp at h

end Armips.Spec.Instr
