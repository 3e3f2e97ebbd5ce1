import Verif.Model.Expression
namespace Armips

namespace Ev
@[simp] theorem pure_eq {α} (a : α) : (Pure.pure a : Ev α) = .ok a [] := rfl
@[simp] theorem ok_bind {α β} (a : α) (m : List Diag) (f : α → Ev β) :
    (Ev.ok a m >>= f) = (match f a with | .ub => .ub | .ok b m' => .ok b (m ++ m')) := rfl
@[simp] theorem ub_bind {α β} (f : α → Ev β) : ((Ev.ub : Ev α) >>= f) = .ub := rfl
theorem pure_bind' {α β} (a : α) (f : α → Ev β) : (Ev.ok a [] >>= f) = f a := by
  simp only [ok_bind]
  cases h : f a <;> simp
@[simp] theorem val_ok {α} (a : α) (m : List Diag) : Ev.val (.ok a m) = some a := rfl
@[simp] theorem val_ub {α} : Ev.val (Ev.ub : Ev α) = none := rfl
@[simp] theorem val_queue (t : ErrorType) (s : String) : Ev.val (Ev.queue t s) = some () := rfl
@[simp] theorem val_print (t : ErrorType) (s : String) : Ev.val (Ev.print t s) = some () := rfl
@[simp] theorem val_bind {α β} (x : Ev α) (f : α → Ev β) : (x >>= f).val = x.val.bind fun a => (f a).val := by
  cases x with
  | ub => rfl
  | ok a m =>
    simp only [ok_bind, val_ok, Option.bind_some]
    cases h : f a <;> rfl
theorem bind_ok {α β} {x : Ev α} {f : α → Ev β} {b : β} {m : List Diag} (h : (x >>= f) = .ok b m) :
    ∃ a m₁ m₂, x = .ok a m₁ ∧ f a = .ok b m₂ ∧ m = m₁ ++ m₂ := by
  cases x with
  | ub => simp at h
  | ok a m₁ =>
    simp only [ok_bind] at h
    cases hf : f a with
    | ub => rw [hf] at h; simp at h
    | ok b' m' =>
      rw [hf] at h
      simp at h
      exact ⟨a, m₁, m', rfl, by rw [hf, h.1], h.2.symm⟩
end Ev

/-! ### Constant folding -/

@[simp] theorem ofValue_eval (H : Host) (F : Funcs) (c : Ctx) (v : Value) : (Expr.ofValue v).eval H F c = .ok v [] := by
  cases v <;> simp [Expr.ofValue, Expr.eval]

end Armips
