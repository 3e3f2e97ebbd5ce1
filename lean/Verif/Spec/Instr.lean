import Verif.Model.Commands
/-!
# What it means that an instruction is accepted

Used by the statements about the architectures. Nothing here refers to how instructions are encoded.
-/
namespace Armips.Spec.Instr

/-- No diagnostic is an error. -/
def NoErrors (ds : List Diag) : Prop := ∀ d ∈ ds, d.type = .warning ∨ d.type = .notice

/-- The computation ends with `a` and reports no error. -/
def Clean {α : Type} (x : Ev α) (a : α) : Prop := ∃ ds, x = .ok a ds ∧ NoErrors ds

/-- The instruction is accepted in this context (no error is reported) and will write what `out` says. -/
def Accepts (s : InstrSem) (c : Ctx) (st : ArchState) (out : InstrOut) : Prop := ∃ st', Clean (s.run c st) (out, st')

/-- The instruction reports an error, so that the run fails. -/
def Rejects (s : InstrSem) (c : Ctx) (st : ArchState) : Prop :=
  ∃ out st' ds, s.run c st = .ok (out, st') ds ∧ ¬ NoErrors ds

/-- The expression has this value in this context, without errors. -/
def Evaluates (E : Env) (a : ArchId) (c : Ctx) (e : Expr) (v : Value) : Prop := Clean (e.eval E.host (E.funcs a) c) v

end Armips.Spec.Instr
