import Verif.Spec.ArmSample
import Verif.Lemmas.ArmWord
/-! Tactics for concrete ARM instructions. -/
namespace Armips.Sample
open Armips.Arm

/-- Proves `Valid` for a concrete row and concrete operands. -/
macro "valid" : tactic => `(tactic|
  (constructor <;> first | decide +kernel | simp [cmp1, add1, bl1, blx1, plain] | exact ⟨_, rfl, by decide +kernel⟩))

/-- Proves (with `outcome_words`) that a concrete instruction writes a concrete word. -/
macro "emits" : tactic => `(tactic|
  exact ⟨_, ⟨_, [], rfl, fun _ h => by cases h⟩, fun p => by
    refine (outcome_words rfl p).trans ?_
    rfl⟩)

end Armips.Sample
