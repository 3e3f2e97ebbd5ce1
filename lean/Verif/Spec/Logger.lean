import Verif.Model.Logger
/-!
# When has a run failed?

Specification of the error flag in terms of the history of calls only (newest call first in the list). Uses only
the vocabulary of calls (`Logger.Op`, `ErrorType`), none of the logger's functions.
-/
namespace Armips.Spec.Log
open Armips Logger

/-- Number of nested suppressions open after the history. -/
def suppressed : List Op → Nat
  | [] => 0
  | .suppress :: h => suppressed h + 1
  | .unsuppress :: h => suppressed h - 1
  | _ :: h => suppressed h

/-- Is warning-as-error mode active after the history? It is switched by the last setting since the last `clear`. -/
def warningsAreErrors : List Op → Bool
  | [] => false
  | .clear :: _ => false
  | .setErrorOnWarning b :: _ => b
  | _ :: h => warningsAreErrors h

/-- The diagnostics waiting to be printed: those queued, unsuppressed, since the last discard. -/
def Waiting (t : ErrorType) : List Op → Prop
  | [] => False
  | .clear :: _ => False
  | .clearQueue :: _ => False
  | .queue t' _ :: h => (t' = t ∧ suppressed h = 0) ∨ Waiting t h
  | _ :: h => Waiting t h

/-- Does a diagnostic of this kind count as an error after the history? -/
def Serious (t : ErrorType) (h : List Op) : Prop :=
  t = .error ∨ t = .fatalError ∨ (t = .warning ∧ warningsAreErrors h)

/-- Some call in the history since the last `clear` printed a diagnostic that counted as an error at that time. -/
def Failed : List Op → Prop
  | [] => False
  | .clear :: _ => False
  | .print t _ :: h => (suppressed h = 0 ∧ Serious t h) ∨ Failed h
  | .printQueue :: h => (∃ t, Waiting t h ∧ Serious t h) ∨ Failed h
  | _ :: h => Failed h

/-- The texts printed since the last `clear`, oldest first, without the queue: used for `getErrors`. -/
def waitingTexts : List Op → List String
  | [] => []
  | .clear :: _ => []
  | .clearQueue :: _ => []
  | .queue _ s :: h => if suppressed h = 0 then waitingTexts h ++ [s] else waitingTexts h
  | _ :: h => waitingTexts h

def printedTexts : List Op → List String
  | [] => []
  | .clear :: _ => []
  | .print _ s :: h => if suppressed h = 0 then printedTexts h ++ [s] else printedTexts h
  | .printQueue :: h => printedTexts h ++ waitingTexts h
  | _ :: h => printedTexts h

end Armips.Spec.Log
