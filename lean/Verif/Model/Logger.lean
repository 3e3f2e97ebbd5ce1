/-!
# Diagnostics

Models `Logger` in `Core/Misc.{h,cpp}`. The text of a message is the already formatted string; the prefix with file
name and line number (`formatError`, `Misc.cpp:18-41`) is not modelled. Console output is not modelled; the list of
printed messages (`errors`) is.
-/
namespace Armips

/-- `Misc.h:14` `ErrorType`. -/
inductive ErrorType
  | warning | error | fatalError | notice
  deriving DecidableEq, Repr

/-- `Misc.h:55-67` the static members of `Logger`. `suppressLevel` is an `int` that never becomes negative. -/
structure Logger where
  queue : List (ErrorType × String) := []
  errors : List String := []
  error : Bool := false
  fatalError : Bool := false
  errorOnWarning : Bool := false
  silent : Bool := false
  suppressLevel : Nat := 0
  deriving DecidableEq, Repr

namespace Logger

/-- `Misc.cpp:43-62` `setFlags`. -/
def setFlags (l : Logger) : ErrorType → Logger
  | .warning => if l.errorOnWarning then { l with error := true } else l
  | .error => { l with error := true }
  | .fatalError => { l with error := true, fatalError := true }
  | .notice => l

/-- `Misc.cpp:64-72` `clear`: the suppression level is kept. -/
def clear (l : Logger) : Logger :=
  { l with queue := [], errors := [], error := false, fatalError := false, errorOnWarning := false, silent := false }

/-- `Misc.cpp:90-102` `printError`. -/
def printError (l : Logger) (t : ErrorType) (text : String) : Logger :=
  if l.suppressLevel ≠ 0 then l
  else { l with errors := l.errors ++ [text] }.setFlags t

/-- `Misc.cpp:104-113` `queueError`. -/
def queueError (l : Logger) (t : ErrorType) (text : String) : Logger :=
  if l.suppressLevel ≠ 0 then l
  else { l with queue := l.queue ++ [(t, text)] }

/-- `Misc.cpp:117-125` one iteration of `printQueue`. -/
def printEntry (l : Logger) (e : ErrorType × String) : Logger :=
  { l with errors := l.errors ++ [e.2] }.setFlags e.1

/-- `Misc.cpp:115-126` `printQueue`: prints and keeps the queue, whatever the suppression level. -/
def printQueue (l : Logger) : Logger := l.queue.foldl printEntry l

/-- `Misc.h:43` `clearQueue`. -/
def clearQueue (l : Logger) : Logger := { l with queue := [] }

/-- `Misc.h:47` `setErrorOnWarning`. -/
def setErrorOnWarning (l : Logger) (b : Bool) : Logger := { l with errorOnWarning := b }

/-- `Misc.h:48` `setSilent`. -/
def setSilent (l : Logger) (b : Bool) : Logger := { l with silent := b }

/-- `Misc.h:50` `suppressErrors`. -/
def suppressErrors (l : Logger) : Logger := { l with suppressLevel := l.suppressLevel + 1 }

/-- `Misc.h:51` `unsuppressErrors`. -/
def unsuppressErrors (l : Logger) : Logger :=
  if l.suppressLevel ≠ 0 then { l with suppressLevel := l.suppressLevel - 1 } else l

/-- The calls other code makes. -/
inductive Op
  | clear
  | print (t : ErrorType) (text : String)
  | queue (t : ErrorType) (text : String)
  | printQueue
  | clearQueue
  | setErrorOnWarning (b : Bool)
  | setSilent (b : Bool)
  | suppress
  | unsuppress
  deriving DecidableEq, Repr

/-- Execution of one call. -/
def step (l : Logger) : Op → Logger
  | .clear => l.clear
  | .print t s => l.printError t s
  | .queue t s => l.queueError t s
  | .printQueue => l.printQueue
  | .clearQueue => l.clearQueue
  | .setErrorOnWarning b => l.setErrorOnWarning b
  | .setSilent b => l.setSilent b
  | .suppress => l.suppressErrors
  | .unsuppress => l.unsuppressErrors

/-- State after a history of calls, from the initial values at `Misc.cpp:10-16`. -/
def run (ops : List Op) : Logger := ops.foldl step {}

end Logger
end Armips
