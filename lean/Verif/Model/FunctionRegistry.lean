import Verif.Model.Expression
/-!
# The registry of expression functions

Models `Core/ExpressionFunctionHandler.cpp` with the tables of `Core/ExpressionFunctions.cpp` and
`Archs/*/…ExpressionFunctions.cpp`.
-/
namespace Armips

/-- `ExpressionFunctions.cpp:672-709` and the architecture tables: safety of each function. -/
def Builtin.safety : Builtin → Safety
  | .endianness => .unsafe_
  | .outputName => .unsafe_
  | .fileSize => .conditionalUnsafe
  | .read _ _ => .conditionalUnsafe
  | .readAscii => .conditionalUnsafe
  | _ => .safe

/-- `ExpressionFunctions.cpp:672-709`: name, functor, minimum and maximum number of parameters. -/
def genericFunctions : List (String × Builtin × Nat × Nat) := [
  ("version", .version, 0, 0),
  ("endianness", .endianness, 0, 0),
  ("outputname", .outputName, 0, 0),
  ("fileexists", .fileExists, 1, 1),
  ("filesize", .fileSize, 1, 1),
  ("tostring", .toString_, 1, 1),
  ("tohex", .toHex, 1, 2),
  ("int", .int, 1, 1),
  ("float", .float, 1, 1),
  ("frac", .frac, 1, 1),
  ("abs", .abs, 1, 1),
  ("round", .round, 1, 1),
  ("min", .min, 1, 256),
  ("max", .max, 1, 256),
  ("strlen", .strlen, 1, 1),
  ("substr", .substr, 3, 3),
  ("regex_match", .regexMatch, 2, 2),
  ("regex_search", .regexSearch, 2, 2),
  ("regex_extract", .regexExtract, 2, 3),
  ("find", .find, 2, 3),
  ("rfind", .rfind, 2, 3),
  ("readbyte", .read 1 false, 1, 2),
  ("readu8", .read 1 false, 1, 2),
  ("readu16", .read 2 false, 1, 2),
  ("readu32", .read 4 false, 1, 2),
  ("readu64", .read 8 false, 1, 2),
  ("reads8", .read 1 true, 1, 2),
  ("reads16", .read 2 true, 1, 2),
  ("reads32", .read 4 true, 1, 2),
  ("reads64", .read 8 true, 1, 2),
  ("readascii", .readAscii, 1, 3)]

/-- `ExpressionFunctions.cpp:711-717`; all are unsafe. -/
def labelFunctions : List (String × LabelFn × Nat × Nat) := [
  ("defined", .defined, 1, 1),
  ("org", .org, 0, 1),
  ("orga", .orga, 0, 1),
  ("headersize", .headerSize, 0, 1)]

/-- The architectures with respect to expression functions. -/
inductive ArchId | invalid | mips | arm | superH
  deriving DecidableEq, Repr

/-- `MipsExpressionFunctions.cpp:28-31`, `ArmExpressionFunctions.cpp:24-27`, `ShExpressionFunctions.cpp`. -/
def archFunctions : ArchId → List (String × Builtin × Nat × Nat)
  | .mips => [("lo", .lo, 1, 1), ("hi", .hi, 1, 1)]
  | .arm => [("isarm", .isArm, 0, 0), ("isthumb", .isThumb, 0, 0)]
  | _ => []

/-- `ExpressionFunctionHandler.h:58-60`. `registeringArchitecture` is only set inside `updateArchitecture`, so it is a
parameter of `registerEntry` here. -/
structure Registry where
  entries : Funcs := fun _ => none
  architectureFunctions : List Str := []

namespace Registry

/-- `ExpressionFunctionHandler.cpp:48-56` `registerEntry`: `emplace` keeps an existing entry. -/
def registerEntry (r : Registry) (registeringArchitecture : Bool) (name : Str) (e : FuncEntry) : Registry × Bool :=
  match r.entries name with
  | some _ => (r, false)
  | none =>
    ({ entries := fun n => if n = name then some e else r.entries n
       architectureFunctions := if registeringArchitecture then r.architectureFunctions ++ [name]
         else r.architectureFunctions }, true)

/-- `ExpressionFunctionHandler.cpp:58-82` `addFunction`. -/
def addFunction (r : Registry) (reg : Bool) (f : String × Builtin × Nat × Nat) : Registry :=
  (r.registerEntry reg (lit f.1) ⟨.builtin f.2.1, f.2.2.1, f.2.2.2, f.2.1.safety⟩).1

/-- `ExpressionFunctionHandler.cpp:84-112` `addLabelFunction`. -/
def addLabelFunction (r : Registry) (f : String × LabelFn × Nat × Nat) : Registry :=
  (r.registerEntry false (lit f.1) ⟨.label f.2.1, f.2.2.1, f.2.2.2, .unsafe_⟩).1

/-- `ExpressionFunctionHandler.cpp:114-178` `addUserFunction`. -/
def addUserFunction (r : Registry) (name : Str) (arity : Nat) (f : Ctx → List Value → Ev Value) : Registry :=
  (r.registerEntry false name ⟨.user f, arity, arity, .unsafe_⟩).1

/-- `ExpressionFunctionHandler.cpp:26-30` `reset`. -/
def reset (_ : Registry) : Registry := {}

/-- `ExpressionFunctions.cpp:719-730` `registerExpressionFunctions`. -/
def registerGeneric (r : Registry) : Registry :=
  labelFunctions.foldl addLabelFunction (genericFunctions.foldl (fun r f => r.addFunction false f) r)

/-- `ExpressionFunctionHandler.cpp:32-46` `updateArchitecture`, for the new current architecture `a`. -/
def updateArchitecture (r : Registry) (a : ArchId) : Registry :=
  let r : Registry :=
    { entries := fun n => if n ∈ r.architectureFunctions then none else r.entries n, architectureFunctions := [] }
  (archFunctions a).foldl (fun r f => r.addFunction true f) r

/-- What a run does with the registry after its start (`Assembler.cpp:167-168`): `.expfunc` and architecture switches. -/
inductive Op
  | user (name : Str) (arity : Nat) (f : Ctx → List Value → Ev Value)
  | arch (a : ArchId)

def step (r : Registry) : Op → Registry
  | .user n k f => r.addUserFunction n k f
  | .arch a => r.updateArchitecture a

/-- The registry after a history of a run. -/
def run (ops : List Op) : Registry := ops.foldl step (registerGeneric {})

end Registry
end Armips
