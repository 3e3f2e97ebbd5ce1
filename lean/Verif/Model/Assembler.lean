import Verif.Model.Commands
/-!
# The assembly loop

Models `encodeAssembly` in `Core/Assembler.cpp:20-124`, without memory mode, temp file and symbol file.
-/
namespace Armips

/-- `Arm.cpp:56-65`, `Mips.cpp:48-53`, `SuperH.cpp` `Revalidate`. -/
def revalidate (st : St) : St :=
  let st := st.pool.foldl (fun st _ => st.queueError .error "Unable to find literal pool") st
  { st with pool := [], archSt := {} }

/-- `Assembler.cpp:31`, `40-41` the start of a pass. The requests to the literal pool are numbered from 0 in each pass. -/
def startPass (st : St) : St :=
  { st with
    fm := { st.fm with log := st.fm.log.clearQueue }.reset
    alloc := st.alloc.clearSubAreas
    poolCount := 0 }

/-- `Assembler.cpp:40-60` one pass. -/
def onePass (E : Env) (c : Cmd) (passes : Nat) (m : c.Mem) (st : St) : Option (c.Mem × St × Bool) :=
  match validate E passes c false m (startPass st) with
  | none => none
  | some (m, st, again) => some (m, revalidate st, again)

/-- How a loop ends. -/
inductive LoopEnd (α : Type)
  | ub
  /-- The fuel given to the model was not enough. -/
  | outOfFuel
  | done (a : α)

/-- `Assembler.cpp:29-61` the loop. `fuel` only makes the definition total; see `Props/Assembler` for why it is never used
up. Returns the number of passes as well. -/
def passLoop (E : Env) (c : Cmd) : Nat → Nat → c.Mem → St → LoopEnd (c.Mem × St × Nat)
  | 0, _, _, _ => .outOfFuel
  | fuel + 1, passes, m, st =>
    if passes ≥ 100 then
      .done (m, { st with fm := { st.fm with log := st.fm.log.clearQueue } }.queueError .error
        "Stuck in infinite validation loop", passes)
    else
      match onePass E c passes m st with
      | none => .ub
      | some (m, st, true) => passLoop E c fuel (passes + 1) m st
      | some (m, st, false) => .done (m, st, passes + 1)

/-- `Assembler.cpp:63-69` `validateOverlap` and `printQueue`. -/
def finishValidation (st : St) : St :=
  let st := st.alloc.overlaps.foldl (fun st _ => st.queueError .warning "Content of areas overlap") st
  { st with fm := { st.fm with log := st.fm.log.printQueue } }

/-- `Assembler.cpp:111-116` the end. -/
def closeLast (f : FM) : FM :=
  match f.active with
  | none => f
  | some _ => (f.printError .warning "File not closed").closeFile

/-- Result of an assembly: the returned flag, the members of the commands, the state and the number of passes. -/
structure Outcome (c : Cmd) where
  success : Bool
  mem : c.Mem
  st : St
  passes : Nat

/-- `Assembler.cpp:20-124` `encodeAssembly`. -/
def assemble (E : Env) (c : Cmd) (fuel : Nat) (st : St) : LoopEnd (Outcome c) :=
  match passLoop E c fuel 0 c.init { st with pool := [] } with
  | .ub => .ub
  | .outOfFuel => .outOfFuel
  | .done (m, st, passes) =>
    let st := finishValidation st
    if st.fm.log.error then .done ⟨false, m, st, passes⟩
    else
      match encode st c m st.fm with
      | none => .ub
      | some f =>
        let f := closeLast f
        .done ⟨!f.log.error, m, { st with fm := f }, passes⟩

end Armips
