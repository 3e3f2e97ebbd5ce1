/-!
# Areas and regions

Models `Core/Allocations.{h,cpp}`. Positions and sizes are unbounded integers (`int64_t` in the code). The ordered map
`allocations` is a list kept sorted by key; the multimap `subAreas` is a list. Literal pools are only kept for the
statistics and are a list as well.
-/
namespace Armips

/-- `Allocations.h:52-60` `Key`: file and position. -/
structure AreaKey where
  file : Int
  pos : Int
  deriving DecidableEq, Repr

/-- `Allocations.h:56-59` `operator<`. -/
def AreaKey.lt (a b : AreaKey) : Bool := a.file < b.file || (a.file == b.file && a.pos < b.pos)

/-- `Allocations.h:61-67` `Usage`. -/
structure Usage where
  space : Int
  usage : Int
  usesFill : Bool
  shared : Bool
  deriving DecidableEq, Repr

/-- `Allocations.h:69-73` `SubArea`, with the key it is stored under. -/
structure SubArea where
  key : AreaKey
  offset : Int
  size : Int
  deriving DecidableEq, Repr

/-- `Allocations.h:83-88` the static members, with the initial values of `Allocations.cpp:6-16`. -/
structure Alloc where
  areas : List (AreaKey × Usage) := []
  pools : List (AreaKey × Int) := []
  subs : List SubArea := []
  keepPositions : Bool := false
  nextKeepPositions : Bool := true
  keptPositions : Bool := false
  deriving DecidableEq, Repr

/-- `map[key] = value` on a list sorted by key. -/
def mapSet {α} (k : AreaKey) (v : α) : List (AreaKey × α) → List (AreaKey × α)
  | [] => [(k, v)]
  | (k', v') :: rest =>
    if k = k' then (k, v) :: rest
    else if k.lt k' then (k, v) :: (k', v') :: rest
    else (k', v') :: mapSet k v rest

/-- `map.find(key)`. -/
def mapGet {α} (k : AreaKey) : List (AreaKey × α) → Option α
  | [] => none
  | (k', v') :: rest => if k = k' then some v' else mapGet k rest

namespace Alloc

/-- `Allocations.cpp:18-24` `clear`: pools and sub areas are kept. -/
def clear (a : Alloc) : Alloc :=
  { a with areas := [], keepPositions := false, nextKeepPositions := true, keptPositions := false }

/-- `Allocations.cpp:26-30` `setArea`. -/
def setArea (a : Alloc) (file pos space usage : Int) (usesFill shared : Bool) : Alloc :=
  { a with areas := mapSet ⟨file, pos⟩ ⟨space, usage, usesFill, shared⟩ a.areas }

/-- `Allocations.cpp:32-40` `forgetArea`. -/
def forgetArea (a : Alloc) (file pos space : Int) : Alloc :=
  let k : AreaKey := ⟨file, pos⟩
  { a with
    areas := match mapGet k a.areas with
      | some u => if u.space = space then a.areas.filter (fun e => e.1 ≠ k) else a.areas
      | none => a.areas
    subs := a.subs.filter (fun s => s.key ≠ k) }

/-- `Allocations.cpp:42-46` `setPool`. -/
def setPool (a : Alloc) (file pos size : Int) : Alloc := { a with pools := mapSet ⟨file, pos⟩ size a.pools }

/-- `Allocations.cpp:48-54` `forgetPool`. -/
def forgetPool (a : Alloc) (file pos size : Int) : Alloc :=
  let k : AreaKey := ⟨file, pos⟩
  { a with
    pools := match mapGet k a.pools with
      | some s => if s = size then a.pools.filter (fun e => e.1 ≠ k) else a.pools
      | none => a.pools }

/-- `Allocations.cpp:115-122` the loop of `getSubAreaUsage`: end of the last sub area. -/
def maxExtent (a : Alloc) (k : AreaKey) : Int :=
  a.subs.foldl (fun m s => if s.key = k then max (s.offset + s.size) m else m) 0

/-- `Allocations.cpp:111-128` `getSubAreaUsage`. `allocations[key]` of an unknown key is a zero usage; that this also
creates an empty area that is not shared is left out, since such an entry has no effect on any later call modelled. -/
def subAreaUsage (a : Alloc) (k : AreaKey) : Int :=
  let usage := match mapGet k a.areas with | some u => u.usage | none => 0
  if a.maxExtent k ≤ usage then 0 else a.maxExtent k - usage

/-- `Allocations.cpp:57-91` one iteration of the loop of `allocateSubArea`: `none` to go on with the next area, else the
position chosen, the size recorded and whether an old position was kept. -/
def tryArea (a : Alloc) (file position minRange maxRange size : Int) (k : AreaKey) (u : Usage) :
    Option (Int × SubArea × Bool) :=
  if k.file ≠ file ∨ !u.shared then none
  else if minRange ≠ -1 ∧ k.pos + u.space < minRange then none
  else if maxRange ≠ -1 ∧ k.pos > maxRange then none
  else
    let actualUsage := u.usage + a.subAreaUsage k
    let possiblePosition := k.pos + actualUsage
    if minRange ≠ -1 ∧ possiblePosition < minRange then none
    else if maxRange ≠ -1 ∧ possiblePosition > maxRange then none
    else
      let offset := position - k.pos
      if a.keepPositions ∧ position ≠ -1 ∧ position > possiblePosition ∧ u.space ≥ offset + size ∧ offset ≠ actualUsage then
        let size := size + (offset - actualUsage)
        if u.space ≥ actualUsage + size then some (position, ⟨k, actualUsage, size⟩, true) else none
      else if u.space ≥ actualUsage + size then some (possiblePosition, ⟨k, actualUsage, size⟩, false)
      else none

/-- `Allocations.cpp:57-92` the loop of `allocateSubArea`. -/
def allocateLoop (a : Alloc) (file position minRange maxRange size : Int) :
    List (AreaKey × Usage) → Option (Int × SubArea × Bool)
  | [] => none
  | (k, u) :: rest =>
    match a.tryArea file position minRange maxRange size k u with
    | some r => some r
    | none => a.allocateLoop file position minRange maxRange size rest

/-- `Allocations.cpp:55-96` `allocateSubArea`: the new position, or `none` if it returns false. A size that was adjusted
in an iteration is only used in that iteration, since the adjusted size always fits. -/
def allocateSubArea (a : Alloc) (file position minRange maxRange size : Int) : Alloc × Option Int :=
  match a.allocateLoop file position minRange maxRange size a.areas with
  | some (p, s, kept) => ({ a with subs := a.subs ++ [s], keptPositions := a.keptPositions || kept }, some p)
  | none => ({ a with nextKeepPositions := false }, none)

/-- `Allocations.cpp:98-104` `clearSubAreas`. -/
def clearSubAreas (a : Alloc) : Alloc :=
  { a with subs := [], keepPositions := a.nextKeepPositions, nextKeepPositions := true, keptPositions := false }

/-- `Allocations.cpp:106-109` `canTrimSpace`. -/
def canTrimSpace (a : Alloc) : Bool := a.keptPositions

/-- `Allocations.cpp:139-159` one iteration of `validateOverlap`. The accumulator is the last key, its end and usage
and the number of warnings. -/
def overlapStep (a : Alloc) (acc : AreaKey × Int × Usage × List (Int × Int × Bool)) (e : AreaKey × Usage) :
    AreaKey × Int × Usage × List (Int × Int × Bool) :=
  let (lastKey, lastEnd, lastUsage, warnings) := acc
  let (k, u) := e
  let fresh := fun w => (k, k.pos + u.space, { u with usage := u.usage + a.subAreaUsage k }, w)
  if k.file = lastKey.file ∧ k.pos > lastKey.pos ∧ k.pos < lastEnd then
    let warnings :=
      if k.pos < lastKey.pos + lastUsage.usage then warnings ++ [(lastKey.pos, k.pos, false)]
      else if u.usesFill ∧ lastUsage.usesFill then warnings ++ [(lastKey.pos, k.pos, true)]
      else warnings
    if lastEnd > k.pos + u.space then
      (lastKey, lastEnd, { lastUsage with usage := k.pos + u.usage + a.subAreaUsage k - lastKey.pos }, warnings)
    else fresh warnings
  else fresh warnings

/-- `Allocations.cpp:130-160` `validateOverlap`: the pairs of positions it warns about; the flag says that both fill. -/
def overlaps (a : Alloc) : List (Int × Int × Bool) :=
  (a.areas.foldl a.overlapStep (⟨-1, -1⟩, -1, ⟨0, 0, false, false⟩, [])).2.2.2

end Alloc
end Armips
