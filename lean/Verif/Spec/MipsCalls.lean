import Verif.Spec.MipsIsa
/-!
# What MIPS code with loops and calls does

From the architecture manuals: word loads and stores, `BNE`, `JALR` and `JR` with their delay slots, on top of `Spec/MipsIsa.lean`. A function
that is called is any change of the machine; it comes back behind the delay slot. Nothing here refers to the assembler.

Not included: exceptions (alignment), delayed loads.
-/
namespace Armips.Spec.Calls
open Armips.Spec.Isa

/-- The word at an address. -/
def loadWord (be : Bool) (m : Machine) (a : BitVec 32) : BitVec 32 := ofBytes fun j => m.mem (a + BitVec.ofNat 32 (if be then 3 - j else j))

/-- Storing a word. -/
def storeWord (be : Bool) (m : Machine) (a v : BitVec 32) : Machine :=
  m.store (fun i => a + BitVec.ofNat 32 i) (fun i => byte v (if be then 3 - i else i)) 4

/-- An instruction that goes on with the next one. -/
def plain (be : Bool) (w : BitVec 32) (m : Machine) : Option Machine :=
  let a := m.address (field w 21 5) (field w 0 16)
  if field w 26 6 = 35 then some (m.set (field w 16 5) (loadWord be m a))
  else if field w 26 6 = 43 then some (storeWord be m a (m.get (field w 16 5)))
  else step be w m

/-- Where a branch at a position (counted in words) goes. -/
def target (pc : Nat) (w : BitVec 32) : Nat := (pc + 1 + signed 16 (field w 0 16)).toNat

/-- Running code that is loaded at address `base`, from a position (counted in words), for at most some steps: the functions that are called, the address
it returns to, and the machine then. `call f` is what the function at address `f` does. -/
def go (be : Bool) (code : List (BitVec 32)) (base : BitVec 32) (call : BitVec 32 → Machine → Machine) :
    Nat → Nat → Machine → Option (List (BitVec 32) × BitVec 32 × Machine)
  | 0, _, _ => none
  | n + 1, pc, m =>
    match code[pc]?, code[pc + 1]? with
    | some w, some d =>
      if field w 26 6 = 5 then
        let t := m.get (field w 21 5) ≠ m.get (field w 16 5)
        (plain be d m).bind fun m => go be code base call n (if t then target pc w else pc + 2) m
      else if field w 26 6 = 0 ∧ field w 0 6 = 9 then
        let f := m.get (field w 21 5)
        (plain be d (m.set (field w 11 5) (base + BitVec.ofNat 32 (4 * (pc + 2))))).bind fun m =>
          (go be code base call n (pc + 2) (call f m)).map fun r => (f :: r.1, r.2)
      else if field w 26 6 = 0 ∧ field w 0 6 = 8 then
        let f := m.get (field w 21 5)
        (plain be d m).map fun m => ([], f, m)
      else (plain be w m).bind fun m => go be code base call n (pc + 1) m
    | _, _ => none

/-- The code, started in a machine, calls the functions in this order and then returns to an address. -/
def Runs (be : Bool) (code : List (BitVec 32)) (base : BitVec 32) (call : BitVec 32 → Machine → Machine) (m : Machine)
    (calls : List (BitVec 32)) (ret : BitVec 32) (m' : Machine) : Prop :=
  ∃ n, go be code base call n 0 m = some (calls, ret, m')

/-- A section of constructors: its address and the number of functions it has. -/
structure Sec where
  address : BitVec 32
  count : Nat

/-- The functions in a section. -/
def Sec.functions (be : Bool) (m : Machine) (s : Sec) : List (BitVec 32) :=
  (List.range s.count).map fun j => loadWord be m (s.address + BitVec.ofNat 32 (4 * j))

/-- The table at `t` has the start and the end of each section. -/
def Table (be : Bool) (m : Machine) : BitVec 32 → List Sec → Prop
  | _, [] => True
  | t, s :: l => loadWord be m t = s.address ∧ loadWord be m (t + 4#32) = s.address + BitVec.ofNat 32 (4 * s.count) ∧ Table be m (t + 8#32) l

/-- The addresses of the table and of the sections. -/
def Data (t : BitVec 32) (l : List Sec) (a : BitVec 32) : Prop :=
  (∃ i, i < 8 * l.length ∧ a = t + BitVec.ofNat 32 i) ∨ ∃ s ∈ l, ∃ i, i < 4 * s.count ∧ a = s.address + BitVec.ofNat 32 i

/-- The 20 bytes at the lower end of a stack frame. -/
def Frame (sp : BitVec 32) (a : BitVec 32) : Prop := ∃ i, i < 20 ∧ a = sp + BitVec.ofNat 32 i

/-- The functions keep the registers that the calling convention says (`s0` to `s3`, `sp`), and some addresses. -/
def Keeps (call : BitVec 32 → Machine → Machine) (P : BitVec 32 → Prop) : Prop :=
  ∀ f m, (∀ r ∈ [16, 17, 18, 19, 29], (call f m).reg r = m.reg r) ∧ ∀ a, P a → (call f m).mem a = m.mem a

end Armips.Spec.Calls
