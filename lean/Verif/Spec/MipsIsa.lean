import Verif.Spec.Fields
/-!
# What MIPS instructions do

From the architecture manuals: the effect of an instruction word on the registers and the memory of a 32-bit MIPS processor,
for the instructions that the macros of the assembler consist of. Nothing here refers to the assembler.

Not included: exceptions, delayed loads (the effect of a load is visible at once), and the upper halves of 64-bit registers.
-/
namespace Armips.Spec.Isa

structure Machine where
  reg : Nat → BitVec 32
  mem : BitVec 32 → BitVec 8

/-- Register 0 is always zero. -/
def Machine.get (m : Machine) (r : Nat) : BitVec 32 := if r = 0 then 0#32 else m.reg r

/-- Writing to register 0 has no effect. -/
def Machine.set (m : Machine) (r : Nat) (v : BitVec 32) : Machine :=
  if r = 0 then m else { m with reg := fun x => if x = r then v else m.reg x }

/-- A byte of a word; byte 0 is the least significant one. -/
def byte (v : BitVec 32) (i : Nat) : BitVec 8 := v.extractLsb' (8 * i) 8

/-- The word with these bytes. -/
def ofBytes (b : Nat → BitVec 8) : BitVec 32 := b 3 ++ b 2 ++ b 1 ++ b 0

/-- The address of an immediate offset from a register. -/
def Machine.address (m : Machine) (base off : Nat) : BitVec 32 := m.get base + BitVec.ofInt 32 (signed 16 off)

/-- The position of an address in its word. -/
def lane (a : BitVec 32) : Nat := a.toNat % 4

/-- `LWL`: loads the most significant bytes of a register, from the address to the start (little endian) or end (big endian)
of its word. -/
def loadLeft (be : Bool) (m : Machine) (a v : BitVec 32) : BitVec 32 :=
  ofBytes fun j =>
    if be then (if 3 - j ≤ 3 - lane a then m.mem (a + BitVec.ofNat 32 (3 - j)) else byte v j)
    else (if 3 - j ≤ lane a then m.mem (a - BitVec.ofNat 32 (3 - j)) else byte v j)

/-- `LWR`: loads the least significant bytes of a register, from the address to the end (little endian) or start (big
endian) of its word. -/
def loadRight (be : Bool) (m : Machine) (a v : BitVec 32) : BitVec 32 :=
  ofBytes fun j =>
    if be then (if j ≤ lane a then m.mem (a - BitVec.ofNat 32 j) else byte v j)
    else (if j ≤ 3 - lane a then m.mem (a + BitVec.ofNat 32 j) else byte v j)

/-- Writing the bytes `b 0`, …, `b (n - 1)` at `p 0`, …, `p (n - 1)`. -/
def Machine.store (m : Machine) (p : Nat → BitVec 32) (b : Nat → BitVec 8) : Nat → Machine
  | 0 => m
  | n + 1 =>
    let m' := m.store p b n
    { m' with mem := fun x => if x = p n then b n else m'.mem x }

/-- `SWL`: the reverse of `LWL`. -/
def storeLeft (be : Bool) (m : Machine) (a v : BitVec 32) : Machine :=
  if be then m.store (fun i => a + BitVec.ofNat 32 i) (fun i => byte v (3 - i)) (4 - lane a)
  else m.store (fun i => a - BitVec.ofNat 32 i) (fun i => byte v (3 - i)) (lane a + 1)

/-- `SWR`: the reverse of `LWR`. -/
def storeRight (be : Bool) (m : Machine) (a v : BitVec 32) : Machine :=
  if be then m.store (fun i => a - BitVec.ofNat 32 i) (fun i => byte v i) (lane a + 1)
  else m.store (fun i => a + BitVec.ofNat 32 i) (fun i => byte v i) (4 - lane a)

/-- 1 or 0. -/
def bool (b : Bool) : BitVec 32 := if b then 1#32 else 0#32

/-- The effect of an instruction with opcode 0 (`SPECIAL`): registers, shift amount and function. -/
def special (rs rt rd sa fn : Nat) (m : Machine) : Option Machine :=
  let s := m.get rs
  let t := m.get rt
  if fn = 0 then if rs = 0 then some (m.set rd (t <<< sa)) else none
  else if fn = 2 then
    if rs = 0 then some (m.set rd (t >>> sa)) else if rs = 1 then some (m.set rd (t.rotateRight sa)) else none
  else if fn = 3 then if rs = 0 then some (m.set rd (t.sshiftRight sa)) else none
  else if fn = 4 then if sa = 0 then some (m.set rd (t <<< (s.toNat % 32))) else none
  else if fn = 6 then
    if sa = 0 then some (m.set rd (t >>> (s.toNat % 32)))
    else if sa = 1 then some (m.set rd (t.rotateRight (s.toNat % 32))) else none
  else if sa ≠ 0 then none
  else if fn = 33 then some (m.set rd (s + t))
  else if fn = 35 then some (m.set rd (s - t))
  else if fn = 37 then some (m.set rd (s ||| t))
  else if fn = 38 then some (m.set rd (s ^^^ t))
  else if fn = 42 then some (m.set rd (bool (s.slt t)))
  else if fn = 43 then some (m.set rd (bool (s.ult t)))
  else none

/-- The effect of an instruction word that is no branch, on a machine that is big endian or not. `none`: not described
here. -/
def step (be : Bool) (w : BitVec 32) (m : Machine) : Option Machine :=
  let op := field w 26 6
  let rs := field w 21 5
  let rt := field w 16 5
  let imm := field w 0 16
  let s := m.get rs
  let sx := BitVec.ofInt 32 (signed 16 imm)
  let zx := BitVec.ofNat 32 imm
  let a := m.address rs imm
  if op = 0 then special rs rt (field w 11 5) (field w 6 5) (field w 0 6) m
  else if op = 9 then some (m.set rt (s + sx))
  else if op = 10 then some (m.set rt (bool (s.slt sx)))
  else if op = 11 then some (m.set rt (bool (s.ult sx)))
  else if op = 13 then some (m.set rt (s ||| zx))
  else if op = 14 then some (m.set rt (s ^^^ zx))
  else if op = 15 then if rs = 0 then some (m.set rt (zx <<< 16)) else none
  else if op = 32 then some (m.set rt ((m.mem a).signExtend 32))
  else if op = 34 then some (m.set rt (loadLeft be m a (m.get rt)))
  else if op = 36 then some (m.set rt ((m.mem a).zeroExtend 32))
  else if op = 38 then some (m.set rt (loadRight be m a (m.get rt)))
  else if op = 40 then some (m.store (fun _ => a) (fun _ => byte (m.get rt) 0) 1)
  else if op = 42 then some (storeLeft be m a (m.get rt))
  else if op = 46 then some (storeRight be m a (m.get rt))
  else none

/-- One instruction after the other. -/
def exec (be : Bool) : List (BitVec 32) → Machine → Option Machine
  | [], m => some m
  | w :: ws, m => (step be w m).bind (exec be ws)

/-- Whether a branch word (`BEQ`, `BNE`, `BEQL`, `BNEL`) branches. -/
def taken (w : BitVec 32) (m : Machine) : Option Bool :=
  let eq := decide (m.get (field w 21 5) = m.get (field w 16 5))
  if field w 26 6 = 4 ∨ field w 26 6 = 20 then some eq
  else if field w 26 6 = 5 ∨ field w 26 6 = 21 then some !eq
  else none

/-- Whether it is one that skips its delay slot when it does not branch. -/
def likely (w : BitVec 32) : Bool := decide (field w 26 6 = 20 ∨ field w 26 6 = 21)

/-- A load or store: the number of the instruction, the register that is loaded or stored, the address. -/
def access (w : BitVec 32) (m : Machine) : Nat × Nat × BitVec 32 :=
  (field w 26 6, field w 16 5, m.address (field w 21 5) (field w 0 16))

/-- The two machines have the same memory and the same registers, except possibly those listed. -/
def SameBut (rs : List Nat) (m m' : Machine) : Prop := m'.mem = m.mem ∧ ∀ r, r ∉ rs → m'.get r = m.get r

end Armips.Spec.Isa
