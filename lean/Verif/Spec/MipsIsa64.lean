import Verif.Spec.Fields
/-!
# What 64-bit MIPS instructions do

From the architecture manuals: the effect of an instruction word on the registers and the memory of a 64-bit MIPS processor (MIPS III), for the
64-bit instructions that the macros of the assembler consist of. Nothing here refers to the assembler.

Not included: exceptions and delayed loads (the effect of a load is visible at once).
-/
namespace Armips.Spec.Isa64

structure Machine where
  reg : Nat → BitVec 64
  mem : BitVec 64 → BitVec 8

/-- Register 0 is always zero. -/
def Machine.get (m : Machine) (r : Nat) : BitVec 64 := if r = 0 then 0#64 else m.reg r

/-- Writing to register 0 has no effect. -/
def Machine.set (m : Machine) (r : Nat) (v : BitVec 64) : Machine :=
  if r = 0 then m else { m with reg := fun x => if x = r then v else m.reg x }

/-- A byte of a doubleword; byte 0 is the least significant one. -/
def byte (v : BitVec 64) (i : Nat) : BitVec 8 := v.extractLsb' (8 * i) 8

/-- The doubleword with these bytes. -/
def ofBytes (b : Nat → BitVec 8) : BitVec 64 := b 7 ++ b 6 ++ b 5 ++ b 4 ++ b 3 ++ b 2 ++ b 1 ++ b 0

/-- The address of an immediate offset from a register. -/
def Machine.address (m : Machine) (base off : Nat) : BitVec 64 := m.get base + BitVec.ofInt 64 (signed 16 off)

/-- The position of an address in its doubleword. -/
def lane (a : BitVec 64) : Nat := a.toNat % 8

/-- `LDL`: loads the most significant bytes of a register, from the address to the start (little endian) or end (big endian)
of its doubleword. -/
def loadLeft (be : Bool) (m : Machine) (a v : BitVec 64) : BitVec 64 :=
  ofBytes fun j =>
    if be then (if 7 - j ≤ 7 - lane a then m.mem (a + BitVec.ofNat 64 (7 - j)) else byte v j)
    else (if 7 - j ≤ lane a then m.mem (a - BitVec.ofNat 64 (7 - j)) else byte v j)

/-- `LDR`: loads the least significant bytes of a register, from the address to the end (little endian) or start (big
endian) of its doubleword. -/
def loadRight (be : Bool) (m : Machine) (a v : BitVec 64) : BitVec 64 :=
  ofBytes fun j =>
    if be then (if j ≤ lane a then m.mem (a - BitVec.ofNat 64 j) else byte v j)
    else (if j ≤ 7 - lane a then m.mem (a + BitVec.ofNat 64 j) else byte v j)

/-- Writing the bytes `b 0`, …, `b (n - 1)` at `p 0`, …, `p (n - 1)`. -/
def Machine.store (m : Machine) (p : Nat → BitVec 64) (b : Nat → BitVec 8) : Nat → Machine
  | 0 => m
  | n + 1 =>
    let m' := m.store p b n
    { m' with mem := fun x => if x = p n then b n else m'.mem x }

/-- `SDL`: the reverse of `LDL`. -/
def storeLeft (be : Bool) (m : Machine) (a v : BitVec 64) : Machine :=
  if be then m.store (fun i => a + BitVec.ofNat 64 i) (fun i => byte v (7 - i)) (8 - lane a)
  else m.store (fun i => a - BitVec.ofNat 64 i) (fun i => byte v (7 - i)) (lane a + 1)

/-- `SDR`: the reverse of `LDR`. -/
def storeRight (be : Bool) (m : Machine) (a v : BitVec 64) : Machine :=
  if be then m.store (fun i => a - BitVec.ofNat 64 i) (fun i => byte v i) (lane a + 1)
  else m.store (fun i => a + BitVec.ofNat 64 i) (fun i => byte v i) (8 - lane a)

/-- The effect of an instruction with opcode 0 (`SPECIAL`): `SLL` with register 0 as the destination (a `NOP`), `XOR`, `DSUBU`, `DSRA32`. -/
def special (rs rt rd sa fn : Nat) (m : Machine) : Option Machine :=
  if fn = 0 then if rs = 0 ∧ rd = 0 then some m else none
  else if fn = 63 then if rs = 0 then some (m.set rd ((m.get rt).sshiftRight (sa + 32))) else none
  else if sa ≠ 0 then none
  else if fn = 38 then some (m.set rd (m.get rs ^^^ m.get rt))
  else if fn = 47 then some (m.set rd (m.get rs - m.get rt))
  else none

/-- The effect of an instruction word, on a machine that is big endian or not. `none`: not described here. -/
def step (be : Bool) (w : BitVec 32) (m : Machine) : Option Machine :=
  let op := field w 26 6
  let rs := field w 21 5
  let rt := field w 16 5
  let a := m.address rs (field w 0 16)
  if op = 0 then special rs rt (field w 11 5) (field w 6 5) (field w 0 6) m
  else if op = 26 then some (m.set rt (loadLeft be m a (m.get rt)))
  else if op = 27 then some (m.set rt (loadRight be m a (m.get rt)))
  else if op = 44 then some (storeLeft be m a (m.get rt))
  else if op = 45 then some (storeRight be m a (m.get rt))
  else none

/-- One instruction after the other. -/
def exec (be : Bool) : List (BitVec 32) → Machine → Option Machine
  | [], m => some m
  | w :: ws, m => (step be w m).bind (exec be ws)

/-- The two machines have the same memory and the same registers, except possibly those listed. -/
def SameBut (rs : List Nat) (m m' : Machine) : Prop := m'.mem = m.mem ∧ ∀ r, r ∉ rs → m'.get r = m.get r

end Armips.Spec.Isa64
