import Verif.Lemmas.ShWord
import Verif.Props.ThumbBranch
/-!
# SuperH instructions

C39: the word of an accepted instruction has the bits of the manual. C38: branches and accesses relative to the program counter reach
their target.
-/
namespace Armips.Props
open Armips Armips.Sh Spec Spec.Sh Spec.Instr

/-! ### C39 -/

/-- The halfword of every accepted instruction has the fixed bits and the registers that the manual gives it. -/
theorem sh_word {E : Env} {name : String} {ops : List Operand} {p : String} (hx : (name, ops, p) ∈ manual) {n m : Nat} {e : Expr} {c : Ctx}
    {st : ArchState} {w : BitVec 16} (h : Assembles E name (toks n m e ops) c st w) : ∃ d, d < 2 ^ width p ∧ Shows p n m d w := by
  obtain ⟨_, ⟨_, hs⟩ | ⟨_, v, d, _, ht, hs⟩⟩ := (assembles_entry hx).1 h
  · exact ⟨0, Nat.two_pow_pos _, hs⟩
  · have := taken_entry hx ht
    have hpn : ((2 ^ width p : Nat) : Int) = 2 ^ width p := by simp
    exact ⟨d, by omega, hs⟩

/-- An instruction without a number is accepted at every even address. -/
theorem sh_registers {E : Env} {name : String} {ops : List Operand} {p : String} (hx : (name, ops, p) ∈ manual) (h0 : width p = 0) {n m : Nat}
    {e : Expr} {c : Ctx} {st : ArchState} (ha : c.virtualAddress % 2 = 0) (w : BitVec 16) :
    Assembles E name (toks n m e ops) c st w ↔ Shows p n m 0 w := by
  rw [assembles_entry hx]
  simp [h0, ha]

theorem evaluates_unique {E : Env} {a : ArchId} {c : Ctx} {e : Expr} {v v' : Int} (h : Evaluates E a c e (.int v))
    (h' : Evaluates E a c e (.int v')) : v = v' := by
  obtain ⟨_, h1, _⟩ := h
  obtain ⟨_, h2, _⟩ := h'
  rw [h1] at h2
  cases h2; rfl

/-- The word is determined. -/
theorem sh_unique {E : Env} {name : String} {ts : List Tok} {c : Ctx} {st : ArchState} {w w' : BitVec 16}
    (h : Assembles E name ts c st w) (h' : Assembles E name ts c st w') : w = w' := by
  obtain ⟨op, o, hp, out, ⟨st1, _, h1, _⟩, h2⟩ := h
  obtain ⟨op', o', hp', out', ⟨st1', _, h1', _⟩, h2'⟩ := h'
  rw [hp] at hp'
  cases hp'
  rw [h1] at h1'
  cases h1'
  have := (h2 none).symm.trans (h2' none)
  simp only [List.cons.injEq, Prod.mk.injEq, true_and, and_true] at this
  exact BitVec.eq_of_toNat_eq (Int.ofNat.inj this)

theorem width_imm {name : String} {ops : List Operand} {p : String} (hx : (name, ops, p) ∈ manual) (hi : .imm ∈ ops) :
    width p = 8 ∧ kindOf name ops = .plain 1 := by
  have h : (manual.all fun x => !decide (.imm ∈ x.2.1) || (width x.2.2 == 8 && decide (kindOf x.1 x.2.1 = .plain 1))) = true := by
    decide +kernel
  have := List.all_eq_true.1 h _ hx
  simpa [hi] using this

/-- Immediates from -128 to 255 are accepted, and the field holds the number, as a signed or as an unsigned byte. The full property
also needs `sh_immediate_refused` for all other numbers, which is not so: `sh_immediate_wrong`. -/
theorem sh_immediate_partial {E : Env} {name : String} {ops : List Operand} {p : String} (hx : (name, ops, p) ∈ manual) (hi : .imm ∈ ops)
    {n m : Nat} {e : Expr} {c : Ctx} {st : ArchState} {v : Int} (ha : c.virtualAddress % 2 = 0) (hv : Evaluates E .superH c e (.int v))
    (h1 : -128 ≤ v) (h2 : v < 256) :
    ∃ w d, Assembles E name (toks n m e ops) c st w ∧ Shows p n m d w ∧ d < 256 ∧ (0 ≤ v → d = v) ∧ (v < 128 → signed 8 d = v) := by
  obtain ⟨hw, hk⟩ := width_imm hx hi
  have hd : (v % 256).toNat < 2 ^ width p := by rw [hw]; omega
  obtain ⟨w, hs⟩ := shows_entry hx n m (v % 256).toNat hd
  refine ⟨w, (v % 256).toNat, (assembles_entry hx).2 ⟨ha, .inr ⟨by omega, v, _, hv, ?_, hs⟩⟩, hs, by omega, by omega, fun h3 => ?_⟩
  · rw [hk, hw, int32_id (by omega) (by omega)]
    simp only [Taken]
    omega
  · unfold signed; split <;> omega

example : ∃ w d, Assembles Sample.env "mov" (toks 3 0 (.int (-2)) [.imm, .rn]) Sample.ctx {} w ∧ Shows "1110nnnndddddddd" 3 0 d w ∧ d < 256 ∧
    (0 ≤ (-2 : Int) → (d : Int) = -2) ∧ ((-2 : Int) < 128 → signed 8 d = -2) :=
  sh_immediate_partial (by decide) (by decide) (by decide) ⟨[], rfl, by intro d h; cases h⟩ (by decide) (by decide)

/-- Numbers of more than eight bits are refused. The smallest `int` is excluded: its absolute value is undefined. -/
theorem sh_immediate_refused {E : Env} {name : String} {ops : List Operand} {p : String} (hx : (name, ops, p) ∈ manual) (hi : .imm ∈ ops)
    {n m : Nat} {e : Expr} {c : Ctx} {st : ArchState} {v : Int} (hv : Evaluates E .superH c e (.int v))
    (h1 : 255 < (int32 v).natAbs) (h2 : int32 v ≠ -2 ^ 31) : Refused E name (toks n m e ops) c st := by
  obtain ⟨hw, hk⟩ := width_imm hx hi
  refine refused_entry hx (by omega) hv ?_ ?_
  · intro d _ ht
    rw [hk, hw] at ht
    simp only [Taken] at ht
    omega
  · rw [hk]; simpa [Undefined] using h2

/-- The immediates from -255 to -129 do not fit into a signed byte but are accepted, as positive numbers: `mov #-255,r1` is `mov #1,r1`. -/
theorem sh_immediate_wrong {E : Env} {n : Nat} {e : Expr} {c : Ctx} {st : ArchState} {v : Int} (ha : c.virtualAddress % 2 = 0)
    (hv : Evaluates E .superH c e (.int v)) (h1 : -255 ≤ v) (h2 : v ≤ -129) :
    ∃ w d, Assembles E "mov" (toks n 0 e [.imm, .rn]) c st w ∧ Shows "1110nnnndddddddd" n 0 d w ∧ signed 8 d = v + 256 := by
  have hx : ("mov", [Operand.imm, .rn], "1110nnnndddddddd") ∈ manual := by decide
  obtain ⟨hw, hk⟩ := width_imm hx (by decide)
  obtain ⟨w, hs⟩ := shows_entry hx n 0 (v + 256).toNat (by rw [hw]; omega)
  refine ⟨w, (v + 256).toNat, (assembles_entry hx).2 ⟨ha, .inr ⟨by omega, v, _, hv, ?_, hs⟩⟩, hs, ?_⟩
  · rw [hk, hw, int32_id (by omega) (by omega)]
    simp only [Taken]
    omega
  · unfold signed; split <;> omega

/-- The operands with a displacement that is not relative to the program counter. -/
def HasDisp (ops : List Operand) : Prop := .dispRn ∈ ops ∨ .dispRm ∈ ops ∨ .dispGbr ∈ ops

instance (ops : List Operand) : Decidable (HasDisp ops) := by unfold HasDisp; infer_instance

theorem width_disp {name : String} {ops : List Operand} {p : String} (hx : (name, ops, p) ∈ manual) (hi : HasDisp ops) :
    (width p = 4 ∨ width p = 8) ∧ kindOf name ops = .plain (unit name) := by
  have h : (manual.all fun x => !decide (HasDisp x.2.1) ||
      ((width x.2.2 == 4 || width x.2.2 == 8) && decide (kindOf x.1 x.2.1 = .plain (unit x.1)))) = true := by decide +kernel
  have := List.all_eq_true.1 h _ hx
  simpa [hi] using this

theorem unit_cases (name : String) : unit name = 1 ∨ unit name = 2 ∨ unit name = 4 := by
  unfold unit
  split
  · simp
  · split <;> simp

/-- Displacements from registers that the field can hold are accepted, and the processor adds what was written. That all others are
refused (`sh_displacement_refused`) is not so for negative ones: `sh_displacement_wrong`. -/
theorem sh_displacement_partial {E : Env} {name : String} {ops : List Operand} {p : String} (hx : (name, ops, p) ∈ manual) (hi : HasDisp ops)
    {n m : Nat} {e : Expr} {c : Ctx} {st : ArchState} {v : Int} (ha : c.virtualAddress % 2 = 0) (hv : Evaluates E .superH c e (.int v))
    (h0 : 0 ≤ v) (h1 : v % unit name = 0) (h2 : v ≤ (2 ^ width p - 1) * unit name) :
    ∃ w d, Assembles E name (toks n m e ops) c st w ∧ Shows p n m d w ∧ d < 2 ^ width p ∧ v = d * unit name := by
  obtain ⟨hw, hk⟩ := width_disp hx hi
  have hu := unit_cases name
  generalize unit name = u at *
  have hd : (v / u).toNat < 2 ^ width p := by
    rcases hw with hw | hw <;> rw [hw] at h2 ⊢ <;> rcases hu with rfl | rfl | rfl <;> omega
  obtain ⟨w, hs⟩ := shows_entry hx n m (v / u).toNat hd
  refine ⟨w, (v / u).toNat, (assembles_entry hx).2 ⟨ha, .inr ⟨by omega, v, _, hv, ?_, hs⟩⟩, hs, hd, ?_⟩
  · rw [hk, int32_id (by omega) (by rcases hw with hw | hw <;> rw [hw] at h2 <;> rcases hu with rfl | rfl | rfl <;> omega)]
    simp only [Taken]
    rcases hw with hw | hw <;> rw [hw] at h2 ⊢ <;> rcases hu with rfl | rfl | rfl <;> omega
  · rcases hu with rfl | rfl | rfl <;> omega

example : ∃ w d, Assembles Sample.env "mov.l" (toks 3 4 (.int 60) [.rm, .dispRn]) Sample.ctx {} w ∧ Shows "0001nnnnmmmmdddd" 3 4 d w ∧
    d < 2 ^ width "0001nnnnmmmmdddd" ∧ (60 : Int) = d * unit "mov.l" :=
  sh_displacement_partial (by decide) (by decide) (by decide) ⟨[], rfl, by intro d h; cases h⟩ (by decide) (by decide) (by decide)

/-- Displacements that are too large or no multiple of the size of the data are refused. -/
theorem sh_displacement_refused {E : Env} {name : String} {ops : List Operand} {p : String} (hx : (name, ops, p) ∈ manual) (hi : HasDisp ops)
    {n m : Nat} {e : Expr} {c : Ctx} {st : ArchState} {v : Int} (hv : Evaluates E .superH c e (.int v))
    (h1 : int32 v % unit name ≠ 0 ∨ (2 ^ width p - 1) * unit name < int32 v) : Refused E name (toks n m e ops) c st := by
  obtain ⟨hw, hk⟩ := width_disp hx hi
  refine refused_entry hx (by omega) hv ?_ ?_
  · intro d _ ht
    rw [hk] at ht
    simp only [Taken] at ht
    have hu := unit_cases name
    rcases hw with hw | hw <;> rw [hw] at ht h1 <;> rcases hu with hu | hu | hu <;> rw [hu] at ht h1 <;> omega
  · rw [hk]
    have hu := unit_cases name
    rcases hu with hu | hu | hu <;> rw [hu] at h1 ⊢ <;> simp only [Undefined, not_false_eq_true]
    rcases hw with hw | hw <;> rw [hw] at h1 <;> omega

/-- A negative displacement of at most `2 ^ width - 1` units is accepted, and the processor adds a positive one:
`mov.w @(-2,r1),r0` reads from `r1 + 30`. -/
theorem sh_displacement_wrong {E : Env} {name : String} {ops : List Operand} {p : String} (hx : (name, ops, p) ∈ manual) (hi : HasDisp ops)
    {n m : Nat} {e : Expr} {c : Ctx} {st : ArchState} {v : Int} (ha : c.virtualAddress % 2 = 0) (hv : Evaluates E .superH c e (.int v))
    (h0 : v < 0) (h1 : v % unit name = 0) (h2 : -((2 ^ width p - 1) * unit name) ≤ v) :
    ∃ w d, Assembles E name (toks n m e ops) c st w ∧ Shows p n m d w ∧ (d * unit name : Int) = v + 2 ^ width p * unit name := by
  obtain ⟨hw, hk⟩ := width_disp hx hi
  have hu := unit_cases name
  generalize unit name = u at *
  have hd : (v / u + 2 ^ width p).toNat < 2 ^ width p := by
    rcases hw with hw | hw <;> rw [hw] at h2 ⊢ <;> rcases hu with rfl | rfl | rfl <;> omega
  obtain ⟨w, hs⟩ := shows_entry hx n m _ hd
  refine ⟨w, _, (assembles_entry hx).2 ⟨ha, .inr ⟨by omega, v, _, hv, ?_, hs⟩⟩, hs, ?_⟩
  · rw [hk, int32_id (by rcases hw with hw | hw <;> rw [hw] at h2 <;> rcases hu with rfl | rfl | rfl <;> omega) (by omega)]
    simp only [Taken]
    rcases hw with hw | hw <;> rw [hw] at h2 ⊢ <;> rcases hu with rfl | rfl | rfl <;> omega
  · rcases hw with hw | hw <;> rw [hw] at h2 ⊢ <;> rcases hu with rfl | rfl | rfl <;> omega

example : ∃ w d, Assembles Sample.env "mov.w" (toks 0 1 (.int (-2)) [.dispRm, .r0]) Sample.ctx {} w ∧ Shows "10000101mmmmdddd" 0 1 d w ∧
    (d * unit "mov.w" : Int) = -2 + 2 ^ width "10000101mmmmdddd" * unit "mov.w" :=
  sh_displacement_wrong (by decide) (by decide) (by decide) ⟨[], rfl, by intro d h; cases h⟩ (by decide) (by decide) (by decide)

/-- No instruction is accepted at an odd address. -/
theorem sh_odd_address {E : Env} {name : String} {ts : List Tok} {c : Ctx} {st : ArchState} (ha : c.virtualAddress % 2 ≠ 0) :
    Refused E name ts c st := by
  intro op o _
  unfold Rejects
  simp only [Sh.sem, Sh.validate]
  rw [if_pos ha]
  simp only [bind, Ev.bind, Arm.failWith, Ev.queue, pure]
  refine ⟨_, _, _, rfl, ?_⟩
  intro hne
  have := hne _ (List.mem_append_left _ (List.mem_append_left _ (List.mem_singleton_self _)))
  simp at this

/-- The parser takes `@Rm` where a register is expected: `add @r1,r2`, which does not exist, is assembled as `add r1,r2`. -/
theorem sh_at_register_wrong {E : Env} {n m : Nat} {e : Expr} {c : Ctx} {st : ArchState} {w : BitVec 16} (ha : c.virtualAddress % 2 = 0)
    (hs : Shows "0011nnnnmmmm1100" n m 0 w) : Assembles E "add" (toks n m e [.atRm, .rn]) c st w := by
  have hx : ("add", [Operand.rm, .rn], "0011nnnnmmmm1100") ∈ manual := by decide
  obtain ⟨op, o, hp, h⟩ := (sh_registers (E := E) (e := e) (st := st) hx (by decide) ha w).2 hs
  refine ⟨op, o, ?_, h⟩
  rw [← hp]
  rfl

/-! ### C38 -/

theorem width_branch {name p : String} (hx : (name, [Operand.label], p) ∈ manual) :
    (width p = 8 ∨ width p = 12) ∧ kindOf name [.label] = .branch := by
  have h : (manual.all fun x => !decide (x.2.1 = [.label]) ||
      ((width x.2.2 == 8 || width x.2.2 == 12) && decide (kindOf x.1 x.2.1 = .branch))) = true := by decide +kernel
  have := List.all_eq_true.1 h _ hx
  simpa using this

/-- An accepted branch goes where it is told to. -/
theorem sh_branch_reaches {E : Env} {name p : String} (hx : (name, [Operand.label], p) ∈ manual) {n m : Nat} {e : Expr} {c : Ctx} {st : ArchState}
    {w : BitVec 16} {v : Int} (h : Assembles E name (toks n m e [.label]) c st w) (hv : Evaluates E .superH c e (.int v)) :
    ∃ d, Shows p n m d w ∧ d < 2 ^ width p ∧ (branchTarget (width p) d c.virtualAddress - v) % 2 ^ 32 = 0 := by
  obtain ⟨hw, hk⟩ := width_branch hx
  obtain ⟨ha, ⟨h0, _⟩ | ⟨_, v', d, hv', ht, hs⟩⟩ := (assembles_entry hx).1 h
  · omega
  · obtain rfl := evaluates_unique hv hv'
    rw [hk] at ht
    simp only [Taken, dist, int32] at ht
    refine ⟨d, hs, ?_, ?_⟩
    · rcases hw with hw | hw <;> rw [hw] at ht ⊢ <;> omega
    · unfold branchTarget signed
      rcases hw with hw | hw <;> rw [hw] at ht ⊢ <;> split <;> omega

/-- A branch to an even address within reach is accepted: up to `2 ^ width - 2` bytes forwards and backwards from the program counter.
The lowest distance, which the field could hold, is missing (`sh_branch_lowest_wrong`), as are addresses from 0x80000000
(`sh_branch_high_wrong`). -/
theorem sh_branch_accepted_partial {E : Env} {name p : String} (hx : (name, [Operand.label], p) ∈ manual) {n m : Nat} {e : Expr} {c : Ctx}
    {st : ArchState} {v : Int} (hv : Evaluates E .superH c e (.int v)) (ha : c.virtualAddress % 2 = 0)
    (h1 : v % 2 = 0) (h2 : -2 ^ 31 ≤ v ∧ v < 2 ^ 31) (h3 : (v - (c.virtualAddress + 4)).natAbs ≤ 2 ^ width p - 2) :
    ∃ w, Assembles E name (toks n m e [.label]) c st w := by
  obtain ⟨hw, hk⟩ := width_branch hx
  have hd : ((v - (c.virtualAddress + 4)) / 2 % 2 ^ width p).toNat < 2 ^ width p := by
    rcases hw with hw | hw <;> rw [hw] <;> omega
  obtain ⟨w, hs⟩ := shows_entry hx n m _ hd
  refine ⟨w, (assembles_entry hx).2 ⟨ha, .inr ⟨by omega, v, _, hv, ?_, hs⟩⟩⟩
  rw [hk, int32_id h2.1 h2.2]
  simp only [Taken, dist]
  rcases hw with hw | hw <;> rw [hw] at h3 ⊢ <;> omega

example : ∃ w, Assembles Sample.env "bf/s" (toks 0 0 (.int 0x8000000) [.label]) Sample.ctx {} w :=
  sh_branch_accepted_partial (p := "10001111dddddddd") (by decide) ⟨[], rfl, by intro d h; cases h⟩ (by decide) (by decide) (by decide)
    (by decide)

/-- A branch to an odd address, or further than its reach, is refused. -/
theorem sh_branch_refused {E : Env} {name p : String} (hx : (name, [Operand.label], p) ∈ manual) {n m : Nat} {e : Expr} {c : Ctx}
    {st : ArchState} {v : Int} (hv : Evaluates E .superH c e (.int v)) (ha : -2 ^ 62 ≤ c.virtualAddress ∧ c.virtualAddress < 2 ^ 62)
    (h : v % 2 = 1 ∨ 2 ^ width p - 2 < (int32 v - (c.virtualAddress + 4)).natAbs) : Refused E name (toks n m e [.label]) c st := by
  obtain ⟨hw, hk⟩ := width_branch hx
  refine refused_entry hx (by omega) hv ?_ ?_
  · intro d ha' ht
    rw [hk] at ht
    simp only [Taken, dist, int32] at ht
    simp only [int32] at h
    rcases hw with hw | hw <;> rw [hw] at ht h <;> omega
  · rw [hk]; simp [Undefined]

/-- The target furthest back, which the field can express, is refused. -/
theorem sh_branch_lowest_wrong {E : Env} {name p : String} (hx : (name, [Operand.label], p) ∈ manual) {n m : Nat} {e : Expr} {c : Ctx}
    {st : ArchState} (ha : 0 ≤ c.virtualAddress ∧ c.virtualAddress < 2 ^ 31 - 4)
    (hv : Evaluates E .superH c e (.int (c.virtualAddress + 4 - 2 ^ width p))) :
    Refused E name (toks n m e [.label]) c st ∧
      branchTarget (width p) (2 ^ (width p - 1)) c.virtualAddress = c.virtualAddress + 4 - 2 ^ width p := by
  obtain ⟨hw, hk⟩ := width_branch hx
  refine ⟨sh_branch_refused hx hv (by omega) (.inr ?_), ?_⟩
  · unfold int32; rcases hw with hw | hw <;> rw [hw] <;> omega
  · unfold branchTarget signed
    rcases hw with hw | hw <;> rw [hw] <;> simp <;> omega

/-- Nothing at an address from 0x80000000 can be branched to from there, since labels are converted to a signed 32-bit number and the
address of the instruction is not. -/
theorem sh_branch_high_wrong {E : Env} {name p : String} (hx : (name, [Operand.label], p) ∈ manual) {n m : Nat} {e : Expr} {c : Ctx}
    {st : ArchState} {v : Int} (hv : Evaluates E .superH c e (.int v)) (ha : 2 ^ 31 ≤ c.virtualAddress ∧ c.virtualAddress < 2 ^ 32)
    (h : 2 ^ 31 ≤ v ∧ v < 2 ^ 32) : Refused E name (toks n m e [.label]) c st := by
  obtain ⟨hw, hk⟩ := width_branch hx
  refine sh_branch_refused hx hv (by omega) (.inr ?_)
  unfold int32; rcases hw with hw | hw <;> rw [hw] <;> omega

theorem width_rel {name : String} {ops : List Operand} {p : String} (hx : (name, ops, p) ∈ manual) (hi : .label ∈ ops) (hn : ops ≠ [.label]) :
    width p = 8 ∧ kindOf name ops = .rel (unit name) ∧ (unit name = 2 ∨ unit name = 4) := by
  have h : (manual.all fun x => !decide (.label ∈ x.2.1) || decide (x.2.1 = [.label]) ||
      (width x.2.2 == 8 && decide (kindOf x.1 x.2.1 = .rel (unit x.1)) && (unit x.1 == 2 || unit x.1 == 4))) = true := by decide +kernel
  have := List.all_eq_true.1 h _ hx
  simp [hi, hn] at this
  exact ⟨this.1.1, this.1.2, this.2⟩

/-- An accepted load of data at a label, or of its address, refers to the label. -/
theorem sh_data_reaches {E : Env} {name : String} {ops : List Operand} {p : String} (hx : (name, ops, p) ∈ manual) (hi : .label ∈ ops)
    (hn : ops ≠ [.label]) {n m : Nat} {e : Expr} {c : Ctx} {st : ArchState}
    {w : BitVec 16} {v : Int} (h : Assembles E name (toks n m e ops) c st w) (hv : Evaluates E .superH c e (.int v)) :
    ∃ d, Shows p n m d w ∧ d < 256 ∧ (dataAddress name d c.virtualAddress - v) % 2 ^ 32 = 0 := by
  obtain ⟨hw, hk, hu⟩ := width_rel hx hi hn
  obtain ⟨ha, ⟨h0, _⟩ | ⟨_, v', d, hv', ht, hs⟩⟩ := (assembles_entry hx).1 h
  · omega
  · obtain rfl := evaluates_unique hv hv'
    rw [hk, hw] at ht
    unfold dataAddress
    rcases hu with hu | hu <;> rw [hu] at ht ⊢ <;> simp [Taken, dist, int32] at ht ⊢ <;> exact ⟨d, hs, by omega, by omega⟩

/-- Data within reach is accepted. Addresses from 0x80000000 are missing. -/
theorem sh_data_accepted_partial {E : Env} {name : String} {ops : List Operand} {p : String} (hx : (name, ops, p) ∈ manual) (hi : .label ∈ ops)
    (hn : ops ≠ [.label]) {n m : Nat} {e : Expr} {c : Ctx} {st : ArchState} {d : Nat} (hd : d < 256) (ha : c.virtualAddress % 2 = 0)
    (ha' : 0 ≤ c.virtualAddress ∧ dataAddress name d c.virtualAddress < 2 ^ 31)
    (hv : Evaluates E .superH c e (.int (dataAddress name d c.virtualAddress))) :
    ∃ w, Assembles E name (toks n m e ops) c st w ∧ Shows p n m d w := by
  obtain ⟨hw, hk, hu⟩ := width_rel hx hi hn
  obtain ⟨w, hs⟩ := shows_entry hx n m d (by rw [hw]; exact hd)
  refine ⟨w, (assembles_entry hx).2 ⟨ha, .inr ⟨by omega, _, d, hv, ?_, hs⟩⟩, hs⟩
  unfold dataAddress at ha' ⊢
  rw [hk, hw, int32_id (by rcases hu with hu | hu <;> simp only [hu] at ha' ⊢ <;> simp at ha' ⊢ <;> omega) ha'.2]
  rcases hu with hu | hu <;> simp only [hu, Taken, dist] at ha' ⊢ <;> simp at ha' ⊢ <;> omega

example : ∃ w, Assembles Sample.env "mov.l" (toks 5 0 (.int (dataAddress "mov.l" 255 Sample.ctx.virtualAddress)) [.label, .rn]) Sample.ctx {} w ∧
    Shows "1101nnnndddddddd" 5 0 255 w :=
  sh_data_accepted_partial (by decide) (by decide) (by decide) (by decide) (by decide) (by decide) ⟨[], rfl, by intro d h; cases h⟩

/-- Data out of reach or at a misaligned address is refused. -/
theorem sh_data_refused {E : Env} {name : String} {ops : List Operand} {p : String} (hx : (name, ops, p) ∈ manual) (hi : .label ∈ ops)
    (hn : ops ≠ [.label]) {n m : Nat} {e : Expr} {c : Ctx} {st : ArchState} {v : Int} (hv : Evaluates E .superH c e (.int v))
    (h : ∀ d, d < 256 → (dataAddress name d c.virtualAddress - v) % 2 ^ 32 ≠ 0) : Refused E name (toks n m e ops) c st := by
  obtain ⟨hw, hk, hu⟩ := width_rel hx hi hn
  refine refused_entry hx (by omega) hv ?_ ?_
  · intro d ha' ht
    rw [hk, hw] at ht
    refine h d.toNat ?_ ?_
    · rcases hu with hu | hu <;> rw [hu] at ht <;> simp [Taken] at ht <;> omega
    · unfold dataAddress
      rcases hu with hu | hu <;> rw [hu] at ht ⊢ <;> simp [Taken, dist, int32] at ht ⊢ <;> omega
  · rw [hk]; simp [Undefined]

theorem width_manual {name : String} {ops : List Operand} {p : String} (hx : (name, ops, p) ∈ manual) (hi : .dispPc ∈ ops) :
    width p = 8 ∧ kindOf name ops = .manual (unit name) ∧ (unit name = 2 ∨ unit name = 4) := by
  have h : (manual.all fun x => !decide (.dispPc ∈ x.2.1) ||
      (width x.2.2 == 8 && decide (kindOf x.1 x.2.1 = .manual (unit x.1)) && (unit x.1 == 2 || unit x.1 == 4))) = true := by decide +kernel
  have := List.all_eq_true.1 h _ hx
  simp [hi] at this
  exact ⟨this.1.1, this.1.2, this.2⟩

/-- `@(disp,pc)` refers to the data `disp` bytes after the instruction itself. (In the manual it is relative to the program counter,
which is four bytes further: see `sh_pc_displacement_wrong`.) -/
theorem sh_pc_displacement {E : Env} {name : String} {ops : List Operand} {p : String} (hx : (name, ops, p) ∈ manual) (hi : .dispPc ∈ ops)
    {n m : Nat} {e : Expr} {c : Ctx} {st : ArchState}
    {w : BitVec 16} {v : Int} (h : Assembles E name (toks n m e ops) c st w) (hv : Evaluates E .superH c e (.int v)) :
    ∃ d, Shows p n m d w ∧ d < 256 ∧ (dataAddress name d c.virtualAddress - (c.virtualAddress + v)) % 2 ^ 32 = 0 := by
  obtain ⟨hw, hk, hu⟩ := width_manual hx hi
  obtain ⟨ha, ⟨h0, _⟩ | ⟨_, v', d, hv', ht, hs⟩⟩ := (assembles_entry hx).1 h
  · omega
  · obtain rfl := evaluates_unique hv hv'
    rw [hk, hw] at ht
    unfold dataAddress
    rcases hu with hu | hu <;> rw [hu] at ht ⊢ <;> simp [Taken, dist, int32] at ht ⊢ <;> exact ⟨d, hs, by omega, by omega⟩

/-- The displacement in the instruction is never the one that is written, but four less, or two less when a longword is accessed from
an address that is no multiple of four. -/
theorem sh_pc_displacement_wrong {E : Env} {name : String} {ops : List Operand} {p : String} (hx : (name, ops, p) ∈ manual)
    (hi : .dispPc ∈ ops) {n m : Nat} {e : Expr} {c : Ctx} {st : ArchState} {w : BitVec 16} {v : Int}
    (h : Assembles E name (toks n m e ops) c st w) (hv : Evaluates E .superH c e (.int v)) :
    ∃ d, Shows p n m d w ∧ d < 256 ∧
      (v - d * unit name) % 2 ^ 32 = if unit name = 4 ∧ c.virtualAddress % 4 ≠ 0 then 2 else 4 := by
  have ha := ((assembles_entry hx).1 h).1
  obtain ⟨d, hs, hd, h⟩ := sh_pc_displacement hx hi h hv
  obtain ⟨hw, hk, hu⟩ := width_manual hx hi
  refine ⟨d, hs, hd, ?_⟩
  unfold dataAddress at h
  rcases hu with hu | hu <;> simp only [hu] at h ⊢ <;> simp at h ⊢
  · omega
  · split <;> omega

example : ∃ w, Assembles Sample.env "mov.w" (toks 5 0 (.int 8) [.dispPc, .rn]) Sample.ctx {} w ∧ Shows "1001nnnndddddddd" 5 0 2 w := by
  obtain ⟨w, hw⟩ := shows_entry (name := "mov.w") (ops := [.dispPc, .rn]) (p := "1001nnnndddddddd") (by decide) 5 0 2 (by decide)
  refine ⟨w, (assembles_entry (p := "1001nnnndddddddd") (by decide)).2
    ⟨by decide, .inr ⟨by decide, 8, 2, ⟨[], rfl, by intro d h; cases h⟩, ?_, hw⟩⟩, hw⟩
  rw [(width_manual (name := "mov.w") (ops := [.dispPc, .rn]) (p := "1001nnnndddddddd") (by decide) (by decide)).2.1]
  simp only [Taken]
  decide

end Armips.Props
