import Verif.Lemmas.ArmSample
import Verif.Lemmas.ArmBranch
/-!
# C23: ARM branches

Addresses are those of a 32-bit processor: two integers denote the same address if they are equal modulo 2^32.
-/
namespace Armips.Props
open Armips.Arm Spec Spec.Arm Spec.Instr
open Sample (row plain ctx idle cmp1 add1 bl1 blx1)

/-- C23, C25. An accepted `b` or `bl` at a word address: condition, link bit and offset are in their fields, and the
processor's target is the address that was asked for. -/
theorem arm_branch_reaches {E : Env} {version : Version} {op : Op} {o : Operands} {c : Ctx} {st : ArchState} {w : BitVec 32}
    {v : Int} (h : op ∈ opcodes) (hn : op.name = "bC" ∨ op.name = "blC") (hv : Valid op o)
    (he : Emits (sem E version op o) c st w) (hval : Evaluates E .arm c o.imm (.int v)) (ha : c.virtualAddress % 4 = 0) :
    (∃ off, HasFields w (branch o.c (if op.name = "blC" then 1 else 0) off)) ∧ v % 4 = 0 ∧
      BitVec.ofInt 32 (branchTarget w c.virtualAddress) = BitVec.ofInt 32 v := by
  obtain ⟨link, hl, hr⟩ : ∃ link : Bool, link.toNat = (if op.name = "blC" then 1 else 0) ∧
      BranchRow op (if link = true then 0x0B000000#32 else 0x0A000000#32) false false := by
    have ht := branch_table op h
    rcases hn with hn | hn
    · exact ⟨false, by rw [hn]; rfl, branchRow_of (ht.1 hn)⟩
    · exact ⟨true, by rw [hn]; rfl, branchRow_of (ht.2.1 hn)⟩
  obtain ⟨f, hf, rfl⟩ := emits_word he
  obtain ⟨h1, h2, h3, h4⟩ := branch_final hr hv hf hval
  have hfl := branch_fields hr hv h2
  rw [hl] at hfl
  have hv4 : v % 4 = 0 := by
    rw [BitVec.toNat_ofInt] at h1
    simp only [Bool.false_eq_true, if_false] at h1
    omega
  refine ⟨⟨_, hfl⟩, hv4, ?_⟩
  have hoff : field (Arm.encode op o f) 0 24 = ((f.imm.value.toInt / 4) % 2 ^ 24).toNat :=
    hfl (0, 24, ((f.imm.value.toInt / 4) % 2 ^ 24).toNat) (by simp [branch])
  rw [branchTarget, hoff, signed24 (by omega) (by omega)]
  have hd : f.imm.value.toInt % 4 = 0 := by
    rw [h4, BitVec.toInt_ofInt, Int.bmod_def]
    split <;> omega
  rw [show c.virtualAddress + 8 + 4 * (f.imm.value.toInt / 4) = f.imm.value.toInt + (c.virtualAddress + 8) by omega, h4]
  apply BitVec.eq_of_toInt_eq
  simp only [BitVec.toInt_ofInt]
  rw [Int.bmod_add_bmod]
  congr 1
  omega

/-- C23, C25. An accepted `blx` with an address, at a word address. -/
theorem arm_blx_reaches {E : Env} {version : Version} {op : Op} {o : Operands} {c : Ctx} {st : ArchState} {w : BitVec 32}
    {v : Int} (h : op ∈ opcodes) (hn : op.name = "blx") (hv : Valid op o)
    (he : Emits (sem E version op o) c st w) (hval : Evaluates E .arm c o.imm (.int v)) (ha : c.virtualAddress % 4 = 0) :
    (∃ half off, HasFields w (blx half off)) ∧ v % 2 = 0 ∧
      BitVec.ofInt 32 (blxTarget w c.virtualAddress) = BitVec.ofInt 32 v := by
  have hr := branchRow_of ((branch_table op h).2.2 hn)
  obtain ⟨f, hf, rfl⟩ := emits_word he
  obtain ⟨h1, h2, h3, h4⟩ := branch_final hr hv hf hval
  have hfl := blx_fields hr hv h2
  have hv4 : v % 2 = 0 := by
    rw [BitVec.toNat_ofInt] at h1
    simp only [if_true] at h1
    omega
  refine ⟨⟨_, _, hfl⟩, hv4, ?_⟩
  have hoff : field (Arm.encode op o f) 0 24 = ((f.imm.value.toInt / 4) % 2 ^ 24).toNat :=
    hfl (0, 24, ((f.imm.value.toInt / 4) % 2 ^ 24).toNat) (by simp [blx])
  have hhalf : field (Arm.encode op o f) 24 1 = (f.imm.value.toInt / 2 % 2).toNat :=
    hfl (24, 1, (f.imm.value.toInt / 2 % 2).toNat) (by simp [blx])
  rw [blxTarget, branchTarget, hoff, hhalf, signed24 (by omega) (by omega)]
  have hd : f.imm.value.toInt % 2 = 0 := by
    rw [h4, BitVec.toInt_ofInt, Int.bmod_def]
    split <;> omega
  rw [show c.virtualAddress + 8 + 4 * (f.imm.value.toInt / 4) + 2 * (((f.imm.value.toInt / 2 % 2).toNat : Nat) : Int) =
    f.imm.value.toInt + (c.virtualAddress + 8) by omega, h4]
  apply BitVec.eq_of_toInt_eq
  simp only [BitVec.toInt_ofInt]
  rw [Int.bmod_add_bmod]
  congr 1
  omega

/-- C23. A misaligned target, or one at least 32 MiB away from the instruction's address plus 8, is reported as an error. -/
theorem arm_branch_rejects {E : Env} {version : Version} {op : Op} {o : Operands} {c : Ctx} {st : ArchState} {v : Int}
    (h : op ∈ opcodes) (hn : op.name ∈ ["bC", "blC", "blx"]) (hv : Valid op o) (hval : Evaluates E .arm c o.imm (.int v))
    (hbad : v % (if op.name = "blx" then 2 else 4) ≠ 0 ∨
      (0x2000000 ≤ (v - c.virtualAddress - 8).natAbs ∧ (v - c.virtualAddress - 8).natAbs < 2 ^ 31)) :
    Rejects (sem E version op o) c st := by
  have ht := branch_table op h
  simp only [List.mem_cons, List.not_mem_nil, or_false] at hn
  rcases hn with hn | hn | hn
  · exact branch_rejects (branchRow_of (ht.1 hn)) hv hval (by rw [hn] at hbad; simpa using hbad)
  · exact branch_rejects (branchRow_of (ht.2.1 hn)) hv hval (by rw [hn] at hbad; simpa using hbad)
  · exact branch_rejects (branchRow_of (ht.2.2 hn)) hv hval (by rw [hn] at hbad; simpa using hbad)

/-- C23. An aligned target less than 32 MiB away is accepted. (The offset -32 MiB could be encoded too but is refused, see
`arm_branch_rejects`.) -/
theorem arm_branch_accepts {E : Env} {version : Version} {op : Op} {o : Operands} {c : Ctx} {st : ArchState} {v : Int}
    (h : op ∈ opcodes) (hn : op.name ∈ ["bC", "blC", "blx"]) (hv : Valid op o) (hval : Evaluates E .arm c o.imm (.int v))
    (hal : v % (if op.name = "blx" then 2 else 4) = 0)
    (h1 : -0x2000000 < v - c.virtualAddress - 8) (h2 : v - c.virtualAddress - 8 < 0x2000000) :
    ∃ w, Emits (sem E version op o) c st w := by
  have ht := branch_table op h
  simp only [List.mem_cons, List.not_mem_nil, or_false] at hn
  rcases hn with hn | hn | hn
  · exact branch_accepts (branchRow_of (ht.1 hn)) hv hval (by rw [hn] at hal; simpa using hal) h1 h2
  · exact branch_accepts (branchRow_of (ht.2.1 hn)) hv hval (by rw [hn] at hal; simpa using hal) h1 h2
  · exact branch_accepts (branchRow_of (ht.2.2 hn)) hv hval (by rw [hn] at hal; simpa using hal) h1 h2

/-! ### Examples -/

example : row "blC" "/#I" ∈ opcodes ∧ (row "blC" "/#I").name = "blC" ∧ Valid (row "blC" "/#I") bl1 ∧
    Evaluates Sample.env .arm ctx bl1.imm (.int 0x8000000) ∧ ctx.virtualAddress % 4 = 0 :=
  ⟨by decide +kernel, by decide +kernel, by valid, ⟨[], rfl, fun _ h => by cases h⟩, by decide⟩
/-- `bl 0x8000000` at 0x8000010 -/
example : Emits (sem Sample.env .gba (row "blC" "/#I") bl1) ctx idle 0xEBFFFFFA#32 := by emits
example : Valid (row "blx" "/#I") blx1 := by valid
example : Emits (sem Sample.env .nds (row "blx" "/#I") blx1) ctx idle 0xFB00003A#32 := by emits

end Armips.Props
