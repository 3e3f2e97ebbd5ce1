import Verif.Lemmas.MipsAccept
import Verif.Props.MipsWords
import Verif.Props.ThumbBranch
/-!
# C26: MIPS branches and jumps

Addresses are those of a 32-bit processor: two integers denote the same address if they are equal modulo 2^32. `int32 x` is `x`
modulo 2^32 as a signed number.
-/
namespace Armips.Props
open Armips.Mips Spec Spec.Mips Spec.Instr Sample

theorem branch_names {op : Op} (hm : op ∈ opcodes) (hb : op.name ∈ branches) :
    op.has .ipcr = true ∧ primType op.syms = some .i16 ∧ op.has .vfpu = false ∧ op.has .vfpuMixed = false := by
  have hn := names hm
  have h := hn.ipcr.2 hb
  exact ⟨h, hn.branchType h⟩

theorem inside_of {E : Env} {c : Ctx} {op : Op} {o : Operands} (h : secType op.syms = none ∨ secType op.syms = some .branchType) :
    FieldInside E c op o := by
  rcases h with h | h <;> exact And.intro (by rw [h]; exact fun h => by cases h) (by rw [h]; exact fun h => by cases h)

theorem immValue_unique {E : Env} {c : Ctx} {o : Operands} {x y : Int} (hx : ImmValue E c o x) (hy : ImmValue E c o y) :
    x = y := by
  unfold ImmValue at hx hy
  cases he : o.imm with
  | none => rw [he] at hx hy; exact hx.trans hy.symm
  | some e =>
    rw [he] at hx hy
    cases evaluates_unique hx hy
    rfl

/-- The offset field of a branch. -/
theorem branch_field {E : Env} {cfg : Config} {op : Op} {o : Operands} {c : Ctx} {st : ArchState} {nop : Bool} {w : BitVec 32}
    {t : Int} (hm : op ∈ opcodes) (hb : op.name ∈ branches) (hv : Mips.Valid op o) (ht : ImmValue E c o t)
    (h : Mips.Emits (Mips.sem E cfg op o) c st nop w) :
    ((field w 0 16 : Nat) : Int) = (t - (c.virtualAddress + 4)) / 4 % 2 ^ 16 := by
  obtain ⟨hi, hp, hvf, hmx⟩ := branch_names hm hb
  have hr := branchRow hm (.inl hi)
  obtain ⟨imm, sec, h1, -, h3⟩ := mips_word_holds hm hr.odd hv (inside_of hr.sec) h
  unfold StoresImm at h1
  rw [hp] at h1
  obtain ⟨x, hx, h1⟩ := h1
  cases immValue_unique ht hx
  have hpc : (⟨.imm, 0, 16, 0⟩ : Piece) ∈ pieces op := by
    obtain ⟨_, _, hi, _, _, _⟩ := rowFacts hm
    refine mem_pieces.2 ⟨.imm .i16, (mem_imm hi).2 hp, ?_⟩
    simp [symPieces, hvf, hmx, immPieces]
  have := h3.operands _ hpc
  simp only [value, Nat.pow_zero, Nat.div_one] at this
  rw [this, h1]
  unfold stored
  rw [if_pos hb]
  simp only [ImmType.bits]
  omega

/-- Where a branch goes if it is executed at the address given to the assembler. -/
theorem branch_goes {E : Env} {cfg : Config} {op : Op} {o : Operands} {c : Ctx} {st : ArchState} {nop : Bool}
    {w : BitVec 32} {t : Int} (hm : op ∈ opcodes) (hb : op.name ∈ branches) (hv : Mips.Valid op o) (ht : ImmValue E c o t)
    (hal : (t - c.virtualAddress) % 4 = 0) (hfar : int32 (t - c.virtualAddress - 4) ≠ 0x20000)
    (h : Mips.Emits (Mips.sem E cfg op o) c st nop w) :
    (branchTarget c.virtualAddress w - t) % 2 ^ 32 = 0 := by
  have hf := branch_field hm hb hv ht h
  obtain ⟨hi, hp, hvf, hmx⟩ := branch_names hm hb
  obtain ⟨prim, sec, -, -, hc, -⟩ := mips_emits_inv h
  have hpr := hc.primOk
  rw [hp] at hpr
  obtain ⟨v, hsrc, hpv⟩ := hpr
  obtain ⟨x, hx, rfl⟩ := hsrc.1 (by decide)
  cases immValue_unique ht hx
  rw [primary_branch hm hi] at hpv
  split at hpv
  · cases hpv
  · rename_i hr
    obtain ⟨q, hq⟩ := int32_mod (t - c.virtualAddress - 4)
    have hs := signed_mod (k := 16) (y := int32 (t - c.virtualAddress - 4) / 4) (n := field w 0 16) (by decide)
      (by simp; omega) (by simp; omega) (by rw [hf, hq]; omega)
    unfold branchTarget
    rw [hs]
    omega

/-- C26. The word of an accepted branch, at the address where it is written, goes to the target, modulo 2^32: for targets a
multiple of four bytes away, and with the exception of a single distance, if no `nop` is inserted before it. What is missing from
C26: the assembler also accepts targets that are not aligned (`mips_branch_misaligned_wrong`) and the distance of 0x20000 bytes
from the delay slot (`mips_branch_boundary_wrong`), and a `nop` moves the target (`mips_branch_after_nop_wrong`). -/
theorem mips_branch_reaches_partial {E : Env} {cfg : Config} {op : Op} {o : Operands} {c : Ctx} {st : ArchState}
    {w : BitVec 32} {t : Int} (hm : op ∈ opcodes) (hb : op.name ∈ branches) (hv : Mips.Valid op o) (ht : ImmValue E c o t)
    (hal : (t - c.virtualAddress) % 4 = 0) (hfar : int32 (t - c.virtualAddress - 4) ≠ 0x20000)
    (h : Mips.Emits (Mips.sem E cfg op o) c st false w) :
    (branchTarget c.virtualAddress w - t) % 2 ^ 32 = 0 :=
  branch_goes hm hb hv ht hal hfar h

/-- A `nop` that `.fixloaddelay` inserts before a branch is not taken into account: the branch, which is one word further on, goes
one word too far. -/
theorem mips_branch_after_nop_wrong {E : Env} {cfg : Config} {op : Op} {o : Operands} {c : Ctx} {st : ArchState}
    {w : BitVec 32} {t : Int} (hm : op ∈ opcodes) (hb : op.name ∈ branches) (hv : Mips.Valid op o) (ht : ImmValue E c o t)
    (hal : (t - c.virtualAddress) % 4 = 0) (hfar : int32 (t - c.virtualAddress - 4) ≠ 0x20000)
    (h : Mips.Emits (Mips.sem E cfg op o) c st true w) :
    (branchTarget (c.virtualAddress + 4) w - (t + 4)) % 2 ^ 32 = 0 := by
  have := branch_goes hm hb hv ht hal hfar h
  unfold branchTarget at this ⊢
  omega

/-- `beq a0,a1,0x8000100` at 0x8000010, after a load of `a0`. -/
example : Mips.Emits (Mips.sem Sample.env psx rBeq (mbeq 0x8000100)) ctx { loadDelay := true, loadDelayRegister := 4 } true
    0x1085003B#32 ∧ branchTarget (ctx.virtualAddress + 4) 0x1085003B#32 = 0x8000104 :=
  ⟨⟨_, ⟨_, [⟨false, .warning, "register may not be available due to load delay"⟩,
      ⟨false, .notice, "added nop to ensure correct behavior"⟩], rfl, fun _ h => by
      simp only [List.mem_cons, List.not_mem_nil, or_false] at h
      rcases h with rfl | rfl <;> simp⟩, fun _ => rfl⟩, by decide⟩

/-- C26. Every target in the window of a branch is accepted. -/
theorem mips_branch_accepted {E : Env} {cfg : Config} {op : Op} {o : Operands} {c : Ctx} {st : ArchState} {t : Int}
    (hm : op ∈ opcodes) (hb : op.name ∈ branches) (hv : Mips.Valid op o) (ht : ImmValue E c o t)
    (ha : c.virtualAddress % 4 = 0) (hs : SlotAllowed cfg op.name st)
    (h1 : -0x20000 ≤ int32 (t - c.virtualAddress - 4)) (h2 : int32 (t - c.virtualAddress - 4) < 0x20000) :
    ∃ nop w, Mips.Emits (Mips.sem E cfg op o) c st nop w := by
  obtain ⟨hi, hp, hvf, hmx⟩ := branch_names hm hb
  have hr := branchRow hm (.inl hi)
  have hpr : ∃ p, primary op .i16 (BitVec.ofInt 32 t) c.virtualAddress = .ok p := by
    rw [primary_branch hm hi, if_neg (by omega)]
    refine ⟨_, checkBits_small (by decide) ?_⟩
    rw [toInt_shr, toInt_ofInt32]
    omega
  obtain ⟨p, hpr⟩ := hpr
  obtain ⟨q, hq⟩ := vSecondary_branch (E := E) (c := c) hv hm hr.sec
  exact ⟨_, _, mips_emits_of (accepts_of hm ha hs (vPrimary_of hp (by decide) ht hpr) hq)⟩

/-- C26. A target outside the window is rejected. -/
theorem mips_branch_rejected {E : Env} {cfg : Config} {op : Op} {o : Operands} {c : Ctx} {st : ArchState} {t : Int}
    (hm : op ∈ opcodes) (hb : op.name ∈ branches) (ht : ImmValue E c o t)
    (h : int32 (t - c.virtualAddress - 4) < -0x20000 ∨ 0x20000 < int32 (t - c.virtualAddress - 4)) :
    Rejects (Mips.sem E cfg op o) c st := by
  obtain ⟨hi, hp, -, -⟩ := branch_names hm hb
  exact rejects_of hp (by decide) ht (by rw [primary_branch hm hi, if_pos (by omega)])

/-- `beq a0,a1,0x8000100` at 0x8000010 meets the hypotheses. -/
example : Mips.Emits (Mips.sem Sample.env psx rBeq (mbeq 0x8000100)) ctx idle false 0x1085003B#32 ∧
    rBeq.name ∈ branches ∧ Mips.Valid rBeq (mbeq 0x8000100) ∧ ImmValue Sample.env ctx (mbeq 0x8000100) 0x8000100 ∧
    ((0x8000100 : Int) - ctx.virtualAddress) % 4 = 0 ∧ int32 (0x8000100 - ctx.virtualAddress - 4) = 0xEC ∧
    branchTarget ctx.virtualAddress 0x1085003B#32 = 0x8000100 :=
  ⟨⟨_, ⟨_, [], rfl, fun _ h => by cases h⟩, fun _ => rfl⟩, by decide, mips_valid_of rfl,
    ⟨[], rfl, fun _ h => by cases h⟩, by decide, by decide, by decide⟩

/-- The distance of 0x20000 bytes from the delay slot is accepted but not encodable: the branch goes backwards. -/
theorem mips_branch_boundary_wrong : ∃ w,
    Mips.Emits (Mips.sem Sample.env psx rBeq (mbeq 0x8020014)) ctx idle false w ∧
    branchTarget ctx.virtualAddress w = 0x7FE0014 :=
  ⟨_, ⟨_, ⟨_, [], rfl, fun _ h => by cases h⟩, fun _ => rfl⟩, by decide⟩

/-- A target that is not aligned is accepted, and the branch goes to the word before it. -/
theorem mips_branch_misaligned_wrong : ∃ w,
    Mips.Emits (Mips.sem Sample.env psx rBeq (mbeq 0x8000103)) ctx idle false w ∧
    branchTarget ctx.virtualAddress w = 0x8000100 :=
  ⟨_, ⟨_, ⟨_, [], rfl, fun _ h => by cases h⟩, fun _ => rfl⟩, by decide⟩

/-! ## Jumps -/

/-- C26. A jump is accepted, whatever its target, and goes to an aligned target in the region of 2^28 bytes of its
delay slot. Its own address is `a`, after a `nop` if one is inserted. -/
theorem mips_jump_reaches_partial {E : Env} {cfg : Config} {op : Op} {o : Operands} {c : Ctx} {st : ArchState} {t : Int}
    (hm : op ∈ opcodes) (hb : op.name ∈ jumps) (hv : Mips.Valid op o) (ht : ImmValue E c o t)
    (ha : c.virtualAddress % 4 = 0) (hs : SlotAllowed cfg op.name st) :
    ∃ nop w, Mips.Emits (Mips.sem E cfg op o) c st nop w ∧
      ∀ a, a = (if nop then c.virtualAddress + 4 else c.virtualAddress) → t % 4 = 0 → t / 2 ^ 28 = (a + 4) / 2 ^ 28 →
        jumpTarget a w = t := by
  have hn := names hm
  have hi := hn.ipca.2 hb
  obtain ⟨hp, hvf, hmx⟩ := hn.jumpType hi
  have hr := branchRow hm (.inr hi)
  obtain ⟨p, hpr⟩ := primary_jump hm hi t c.virtualAddress
  obtain ⟨q, hq⟩ := vSecondary_branch (E := E) (c := c) hv hm hr.sec
  have hem := mips_emits_of (accepts_of hm ha hs (vPrimary_of hp (by decide) ht hpr) hq)
  refine ⟨_, _, hem, fun a _ hal hreg => ?_⟩
  obtain ⟨imm, sec, h1, -, h3⟩ := mips_word_holds hm hr.odd hv (inside_of hr.sec) hem
  unfold StoresImm at h1
  rw [hp] at h1
  obtain ⟨x, hx, h1⟩ := h1
  cases immValue_unique ht hx
  have hpc : (⟨.imm, 0, 26, 0⟩ : Piece) ∈ pieces op := by
    obtain ⟨_, _, hi, _, _, _⟩ := rowFacts hm
    refine mem_pieces.2 ⟨.imm .i26, (mem_imm hi).2 hp, ?_⟩
    simp [symPieces, hvf, immPieces]
  have := h3.operands _ hpc
  simp only [value, Nat.pow_zero, Nat.div_one] at this
  unfold jumpTarget
  rw [this, h1]
  unfold stored
  rw [if_neg (fun h => (lists_apart.1 _ h).1 hb), if_pos hb]
  simp only [ImmType.bits]
  omega

example : SlotAllowed psx rJ.name idle ∧ rJ.name ∈ jumps ∧ Mips.Valid rJ (mj 0x8123450) ∧
    ImmValue Sample.env ctx (mj 0x8123450) 0x8123450 ∧ ctx.virtualAddress % 4 = 0 ∧
    (0x8123450 : Int) / 2 ^ 28 = (ctx.virtualAddress + 4) / 2 ^ 28 :=
  ⟨(fun _ h => by cases h), by decide, mips_valid_of rfl, ⟨[], rfl, fun _ h => by cases h⟩, by decide, by decide⟩

/-- A jump into another region is accepted, and goes to the place with the same offset in the own region. -/
theorem mips_jump_region_wrong : ∃ w,
    Mips.Emits (Mips.sem Sample.env psx rJ (mj 0x18000100)) ctx idle false w ∧ jumpTarget ctx.virtualAddress w = 0x8000100 :=
  ⟨_, ⟨_, ⟨_, [], rfl, fun _ h => by cases h⟩, fun _ => rfl⟩, by decide⟩

/-! ## Delay slots -/

/-- C26. A branch or jump directly after a branch or jump is not accepted, unless the check is turned off: no branch is in a
delay slot. -/
theorem mips_no_branch_in_delay_slot {E : Env} {cfg : Config} {op op' : Op} {o o' : Operands} {c c' : Ctx} {st st' : ArchState}
    {out : InstrOut} (hm : op ∈ opcodes) (hm' : op' ∈ opcodes) (hb : op.name ∈ transfers) (hb' : op'.name ∈ notInSlot)
    (hg : cfg.ignoreDelay = false) (h : Clean ((Mips.sem E cfg op o).run c st) (out, st')) :
    ¬ ∃ out', Accepts (Mips.sem E cfg op' o') c' st' out' := by
  rintro ⟨out', h'⟩
  obtain ⟨_, _, -, -, hs⟩ := accepts_mips h'
  refine hs ?_
  unfold Mips.sem at h
  simp only [clean_bind, clean_pure] at h
  obtain ⟨r, h1, h2⟩ := h
  obtain ⟨_, _, rfl, -, -⟩ := clean_validate h1
  have e : nextState cfg op (omitted op o.regs) st = st' := (congrArg Prod.snd h2)
  have ht := slot_table op' hm'
  simp only [Bool.and_eq_true, beq_iff_eq] at ht
  refine ⟨by rw [ht.1, contains_true]; exact hb', ?_, hg⟩
  rw [← e]
  unfold nextState
  have := (delay_iff hm).2 hb
  split <;> simp [this]

/-- `beq` followed by `j`. -/
example : ∃ out st', Clean ((Mips.sem Sample.env psx rBeq (mbeq 0x8000100)).run ctx idle) (out, st') ∧ st'.delaySlot = true ∧
    rBeq.name ∈ transfers ∧ rJ.name ∈ notInSlot :=
  ⟨_, _, ⟨[], rfl, fun _ h => by cases h⟩, rfl, by decide, by decide⟩

end Armips.Props
