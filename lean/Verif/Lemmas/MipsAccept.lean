import Verif.Lemmas.MipsRun
/-! When a MIPS instruction is accepted. -/
namespace Armips.Mips
open Spec Spec.Mips Spec.Instr
open Armips.Arm (failWith)

set_option maxRecDepth 10000 in
theorem slot_table : ∀ op ∈ opcodes, (op.has .nodelayslot == notInSlot.contains op.name &&
    op.has .delay == transfers.contains op.name) = true := by decide +kernel

theorem slot_iff {op : Op} (hm : op ∈ opcodes) {cfg : Config} {st : ArchState} :
    SlotAllowed cfg op.name st ↔ ¬ SlotError cfg op st := by
  have := slot_table op hm
  simp only [Bool.and_eq_true, beq_iff_eq] at this
  unfold SlotAllowed SlotError
  rw [this.1, contains_true]
  cases st.delaySlot <;> cases cfg.ignoreDelay <;> simp

theorem delay_iff {op : Op} (hm : op ∈ opcodes) : op.has .delay = true ↔ op.name ∈ transfers := by
  have := slot_table op hm
  simp only [Bool.and_eq_true, beq_iff_eq] at this
  rw [this.2, contains_true]

theorem sem_run {E : Env} {cfg : Config} {op : Op} {o : Operands} {c : Ctx} {st : ArchState} :
    (sem E cfg op o).run c st = (validate E cfg op o c st >>= fun r => pure (outcome op o r, stateAfter cfg op o st r)) := rfl

theorem accepts_of {E : Env} {cfg : Config} {op : Op} {o : Operands} {c : Ctx} {st : ArchState} {p q : BitVec 32}
    (hm : op ∈ opcodes) (ha : c.virtualAddress % 4 = 0) (hs : SlotAllowed cfg op.name st)
    (hp : Clean (vPrimary E op o c) (.ok p)) (hq : Clean (vSecondary E op o c p) (.ok q)) :
    Accepts (sem E cfg op o) c st
      (outcome op o (.ok ⟨hazard cfg op (omitted op o.regs) st && cfg.fixLoadDelay, p, q⟩)) := by
  refine ⟨stateAfter cfg op o st (.ok ⟨hazard cfg op (omitted op o.regs) st && cfg.fixLoadDelay, p, q⟩), ?_⟩
  rw [sem_run]
  unfold validate
  rw [if_neg (by simpa using ha)]
  simp only [clean_bind, clean_pure]
  refine ⟨_, ⟨_, hp, ?_⟩, rfl⟩
  simp only [clean_bind, clean_pure]
  refine ⟨_, hq, ?_⟩
  simp only [clean_bind, clean_pure]
  exact ⟨(), clean_vDelay.2 ((slot_iff hm).1 hs), trivial⟩

/-- The primary immediate is what `primary` makes of the value. -/
theorem vPrimary_of {E : Env} {op : Op} {o : Operands} {c : Ctx} {t : ImmType} {x : Int} {p : BitVec 32}
    (ht : primType op.syms = some t) (hh : t ≠ .half) (hx : ImmValue E c o x)
    (hp : primary op t (BitVec.ofInt 32 x) c.virtualAddress = .ok p) : Clean (vPrimary E op o c) (.ok p) := by
  unfold vPrimary
  rw [ht]
  simp only
  unfold ImmValue at hx
  cases he : o.imm with
  | none =>
    rw [he] at hx
    simp only at hx ⊢
    subst hx
    rw [show BitVec.ofInt 32 o.immValue.toInt = o.immValue by simp] at hp
    rw [hp]
    exact clean_pure.2 rfl
  | some e =>
    rw [he] at hx
    simp only [clean_bind] at hx ⊢
    refine ⟨some (BitVec.ofInt 32 x), ?_, by simp only [hp]; exact clean_pure.2 rfl⟩
    unfold immValue
    rw [clean_bind]
    exact ⟨_, hx, by simp [hh]⟩

/-- An error in the primary immediate is reported. -/
theorem rejects_of {E : Env} {cfg : Config} {op : Op} {o : Operands} {c : Ctx} {st : ArchState} {t : ImmType} {x : Int} {msg : String}
    (ht : primType op.syms = some t) (hh : t ≠ .half) (hx : ImmValue E c o x)
    (hp : primary op t (BitVec.ofInt 32 x) c.virtualAddress = .error (some msg)) :
    Rejects (sem E cfg op o) c st := by
  unfold Rejects
  rw [sem_run]
  unfold validate
  by_cases ha : c.virtualAddress % 4 ≠ 0
  · rw [if_pos ha]
    refine ⟨_, _, _, rfl, ?_⟩
    intro h
    have := h ⟨false, .error, "opcode not aligned to word boundary"⟩ (by simp)
    simp at this
  · rw [if_neg ha]
    have key : ∃ ds, vPrimary E op o c = .ok (.error false) (ds ++ [⟨false, .error, msg⟩]) := by
      unfold vPrimary
      rw [ht]
      simp only
      unfold ImmValue at hx
      cases he : o.imm with
      | none =>
        rw [he] at hx
        simp only at hx ⊢
        subst hx
        rw [show BitVec.ofInt 32 o.immValue.toInt = o.immValue by simp] at hp
        rw [hp]
        exact ⟨[], rfl⟩
      | some e =>
        rw [he] at hx
        obtain ⟨ds, h1, -⟩ := hx
        refine ⟨ds, ?_⟩
        simp only [immValue]
        rw [h1]
        simp only [Ev.ok_bind, if_neg hh]
        simp only [Pure.pure, List.append_nil, Ev.ok_bind, hp, orFail]
        rfl
    obtain ⟨ds, hk⟩ := key
    refine ⟨outcome op o (.error false), st, ds ++ [⟨false, .error, msg⟩], ?_, ?_⟩
    · rw [hk]
      simp [Bind.bind, Pure.pure, Ev.bind, stateAfter]
    · intro h
      have := h ⟨false, .error, msg⟩ (by simp)
      simp at this

theorem vSecondary_branch {E : Env} {op : Op} {o : Operands} {c : Ctx} {p : BitVec 32} (hv : Valid op o) (hm : op ∈ opcodes)
    (hs : secType op.syms = none ∨ secType op.syms = some .branchType) : ∃ q, Clean (vSecondary E op o c p) (.ok q) := by
  unfold vSecondary
  rcases hs with hs | hs
  · rw [hs]; exact ⟨_, clean_pure.2 rfl⟩
  · have hmem : .sec .branchType ∈ op.syms := by
      obtain ⟨_, _, hi, _, _, _⟩ := rowFacts hm
      simpa [allSyms] using (mem_sec hi).2 hs
    rw [hs]
    simp only [(hv.branchType hmem).1]
    exact ⟨_, clean_pure.2 rfl⟩

set_option maxRecDepth 10000 in
theorem branch_table : ∀ op ∈ opcodes, ((!op.has .ipcr && !op.has .ipca) ||
    ((secType op.syms == none || secType op.syms == some .branchType) && !op.has .immaligned && !op.has .negimm &&
      !(op.has .ipcr && op.has .ipca) && !odd.contains op.name)) = true := by decide +kernel

structure BranchRow (op : Op) : Prop where
  sec : secType op.syms = none ∨ secType op.syms = some .branchType
  al : op.has .immaligned = false
  neg : op.has .negimm = false
  odd : op.name ∉ odd

theorem branchRow {op : Op} (hm : op ∈ opcodes) (h : op.has .ipcr = true ∨ op.has .ipca = true) : BranchRow op := by
  have := branch_table op hm
  rcases h with h | h <;> simp only [h] at this <;> simp at this <;>
    exact ⟨this.1.1.1.1, this.1.1.1.2, this.1.1.2, by simpa using this.2⟩

/-- What a branch makes of its target. -/
theorem primary_branch {op : Op} (hm : op ∈ opcodes) (hb : op.has .ipcr = true) (t a : Int) :
    primary op .i16 (BitVec.ofInt 32 t) a =
      if int32 (t - a - 4) > 0x20000 ∨ int32 (t - a - 4) < -0x20000 then .error (some "Branch target out of range")
      else checkBits 16 ((BitVec.ofInt 32 (t - a - 4)).sshiftRight 2) := by
  have hr := branchRow hm (.inl hb)
  have hca : op.has .ipca = false := by
    have := branch_table op hm
    simp only [hb] at this
    simp at this
    exact this.1.2
  have e : BitVec.ofInt 32 ((BitVec.ofInt 32 t).toInt - a - 4) = BitVec.ofInt 32 (t - a - 4) := by
    apply BitVec.eq_of_toInt_eq
    rw [toInt_ofInt32, toInt_ofInt32, toInt_ofInt32]
    obtain ⟨q, hq⟩ := int32_mod t
    rw [hq]
    unfold int32
    omega
  unfold primary adjust
  simp only [hr.al, hr.neg, hb, hca, e, Bool.false_and, Bool.false_eq_true, if_false, if_true]
  rw [toInt_ofInt32]
  by_cases h : int32 (t - a - 4) > 0x20000 ∨ int32 (t - a - 4) < -0x20000
  · rw [if_pos h, if_pos h]
  · rw [if_neg h, if_neg h]
    rfl

/-- What a jump makes of its target. -/
theorem primary_jump {op : Op} (hm : op ∈ opcodes) (hb : op.has .ipca = true) (t a : Int) :
    ∃ p, primary op .i26 (BitVec.ofInt 32 t) a = .ok p := by
  have hr := branchRow hm (.inr hb)
  unfold primary adjust
  simp only [hr.al, hr.neg, hb, Bool.false_and, Bool.false_eq_true, if_false, if_true]
  refine ⟨_, checkBits_small (b := 26) (by decide) ?_⟩
  have := and_mask ((BitVec.ofInt 32 t).sshiftRight 2) (b := 26) (by decide)
  simp only [Nat.reducePow, Nat.reduceSub] at this
  generalize (BitVec.ofInt 32 t).sshiftRight 2 = v at *
  rw [BitVec.toInt_eq_toNat_of_lt] <;> omega

end Armips.Mips
