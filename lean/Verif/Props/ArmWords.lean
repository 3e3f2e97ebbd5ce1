import Verif.Lemmas.ArmSample
import Verif.Lemmas.ArmShift
/-!
# C25, C58: ARM instruction words field by field

`opcodes` is the instruction table, `Valid op o` says that `o` are operands that can be written for the row `op`, `Emits` that
the instruction is accepted and which word is written. The layouts (`multiply`, `block`, ...) are in `Spec/Arm.lean`. Data
processing instructions with an immediate are in `Props/ArmImmediate.lean`, branches in `Props/ArmBranch.lean`, loads and
stores in `Props/ArmLoad.lean`.
-/
namespace Armips.Props
open Armips.Arm Spec Spec.Arm Spec.Instr
open Sample (row plain ctx idle)

variable {E : Env} {version : Version} {op : Op} {o : Operands} {c : Ctx} {st : ArchState} {w : BitVec 32}

/-- Every layout describes all 32 bits, so that the operands determine the word. -/
theorem arm_layouts_cover (a1 a2 a3 a4 a5 a6 a7 a8 a9 a10 : Nat) :
    ∀ l ∈ [dataImmediate a1 a2 a3 a4 a5 a6 a7, branch a1 a2 a3, blx a1 a2, dataRegister a1 a2 a3 a4 a5 a6 a7 a8,
      dataRegisterRegister a1 a2 a3 a4 a5 a6 a7 a8, branchExchange a1 a2 a3, Spec.Arm.mrs a1 a2 a3, msrRegister a1 a2 a3 a4,
      msrImmediate a1 a2 a3 a4 a5, multiply a1 a2 a3 a4 a5 a6 a7 a8 a9 a10,
      loadStore a1 a2 a3 a4 a5 a6 a7 a8 a9 (offset12 a10),
      loadStore a1 a2 a3 a4 a5 a6 a7 a8 a9 (offsetRegister a10 a1 a2),
      loadStoreMisc a1 a2 a3 a4 a5 a6 a7 a8 a9 a10 a1, block a1 a2 a3 a4 a5 a6 a7 a8, swap a1 a2 a3 a4 a5, Spec.Arm.swi a1 a2,
      Spec.Arm.bkpt a1, cdp a1 a2 a3 a4 a5 a6 a7, mcr a1 a2 a3 a4 a5 a6 a7 a8, mcrr a1 a2 a3 a4 a5 a6 a7, clz a1 a2 a3,
      saturating a1 a2 a3 a4 a5],
    ∀ w w' : BitVec 32, HasFields w l → HasFields w' l → w = w' := by
  intro l hl w w' h h'
  refine fields_determine (l := l) ?_ h h'
  simp only [List.mem_cons, List.not_mem_nil, or_false] at hl
  rcases hl with rfl | rfl | rfl | rfl | rfl | rfl | rfl | rfl | rfl | rfl | rfl | rfl | rfl | rfl | rfl | rfl | rfl | rfl |
    rfl | rfl | rfl | rfl <;> rfl

/-- An instruction without immediate, coprocessor numbers and shift amount is always accepted. -/
theorem arm_plain_accepted (h1 : op.has .immediate = false) (h2 : op.has .copop = false) (h3 : op.has .copinf = false)
    (h4 : op.has .rdeven = false) (hs : ∀ s, o.shift = some s → s.byRegister = true) :
    ∃ w, Emits (sem E version op o) c st w :=
  ⟨Arm.encode op o {}, _, accepts_parts (f := {}) (vShift_none hs) (by rw [h2]; exact vCop_false) (by rw [h3]; exact vCop_false)
    (.inl h4) (vImm_false h1), fun p => outcome_words rfl p⟩

/-- The instructions of this file that are always accepted. -/
theorem arm_words_accepted (h : op ∈ opcodes)
    (hn : op.name ∈ ["bxC", "blxC", "swpC", "swpCb", "clzC", "ldmCA", "stmCA", "pushC", "popC"] ∨ op.mask = "d1,P1" ∨
      op.mask = "P0,m1" ∨ (multiplyOp op.name).isSome = true ∨ (saturatingOp op.name).isSome = true) (hv : Valid op o) :
    ∃ w, Emits (sem E version op o) c st w := by
  have ht : ∀ op ∈ opcodes, (op.name ∈ ["bxC", "blxC", "swpC", "swpCb", "clzC", "ldmCA", "stmCA", "pushC", "popC"] ∨
      op.mask = "d1,P1" ∨ op.mask = "P0,m1" ∨ (multiplyOp op.name).isSome = true ∨ (saturatingOp op.name).isSome = true) →
      op.has .immediate = false ∧ op.has .copop = false ∧ op.has .copinf = false ∧ op.has .rdeven = false ∧
        'S' ∉ op.mask.toList ∧ 'z' ∉ op.mask.toList := by
    set_option maxRecDepth 10000 in decide +kernel
  obtain ⟨h1, h2, h3, h4, h5, h6⟩ := ht op h hn
  exact arm_plain_accepted h1 h2 h3 h4 (by rw [hv.noShift h5 h6]; simp)

/-! ### Register instructions -/

/-- `bx` and `blx` with a register. -/
theorem arm_bx_word (h : op ∈ opcodes) (hn : op.name ∈ ["bxC", "blxC"]) (hv : Valid op o)
    (he : Emits (sem E version op o) c st w) :
    HasFields w (branchExchange o.c (if op.name = "blxC" then 1 else 0) o.rn) := by
  obtain ⟨f, hf, rfl⟩ := emits_word he
  exact bx_fields h hn hv (hf.noImm (bx_table op h hn).2.2.1)

/-- Multiplications except `smlal` with halfword operands, which is wrong: see `smlal_halfword_wrong`. Without a second source
register the destination is used. -/
theorem arm_multiply_word {p : Nat × Nat × Nat} (h : op ∈ opcodes) (hp : multiplyOp op.name = some p)
    (hne : op.name ≠ "smlalXYC") (hv : Valid op o) (he : Emits (sem E version op o) c st w) :
    HasFields w (multiply o.c p.1 o.s.toNat o.rd (if 'n' ∈ op.mask.toList then o.rn else 0) o.rs
      (if 'Y' ∈ op.name.toList then o.y.toNat else 0) (if 'X' ∈ op.name.toList then o.x.toNat else p.2.1) p.2.2
      (if 'm' ∈ op.mask.toList then o.rm else o.rd)) := by
  obtain ⟨f, hf, rfl⟩ := emits_word he
  exact multiply_fields h hp hne hv (hf.noImm (multiply_table op h p (by simp [hp]) hne).2.2.1)

/-- `swp` and `swpb`. -/
theorem arm_swap_word (h : op ∈ opcodes) (hn : op.name ∈ ["swpC", "swpCb"]) (hv : Valid op o)
    (he : Emits (sem E version op o) c st w) :
    HasFields w (swap o.c (if op.name = "swpCb" then 1 else 0) o.rn o.rd (if 'm' ∈ op.mask.toList then o.rm else o.rd)) := by
  obtain ⟨f, hf, rfl⟩ := emits_word he
  exact swap_fields h hn hv (hf.noImm (swap_table op h hn).2.2.1)

/-- `qadd`, `qsub`, `qdadd`, `qdsub`. -/
theorem arm_saturating_word {k : Nat} (h : op ∈ opcodes) (hk : saturatingOp op.name = some k) (hv : Valid op o)
    (he : Emits (sem E version op o) c st w) :
    HasFields w (saturating o.c k o.rn o.rd (if 'm' ∈ op.mask.toList then o.rm else o.rd)) := by
  obtain ⟨f, hf, rfl⟩ := emits_word he
  exact saturating_fields h hk hv (hf.noImm (saturating_table op h k (by simp [hk])).2.2.1)

/-- `clz`. -/
theorem arm_clz_word (h : op ∈ opcodes) (hn : op.name = "clzC") (hv : Valid op o) (he : Emits (sem E version op o) c st w) :
    HasFields w (clz o.c o.rd o.rm) := by
  obtain ⟨f, hf, rfl⟩ := emits_word he
  exact clz_fields h hn hv (hf.noImm (clz_table op h hn).2.2.1)

/-- `mrs rd,cpsr` and the like, also written `mov`. -/
theorem arm_mrs_word (h : op ∈ opcodes) (hn : op.mask = "d1,P1") (hv : Valid op o) (he : Emits (sem E version op o) c st w) :
    HasFields w (Spec.Arm.mrs o.c o.spsr.toNat o.rd) := by
  obtain ⟨f, hf, rfl⟩ := emits_word he
  exact mrs_fields h hn hv (hf.noImm (mrs_table op h hn).2.2.1)

/-- `msr cpsr_…,rm` and the like, also written `mov`. -/
theorem arm_msr_word (h : op ∈ opcodes) (hn : op.mask = "P0,m1") (hv : Valid op o) (he : Emits (sem E version op o) c st w) :
    HasFields w (msrRegister o.c o.spsr.toNat o.field o.rm) := by
  obtain ⟨f, hf, rfl⟩ := emits_word he
  exact msr_fields h hn hv (hf.noImm (msr_table op h hn).2.2.1)

/-! ### Block transfers -/

/-- C58. `ldm` and `stm`: the addressing mode selects the documented P and U bits, the register list is in bits 15-0. -/
theorem arm_block_word (h : op ∈ opcodes) (hn : op.name ∈ ["ldmCA", "stmCA"]) (hv : Valid op o)
    (he : Emits (sem E version op o) c st w) :
    HasFields w (block o.c ((modeOf o.a).bits (decide (op.name = "ldmCA"))).1 ((modeOf o.a).bits (decide (op.name = "ldmCA"))).2
      o.psr.toNat o.writeback.toNat (if op.name = "ldmCA" then 1 else 0) o.rn o.rlist) := by
  obtain ⟨f, hf, rfl⟩ := emits_word he
  exact block_fields h hn hv (hf.noImm (block_table op h hn).2.2.1)

/-- C58. `push` is `stmdb sp!`, `pop` is `ldmia sp!`. -/
theorem arm_push_word (h : op ∈ opcodes) (hn : op.name ∈ ["pushC", "popC"]) (hv : Valid op o)
    (he : Emits (sem E version op o) c st w) :
    HasFields w (if op.name = "popC" then block o.c (Mode.ia.bits true).1 (Mode.ia.bits true).2 0 1 1 13 o.rlist
      else block o.c (Mode.db.bits false).1 (Mode.db.bits false).2 0 1 0 13 o.rlist) := by
  obtain ⟨f, hf, rfl⟩ := emits_word he
  exact push_fields h hn hv (hf.noImm (push_table op h hn).2.2.1)

/-! ### Coprocessor instructions -/

theorem ofInt_ofNat {v : Int} {k : Nat} (h0 : 0 ≤ v) (h1 : v < 2 ^ 31) (hk : (BitVec.ofInt 32 v).toInt ≤ k) :
    BitVec.ofInt 32 v = BitVec.ofNat 32 v.toNat ∧ v.toNat ≤ k := by
  obtain ⟨n, rfl⟩ : ∃ n : Nat, v = n := ⟨v.toNat, by omega⟩
  rw [toInt32 (by omega) h1] at hk
  exact ⟨by simp, by omega⟩

/-- `cdp` and `cdp2` with non-negative numbers; `y` is the last operand if there is one. -/
theorem arm_cdp_word {x y : Int} (h : op ∈ opcodes) (hn : op.name ∈ ["cdpC", "cdp2"]) (hv : Valid op o)
    (he : Emits (sem E version op o) c st w) (hx : Evaluates E .arm c o.cpop (.int x)) (hx0 : 0 ≤ x) (hx1 : x < 2 ^ 31)
    (hy : 'Z' ∈ op.mask.toList → Evaluates E .arm c o.cpinf (.int y) ∧ 0 ≤ y ∧ y < 2 ^ 31) :
    HasFields w (cdp (if op.name = "cdp2" then 15 else o.c) x.toNat o.cn o.cd o.pn
      (if 'Z' ∈ op.mask.toList then y.toNat else 0) o.cm) := by
  obtain ⟨f, hf, rfl⟩ := emits_word he
  have t := cdp_table op h hn
  refine cdp_fields h hn hv (hf.noImm t.2.2.1) ?_ ?_
  · obtain ⟨v, h1, h2, h3⟩ := hf.cpop t.2.2.2.2.1
    cases evaluates_unique hx h1
    obtain ⟨e, hk⟩ := ofInt_ofNat (k := 15) hx0 hx1 h2
    exact ⟨h3.trans e, by omega⟩
  · intro hz
    obtain ⟨v, h1, h2, h3⟩ := hf.cpinf hz
    rw [t.2.2.2.2.2.1] at hz
    obtain ⟨hy, hy0, hy1⟩ := hy (by simpa using hz)
    cases evaluates_unique hy h1
    obtain ⟨e, hk⟩ := ofInt_ofNat (k := 7) hy0 hy1 h2
    exact ⟨h3.trans e, by omega⟩

/-- `mcr`, `mrc`, `mcr2`, `mrc2` and the `mov` forms, with a first number from 0 to 7. Numbers from 8 to 15 are accepted too
but spill into the opcode: see `mcr_number_spills`. -/
theorem arm_mcr_word {x y : Int} {l : Nat} (h : op ∈ opcodes) (hl : mcrOp op.name op.mask = some l) (hv : Valid op o)
    (he : Emits (sem E version op o) c st w) (hx : Evaluates E .arm c o.cpop (.int x)) (hx0 : 0 ≤ x) (hx1 : x ≤ 7)
    (hy : 'Z' ∈ op.mask.toList → Evaluates E .arm c o.cpinf (.int y) ∧ 0 ≤ y ∧ y < 2 ^ 31) :
    HasFields w (mcr (if op.name = "mcr2" ∨ op.name = "mrc2" then 15 else o.c) x.toNat l o.cn o.rd o.pn
      (if 'Z' ∈ op.mask.toList then y.toNat else 0) o.cm) := by
  obtain ⟨f, hf, rfl⟩ := emits_word he
  have t := mcr_table op h l (by simp [hl])
  refine mcr_fields h hl hv (hf.noImm t.2.2.1) ?_ ?_
  · obtain ⟨v, h1, h2, h3⟩ := hf.cpop t.2.2.2.2.1
    cases evaluates_unique hx h1
    obtain ⟨e, hk⟩ := ofInt_ofNat (k := 15) hx0 (by omega) h2
    exact ⟨h3.trans e, by omega⟩
  · intro hz
    obtain ⟨v, h1, h2, h3⟩ := hf.cpinf hz
    rw [t.2.2.2.2.2.1] at hz
    obtain ⟨hy, hy0, hy1⟩ := hy (by simpa using hz)
    cases evaluates_unique hy h1
    obtain ⟨e, hk⟩ := ofInt_ofNat (k := 7) hy0 hy1 h2
    exact ⟨h3.trans e, by omega⟩

/-- `mcrr` and `mrrc`. -/
theorem arm_mcrr_word {x : Int} (h : op ∈ opcodes) (hn : op.name ∈ ["mcrrC", "mrrcC"]) (hv : Valid op o)
    (he : Emits (sem E version op o) c st w) (hx : Evaluates E .arm c o.cpop (.int x)) (hx0 : 0 ≤ x) (hx1 : x < 2 ^ 31) :
    HasFields w (mcrr o.c (if op.name = "mrrcC" then 1 else 0) o.rn o.rd o.pn x.toNat o.cm) := by
  obtain ⟨f, hf, rfl⟩ := emits_word he
  have t := mcrr_table op h hn
  refine mcrr_fields h hn hv (hf.noImm t.2.2.1) ?_
  obtain ⟨v, h1, h2, h3⟩ := hf.cpop t.2.2.2.2.1
  cases evaluates_unique hx h1
  obtain ⟨e, hk⟩ := ofInt_ofNat (k := 15) hx0 hx1 h2
  exact ⟨h3.trans e, by omega⟩

/-! ### Data processing with a register -/

/-- No shift. -/
theorem arm_register_word {n : Nat} (h : op ∈ opcodes) (hm : op.mask ∈ dataRegisterSyntax) (hn : opcode op.name = some n)
    (hv : Valid op o) (he : Emits (sem E version op o) c st w) (hs : o.shift = none) :
    HasFields w (dataRegister o.c n (o.s || isTest n).toNat (firstRegister op o n) (if isTest n = true then 0 else o.rd) 0 0
      o.rm) := by
  obtain ⟨f, hf, rfl⟩ := emits_word he
  obtain ⟨r, e1, e2, e3, e4⟩ := dataReg_row h hm hn hv
  rw [← e1, ← e2, ← e3, ← e4]
  exact regOp_plain (c15 hv) r (hf.noImm r.imm) hs

/-- Shifted by a constant: the type and amount fields mean, to the processor, exactly the shift that was written. `ror #32`
is accepted too but spills into another field: see `ror_32_wrong`. -/
theorem arm_shifted_word {n : Nat} {s : Shift} {v : Int} (h : op ∈ opcodes) (hm : op.mask ∈ dataRegisterSyntax)
    (hn : opcode op.name = some n) (hv : Valid op o) (he : Emits (sem E version op o) c st w) (hs : o.shift = some s)
    (hb : s.byRegister = false) (hev : Evaluates E .arm c s.amount (.int v)) (h1 : -2 ^ 31 ≤ v) (h2 : v < 2 ^ 31)
    (hror : ¬ (shiftName s.type = .ror ∧ v = 32)) :
    ∃ amount type, HasFields w (dataRegister o.c n (o.s || isTest n).toNat (firstRegister op o n)
        (if isTest n = true then 0 else o.rd) amount type o.rm) ∧
      ∀ x cf, decodeShift type amount x cf = shiftBy (shiftName s.type) v x cf ∧
        (shiftBy (shiftName s.type) v x cf).isSome = true := by
  obtain ⟨f, hf, rfl⟩ := emits_word he
  obtain ⟨r, e1, e2, e3, e4⟩ := dataReg_row h hm hn hv
  obtain ⟨v', ⟨type, amount⟩, hv', hr, hfs⟩ := hf.immShift s hs hb
  cases evaluates_unique hev hv'
  obtain ⟨g1, g2, g3⟩ := shiftFinal_ok (hv.shift s hs).1 h1 h2 hr (by
    rintro ⟨h3, h32⟩
    exact hror ⟨by rw [h3]; rfl, h32⟩)
  refine ⟨amount, type, ?_, g3⟩
  rw [← e1, ← e2, ← e3, ← e4]
  exact regOp_const (c15 hv) r (hf.noImm r.imm) hs hb hfs g1 g2

/-- Shifted by a register. `rrx` cannot be: see `rrx_by_register_wrong`. -/
theorem arm_shifted_register_word {n : Nat} {s : Shift} (h : op ∈ opcodes) (hm : op.mask ∈ dataRegisterSyntax)
    (hn : opcode op.name = some n) (hv : Valid op o) (he : Emits (sem E version op o) c st w) (hs : o.shift = some s)
    (hb : s.byRegister = true) (hrrx : shiftName s.type ≠ .rrx) :
    HasFields w (dataRegisterRegister o.c n (o.s || isTest n).toNat (firstRegister op o n)
      (if isTest n = true then 0 else o.rd) s.reg s.type o.rm) := by
  obtain ⟨f, hf, rfl⟩ := emits_word he
  obtain ⟨r, e1, e2, e3, e4⟩ := dataReg_row h hm hn hv
  have hty : s.type ≤ 3 := by
    have := (hv.shift s hs).1
    rcases (by omega : s.type ≤ 3 ∨ s.type = 4) with h | h
    · exact h
    · rw [h] at hrrx; exact absurd rfl hrrx
  rw [← e1, ← e2, ← e3, ← e4]
  exact regOp_reg (c15 hv) r (hf.noImm r.imm) hs hb (hf.regShift s hs hb) hty ((hv.shift s hs).2 hb)

theorem regFlags (h : op ∈ opcodes) (hm : op.mask ∈ dataRegisterSyntax ∨ (pseudoOp op.name).isSome = true) :
    op.has .immediate = false ∧ op.has .copop = false ∧ op.has .copinf = false ∧ op.has .rdeven = false := by
  have ht : ∀ op ∈ opcodes, (op.mask ∈ dataRegisterSyntax ∨ (pseudoOp op.name).isSome = true) →
      op.has .immediate = false ∧ op.has .copop = false ∧ op.has .copinf = false ∧ op.has .rdeven = false := by
    set_option maxRecDepth 10000 in decide +kernel
  exact ht op h hm

/-- Data processing instructions without shift, or shifted by a register, are always accepted. -/
theorem arm_register_accepted (h : op ∈ opcodes) (hm : op.mask ∈ dataRegisterSyntax ∨ (pseudoOp op.name).isSome = true)
    (hs : ∀ s, o.shift = some s → s.byRegister = true) : ∃ w, Emits (sem E version op o) c st w := by
  obtain ⟨h1, h2, h3, h4⟩ := regFlags h hm
  exact arm_plain_accepted h1 h2 h3 h4 hs

/-- Those shifted by a constant are accepted if the instruction set has that shift. -/
theorem arm_shift_accepted {s : Shift} {v : Int} (h : op ∈ opcodes)
    (hm : op.mask ∈ dataRegisterSyntax ∨ (pseudoOp op.name).isSome = true) (hs : o.shift = some s) (hb : s.byRegister = false)
    (ht : s.type ≤ 4) (hev : Evaluates E .arm c s.amount (.int v)) (h1 : -2 ^ 31 ≤ v) (h2 : v < 2 ^ 31)
    (hok : ∀ x cf, (shiftBy (shiftName s.type) v x cf).isSome = true) : ∃ w, Emits (sem E version op o) c st w := by
  obtain ⟨g1, g2, g3, g4⟩ := regFlags h hm
  obtain ⟨r, hr⟩ := shiftFinal_some ht h1 h2 hok
  exact ⟨_, _, accepts_parts (f := { shift := some r }) (vShift_some hs hb hev hr) (by rw [g2]; exact vCop_false)
    (by rw [g3]; exact vCop_false) (.inl g4) (vImm_false g1), fun p => outcome_words rfl p⟩

/-- And refused if it has not, except `ror #32`. -/
theorem arm_shift_rejected {s : Shift} {v : Int} (hs : o.shift = some s) (hb : s.byRegister = false)
    (ht : s.type ≤ 4) (hev : Evaluates E .arm c s.amount (.int v)) (h1 : -2 ^ 31 ≤ v) (h2 : v < 2 ^ 31)
    (hror : ¬ (shiftName s.type = .ror ∧ v = 32)) (hbad : ∀ x cf, shiftBy (shiftName s.type) v x cf = none) :
    Rejects (sem E version op o) c st := by
  cases hr : shiftFinal s.type (BitVec.ofInt 32 v) with
  | error t => exact rejects_shift hs hb hev hr
  | ok r =>
    have := ((shiftFinal_ok ht h1 h2 hr (by
      rintro ⟨h3, h32⟩
      exact hror ⟨by rw [h3]; rfl, h32⟩)).2.2 0 false).2
    rw [hbad] at this
    simp at this

/-- `lsl`, `lsr`, `asr` and `ror` as instructions, by a constant: `mov` with that shift. -/
theorem arm_shift_pseudo_word {k : ShiftOp} {s : Shift} {v : Int} (h : op ∈ opcodes) (hk : pseudoOp op.name = some k)
    (hv : Valid op o) (he : Emits (sem E version op o) c st w) (hs : o.shift = some s) (hb : s.byRegister = false)
    (hev : Evaluates E .arm c s.amount (.int v)) (h1 : -2 ^ 31 ≤ v) (h2 : v < 2 ^ 31) (hror : ¬ (k = .ror ∧ v = 32)) :
    ∃ amount type, HasFields w (dataRegister o.c 13 o.s.toNat 0 o.rd amount type
        (if 'm' ∈ op.mask.toList then o.rm else o.rd)) ∧
      ∀ x cf, decodeShift type amount x cf = shiftBy k v x cf ∧ (shiftBy k v x cf).isSome = true := by
  obtain ⟨f, hf, rfl⟩ := emits_word he
  obtain ⟨r, e1, e2, e3, s', hs', hk', h3⟩ := pseudo_row h hk hv
  cases hs.symm.trans hs'
  obtain ⟨v', ⟨type, amount⟩, hv', hr, hfs⟩ := hf.immShift s hs hb
  cases evaluates_unique hev hv'
  obtain ⟨g1, g2, g3⟩ := shiftFinal_ok (hv.shift s hs).1 h1 h2 hr (by
    rintro ⟨h3, h32⟩
    exact hror ⟨by rw [← hk', h3]; rfl, h32⟩)
  rw [hk'] at g3
  refine ⟨amount, type, ?_, g3⟩
  have := regOp_const (c15 hv) r (hf.noImm r.imm) hs hb hfs g1 g2
  rw [e1, e2, e3] at this
  simpa using this

/-- The same by a register. -/
theorem arm_shift_pseudo_register_word {k : ShiftOp} {s : Shift} (h : op ∈ opcodes) (hk : pseudoOp op.name = some k)
    (hv : Valid op o) (he : Emits (sem E version op o) c st w) (hs : o.shift = some s) (hb : s.byRegister = true) :
    shiftName s.type = k ∧ HasFields w (dataRegisterRegister o.c 13 o.s.toNat 0 o.rd s.reg s.type
      (if 'm' ∈ op.mask.toList then o.rm else o.rd)) := by
  obtain ⟨f, hf, rfl⟩ := emits_word he
  obtain ⟨r, e1, e2, e3, s', hs', hk', h3⟩ := pseudo_row h hk hv
  cases hs.symm.trans hs'
  refine ⟨hk', ?_⟩
  have := regOp_reg (c15 hv) r (hf.noImm r.imm) hs hb (hf.regShift s hs hb) h3 ((hv.shift s hs).2 hb)
  rw [e1, e2, e3] at this
  simpa using this

/-! ### Interrupts -/

/-- `swi` with a number from 0: on the GBA and DS numbers below 255 go to bits 23-16, otherwise the number is the field. -/
theorem arm_swi_word {v : Int} (h : op ∈ opcodes) (hn : op.name = "swiC") (hv : Valid op o)
    (he : Emits (sem E version op o) c st w) (hval : Evaluates E .arm c o.imm (.int v)) (h0 : 0 ≤ v) (h1 : v < 2 ^ 31) :
    ∃ k, HasFields w (Spec.Arm.swi o.c k) ∧
      k = (if (version = .gba ∨ version = .nds) ∧ v < 0xFF then v.toNat * 2 ^ 16 else v.toNat) ∧ k < 2 ^ 24 := by
  obtain ⟨f, hf, rfl⟩ := emits_word he
  obtain ⟨t1, t2, t3, t4, t5, t6, t7, t8, t9, t10, t11, -, -, -, t12, t13, t14, t15⟩ := swi_table op h hn
  obtain ⟨val, b, hv', hb, hm⟩ := hf.imm t3
  cases evaluates_unique hval hv'
  simp only [valueBits, Option.some.injEq] at hb
  subst hb
  have hbl : o.bitLen = 24 := by
    rw [hv.bits t3, t11]
  simp only [immediate, immCases, t5, t6, t7, t8, t9, Bool.false_eq_true, if_false, if_true, checkWidth, hbl, t10,
    Bool.not_false, and_true] at hm
  rw [if_pos (by decide)] at hm
  split at hm
  · simp at hm
  rename_i hw
  simp only [Except.ok.injEq] at hm
  obtain ⟨n, rfl⟩ : ∃ n : Nat, v = n := ⟨v.toNat, by omega⟩
  have hval' : f.imm.value.toNat = (if (version = .gba ∨ version = .nds) ∧ (n : Int) < 0xFF then n * 2 ^ 16 else n) ∧
      f.imm.encoding = none ∧ f.imm.asMov = false := by
    rw [← hm]
    unfold immSwi
    rw [toInt32 (by omega) h1]
    split
    · rename_i hc
      refine ⟨?_, rfl, rfl⟩
      simp only [BitVec.toNat_shiftLeft, Nat.shiftLeft_eq, BitVec.ofInt_natCast, BitVec.toNat_ofNat]
      have := hc.2
      omega
    · refine ⟨?_, rfl, rfl⟩
      simp only [BitVec.ofInt_natCast, BitVec.toNat_ofNat]
      omega
  have hlt : f.imm.value.toNat < 2 ^ 24 := by rw [← hm]; omega
  exact ⟨_, swi_fields h hn hv hval'.2.1 hval'.2.2 hlt, by rw [hval'.1]; simp, hlt⟩

/-- `bkpt` with a 16-bit number. -/
theorem arm_bkpt_word {v : Int} (h : op ∈ opcodes) (hn : op.name = "bkpt") (hv : Valid op o)
    (he : Emits (sem E version op o) c st w) (hval : Evaluates E .arm c o.imm (.int v)) (h0 : -2 ^ 31 ≤ v) (h1 : v < 2 ^ 31) :
    0 ≤ v ∧ v < 2 ^ 16 ∧ HasFields w (Spec.Arm.bkpt v.toNat) := by
  obtain ⟨f, hf, rfl⟩ := emits_word he
  obtain ⟨t1, t2, t3, t4, t5, t6, t7, t8, t9, t10, t11, -, -, -, t12, t13, t14, t15⟩ := bkpt_table op h hn
  obtain ⟨val, b, hv', hb, hm⟩ := hf.imm t3
  cases evaluates_unique hval hv'
  simp only [valueBits, Option.some.injEq] at hb
  subst hb
  have hbl : o.bitLen = 16 := by
    rw [hv.bits t3, t11]
  simp only [immediate, immCases, t5, t6, t7, t8, t9, Bool.false_eq_true, if_false, checkWidth, hbl, t10,
    Bool.not_false, and_true, Bool.false_and] at hm
  rw [if_pos (by decide)] at hm
  split at hm
  · simp at hm
  rename_i hw
  simp only [Except.ok.injEq] at hm
  have hlt : (BitVec.ofInt 32 v).toNat < 2 ^ 16 := by omega
  have hv' : 0 ≤ v ∧ v < 2 ^ 16 ∧ (BitVec.ofInt 32 v).toNat = v.toNat := by
    rw [BitVec.toNat_ofInt] at hlt ⊢
    omega
  refine ⟨hv'.1, hv'.2.1, ?_⟩
  have hfv : f.imm.value.toNat = v.toNat := by rw [← hm]; exact hv'.2.2
  rw [← hfv]
  exact bkpt_fields h hn hv (by rw [← hm]) (by rw [← hm]) (by rw [hfv]; omega)

/-! ### Examples -/

/-- `blxne r5` -/
example : Valid (row "blxC" "n1") { plain with c := 1, rn := 5 } ∧
    Emits (sem Sample.env .nds (row "blxC" "n1") { plain with c := 1, rn := 5 }) ctx idle 0x112FFF35#32 := ⟨by valid, by emits⟩
/-- `mlas r1,r2,r3,r4` -/
example : Valid (row "mlaCS" "d1,m1,s1,n1") { plain with s := true, rd := 1, rm := 2, rs := 3, rn := 4 } ∧
    Emits (sem Sample.env .gba (row "mlaCS" "d1,m1,s1,n1") { plain with s := true, rd := 1, rm := 2, rs := 3, rn := 4 }) ctx idle
      0xE0314392#32 := ⟨by valid, by emits⟩
/-- `swpb r1,r2,[r3]` -/
example : Valid (row "swpCb" "d1,m1,[n1]") { plain with rd := 1, rm := 2, rn := 3 } ∧
    Emits (sem Sample.env .gba (row "swpCb" "d1,m1,[n1]") { plain with rd := 1, rm := 2, rn := 3 }) ctx idle 0xE1431092#32 :=
  ⟨by valid, by emits⟩
/-- `stmfd r13!,{r0,r14}` -/
example : Valid (row "stmCA" "/[n1/]W,/{R/}p") { plain with a := 5, rn := 13, writeback := true, rlist := 0x4001 } ∧
    Emits (sem Sample.env .gba (row "stmCA" "/[n1/]W,/{R/}p") { plain with a := 5, rn := 13, writeback := true, rlist := 0x4001 }) ctx idle
      0xE92D4001#32 := ⟨by valid, by emits⟩
/-- `addeq r1,r2,r3,lsr 32` -/
example : Valid (row "addCS" "d0,n0,m0S0") { plain with c := 0, rd := 1, rn := 2, rm := 3, shift := some ⟨1, false, 0, .int 32⟩ } ∧
    Emits (sem Sample.env .gba (row "addCS" "d0,n0,m0S0")
      { plain with c := 0, rd := 1, rn := 2, rm := 3, shift := some ⟨1, false, 0, .int 32⟩ }) ctx idle 0x00821023#32 :=
  ⟨by valid, by emits⟩
/-- `swi 5` on the GBA -/
example : Valid (row "swiC" "/#j\x18") { plain with imm := .int 5, bitLen := 24 } ∧
    Emits (sem Sample.env .gba (row "swiC" "/#j\x18") { plain with imm := .int 5, bitLen := 24 }) ctx idle 0xEF050000#32 :=
  ⟨by valid, by emits⟩
/-- `mrc p15,0,r1,c2,c3,4` -/
example : Valid (row "mrcC" "X,Y,d1,N,M,Z") { plain with pn := 15, rd := 1, cn := 2, cm := 3, cpinf := .int 4, bitLen := 3 } ∧
    Emits (sem Sample.env .nds (row "mrcC" "X,Y,d1,N,M,Z")
      { plain with pn := 15, rd := 1, cn := 2, cm := 3, cpinf := .int 4, bitLen := 3 }) ctx idle 0xEE121F93#32 := ⟨by valid, by emits⟩
example : Evaluates Sample.env .arm ctx (.int 4) (.int 4) := ⟨[], rfl, fun _ h => by cases h⟩

/-! ### Where the code is wrong -/

/-- `smlalbb` is written as `smlaltb`: the table has the x bit preset for `smlal<x><y>`. -/
theorem smlal_halfword_wrong : ∃ op ∈ opcodes, ∃ o w, op.name = "smlalXYC" ∧ o.x = false ∧ Valid op o ∧
    Emits (sem Sample.env .nds op o) ctx idle w ∧ field w 5 1 = 1 :=
  ⟨row "smlalXYC" "n1,d1,m1,s1", by decide +kernel, { plain with rn := 1, rm := 2, rs := 3 }, 0xE14013A2#32, by decide +kernel, rfl,
    by valid, by emits, by decide +kernel⟩

/-- `mov r0,r1,ror 32` is accepted and writes destination register r1. -/
theorem ror_32_wrong : ∃ op ∈ opcodes, ∃ o w, op.name = "movCS" ∧ o.rd = 0 ∧ Valid op o ∧
    Emits (sem Sample.env .gba op o) ctx idle w ∧ field w 12 4 = 1 :=
  ⟨row "movCS" "d0,m0S0", by decide +kernel, { plain with rm := 1, shift := some ⟨3, false, 0, .int 32⟩ }, 0xE1A01061#32,
    by decide +kernel, rfl, by valid, by emits, by decide +kernel⟩

/-- `mov r0,r1,rrx r2` is accepted although there is no such instruction, and written as `mul`-like encoding with bits 7 and 4
set. -/
theorem rrx_by_register_wrong : ∃ op ∈ opcodes, ∃ o s w, op.name = "movCS" ∧ o.shift = some s ∧ shiftName s.type = .rrx ∧
    s.byRegister = true ∧ Valid op o ∧ Emits (sem Sample.env .gba op o) ctx idle w ∧ field w 7 1 = 1 ∧ field w 4 1 = 1 :=
  ⟨row "movCS" "d0,m0S0", by decide +kernel, { plain with rm := 1, shift := some ⟨4, true, 2, .int 0⟩ }, _, 0xE1A00291#32,
    by decide +kernel, rfl, rfl, rfl, by valid, by emits, by decide +kernel, by decide +kernel⟩

/-- `mcr p0,8,r0,c0,c0,0` is accepted and written as `swi`. -/
theorem mcr_number_spills : ∃ op ∈ opcodes, ∃ o w, op.name = "mcrC" ∧ Valid op o ∧
    Emits (sem Sample.env .nds op o) ctx idle w ∧ HasFields w (Spec.Arm.swi 14 0x10) :=
  ⟨row "mcrC" "X,Y,d1,N,M,Z", by decide +kernel, { plain with cpop := .int 8, bitLen := 3 }, 0xEF000010#32,
    by decide +kernel, by valid, by emits, by decide +kernel⟩

end Armips.Props
