import Verif.Spec.MipsDelay
import Verif.Lemmas.MipsAccept
import Verif.Lemmas.Fields
/-! Load delays. -/
namespace Armips.Mips
open Spec Spec.Mips Spec.Instr

/-- The bits of a row do not hold operands. -/
def free (op : Op) (lo len : Nat) : Bool := (pieces op).all fun p => apart p ⟨.imm, lo, len, 0⟩

/-- The field holds a register in the role `s`, or a fixed zero. -/
def readable (op : Op) (lo : Nat) (s : Slot) : Bool :=
  ((pieces op).contains ⟨.reg s, lo, 5, 0⟩ && (allSyms op).contains (.reg s)) || (free op lo 5 && field op.encoding lo 5 == 0)

/-- Facts about a row that the PlayStation has. -/
def delayRow (op : Op) : Bool :=
  free op 26 6 && (field op.encoding 26 6 != 0 || free op 0 6) &&
    (!(16 ≤ field op.encoding 26 6 && field op.encoding 26 6 ≤ 19) ||
      (free op 25 1 && (field op.encoding 25 1 != 0 || free op 21 4))) &&
    (!readsRs op.encoding || readable op 21 .grs) && (!readsRt op.encoding || (readable op 16 .grt && !op.has .ignorertd)) &&
    (!(loadTarget op.encoding).isSome || (op.has .delayrt && (pieces op).contains ⟨.reg .grt, 16, 5, 0⟩ && (allSyms op).contains (.reg .grt))) &&
    secType op.syms != some .ext && secType op.syms != some .ins && !odd.contains op.name

set_option maxRecDepth 10000 in
theorem delay_table : ∀ op ∈ opcodes, (!Op.available .psx op || delayRow op) = true := by decide +kernel

theorem free_field {op : Op} {o : Operands} {imm sec : Nat} {w : BitVec 32} (h : Holds op o imm sec w) {lo len : Nat}
    (hl : lo + len ≤ 32) (hf : free op lo len = true) : field w lo len = field op.encoding lo len := by
  simp only [free, List.all_eq_true] at hf
  apply Nat.eq_of_testBit_eq
  intro j
  rw [testBit_field, testBit_field]
  by_cases hj : j < len
  · simp only [hj, decide_true, Bool.true_and]
    apply h.rest _ (by omega)
    intro p hp hb
    have := hf p hp
    simp only [apart, Bool.or_eq_true, decide_eq_true_eq] at this
    omega
  · simp [hj]

theorem reg_field {op : Op} {o : Operands} {imm sec : Nat} {w : BitVec 32} (hm : op ∈ opcodes) (hv : Valid op o)
    (h : Holds op o imm sec w) {lo : Nat} {s : Slot} (hp : ⟨.reg s, lo, 5, 0⟩ ∈ pieces op) (hs : .reg s ∈ allSyms op)
    (hb : ∀ six, regBits six s = 5) : ∃ n, omitted op o.regs s = some n ∧ field w lo 5 = n := by
  obtain ⟨_, hsh, _, _, _, _⟩ := rowFacts hm
  obtain ⟨n, hn⟩ := Option.isSome_iff_exists.1 ((omitted_isSome hsh hv s).2 hs)
  refine ⟨n, hn, ?_⟩
  have hr := omitted_range hsh hv hn
  rw [hb] at hr
  have := h.operands _ hp
  simp only [value, Nat.pow_zero, Nat.div_one] at this
  rw [this, omitted_value hsh hn, Nat.mod_eq_of_lt hr]

/-- What the fixed bits of a row tell. -/
structure DelayRow (op : Op) : Prop where
  major : free op 26 6 = true
  special : field op.encoding 26 6 = 0 → free op 0 6 = true
  cop : 16 ≤ field op.encoding 26 6 → field op.encoding 26 6 ≤ 19 → free op 25 1 = true ∧
    (field op.encoding 25 1 = 0 → free op 21 4 = true)
  rs : readsRs op.encoding = true → readable op 21 .grs = true
  rt : readsRt op.encoding = true → readable op 16 .grt = true ∧ op.has .ignorertd = false
  load : (loadTarget op.encoding).isSome = true →
    op.has .delayrt = true ∧ ⟨.reg .grt, 16, 5, 0⟩ ∈ pieces op ∧ .reg .grt ∈ allSyms op
  noField : secType op.syms ≠ some .ext ∧ secType op.syms ≠ some .ins
  notOdd : op.name ∉ odd

theorem delayRow_of {op : Op} (hm : op ∈ opcodes) (ha : Op.available .psx op = true) : DelayRow op := by
  have h := delay_table op hm
  rw [ha] at h
  simp only [Bool.not_true, Bool.false_or, delayRow, Bool.and_eq_true] at h
  obtain ⟨⟨⟨⟨⟨⟨⟨⟨a, b⟩, c⟩, d⟩, e⟩, f⟩, g⟩, i⟩, j⟩ := h
  refine ⟨a, fun h => ?_, fun h1 h2 => ?_, fun h => ?_, fun h => ?_, fun h => ?_, ?_, ?_⟩
  · simpa [h] using b
  · rw [decide_eq_true h1, decide_eq_true h2] at c
    simp only [Bool.and_self, Bool.not_true, Bool.false_or, Bool.and_eq_true] at c
    refine ⟨c.1, fun h => ?_⟩
    simpa [h] using c.2
  · simpa [h] using d
  · simpa [h] using e
  · simpa [h, and_assoc] using f
  · exact ⟨by simpa using g, by simpa using i⟩
  · simpa using j

theorem moveTo_eq {op : Op} {o : Operands} {imm sec : Nat} {w : BitVec 32} (hr : DelayRow op) (h : Holds op o imm sec w) :
    moveTo w = moveTo op.encoding := by
  have h1 := free_field h (by decide) hr.major
  unfold moveTo
  rw [h1]
  by_cases hc : 16 ≤ field op.encoding 26 6 ∧ field op.encoding 26 6 ≤ 19
  · obtain ⟨f1, f2⟩ := hr.cop hc.1 hc.2
    rw [free_field h (by decide) f1]
    by_cases h0 : field op.encoding 25 1 = 0
    · rw [free_field h (by decide) (f2 h0)]
    · have : (field op.encoding 25 1 == 0) = false := by simpa using h0
      simp only [this, Bool.and_false, Bool.false_and]
  · have : (decide (16 ≤ field op.encoding 26 6) && decide (field op.encoding 26 6 ≤ 19)) = false := by
      simp; omega
    simp [this]

theorem readsRs_eq {op : Op} {o : Operands} {imm sec : Nat} {w : BitVec 32} (hr : DelayRow op) (h : Holds op o imm sec w) :
    readsRs w = readsRs op.encoding := by
  have h1 := free_field h (by decide) hr.major
  unfold readsRs
  simp only [h1]
  by_cases h0 : field op.encoding 26 6 = 0
  · rw [if_pos h0, if_pos h0, free_field h (by decide) (hr.special h0)]
  · rw [if_neg h0, if_neg h0]

theorem readsRt_eq {op : Op} {o : Operands} {imm sec : Nat} {w : BitVec 32} (hr : DelayRow op) (h : Holds op o imm sec w) :
    readsRt w = readsRt op.encoding := by
  have h1 := free_field h (by decide) hr.major
  unfold readsRt
  simp only [h1, moveTo_eq hr h]
  by_cases h0 : field op.encoding 26 6 = 0
  · rw [if_pos h0, if_pos h0, free_field h (by decide) (hr.special h0)]
  · rw [if_neg h0, if_neg h0]

theorem readable_field {op : Op} {o : Operands} {imm sec : Nat} {w : BitVec 32} (hm : op ∈ opcodes) (hv : Valid op o)
    (h : Holds op o imm sec w) {lo : Nat} {s : Slot} (hl : lo + 5 ≤ 32) (hr : readable op lo s = true)
    (hb : ∀ six, regBits six s = 5) {n : Nat} (hn : n ≠ 0) (hf : field w lo 5 = n) : omitted op o.regs s = some n := by
  simp only [readable, Bool.or_eq_true, Bool.and_eq_true, List.contains_iff_mem, beq_iff_eq] at hr
  rcases hr with ⟨h1, h2⟩ | ⟨h1, h2⟩
  · obtain ⟨m, h3, h4⟩ := reg_field hm hv h h1 h2 hb
    rw [h3, ← hf, h4]
  · rw [free_field h hl h1, h2] at hf
    exact absurd hf.symm hn

/-- An instruction written without a `nop` does not read the register that is being loaded. -/
theorem not_reads {op : Op} {o : Operands} {imm sec : Nat} {w : BitVec 32} {cfg : Config} {st : ArchState}
    (hm : op ∈ opcodes) (ha : Op.available .psx op = true) (hv : Valid op o) (h : Holds op o imm sec w)
    (hp : cfg.version = .psx) (hg : cfg.ignoreDelay = false) (hz : hazard cfg op (omitted op o.regs) st = false)
    (hl : st.loadDelay = true) {n : Nat} (hn : st.loadDelayRegister = n) (h0 : n ≠ 0) : ¬ Reads w n := by
  have hr := delayRow_of hm ha
  simp only [hazard, Config.hasLoadDelay, hp, hl, hg, beq_self_eq_true, Bool.not_false, Bool.and_true, Bool.true_and,
    Bool.or_eq_false_iff] at hz
  have hd : ∀ r : Option Nat, r = some n → delayed st r = true := by
    rintro _ rfl
    simp [delayed, hn]
  rintro (⟨h1, h2⟩ | ⟨h1, h2⟩)
  · rw [readsRs_eq hr h] at h1
    have := readable_field hm hv h (by decide) (hr.rs h1) (by intro b; rfl) h0 h2
    rw [hd _ this] at hz
    exact absurd hz.1.2 (by decide)
  · rw [readsRt_eq hr h] at h1
    obtain ⟨h3, h4⟩ := hr.rt h1
    have := readable_field hm hv h (by decide) h3 (by intro b; rfl) h0 h2
    rw [hd _ this, h4] at hz
    exact absurd hz.2 (by decide)

/-- After a load the state says so. -/
theorem load_state {op : Op} {o : Operands} {imm sec : Nat} {w : BitVec 32} {cfg : Config} {st : ArchState}
    (hm : op ∈ opcodes) (ha : Op.available .psx op = true) (hv : Valid op o) (h : Holds op o imm sec w)
    (hp : cfg.version = .psx) {n : Nat} (hn : loadTarget w = some n) :
    (nextState cfg op (omitted op o.regs) st).loadDelay = true ∧
      (nextState cfg op (omitted op o.regs) st).loadDelayRegister = n := by
  have hr := delayRow_of hm ha
  have h1 := free_field h (by decide) hr.major
  unfold loadTarget at hn
  split at hn
  · rename_i hc
    rw [h1] at hc
    obtain ⟨h2, h3, h4⟩ := hr.load (by unfold loadTarget; rw [if_pos hc]; rfl)
    obtain ⟨m, h5, h6⟩ := reg_field hm hv h h3 h4 (by intro b; rfl)
    unfold nextState
    simp only [Config.hasLoadDelay, hp, beq_self_eq_true, if_true, h5, h2, true_and]
    cases hn
    rw [h6]
  · cases hn

end Armips.Mips
