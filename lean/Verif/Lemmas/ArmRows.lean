import Verif.Lemmas.ArmWord
/-! Fields of the words of single rows of the table. -/
namespace Armips.Arm
open Spec Spec.Arm Spec.Instr

instance decHasFields {n : Nat} (w : BitVec n) (l : List (Nat × Nat × Nat)) : Decidable (HasFields w l) :=
  inferInstanceAs (Decidable (∀ x ∈ l, field w x.1 x.2.1 = x.2.2))

/-- A field is used only if it is a register number. -/
def Small (b : Bool) (v : Nat) : Prop := b = true → v ≤ 15

theorem ob {b : Bool} {e : BitVec 32} {sh : Nat} (hn : sh + 1 ≤ 32) :
    field (orIf b (1#32 <<< sh) e) sh 1 = field e sh 1 ||| b.toNat := by
  rw [field_orIf, bit_eq hn]
  cases b <;> rfl
theorem ob_ne {b : Bool} {e : BitVec 32} {sh lo len : Nat} (hd : sh + 1 ≤ lo ∨ lo + len ≤ sh) :
    field (orIf b (1#32 <<< sh) e) lo len = field e lo len := by
  rw [field_orIf, bit_ne hd]
  cases b <;> simp
theorem of4 {b : Bool} {e : BitVec 32} {v sh : Nat} (h : Small b v) (hn : sh + 4 ≤ 32) :
    field (orIf b (fld v sh) e) sh 4 = field e sh 4 ||| (if b = true then v else 0) := by
  rw [field_orIf]
  split
  · rename_i hb; rw [f4 (h hb) hn]
  · rfl
theorem of4_ne {b : Bool} {e : BitVec 32} {v sh lo len : Nat} (h : Small b v) (hd : sh + 4 ≤ lo ∨ lo + len ≤ sh) :
    field (orIf b (fld v sh) e) lo len = field e lo len := by
  rw [field_orIf]
  split
  · rename_i hb; rw [f4_ne (h hb) hd]; simp
  · simp

theorem orIf_true {x e : BitVec 32} : orIf true x e = e ||| x := rfl
theorem orIf_false {x e : BitVec 32} : orIf false x e = e := rfl

/-- Compute the fields of an encoded word. -/
macro "arm_word" : tactic => `(tactic|
  simp [encode, encodeBase, encodeType, encodeOp2, hasFields_cons,
    hasFields_nil, field_or, orIf_true, orIf_false, ob, ob_ne, of4, of4_ne, field_clearU, field_clearU_ne, f4, f4_ne, -BitVec.reduceShiftLeft,
    -BitVec.reduceHShiftLeft, -BitVec.reduceHShiftLeft', *])

theorem c15 {op : Op} {o : Operands} (hv : Valid op o) : o.c ≤ 15 := Nat.le_trans hv.c (by decide)

/-- The numbers of registers that are written. -/
structure Regs (op : Op) (o : Operands) : Prop where
  n : op.has .n = decide ('n' ∈ op.mask.toList)
  dn : op.has .dn = false
  m : op.has .dm = decide ('m' ∉ op.mask.toList)
  d : 'd' ∈ op.mask.toList

theorem Regs.rn {op : Op} {o : Operands} (r : Regs op o) (hv : Valid op o) : Small (op.has .n) (rnOf op o) := by
  intro h
  simp only [rnOf, r.dn, Bool.false_eq_true, if_false]
  exact hv.rn (by simpa [r.n] using h)
theorem Regs.rn_eq {op : Op} {o : Operands} (r : Regs op o) :
    (if 'n' ∈ op.mask.toList then o.rn else 0) = if op.has .n = true then rnOf op o else 0 := by
  simp [rnOf, r.dn, r.n]
theorem Regs.rm {op : Op} {o : Operands} (r : Regs op o) (hv : Valid op o) : rmOf op o ≤ 15 := by
  have h1 := hv.rm
  have h2 := hv.rd r.d
  simp only [rmOf, r.m]
  by_cases h : 'm' ∈ op.mask.toList <;> simp [h, h1, h2]
theorem Regs.rm_eq {op : Op} {o : Operands} (r : Regs op o) :
    (if 'm' ∈ op.mask.toList then o.rm else o.rd) = rmOf op o := by
  by_cases h : 'm' ∈ op.mask.toList <;> simp [rmOf, r.m, h]

/-! ### Multiplications -/

set_option maxRecDepth 10000 in
set_option synthInstance.maxSize 1000 in
set_option synthInstance.maxHeartbeats 0 in
theorem multiply_table : ∀ op ∈ opcodes, ∀ p ∈ (multiplyOp op.name).toList, op.name ≠ "smlalXYC" →
    op.type = .type7 ∧ HasFields op.encoding (Spec.Arm.multiply 0 p.1 0 0 0 0 0 p.2.1 p.2.2 0) ∧ op.has .immediate = false ∧
    op.has .uncond = false ∧ op.has .n = decide ('n' ∈ op.mask.toList) ∧ op.has .dn = false ∧
    op.has .dm = decide ('m' ∉ op.mask.toList) ∧ op.has .x = decide ('X' ∈ op.name.toList) ∧
    op.has .y = decide ('Y' ∈ op.name.toList) ∧ 'd' ∈ op.mask.toList ∧ 's' ∈ op.mask.toList ∧
    ('X' ∈ op.name.toList → p.2.1 = 0) := by decide +kernel

theorem multiply_fields {op : Op} {o : Operands} {f : Final} {p : Nat × Nat × Nat} (h : op ∈ opcodes)
    (hp : multiplyOp op.name = some p) (hne : op.name ≠ "smlalXYC") (hv : Valid op o) (hf : f.imm = {}) :
    HasFields (encode op o f) (Spec.Arm.multiply o.c p.1 o.s.toNat o.rd (if 'n' ∈ op.mask.toList then o.rn else 0) o.rs
      (if 'Y' ∈ op.name.toList then o.y.toNat else 0) (if 'X' ∈ op.name.toList then o.x.toNat else p.2.1) p.2.2
      (if 'm' ∈ op.mask.toList then o.rm else o.rd)) := by
  obtain ⟨t1, t2, -, t4, t5, t6, t7, t8, t9, t10, t11, t12⟩ := multiply_table op h p (by simp [hp]) hne
  have r : Regs op o := ⟨t5, t6, t7, t10⟩
  have hc := c15 hv
  have hd := hv.rd t10
  have hs := hv.rs t11
  have hn := r.rn hv
  have hm := r.rm hv
  have e1 : (if 'Y' ∈ op.name.toList then o.y.toNat else 0) = (op.has .y && o.y).toNat := by
    rw [t9]; split <;> simp [*]
  have e2 : (if 'X' ∈ op.name.toList then o.x.toNat else p.2.1) = p.2.1 ||| (op.has .x && o.x).toNat := by
    rw [t8]; split <;> simp_all
  rw [r.rn_eq, r.rm_eq, e1, e2]
  simp only [Spec.Arm.multiply, hasFields_cons, hasFields_nil] at t2
  obtain ⟨a1, a2, a3, a4, a5, a6, a7, a8, a9, a10, a11, -⟩ := t2
  clear e1 e2 t5 t6 t7 t8 t9 t12 r hv
  unfold Spec.Arm.multiply
  arm_word

/-! ### Register operands only -/

set_option maxRecDepth 10000 in
theorem bx_table : ∀ op ∈ opcodes, op.name ∈ ["bxC", "blxC"] →
    op.type = .type3 ∧ HasFields op.encoding (branchExchange 0 (if op.name = "blxC" then 1 else 0) 0) ∧
    op.has .immediate = false ∧ op.has .uncond = false ∧ op.has .dn = false ∧ 'n' ∈ op.mask.toList ∧
    'S' ∉ op.name.toList := by decide +kernel

theorem noS {op : Op} {o : Operands} (hv : Valid op o) (h : 'S' ∉ op.name.toList) : o.s = false := by
  cases hs : o.s
  · rfl
  · exact absurd (hv.s hs) h

theorem bx_fields {op : Op} {o : Operands} {f : Final} (h : op ∈ opcodes) (hn : op.name ∈ ["bxC", "blxC"]) (hv : Valid op o)
    (hf : f.imm = {}) :
    HasFields (encode op o f) (branchExchange o.c (if op.name = "blxC" then 1 else 0) o.rn) := by
  obtain ⟨t1, t2, -, t4, t5, t6, t7⟩ := bx_table op h hn
  have hc := c15 hv
  have hrn : rnOf op o = o.rn := by simp [rnOf, t5]
  have hn := hv.rn t6
  have hs := noS hv t7
  generalize (if op.name = "blxC" then 1 else 0) = k at *
  simp only [branchExchange, hasFields_cons, hasFields_nil] at t2
  obtain ⟨a1, a2, a3, a4, a5, a6, a7, -⟩ := t2
  clear hv
  unfold branchExchange
  arm_word

set_option maxRecDepth 10000 in
set_option synthInstance.maxSize 1000 in
set_option synthInstance.maxHeartbeats 0 in
theorem swap_table : ∀ op ∈ opcodes, op.name ∈ ["swpC", "swpCb"] →
    op.type = .type12 ∧ HasFields op.encoding (swap 0 (if op.name = "swpCb" then 1 else 0) 0 0 0) ∧
    op.has .immediate = false ∧ op.has .uncond = false ∧ op.has .n = decide ('n' ∈ op.mask.toList) ∧ op.has .dn = false ∧
    op.has .dm = decide ('m' ∉ op.mask.toList) ∧ 'd' ∈ op.mask.toList ∧ 'n' ∈ op.mask.toList ∧ 'S' ∉ op.name.toList := by
  decide +kernel

theorem swap_fields {op : Op} {o : Operands} {f : Final} (h : op ∈ opcodes) (hn : op.name ∈ ["swpC", "swpCb"]) (hv : Valid op o)
    (hf : f.imm = {}) :
    HasFields (encode op o f) (swap o.c (if op.name = "swpCb" then 1 else 0) o.rn o.rd
      (if 'm' ∈ op.mask.toList then o.rm else o.rd)) := by
  obtain ⟨t1, t2, -, t4, t5, t6, t7, t8, t9, t10⟩ := swap_table op h hn
  have r : Regs op o := ⟨t5, t6, t7, t8⟩
  have hc := c15 hv
  have hd := hv.rd t8
  have hn := r.rn hv
  have hrn : o.rn = if op.has .n = true then rnOf op o else 0 := by rw [← r.rn_eq, if_pos t9]
  have hm := r.rm hv
  have hs := noS hv t10
  rw [r.rm_eq, hrn]
  generalize (if op.name = "swpCb" then 1 else 0) = k at *
  simp only [swap, hasFields_cons, hasFields_nil] at t2
  obtain ⟨a1, a2, a3, a4, a5, a6, a7, a8, a9, -⟩ := t2
  clear hv hrn t5 t6 t7 r
  unfold swap
  arm_word

set_option maxRecDepth 10000 in
set_option synthInstance.maxSize 1000 in
set_option synthInstance.maxHeartbeats 0 in
theorem saturating_table : ∀ op ∈ opcodes, ∀ k ∈ (saturatingOp op.name).toList,
    op.type = .misc ∧ HasFields op.encoding (saturating 0 k 0 0 0) ∧
    op.has .immediate = false ∧ op.has .uncond = false ∧ op.has .n = decide ('n' ∈ op.mask.toList) ∧ op.has .dn = false ∧
    op.has .dm = decide ('m' ∉ op.mask.toList) ∧ 'd' ∈ op.mask.toList ∧ 'n' ∈ op.mask.toList ∧ 'S' ∉ op.name.toList := by
  decide +kernel

theorem saturating_fields {op : Op} {o : Operands} {f : Final} {k : Nat} (h : op ∈ opcodes)
    (hk : saturatingOp op.name = some k) (hv : Valid op o) (hf : f.imm = {}) :
    HasFields (encode op o f) (saturating o.c k o.rn o.rd (if 'm' ∈ op.mask.toList then o.rm else o.rd)) := by
  obtain ⟨t1, t2, -, t4, t5, t6, t7, t8, t9, t10⟩ := saturating_table op h k (by simp [hk])
  have r : Regs op o := ⟨t5, t6, t7, t8⟩
  have hc := c15 hv
  have hd := hv.rd t8
  have hn := r.rn hv
  have hrn : o.rn = if op.has .n = true then rnOf op o else 0 := by rw [← r.rn_eq, if_pos t9]
  have hm := r.rm hv
  have hs := noS hv t10
  rw [r.rm_eq, hrn]
  simp only [saturating, hasFields_cons, hasFields_nil] at t2
  obtain ⟨a1, a2, a3, a4, a5, a6, a7, a8, a9, -⟩ := t2
  clear hv hrn t5 t6 t7 r
  unfold saturating
  arm_word

set_option maxRecDepth 10000 in
set_option synthInstance.maxSize 1000 in
set_option synthInstance.maxHeartbeats 0 in
theorem clz_table : ∀ op ∈ opcodes, op.name = "clzC" →
    op.type = .misc ∧ HasFields op.encoding (clz 0 0 0) ∧
    op.has .immediate = false ∧ op.has .uncond = false ∧ op.has .n = false ∧ op.has .dm = false ∧ 'd' ∈ op.mask.toList ∧
    'm' ∈ op.mask.toList ∧ 'S' ∉ op.name.toList := by
  decide +kernel

theorem clz_fields {op : Op} {o : Operands} {f : Final} (h : op ∈ opcodes) (hn : op.name = "clzC") (hv : Valid op o)
    (hf : f.imm = {}) : HasFields (encode op o f) (clz o.c o.rd o.rm) := by
  obtain ⟨t1, t2, -, t4, t5, t6, t7, t8, t9⟩ := clz_table op h hn
  have hc := c15 hv
  have hd := hv.rd t7
  have hm := hv.rm t8
  have hrm : rmOf op o = o.rm := by simp [rmOf, t6]
  have hs := noS hv t9
  simp only [clz, hasFields_cons, hasFields_nil] at t2
  obtain ⟨a1, a2, a3, a4, a5, a6, a7, -⟩ := t2
  clear hv
  unfold clz
  arm_word

/-! ### Status registers -/

set_option maxRecDepth 10000 in
set_option synthInstance.maxSize 1000 in
set_option synthInstance.maxHeartbeats 0 in
theorem mrs_table : ∀ op ∈ opcodes, op.mask = "d1,P1" →
    op.type = .type6 ∧ HasFields op.encoding (Spec.Arm.mrs 0 0 0) ∧ op.has .immediate = false ∧ op.has .uncond = false ∧
    op.has .mrs = true ∧ 'd' ∈ op.mask.toList ∧ 'S' ∉ op.name.toList := by decide +kernel

theorem mrs_fields {op : Op} {o : Operands} {f : Final} (h : op ∈ opcodes) (hn : op.mask = "d1,P1") (hv : Valid op o)
    (hf : f.imm = {}) : HasFields (encode op o f) (Spec.Arm.mrs o.c o.spsr.toNat o.rd) := by
  obtain ⟨t1, t2, -, t4, t5, t6, t7⟩ := mrs_table op h hn
  have hc := c15 hv
  have hd := hv.rd t6
  have hs := noS hv t7
  simp only [Spec.Arm.mrs, hasFields_cons, hasFields_nil] at t2
  obtain ⟨a1, a2, a3, a4, a5, a6, a7, -⟩ := t2
  clear hv
  unfold Spec.Arm.mrs
  arm_word

set_option maxRecDepth 10000 in
set_option synthInstance.maxSize 1000 in
set_option synthInstance.maxHeartbeats 0 in
theorem msr_table : ∀ op ∈ opcodes, op.mask = "P0,m1" →
    op.type = .type6 ∧ HasFields op.encoding (msrRegister 0 0 0 0) ∧ op.has .immediate = false ∧ op.has .uncond = false ∧
    op.has .mrs = false ∧ op.has .register = true ∧ op.has .dm = false ∧ 'm' ∈ op.mask.toList ∧ op.mask.toList.take 2 = ['P', '0'] ∧
    'S' ∉ op.name.toList := by decide +kernel

theorem msr_fields {op : Op} {o : Operands} {f : Final} (h : op ∈ opcodes) (hn : op.mask = "P0,m1") (hv : Valid op o)
    (hf : f.imm = {}) : HasFields (encode op o f) (msrRegister o.c o.spsr.toNat o.field o.rm) := by
  obtain ⟨t1, t2, -, t4, t5, t6, t7, t8, t9, t10⟩ := msr_table op h hn
  have hc := c15 hv
  have hm := hv.rm t8
  have hfd := hv.field t9
  have hrm : rmOf op o = o.rm := by simp [rmOf, t7]
  have hs := noS hv t10
  simp only [msrRegister, hasFields_cons, hasFields_nil] at t2
  obtain ⟨a1, a2, a3, a4, a5, a6, a7, a8, -⟩ := t2
  clear hv
  unfold msrRegister
  arm_word

/-! ### Block transfers -/

set_option maxRecDepth 10000 in
set_option synthInstance.maxSize 1000 in
set_option synthInstance.maxHeartbeats 0 in
theorem block_table : ∀ op ∈ opcodes, op.name ∈ ["ldmCA", "stmCA"] →
    op.type = .type11 ∧ HasFields op.encoding (block 0 0 0 0 0 (if op.name = "ldmCA" then 1 else 0) 0 0) ∧
    op.has .immediate = false ∧ op.has .uncond = false ∧ op.has .n = true ∧ op.has .dn = false ∧
    op.has .load = decide (op.name = "ldmCA") ∧ op.has .store = decide (op.name = "stmCA") ∧ 'n' ∈ op.mask.toList ∧
    'R' ∈ op.mask.toList ∧ 'S' ∉ op.name.toList := by decide +kernel

theorem ldm_modes : ∀ a : Fin 8, field (fld (ldmModes.getD a.val 0) 23) 24 1 = ((modeOf a.val).bits true).1 ∧
    field (fld (ldmModes.getD a.val 0) 23) 23 1 = ((modeOf a.val).bits true).2 ∧ ldmModes.getD a.val 0 < 2 ^ 2 := by decide +kernel
theorem stm_modes : ∀ a : Fin 8, field (fld (stmModes.getD a.val 0) 23) 24 1 = ((modeOf a.val).bits false).1 ∧
    field (fld (stmModes.getD a.val 0) 23) 23 1 = ((modeOf a.val).bits false).2 ∧ stmModes.getD a.val 0 < 2 ^ 2 := by decide +kernel

theorem list_low {n : Nat} (h : n < 2 ^ 16) : field (BitVec.ofNat 32 n) 0 16 = n := by
  have : n % 2 ^ 32 = n := Nat.mod_eq_of_lt (Nat.lt_trans h (by decide))
  rw [field_ofNat, this, Nat.pow_zero, Nat.div_one, Nat.mod_eq_of_lt h]
theorem list_high {n lo len : Nat} (h : n < 2 ^ 16) (hl : 16 ≤ lo) : field (BitVec.ofNat 32 n) lo len = 0 := by
  apply field_high (k := 16) _ hl
  rw [BitVec.toNat_ofNat]
  exact Nat.lt_of_le_of_lt (Nat.mod_le _ _) h

theorem block_fields {op : Op} {o : Operands} {f : Final} (h : op ∈ opcodes) (hn : op.name ∈ ["ldmCA", "stmCA"])
    (hv : Valid op o) (hf : f.imm = {}) :
    HasFields (encode op o f) (block o.c ((modeOf o.a).bits (decide (op.name = "ldmCA"))).1
      ((modeOf o.a).bits (decide (op.name = "ldmCA"))).2 o.psr.toNat o.writeback.toNat (if op.name = "ldmCA" then 1 else 0)
      o.rn o.rlist) := by
  obtain ⟨t1, t2, -, t4, t5, t6, t7, t8, t9, t10, t11⟩ := block_table op h hn
  have hc := c15 hv
  have hrn : rnOf op o = o.rn := by simp [rnOf, t6]
  have hn' := hv.rn t9
  have hl := hv.rlist t10
  have hs := noS hv t11
  have ha := hv.a
  obtain ⟨md, b1, b2, m1, m2, m3, m4⟩ : ∃ md b1 b2, (if op.has .load then ldmModes.getD o.a 0 else stmModes.getD o.a 0) = md ∧
      (b1, b2) = (modeOf o.a).bits (decide (op.name = "ldmCA")) ∧ field (fld md 23) 24 1 = b1 ∧ field (fld md 23) 23 1 = b2 ∧
      md < 2 ^ 2 := by
    refine ⟨_, ((modeOf o.a).bits (decide (op.name = "ldmCA"))).1, ((modeOf o.a).bits (decide (op.name = "ldmCA"))).2, rfl,
      rfl, ?_⟩
    rw [t7]
    by_cases hl : op.name = "ldmCA"
    · simpa [hl] using ldm_modes ⟨o.a, by omega⟩
    · simpa [hl] using stm_modes ⟨o.a, by omega⟩
  rw [← m2]
  have henc : (if op.has .load then encodeBase op o f ||| fld (ldmModes.getD o.a 0) 23
      else if op.has .store then encodeBase op o f ||| fld (stmModes.getD o.a 0) 23 else encodeBase op o f) =
      encodeBase op o f ||| fld md 23 := by
    rw [← m1, t7, t8]
    by_cases hl : op.name = "ldmCA"
    · simp [hl]
    · have : op.name = "stmCA" := by simpa [hl] using hn
      simp [this]
  have f1 : ∀ lo len, 25 ≤ lo ∨ lo + len ≤ 23 → field (fld md 23) lo len = 0 := fun lo len h =>
    field_fld_ne (k := 2) m4.2 (by omega)
  have l1 := list_low hl
  have l2 := fun lo len h => list_high (lo := lo) (len := len) hl h
  generalize (if op.name = "ldmCA" then 1 else 0) = k at *
  simp only [block, hasFields_cons, hasFields_nil] at t2
  obtain ⟨a1, a2, a3, a4, a5, a6, a7, a8, a9, -⟩ := t2
  have e : encode op o f = orIf (op.has .n) (fld (rnOf op o) 16) (orIf o.writeback (1#32 <<< 21) (orIf o.psr (1#32 <<< 22)
      (encodeBase op o f ||| fld md 23))) ||| BitVec.ofNat 32 o.rlist := by
    rw [← henc]
    simp only [encode, encodeType, hf, t1]
    rfl
  rw [e]
  clear hv t7 t8 t9 t10 t11 henc e m1 m2
  unfold block
  arm_word

set_option maxRecDepth 10000 in
set_option synthInstance.maxSize 1000 in
set_option synthInstance.maxHeartbeats 0 in
theorem push_table : ∀ op ∈ opcodes, op.name ∈ ["pushC", "popC"] →
    op.type = .type11 ∧ HasFields op.encoding (if op.name = "popC" then block 0 0 1 0 1 1 13 0 else block 0 1 0 0 1 0 13 0) ∧
    op.has .immediate = false ∧ op.has .uncond = false ∧ op.has .n = false ∧ op.has .load = false ∧ op.has .store = false ∧
    'R' ∈ op.mask.toList ∧ 'S' ∉ op.name.toList ∧ 'W' ∉ op.mask.toList ∧ 'p' ∉ op.mask.toList := by decide +kernel

theorem push_fields {op : Op} {o : Operands} {f : Final} (h : op ∈ opcodes) (hn : op.name ∈ ["pushC", "popC"])
    (hv : Valid op o) (hf : f.imm = {}) :
    HasFields (encode op o f) (if op.name = "popC" then block o.c 0 1 0 1 1 13 o.rlist else block o.c 1 0 0 1 0 13 o.rlist) := by
  obtain ⟨t1, t2, -, t4, t5, t6, t7, t8, t9, t10, t11⟩ := push_table op h hn
  have hc := c15 hv
  have hl := hv.rlist t8
  have hs := noS hv t9
  have hw : o.writeback = false := by
    cases h : o.writeback
    · rfl
    · exact absurd (hv.writeback h) t10
  have hp : o.psr = false := by
    cases h : o.psr
    · rfl
    · exact absurd (hv.psr h) t11
  have l1 := list_low hl
  have l2 := fun lo len h => list_high (lo := lo) (len := len) hl h
  clear hv
  by_cases hpop : op.name = "popC"
  · simp only [hpop, if_true] at t2 ⊢
    simp only [block, hasFields_cons, hasFields_nil] at t2
    obtain ⟨a1, a2, a3, a4, a5, a6, a7, a8, a9, -⟩ := t2
    unfold block
    arm_word
  · simp only [hpop, if_false] at t2 ⊢
    simp only [block, hasFields_cons, hasFields_nil] at t2
    obtain ⟨a1, a2, a3, a4, a5, a6, a7, a8, a9, -⟩ := t2
    unfold block
    arm_word

/-! ### Coprocessor instructions -/

theorem fk {k v sh : Nat} (h : v < 2 ^ k) (hn : sh + k ≤ 32) : field (BitVec.ofNat 32 v <<< sh) sh k = v := field_fld h hn
theorem fk_ne {k v sh lo len : Nat} (h : v < 2 ^ k) (hd : sh + k ≤ lo ∨ lo + len ≤ sh) :
    field (BitVec.ofNat 32 v <<< sh) lo len = 0 := field_fld_ne h hd

theorem cop_field {b : Bool} {x e : BitVec 32} {v k sh : Nat} (hx : b = true → x = BitVec.ofNat 32 v ∧ v < 2 ^ k)
    (hn : sh + k ≤ 32) : field (orIf b (x <<< sh) e) sh k = field e sh k ||| (if b = true then v else 0) := by
  rw [field_orIf]
  split
  · rename_i hb; rw [(hx hb).1, fk (hx hb).2 hn]
  · rfl
theorem cop_field_ne {b : Bool} {x e : BitVec 32} {v k sh lo len : Nat} (hx : b = true → x = BitVec.ofNat 32 v ∧ v < 2 ^ k)
    (hd : sh + k ≤ lo ∨ lo + len ≤ sh) : field (orIf b (x <<< sh) e) lo len = field e lo len := by
  rw [field_orIf]
  split
  · rename_i hb; rw [(hx hb).1, fk_ne (hx hb).2 hd]; simp
  · simp

set_option maxRecDepth 10000 in
set_option synthInstance.maxSize 1000 in
set_option synthInstance.maxHeartbeats 0 in
theorem cdp_table : ∀ op ∈ opcodes, op.name ∈ ["cdpC", "cdp2"] →
    op.type = .type14 ∧ HasFields op.encoding (cdp (if op.name = "cdp2" then 15 else 0) 0 0 0 0 0 0) ∧
    op.has .immediate = false ∧ op.has .uncond = decide (op.name = "cdp2") ∧ op.has .copop = true ∧
    op.has .copinf = decide ('Z' ∈ op.mask.toList) ∧ 'D' ∈ op.mask.toList ∧ 'N' ∈ op.mask.toList ∧ 'M' ∈ op.mask.toList ∧
    'X' ∈ op.mask.toList ∧ 'S' ∉ op.name.toList := by decide +kernel

theorem cdp_fields {op : Op} {o : Operands} {f : Final} {x y : Nat} (h : op ∈ opcodes) (hn : op.name ∈ ["cdpC", "cdp2"])
    (hv : Valid op o) (hf : f.imm = {}) (hx : f.cpop = BitVec.ofNat 32 x ∧ x < 2 ^ 4)
    (hy : op.has .copinf = true → f.cpinf = BitVec.ofNat 32 y ∧ y < 2 ^ 3) :
    HasFields (encode op o f) (cdp (if op.name = "cdp2" then 15 else o.c) x o.cn o.cd o.pn
      (if 'Z' ∈ op.mask.toList then y else 0) o.cm) := by
  obtain ⟨t1, t2, -, t4, t5, t6, t7, t8, t9, t10, t11⟩ := cdp_table op h hn
  have hc := c15 hv
  have h1 := hv.cd t7
  have h2 := hv.cn t8
  have h3 := hv.cm t9
  have h4 := hv.pn t10
  have hs := noS hv t11
  have e1 : (if 'Z' ∈ op.mask.toList then y else 0) = if op.has .copinf = true then y else 0 := by simp [t6]
  have p1 : field (f.cpop <<< 20) 20 4 = x := by rw [hx.1]; exact fk hx.2 (by decide)
  have p2 : ∀ lo len, 20 + 4 ≤ lo ∨ lo + len ≤ 20 → field (f.cpop <<< 20) lo len = 0 := by
    intro lo len h; rw [hx.1]; exact fk_ne hx.2 h
  have p3 := fun e sh => cop_field (e := e) (sh := sh) hy
  have p4 := fun e sh lo len => cop_field_ne (e := e) (sh := sh) (lo := lo) (len := len) hy
  rw [e1]
  have hsm : Small (!decide (op.name = "cdp2")) o.c := fun _ => hc
  simp only [cdp, hasFields_cons, hasFields_nil] at t2
  obtain ⟨a1, a2, a3, a4, a5, a6, a7, a8, a9, -⟩ := t2
  clear hv t6 t7 t8 t9 t10 t11 e1 hx hy
  unfold cdp
  by_cases h2 : op.name = "cdp2"
  · simp only [h2, if_true, decide_true] at *
    arm_word
  · simp only [h2, if_false, decide_false] at *
    arm_word

set_option maxRecDepth 10000 in
set_option synthInstance.maxSize 1000 in
set_option synthInstance.maxHeartbeats 0 in
theorem mcr_table : ∀ op ∈ opcodes, ∀ l ∈ (mcrOp op.name op.mask).toList,
    op.type = .type16 ∧ HasFields op.encoding (mcr (if op.name = "mcr2" ∨ op.name = "mrc2" then 15 else 0) 0 l 0 0 0 0 0) ∧
    op.has .immediate = false ∧ op.has .uncond = false ∧ op.has .copop = true ∧
    op.has .copinf = decide ('Z' ∈ op.mask.toList) ∧ 'd' ∈ op.mask.toList ∧ 'N' ∈ op.mask.toList ∧ 'M' ∈ op.mask.toList ∧
    'X' ∈ op.mask.toList ∧ 'S' ∉ op.name.toList ∧ (op.name = "mcr2" ∨ op.name = "mrc2" → 'C' ∉ op.name.toList) := by
  decide +kernel

theorem mcr_fields {op : Op} {o : Operands} {f : Final} {x y l : Nat} (h : op ∈ opcodes) (hl : mcrOp op.name op.mask = some l)
    (hv : Valid op o) (hf : f.imm = {}) (hx : f.cpop = BitVec.ofNat 32 x ∧ x < 2 ^ 3)
    (hy : op.has .copinf = true → f.cpinf = BitVec.ofNat 32 y ∧ y < 2 ^ 3) :
    HasFields (encode op o f) (mcr (if op.name = "mcr2" ∨ op.name = "mrc2" then 15 else o.c) x l o.cn o.rd o.pn
      (if 'Z' ∈ op.mask.toList then y else 0) o.cm) := by
  obtain ⟨t1, t2, -, t4, t5, t6, t7, t8, t9, t10, t11, t12⟩ := mcr_table op h l (by simp [hl])
  have hc := c15 hv
  have h1 := hv.rd t7
  have h2 := hv.cn t8
  have h3 := hv.cm t9
  have h4 := hv.pn t10
  have hs := noS hv t11
  have hc0 := fun h => hv.noC (t12 h)
  have e1 : (if 'Z' ∈ op.mask.toList then y else 0) = if op.has .copinf = true then y else 0 := by simp [t6]
  have p1 : field (f.cpop <<< 21) 21 3 = x := by rw [hx.1]; exact fk hx.2 (by decide)
  have p2 : ∀ lo len, 21 + 3 ≤ lo ∨ lo + len ≤ 21 → field (f.cpop <<< 21) lo len = 0 := by
    intro lo len h; rw [hx.1]; exact fk_ne hx.2 h
  have p3 := fun e sh => cop_field (e := e) (sh := sh) hy
  have p4 := fun e sh lo len => cop_field_ne (e := e) (sh := sh) (lo := lo) (len := len) hy
  rw [e1]
  simp only [mcr, hasFields_cons, hasFields_nil] at t2
  obtain ⟨a1, a2, a3, a4, a5, a6, a7, a8, a9, a10, -⟩ := t2
  clear hv t6 t7 t8 t9 t10 t11 t12 e1 hx hy
  unfold mcr
  by_cases h2 : op.name = "mcr2" ∨ op.name = "mrc2"
  · have hc0 := hc0 h2
    have z1 : ∀ lo len, field (fld 0 28) lo len = 0 := fun lo len => by simp [fld, field]
    simp only [h2, if_true] at a1 ⊢
    clear h2
    arm_word
  · simp only [h2, if_false] at a1 ⊢
    clear hc0 h2
    arm_word

set_option maxRecDepth 10000 in
set_option synthInstance.maxSize 1000 in
set_option synthInstance.maxHeartbeats 0 in
theorem mcrr_table : ∀ op ∈ opcodes, op.name ∈ ["mcrrC", "mrrcC"] →
    op.type = .type17 ∧ HasFields op.encoding (mcrr 0 (if op.name = "mrrcC" then 1 else 0) 0 0 0 0 0) ∧
    op.has .immediate = false ∧ op.has .uncond = false ∧ op.has .copop = true ∧ op.has .dn = false ∧
    'd' ∈ op.mask.toList ∧ 'n' ∈ op.mask.toList ∧ 'M' ∈ op.mask.toList ∧
    'X' ∈ op.mask.toList ∧ 'S' ∉ op.name.toList := by decide +kernel

theorem mcrr_fields {op : Op} {o : Operands} {f : Final} {x : Nat} (h : op ∈ opcodes) (hn : op.name ∈ ["mcrrC", "mrrcC"])
    (hv : Valid op o) (hf : f.imm = {}) (hx : f.cpop = BitVec.ofNat 32 x ∧ x < 2 ^ 4) :
    HasFields (encode op o f) (mcrr o.c (if op.name = "mrrcC" then 1 else 0) o.rn o.rd o.pn x o.cm) := by
  obtain ⟨t1, t2, -, t4, t5, t6, t7, t8, t9, t10, t11⟩ := mcrr_table op h hn
  have hc := c15 hv
  have h1 := hv.rd t7
  have h2 := hv.rn t8
  have h3 := hv.cm t9
  have h4 := hv.pn t10
  have hs := noS hv t11
  have hrn : rnOf op o = o.rn := by simp [rnOf, t6]
  have p1 : field (f.cpop <<< 4) 4 4 = x := by rw [hx.1]; exact fk hx.2 (by decide)
  have p2 : ∀ lo len, 4 + 4 ≤ lo ∨ lo + len ≤ 4 → field (f.cpop <<< 4) lo len = 0 := by
    intro lo len h; rw [hx.1]; exact fk_ne hx.2 h
  generalize (if op.name = "mrrcC" then 1 else 0) = k at *
  simp only [mcrr, hasFields_cons, hasFields_nil] at t2
  obtain ⟨a1, a2, a3, a4, a5, a6, a7, a8, -⟩ := t2
  clear hv t7 t8 t9 t10 t11 hx
  unfold mcrr
  arm_word

/-! ### Software interrupts -/

set_option maxRecDepth 10000 in
set_option synthInstance.maxSize 1000 in
set_option synthInstance.maxHeartbeats 0 in
theorem swi_table : ∀ op ∈ opcodes, op.name = "swiC" →
    op.type = .type13 ∧ HasFields op.encoding (Spec.Arm.swi 0 0) ∧ op.has .immediate = true ∧ op.has .uncond = false ∧
    op.has .swi = true ∧ op.has .shift = false ∧ op.has .pool = false ∧ op.has .branch = false ∧ op.has .absimm = false ∧
    op.has .abs = false ∧ immediateBits op.mask.toList = 24 ∧ op.has .copop = false ∧ op.has .copinf = false ∧
    op.has .rdeven = false ∧ 'S' ∉ op.name.toList ∧
    'S' ∉ op.mask.toList ∧ 'z' ∉ op.mask.toList ∧ 'Y' ∉ op.mask.toList := by decide +kernel

theorem swi_fields {op : Op} {o : Operands} {f : Final} (h : op ∈ opcodes) (hn : op.name = "swiC")
    (hv : Valid op o) (hf : f.imm.encoding = none) (has : f.imm.asMov = false) (hx : f.imm.value.toNat < 2 ^ 24) :
    HasFields (encode op o f) (Spec.Arm.swi o.c f.imm.value.toNat) := by
  obtain ⟨t1, t2, t3, t4, t5, t6, t7, t8, t9, t10, t11, -, -, -, t12, -, -, -⟩ := swi_table op h hn
  have hc := c15 hv
  have hs := noS hv t12
  have p1 := field_low hx
  have p2 : ∀ lo len, 24 ≤ lo → field f.imm.value lo len = 0 := fun lo len h => field_high hx h
  simp only [Spec.Arm.swi, hasFields_cons, hasFields_nil] at t2
  obtain ⟨a1, a2, a3, -⟩ := t2
  clear hv
  unfold Spec.Arm.swi
  arm_word

set_option maxRecDepth 10000 in
set_option synthInstance.maxSize 1000 in
set_option synthInstance.maxHeartbeats 0 in
theorem bkpt_table : ∀ op ∈ opcodes, op.name = "bkpt" →
    op.type = .type13 ∧ HasFields op.encoding (Spec.Arm.bkpt 0) ∧ op.has .immediate = true ∧ op.has .uncond = true ∧
    op.has .swi = false ∧ op.has .shift = false ∧ op.has .pool = false ∧ op.has .branch = false ∧ op.has .absimm = false ∧
    op.has .abs = false ∧ immediateBits op.mask.toList = 16 ∧ op.has .copop = false ∧ op.has .copinf = false ∧
    op.has .rdeven = false ∧ 'S' ∉ op.name.toList ∧
    'S' ∉ op.mask.toList ∧ 'z' ∉ op.mask.toList ∧ 'Y' ∉ op.mask.toList := by decide +kernel

theorem bkpt_fields {op : Op} {o : Operands} {f : Final} (h : op ∈ opcodes) (hn : op.name = "bkpt")
    (hv : Valid op o) (hf : f.imm.encoding = none) (has : f.imm.asMov = false) (hx : f.imm.value.toNat < 2 ^ 16) :
    HasFields (encode op o f) (Spec.Arm.bkpt f.imm.value.toNat) := by
  obtain ⟨t1, t2, t3, t4, t5, t6, t7, t8, t9, t10, t11, -, -, -, t12, -, -, -⟩ := bkpt_table op h hn
  have hs := noS hv t12
  have e1 : f.imm.value &&& 0xF#32 = BitVec.ofNat 32 (f.imm.value.toNat % 16) := by
    apply BitVec.eq_of_toNat_eq
    simp only [BitVec.toNat_and, BitVec.toNat_ofNat]
    rw [show 15 % 2 ^ 32 = 2 ^ 4 - 1 by decide, Nat.and_two_pow_sub_one_eq_mod]
    omega
  have e2 : f.imm.value.sshiftRight 4 = BitVec.ofNat 32 (f.imm.value.toNat / 16) := by
    rw [BitVec.sshiftRight_eq_of_msb_false]
    · apply BitVec.eq_of_toNat_eq
      simp only [BitVec.toNat_ushiftRight, BitVec.toNat_ofNat, Nat.shiftRight_eq_div_pow]
      omega
    · rw [BitVec.msb_eq_decide]
      simp only [decide_eq_false_iff_not]
      omega
  have b1 : f.imm.value.toNat % 16 ≤ 15 := by omega
  have b2 : f.imm.value.toNat / 16 < 2 ^ 12 := by omega
  unfold Spec.Arm.bkpt
  generalize f.imm.value.toNat / 16 = hi at *
  generalize f.imm.value.toNat % 16 = lo' at *
  have q1 : field (BitVec.ofNat 32 lo') 0 4 = lo' := by
    simpa using fk (k := 4) (sh := 0) (by omega : lo' < 2 ^ 4) (by decide)
  have q2 : ∀ lo len, 4 ≤ lo → field (BitVec.ofNat 32 lo') lo len = 0 := by
    intro lo len h
    simpa using fk_ne (k := 4) (sh := 0) (lo := lo) (len := len) (by omega : lo' < 2 ^ 4) (by omega)
  have p1 := fk b2 (sh := 8) (by decide)
  have p2 := fun lo len h => fk_ne (sh := 8) (lo := lo) (len := len) b2 h
  simp only [Spec.Arm.bkpt, hasFields_cons, hasFields_nil] at t2
  obtain ⟨a1, a2, a3, a4, a5, -⟩ := t2
  clear hv
  arm_word

end Armips.Arm
