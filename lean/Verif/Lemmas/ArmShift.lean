import Verif.Lemmas.ArmRows
/-! Data processing instructions with a register as second operand. -/
namespace Armips.Arm
open Spec Spec.Arm Spec.Instr

theorem toInt32 {v : Int} (h1 : -2 ^ 31 ≤ v) (h2 : v < 2 ^ 31) : (BitVec.ofInt 32 v).toInt = v := by
  rw [BitVec.toInt_ofInt, Int.bmod_def]
  split <;> omega

/-- The encoded type and amount mean the shift that was written. -/
theorem shiftFinal_ok {t : Nat} {v : Int} {r : Nat × Nat} (ht : t ≤ 4) (h1 : -2 ^ 31 ≤ v) (h2 : v < 2 ^ 31)
    (h : shiftFinal t (BitVec.ofInt 32 v) = .ok r) (hror : ¬ (t = 3 ∧ v = 32)) :
    r.1 ≤ 3 ∧ r.2 ≤ 31 ∧ ∀ x c, decodeShift r.1 r.2 x c = shiftBy (shiftName t) v x c ∧
      (shiftBy (shiftName t) v x c).isSome = true := by
  unfold shiftFinal at h
  rw [toInt32 h1 h2] at h
  obtain ⟨m, a⟩ := r
  by_cases hz : v = 0
  · subst hz
    rcases (by omega : t = 0 ∨ t = 1 ∨ t = 2 ∨ t = 3 ∨ t = 4) with rfl | rfl | rfl | rfl | rfl <;> simp at h <;>
      obtain ⟨rfl, rfl⟩ := h <;> simp [decodeShift, shiftBy, shiftName]
  · by_cases h32 : v = 32
    · subst h32
      rcases (by omega : t = 0 ∨ t = 1 ∨ t = 2 ∨ t = 3 ∨ t = 4) with rfl | rfl | rfl | rfl | rfl
      · simp at h
      · simp at h
        obtain ⟨rfl, rfl⟩ := h
        simp [decodeShift, shiftBy, shiftName]
      · simp at h
        obtain ⟨rfl, rfl⟩ := h
        simp [decodeShift, shiftBy, shiftName]
      · simp at hror
      · simp at h
    · by_cases ht4 : t = 4
      · subst ht4
        by_cases hv1 : v = 1
        · subst hv1
          simp at h
          obtain ⟨rfl, rfl⟩ := h
          simp [decodeShift, shiftBy, shiftName]
        · simp [hz, hv1, h32] at h
      · simp only [hz, h32, ht4, false_and, if_false] at h
        split at h
        · simp at h
        · rename_i hr
          simp only [Except.ok.injEq, Prod.mk.injEq] at h
          obtain ⟨rfl, rfl⟩ := h
          refine ⟨by omega, by omega, ?_⟩
          intro x c
          obtain ⟨k, rfl⟩ : ∃ k : Nat, v = k := ⟨v.toNat, by omega⟩
          have hk0 : k ≠ 0 := by omega
          have hk1 : 0 < k := by omega
          have hk2 : k < 32 := by omega
          have hk3 : k ≤ 32 := by omega
          rcases (by omega : t = 0 ∨ t = 1 ∨ t = 2 ∨ t = 3) with rfl | rfl | rfl | rfl <;>
            simp [decodeShift, shiftBy, shiftName, hk0, hk1, hk2, hk3] <;> omega

/-- A shift that exists is accepted. -/
theorem shiftFinal_some {t : Nat} {v : Int} (ht : t ≤ 4) (h1 : -2 ^ 31 ≤ v) (h2 : v < 2 ^ 31)
    (h : ∀ x c, (shiftBy (shiftName t) v x c).isSome = true) : ∃ r, shiftFinal t (BitVec.ofInt 32 v) = .ok r := by
  have h := h 0 false
  unfold shiftFinal
  rw [toInt32 h1 h2]
  have hr : 0 ≤ v ∧ v ≤ 32 ∧ (t = 0 → v ≠ 32) ∧ (t = 4 → v = 1) := by
    rcases (by omega : t = 0 ∨ t = 1 ∨ t = 2 ∨ t = 3 ∨ t = 4) with rfl | rfl | rfl | rfl | rfl <;>
      simp only [shiftName, shiftBy] at h <;> (repeat' split at h) <;> simp at h <;> omega
  rcases (by omega : t = 0 ∨ t = 1 ∨ t = 2 ∨ t = 3 ∨ t = 4) with rfl | rfl | rfl | rfl | rfl
  · have h32 := hr.2.2.1 rfl
    by_cases hz : v = 0
    · subst hz; exact ⟨_, rfl⟩
    · refine ⟨(0, v.toNat), ?_⟩
      simp [hz, h32]
      omega
  · by_cases hz : v = 0
    · subst hz; exact ⟨_, rfl⟩
    · by_cases h32 : v = 32
      · subst h32; exact ⟨_, rfl⟩
      · refine ⟨(1, v.toNat), ?_⟩
        simp [hz, h32]
        omega
  · by_cases hz : v = 0
    · subst hz; exact ⟨_, rfl⟩
    · by_cases h32 : v = 32
      · subst h32; exact ⟨_, rfl⟩
      · refine ⟨(2, v.toNat), ?_⟩
        simp [hz, h32]
        omega
  · by_cases hz : v = 0
    · subst hz; exact ⟨_, rfl⟩
    · refine ⟨(3, v.toNat), ?_⟩
      simp [hz]
      omega
  · have := hr.2.2.2 rfl
    subst this
    exact ⟨_, rfl⟩

/-- Rows whose second operand is a register. -/
structure RegOp (op : Op) (o : Operands) (n t : Nat) : Prop where
  type : op.type = .type5
  imm : op.has .immediate = false
  register : op.has .register = true
  uncond : op.has .uncond = false
  enc : HasFields op.encoding (dataRegister 0 n t 0 0 0 0 0)
  rn : Small (op.has .n) (rnOf op o)
  rd : Small (op.has .d) o.rd
  rm : rmOf op o ≤ 15

theorem regOp_plain {op : Op} {o : Operands} {f : Final} {n t : Nat} (hc : o.c ≤ 15) (r : RegOp op o n t) (hf : f.imm = {})
    (hs : o.shift = none) : HasFields (encode op o f) (dataRegister o.c n (t ||| o.s.toNat)
      (if op.has .n = true then rnOf op o else 0) (if op.has .d = true then o.rd else 0) 0 0 (rmOf op o)) := by
  obtain ⟨t1, t2, t3, t4, t5, t6, t7, t8⟩ := r
  simp only [dataRegister, hasFields_cons, hasFields_nil] at t5
  obtain ⟨a1, a2, a3, a4, a5, a6, a7, a8, a9, a10, a11, -⟩ := t5
  unfold dataRegister
  arm_word

theorem regOp_const {op : Op} {o : Operands} {f : Final} {n t type amount : Nat} {s : Shift} (hc : o.c ≤ 15)
    (r : RegOp op o n t) (hf : f.imm = {}) (hs : o.shift = some s) (hb : s.byRegister = false)
    (hsh : f.shift = some (type, amount)) (ht : type ≤ 3) (ha : amount ≤ 31) :
    HasFields (encode op o f) (dataRegister o.c n (t ||| o.s.toNat)
      (if op.has .n = true then rnOf op o else 0) (if op.has .d = true then o.rd else 0) amount type (rmOf op o)) := by
  obtain ⟨t1, t2, t3, t4, t5, t6, t7, t8⟩ := r
  have p1 : field (fld amount 7) 7 5 = amount := field_fld (by omega) (by decide)
  have p2 : ∀ lo len, 7 + 5 ≤ lo ∨ lo + len ≤ 7 → field (fld amount 7) lo len = 0 := fun lo len h =>
    field_fld_ne (k := 5) (by omega) h
  have p3 : field (fld type 5) 5 2 = type := field_fld (by omega) (by decide)
  have p4 : ∀ lo len, 5 + 2 ≤ lo ∨ lo + len ≤ 5 → field (fld type 5) lo len = 0 := fun lo len h =>
    field_fld_ne (k := 2) (by omega) h
  simp only [dataRegister, hasFields_cons, hasFields_nil] at t5
  obtain ⟨a1, a2, a3, a4, a5, a6, a7, a8, a9, a10, a11, -⟩ := t5
  have e1 : shiftAmount f = amount := by simp [shiftAmount, hsh]
  have e2 : shiftType o f = type := by simp [shiftType, hsh]
  clear hsh
  unfold dataRegister
  arm_word

theorem regOp_reg {op : Op} {o : Operands} {f : Final} {n t : Nat} {s : Shift} (hc : o.c ≤ 15)
    (r : RegOp op o n t) (hf : f.imm = {}) (hs : o.shift = some s) (hb : s.byRegister = true)
    (hsh : f.shift = none) (ht : s.type ≤ 3) (ha : s.reg ≤ 15) :
    HasFields (encode op o f) (dataRegisterRegister o.c n (t ||| o.s.toNat)
      (if op.has .n = true then rnOf op o else 0) (if op.has .d = true then o.rd else 0) s.reg s.type (rmOf op o)) := by
  obtain ⟨t1, t2, t3, t4, t5, t6, t7, t8⟩ := r
  have p1 : field (fld s.reg 8) 8 4 = s.reg := field_fld (by omega) (by decide)
  have p2 : ∀ lo len, 8 + 4 ≤ lo ∨ lo + len ≤ 8 → field (fld s.reg 8) lo len = 0 := fun lo len h =>
    field_fld_ne (k := 4) (by omega) h
  have p3 : field (fld s.type 5) 5 2 = s.type := field_fld (by omega) (by decide)
  have p4 : ∀ lo len, 5 + 2 ≤ lo ∨ lo + len ≤ 5 → field (fld s.type 5) lo len = 0 := fun lo len h =>
    field_fld_ne (k := 2) (by omega) h
  have q1 : field (1#32 <<< 4) 4 1 = 1 := bit_eq (by decide)
  have q2 : ∀ lo len, 4 + 1 ≤ lo ∨ lo + len ≤ 4 → field (1#32 <<< 4) lo len = 0 := fun lo len h => bit_ne h
  simp only [dataRegister, hasFields_cons, hasFields_nil] at t5
  obtain ⟨a1, a2, a3, a4, a5, a6, a7, a8, a9, a10, a11, -⟩ := t5
  have e2 : shiftType o f = s.type := by simp [shiftType, hsh, hs]
  have z1 : field op.encoding 8 4 = 0 := by
    unfold field at a8 ⊢
    omega
  have z2 : field op.encoding 7 1 = 0 := by
    unfold field at a8 ⊢
    omega
  clear hsh
  unfold dataRegisterRegister
  arm_word

set_option maxRecDepth 10000 in
set_option synthInstance.maxSize 1000 in
set_option synthInstance.maxHeartbeats 0 in
theorem dataReg_table : ∀ op ∈ opcodes, op.mask ∈ dataRegisterSyntax → ∀ n ∈ (opcode op.name).toList,
    op.type = .type5 ∧ HasFields op.encoding (dataRegister 0 n (isTest n).toNat 0 0 0 0 0) ∧ op.has .immediate = false ∧
    op.has .register = true ∧ op.has .uncond = false ∧ op.has .d = !isTest n ∧ op.has .n = !(n == 13 || n == 15) ∧
    op.has .dn = (op.mask == "d0,m0S0" && !(n == 13 || n == 15)) ∧ op.has .dm = false ∧
    (isTest n = false → 'd' ∈ op.mask.toList) ∧
    ((n == 13 || n == 15) = false → op.mask ≠ "d0,m0S0" → 'n' ∈ op.mask.toList) ∧
    (op.mask = "d0,m0S0" → 'd' ∈ op.mask.toList) ∧ 'm' ∈ op.mask.toList ∧
    ('S' ∈ op.name.toList → isTest n = false) := by decide +kernel

theorem dataReg_row {op : Op} {o : Operands} {n : Nat} (h : op ∈ opcodes) (hm : op.mask ∈ dataRegisterSyntax)
    (hn : opcode op.name = some n) (hv : Valid op o) :
    RegOp op o n (isTest n).toNat ∧ rmOf op o = o.rm ∧
    (if op.has .n = true then rnOf op o else 0) = firstRegister op o n ∧
    (if op.has .d = true then o.rd else 0) = (if isTest n = true then 0 else o.rd) ∧
    (isTest n).toNat ||| o.s.toNat = (o.s || isTest n).toNat := by
  obtain ⟨t1, t2, t3, t4, t5, t6, t7, t8, t9, t10, t11, t12, t13, t14⟩ := dataReg_table op h hm n (by simp [hn])
  have hrm : rmOf op o = o.rm := by simp [rmOf, t9]
  refine ⟨⟨t1, t3, t4, t5, t2, ?_, ?_, ?_⟩, hrm, ?_, ?_, ?_⟩
  · intro hN
    rw [t7] at hN
    simp only [Bool.not_eq_true'] at hN
    unfold rnOf
    rw [t8, hN]
    by_cases hmk : op.mask = "d0,m0S0"
    · simp [hmk, hv.rd (t12 hmk)]
    · simp [hmk, hv.rn (t11 hN hmk)]
  · intro hD
    rw [t6] at hD
    exact hv.rd (t10 (by simpa using hD))
  · rw [hrm]; exact hv.rm t13
  · unfold rnOf firstRegister
    rw [t7, t8]
    by_cases h13 : (n == 13 || n == 15) = true
    · simp [h13]
    · have h13' : (n == 13 || n == 15) = false := by simpa using h13
      rw [h13']
      by_cases hmk : op.mask = "d0,m0S0" <;> simp [hmk]
  · rw [t6]; cases isTest n <;> rfl
  · cases isTest n <;> cases o.s <;> rfl

set_option maxRecDepth 10000 in
set_option synthInstance.maxSize 1000 in
set_option synthInstance.maxHeartbeats 0 in
theorem pseudo_table : ∀ op ∈ opcodes, ∀ k ∈ (pseudoOp op.name).toList,
    op.type = .type5 ∧ HasFields op.encoding (dataRegister 0 13 0 0 0 0 0 0) ∧ op.has .immediate = false ∧
    op.has .register = true ∧ op.has .uncond = false ∧ op.has .d = true ∧ op.has .n = false ∧
    op.has .dm = decide ('m' ∉ op.mask.toList) ∧ 'd' ∈ op.mask.toList ∧ 'z' ∈ op.mask.toList ∧
    shiftName (pseudoShift op.mask.toList) = k ∧ pseudoShift op.mask.toList ≤ 3 := by decide +kernel

theorem pseudo_row {op : Op} {o : Operands} {k : ShiftOp} (h : op ∈ opcodes) (hk : pseudoOp op.name = some k) (hv : Valid op o) :
    RegOp op o 13 0 ∧ op.has .n = false ∧ op.has .d = true ∧ rmOf op o = (if 'm' ∈ op.mask.toList then o.rm else o.rd) ∧
    ∃ s, o.shift = some s ∧ shiftName s.type = k ∧ s.type ≤ 3 := by
  obtain ⟨t1, t2, t3, t4, t5, t6, t7, t8, t9, t10, t11, t12⟩ := pseudo_table op h k (by simp [hk])
  have hrm : rmOf op o = (if 'm' ∈ op.mask.toList then o.rm else o.rd) := by
    unfold rmOf
    rw [t8]
    by_cases hm : 'm' ∈ op.mask.toList <;> simp [hm]
  refine ⟨⟨t1, t3, t4, t5, t2, ?_, fun _ => hv.rd t9, ?_⟩, t7, t6, hrm, ?_⟩
  · intro hN; rw [t7] at hN; exact absurd hN (by decide)
  · rw [hrm]
    split
    · rename_i hm; exact hv.rm hm
    · exact hv.rd t9
  · obtain ⟨s, h1, h2⟩ := hv.pseudo t10
    exact ⟨s, h1, by rw [h2, t11], by omega⟩

end Armips.Arm
