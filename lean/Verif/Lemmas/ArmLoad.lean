import Verif.Lemmas.ArmShift
/-! Loads and stores. -/
namespace Armips.Arm
open Spec Spec.Arm Spec.Instr

theorem small_true {b : Bool} {v : Nat} (h : v ≤ 15) : Small b v := fun _ => h

/-- Rows of type 9. -/
structure LoadRow (op : Op) (o : Operands) (k i p b w l rn rd : Nat) : Prop where
  type : op.type = .type9
  enc : HasFields op.encoding (loadStore k i p 1 b w l rn rd (offset12 0))
  n : Small (op.has .n) (rnOf op o)
  d : Small (op.has .d) o.rd
  s : o.s = false

/-- The first ten fields of a word of type 9. -/
def loadHead (op : Op) (o : Operands) (k i p b w l rn rd u : Nat) (off : List (Nat × Nat × Nat)) : List (Nat × Nat × Nat) :=
  loadStore (k ||| if (!op.has .uncond) = true then o.c else 0) i p u b (w ||| o.writeback.toNat) l
    (rn ||| if op.has .n = true then rnOf op o else 0) (rd ||| if op.has .d = true then o.rd else 0) off

macro "load_word" : tactic => `(tactic|
  simp [encodeType, hasFields_cons, hasFields_nil, field_or, ob, ob_ne, of4, of4_ne, f4, f4_ne,
    field_clearU, field_clearU_ne, *, -BitVec.reduceShiftLeft, -BitVec.reduceHShiftLeft, -BitVec.reduceHShiftLeft'])

theorem load_none {op : Op} {o : Operands} {f : Final} {k i p b w l rn rd : Nat} (hc : o.c ≤ 15)
    (r : LoadRow op o k i p b w l rn rd) (hf : f.imm = {}) (hi : op.has .immediate = false) (hr : op.has .register = false)
    (hsg : op.has .sign = false) : HasFields (encode op o f) (loadHead op o k i p b w l rn rd 1 (offset12 0)) := by
  obtain ⟨t1, t2, t3, t4, t5⟩ := r
  have hc' : Small (!op.has .uncond) o.c := small_true hc
  simp only [loadStore, offset12, List.cons_append, List.nil_append, hasFields_cons, hasFields_nil] at t2
  obtain ⟨a1, a2, a3, a4, a5, a6, a7, a8, a9, a10, a11, -⟩ := t2
  simp only [loadHead, loadStore, offset12, List.cons_append, List.nil_append]
  unfold encode encodeBase
  generalize (!op.has .uncond) = un at *
  load_word

/-- The offset is subtracted. -/
def subtracts (op : Op) (f : Final) : Bool := (op.has .abs && f.imm.negative) || decide (f.imm.value.toInt < 0)

theorem clearU_clearU (a b : Bool) (e : BitVec 32) : clearU a (clearU b e) = clearU (b || a) e := by
  cases a <;> cases b <;> simp [clearU, BitVec.and_assoc]

theorem load_const {op : Op} {o : Operands} {f : Final} {k i p b w l rn rd : Nat} (hc : o.c ≤ 15)
    (r : LoadRow op o k i p b w l rn rd) (h1 : f.imm.asMov = false) (h2 : f.imm.encoding = none)
    (h3 : (offset f).toNat < 2 ^ 12) (hi : op.has .immediate = true)
    (hsg : op.has .sign = false) : HasFields (encode op o f)
      (loadHead op o k i p b w l rn rd (if subtracts op f = true then 0 else 1) (offset12 (offset f).toNat)) := by
  obtain ⟨t1, t2, t3, t4, t5⟩ := r
  have hc' : Small (!op.has .uncond) o.c := small_true hc
  have q1 := field_low h3
  have q2 : ∀ lo len, 12 ≤ lo → field (offset f) lo len = 0 := fun lo len h => field_high h3 h
  simp only [loadStore, offset12, List.cons_append, List.nil_append, hasFields_cons, hasFields_nil] at t2
  obtain ⟨a1, a2, a3, a4, a5, a6, a7, a8, a9, a10, a11, -⟩ := t2
  simp only [loadHead, loadStore, offset12, List.cons_append, List.nil_append]
  unfold encode encodeBase
  simp only [h1, Bool.false_eq_true, if_false, t1, encodeType, hi, if_true, clearU_clearU, hsg, Bool.false_and,
    Bool.false_or]
  rw [show (op.has .abs && f.imm.negative || decide (f.imm.value.toInt < 0)) = subtracts op f from rfl]
  generalize (!op.has .uncond) = un at *
  load_word

theorem load_reg {op : Op} {o : Operands} {f : Final} {k i p b w l rn rd type amount : Nat} (hc : o.c ≤ 15)
    (r : LoadRow op o k i p b w l rn rd) (hf : f.imm = {}) (hi : op.has .immediate = false) (hr : op.has .register = true)
    (hsg : op.has .sign = true) (hab : op.has .abs = false)
    (hsh : (o.shift = none ∧ type = 0 ∧ amount = 0) ∨
      (∃ s, o.shift = some s ∧ shiftType o f = type ∧ shiftAmount f = amount))
    (ht : type ≤ 3) (ha : amount ≤ 31) (hm : rmOf op o ≤ 15) : HasFields (encode op o f)
      (loadHead op o k i p b w l rn rd o.signPlus.toNat (offsetRegister amount type (rmOf op o))) := by
  obtain ⟨t1, t2, t3, t4, t5⟩ := r
  have hc' : Small (!op.has .uncond) o.c := small_true hc
  have p1 : field (fld amount 7) 7 5 = amount := field_fld (by omega) (by decide)
  have p2 : ∀ lo len, 7 + 5 ≤ lo ∨ lo + len ≤ 7 → field (fld amount 7) lo len = 0 := fun lo len h =>
    field_fld_ne (k := 5) (by omega) h
  have p3 : field (fld type 5) 5 2 = type := field_fld (by omega) (by decide)
  have p4 : ∀ lo len, 5 + 2 ≤ lo ∨ lo + len ≤ 5 → field (fld type 5) lo len = 0 := fun lo len h =>
    field_fld_ne (k := 2) (by omega) h
  simp only [loadStore, offset12, List.cons_append, List.nil_append, hasFields_cons, hasFields_nil] at t2
  obtain ⟨a1, a2, a3, a4, a5, a6, a7, a8, a9, a10, a11, -⟩ := t2
  have z1 : field op.encoding 7 5 = 0 := by unfold field at a11 ⊢; omega
  have z2 : field op.encoding 5 2 = 0 := by unfold field at a11 ⊢; omega
  have z3 : field op.encoding 4 1 = 0 := by unfold field at a11 ⊢; omega
  have z4 : field op.encoding 0 4 = 0 := by unfold field at a11 ⊢; omega
  have e : (match o.shift with
        | none => clearU (!o.signPlus) (orIf (op.has .d) (fld o.rd 12) (orIf (op.has .n) (fld (rnOf op o) 16)
            (orIf o.writeback (1#32 <<< 21) (encodeBase op o f))))
        | some _ => clearU (!o.signPlus) (orIf (op.has .d) (fld o.rd 12) (orIf (op.has .n) (fld (rnOf op o) 16)
            (orIf o.writeback (1#32 <<< 21) (encodeBase op o f)))) ||| fld (shiftAmount f) 7 ||| fld (shiftType o f) 5) =
      clearU (!o.signPlus) (orIf (op.has .d) (fld o.rd 12) (orIf (op.has .n) (fld (rnOf op o) 16)
            (orIf o.writeback (1#32 <<< 21) (encodeBase op o f)))) ||| fld amount 7 ||| fld type 5 := by
    rcases hsh with ⟨h1, rfl, rfl⟩ | ⟨s, h1, h2, h3⟩
    · simp [h1, fld]
    · simp [h1, h2, h3]
  have e' : encode op o f = clearU (!o.signPlus) (orIf (op.has .d) (fld o.rd 12) (orIf (op.has .n) (fld (rnOf op o) 16)
            (orIf o.writeback (1#32 <<< 21) (encodeBase op o f)))) ||| fld amount 7 ||| fld type 5 ||| fld (rmOf op o) 0 := by
    rw [← e]
    simp only [encode, hf, t1, encodeType, hi, hr, hsg, hab, clearU_clearU, Bool.false_and, Bool.or_false, Bool.true_and,
      Bool.false_eq_true, if_false, if_true]
    cases o.shift <;> rfl
  rw [e']
  clear e e' hsh
  simp only [loadHead, loadStore, offsetRegister, List.cons_append, List.nil_append]
  unfold encodeBase
  generalize (!op.has .uncond) = un at *
  cases o.signPlus <;> load_word

/-- Rows of type 10. -/
structure MiscRow (op : Op) (o : Operands) (p i w l sh rn : Nat) : Prop where
  type : op.type = .type10
  enc : HasFields op.encoding (loadStoreMisc 0 p 1 i w l rn 0 0 sh 0)
  uncond : op.has .uncond = false
  n : rnOf op o ≤ 15
  d : o.rd ≤ 15
  s : o.s = false

def miscHead (op : Op) (o : Operands) (p i w l sh rn u hi lo : Nat) : List (Nat × Nat × Nat) :=
  loadStoreMisc o.c p u i (w ||| o.writeback.toNat) l (rn ||| rnOf op o) o.rd hi sh lo

theorem misc_none {op : Op} {o : Operands} {f : Final} {p i w l sh rn : Nat} (hc : o.c ≤ 15)
    (r : MiscRow op o p i w l sh rn) (hf : f.imm = {}) (hi : op.has .immediate = false) (hr : op.has .register = false)
    (hsg : op.has .sign = false) : HasFields (encode op o f) (miscHead op o p i w l sh rn 1 0 0) := by
  obtain ⟨t1, t2, t3, t4, t5, t6⟩ := r
  simp only [loadStoreMisc, hasFields_cons, hasFields_nil] at t2
  obtain ⟨a1, a2, a3, a4, a5, a6, a7, a8, a9, a10, a11, a12, a13, a14, -⟩ := t2
  simp only [miscHead, loadStoreMisc]
  unfold encode encodeBase
  simp only [t3, Bool.not_false, orIf_true]
  load_word

theorem misc_reg {op : Op} {o : Operands} {f : Final} {p i w l sh rn : Nat} (hc : o.c ≤ 15)
    (r : MiscRow op o p i w l sh rn) (hf : f.imm = {}) (hi : op.has .immediate = false) (hr : op.has .register = true)
    (hm : rmOf op o ≤ 15) (hab : op.has .abs = false) :
    HasFields (encode op o f) (miscHead op o p i w l sh rn (if op.has .sign && !o.signPlus then 0 else 1) 0 (rmOf op o)) := by
  obtain ⟨t1, t2, t3, t4, t5, t6⟩ := r
  simp only [loadStoreMisc, hasFields_cons, hasFields_nil] at t2
  obtain ⟨a1, a2, a3, a4, a5, a6, a7, a8, a9, a10, a11, a12, a13, a14, -⟩ := t2
  simp only [miscHead, loadStoreMisc]
  unfold encode encodeBase
  simp only [t3, Bool.not_false, orIf_true, hf, Bool.false_eq_true, if_false, t1, encodeType, hi, hr, if_true, clearU_clearU,
    hab, Bool.false_and, Bool.or_false]
  generalize (op.has .sign && !o.signPlus) = sg at *
  load_word

theorem misc_const {op : Op} {o : Operands} {f : Final} {p i w l sh rn : Nat} (hc : o.c ≤ 15)
    (r : MiscRow op o p i w l sh rn) (h1 : f.imm.asMov = false) (h2 : f.imm.encoding = none)
    (h3 : (offset f).toNat < 2 ^ 8) (hi : op.has .immediate = true) (hsg : op.has .sign = false) :
    HasFields (encode op o f) (miscHead op o p i w l sh rn (if subtracts op f = true then 0 else 1)
      ((offset f).toNat / 16) ((offset f).toNat % 16)) := by
  obtain ⟨t1, t2, t3, t4, t5, t6⟩ := r
  have e1 : offset f &&& 0xF#32 = fld ((offset f).toNat % 16) 0 := by
    apply BitVec.eq_of_toNat_eq
    simp only [fld, BitVec.toNat_and, BitVec.toNat_ofNat, BitVec.shiftLeft_zero]
    rw [show 15 % 2 ^ 32 = 2 ^ 4 - 1 by decide, Nat.and_two_pow_sub_one_eq_mod]
    omega
  have e2 : (offset f &&& 0xF0#32) <<< 4 = fld ((offset f).toNat / 16) 8 := by
    generalize hx : offset f = x at *
    obtain ⟨n, rfl⟩ : ∃ n : Fin 256, x = BitVec.ofNat 32 n.val := by
      refine ⟨⟨x.toNat, h3⟩, ?_⟩
      simp
    revert n
    have : ∀ n : Fin 256, (BitVec.ofNat 32 n.val &&& 0xF0#32) <<< 4 = fld ((BitVec.ofNat 32 n.val).toNat / 16) 8 := by
      decide +kernel
    intro n _ _ _
    exact this n
  have b1 : (offset f).toNat % 16 ≤ 15 := by omega
  have b2 : (offset f).toNat / 16 ≤ 15 := by omega
  simp only [loadStoreMisc, hasFields_cons, hasFields_nil] at t2
  obtain ⟨a1, a2, a3, a4, a5, a6, a7, a8, a9, a10, a11, a12, a13, a14, -⟩ := t2
  simp only [miscHead, loadStoreMisc]
  unfold encode encodeBase
  simp only [t3, Bool.not_false, orIf_true, h1, Bool.false_eq_true, if_false, t1, encodeType, hi, if_true, clearU_clearU,
    hsg, Bool.false_and, Bool.false_or, e1, e2]
  rw [show (op.has .abs && f.imm.negative || decide (f.imm.value.toInt < 0)) = subtracts op f from rfl]
  generalize (offset f).toNat % 16 = lo' at *
  generalize (offset f).toNat / 16 = hi' at *
  clear e1 e2
  load_word

/-! ### The rows -/

set_option maxRecDepth 10000 in
set_option synthInstance.maxSize 1000 in
set_option synthInstance.maxHeartbeats 0 in
theorem load_table : ∀ op ∈ opcodes, ∀ q ∈ (loadStoreOp op.name).toList, ∀ a ∈ (addressing op.mask).toList,
    ¬ (q.2.2 = 1 ∧ a.1 = .none) →
    op.type = .type9 ∧ HasFields op.encoding (loadStore 0 (if a.1 = .reg then 1 else 0) a.2.1 1 q.1
      (if q.2.2 = 1 then 1 else a.2.2) q.2.1 0 0 (offset12 0)) ∧ op.has .uncond = false ∧ op.has .n = true ∧
    op.has .dn = false ∧ op.has .d = true ∧ op.has .dm = false ∧ 'n' ∈ op.mask.toList ∧ 'd' ∈ op.mask.toList ∧
    'S' ∉ op.name.toList ∧ (a.1 = .none ∨ a.2.1 = 0 → 'W' ∉ op.mask.toList) ∧
    op.has .immediate = decide (a.1 = .const) ∧ op.has .register = decide (a.1 = .reg) ∧ op.has .sign = decide (a.1 = .reg) ∧
    op.has .abs = decide (a.1 = .const) ∧ (a.1 = .reg → 'm' ∈ op.mask.toList) ∧
    (a.1 = .const → immediateBits op.mask.toList = 12 ∧ 'S' ∉ op.mask.toList ∧ 'z' ∉ op.mask.toList ∧ 'Y' ∉ op.mask.toList) ∧
    op.has .shift = false ∧ op.has .pool = false ∧ op.has .branch = false ∧ op.has .absimm = false ∧ op.has .swi = false ∧
    op.has .copop = false ∧ op.has .copinf = false ∧ op.has .rdeven = false ∧ (q.2.2 = 1 → a.2.1 = 0) ∧
    (a.1 ≠ .none → a.2.2 = 0) := by decide +kernel

/-- An immediate that is just checked for its width, with its sign separated. -/
structure ConstRow (op : Op) (len : Nat) : Prop where
  imm : op.has .immediate = true
  shift : op.has .shift = false
  pool : op.has .pool = false
  branch : op.has .branch = false
  absimm : op.has .absimm = false
  swi : op.has .swi = false
  bits : immediateBits op.mask.toList = len
  noS : 'S' ∉ op.mask.toList
  noz : 'z' ∉ op.mask.toList
  noY : 'Y' ∉ op.mask.toList
  copop : op.has .copop = false
  copinf : op.has .copinf = false
  rdeven : op.has .rdeven = false

theorem ConstRow.bitLen {op : Op} {len : Nat} (r : ConstRow op len) {o : Operands} (hv : Valid op o) : o.bitLen = len := by
  rw [hv.bits r.imm, r.bits]

theorem absInt_ok {b a : BitVec 32} (h : absInt b = .ok a) : b ≠ 0x80000000#32 ∧ a = (if b.toInt < 0 then -b else b) := by
  unfold absInt at h
  split at h
  · simp at h
  · rename_i hb
    simp only [Except.ok.injEq] at h
    exact ⟨hb, h.symm⟩

theorem neg_toNat {b : BitVec 32} (hb : b ≠ 0x80000000#32) (hn : b.toInt < 0) :
    (-b).toInt = -b.toInt ∧ (-b).toNat = b.toInt.natAbs := by
  have h1 : b.toNat ≠ 2147483648 := fun h => hb (BitVec.eq_of_toNat_eq h)
  have h2 : (-b).toNat = (2 ^ 32 - b.toNat) % 2 ^ 32 := BitVec.toNat_neg b
  have hlt := b.isLt
  rw [BitVec.toInt_eq_toNat_cond] at hn ⊢
  rw [BitVec.toInt_eq_toNat_cond]
  split at hn
  · omega
  · rename_i hc
    rw [if_neg hc]
    constructor
    · split <;> omega
    · omega

theorem pos_toNat {b : BitVec 32} (hn : 0 ≤ b.toInt) : b.toNat = b.toInt.natAbs := by
  have hlt := b.isLt
  rw [BitVec.toInt_eq_toNat_cond] at hn ⊢
  split at hn <;> rename_i hc
  · rw [if_pos hc]; omega
  · omega

/-- Result of processing a constant offset. -/
theorem const_abs {op : Op} {len : Nat} (r : ConstRow op len) (hab : op.has .abs = true) (hl : len < 31) {version : Version}
    {b : BitVec 32} {a : Int} {m : Imm} (h : immediate op version len b a = .ok m) :
    b.toInt.natAbs < 2 ^ len ∧ m = { value := (if b.toInt < 0 then -b else b), negative := decide (b.toInt < 0) } ∧
    (if b.toInt < 0 then -b else b).toNat = b.toInt.natAbs ∧ 0 ≤ (if b.toInt < 0 then -b else b).toInt := by
  have hl32 : len ≠ 32 := by omega
  have hpow : 2 ^ len < 2 ^ 31 := Nat.pow_lt_pow_right (by decide) hl
  unfold immediate immCases at h
  simp only [r.shift, r.pool, r.branch, r.absimm, r.swi, hab, Bool.false_eq_true, if_false, Bool.true_and,
    decide_eq_true_eq] at h
  by_cases hn : b.toInt < 0
  · simp only [hn, if_true] at h ⊢
    cases ha : absInt b with
    | error e => rw [ha] at h; simp [Except.map] at h
    | ok x =>
      rw [ha] at h
      obtain ⟨hb, hx⟩ := absInt_ok ha
      rw [if_pos hn] at hx
      obtain ⟨n1, n2⟩ := neg_toNat hb hn
      have hxx : absInt x = .ok x := by
        have : ¬ x = 0x80000000#32 := by
          rw [hx]
          intro h
          rw [h] at n1
          have : (0x80000000#32).toInt = -2147483648 := by decide
          omega
        unfold absInt
        rw [if_neg this, if_neg (by rw [hx]; omega)]
      simp only [Except.map, checkWidth, hl32, ne_eq, not_false_eq_true, r.absimm, Bool.not_false, and_self, if_true, hab,
        hxx] at h
      split at h
      · simp at h
      · rename_i hw
        simp only [Except.ok.injEq] at h
        subst hx
        rw [n2] at hw
        exact ⟨by omega, by rw [← h]; simp, n2, by omega⟩
  · simp only [hn, if_false] at h ⊢
    have hxx : absInt b = .ok b := by
      have : ¬ b = 0x80000000#32 := by
        intro h
        rw [h] at hn
        exact hn (by decide)
      unfold absInt
      rw [if_neg this, if_neg hn]
    simp only [checkWidth, hl32, ne_eq, not_false_eq_true, r.absimm, Bool.not_false, and_self, if_true, hab, hxx] at h
    split at h
    · simp at h
    · rename_i hw
      simp only [Except.ok.injEq] at h
      have := pos_toNat (b := b) (by omega)
      exact ⟨by omega, by rw [← h]; simp, this, by omega⟩

theorem const_abs_ok {op : Op} {len : Nat} (r : ConstRow op len) (hab : op.has .abs = true) (hl : len < 31) {version : Version}
    {b : BitVec 32} {a : Int} (h : b.toInt.natAbs < 2 ^ len) : ∃ m, immediate op version len b a = .ok m ∧ m.pool = false := by
  have hl32 : len ≠ 32 := by omega
  have hpow : 2 ^ len < 2 ^ 31 := Nat.pow_lt_pow_right (by decide) hl
  have hb : b ≠ 0x80000000#32 := by
    rintro rfl
    have : (0x80000000#32).toInt = -2147483648 := by decide
    omega
  have ha : absInt b = .ok (if b.toInt < 0 then -b else b) := by simp [absInt, hb]
  unfold immediate immCases
  simp only [r.shift, r.pool, r.branch, r.absimm, r.swi, hab, Bool.false_eq_true, if_false, Bool.true_and,
    decide_eq_true_eq]
  by_cases hn : b.toInt < 0
  · rw [if_pos hn] at ha
    obtain ⟨n1, n2⟩ := neg_toNat hb hn
    have hxx : absInt (-b) = .ok (-b) := by
      have : ¬ -b = 0x80000000#32 := by
        intro h
        rw [h] at n1
        have : (0x80000000#32).toInt = -2147483648 := by decide
        omega
      unfold absInt
      rw [if_neg this, if_neg (by omega)]
    refine ⟨{ value := -b, negative := true }, ?_, rfl⟩
    simp only [hn, if_true, ha, Except.map, checkWidth, hl32, ne_eq, not_false_eq_true, r.absimm, Bool.not_false, and_self,
      hab, hxx, n2]
    rw [if_neg (by omega)]
  · rw [if_neg hn] at ha
    refine ⟨{ value := b }, ?_, rfl⟩
    have := pos_toNat (b := b) (by omega)
    simp only [hn, if_false, checkWidth, hl32, ne_eq, not_false_eq_true, r.absimm, Bool.not_false, and_self, if_true, hab, ha,
      this]
    rw [if_neg (by omega)]

theorem const_abs_bad {op : Op} {len : Nat} (r : ConstRow op len) (hab : op.has .abs = true) (hl : len < 31) {version : Version}
    {b : BitVec 32} {a : Int} (h : 2 ^ len ≤ b.toInt.natAbs) (hb : b ≠ 0x80000000#32) :
    ∃ t, immediate op version len b a = .error (.error t) := by
  cases hm : immediate op version len b a with
  | ok m => have := (const_abs r hab hl hm).1; omega
  | error e =>
    cases e with
    | error t => exact ⟨t, rfl⟩
    | ub =>
      exfalso
      have ha : absInt b = .ok (if b.toInt < 0 then -b else b) := by simp [absInt, hb]
      unfold immediate immCases at hm
      simp only [r.shift, r.pool, r.branch, r.absimm, r.swi, hab, Bool.false_eq_true, if_false, Bool.true_and,
        decide_eq_true_eq] at hm
      by_cases hn : b.toInt < 0
      · rw [if_pos hn] at ha
        obtain ⟨n1, n2⟩ := neg_toNat hb hn
        have hxx : absInt (-b) = .ok (-b) := by
          have : ¬ -b = 0x80000000#32 := by
            intro h
            rw [h] at n1
            have : (0x80000000#32).toInt = -2147483648 := by decide
            omega
          unfold absInt
          rw [if_neg this, if_neg (by omega)]
        simp only [hn, if_true, ha, Except.map, checkWidth, hab, hxx] at hm
        split at hm
        · split at hm <;> simp at hm
        · simp at hm
      · rw [if_neg hn] at ha
        simp only [hn, if_false, checkWidth, hab, if_true, ha] at hm
        split at hm
        · split at hm <;> simp at hm
        · simp at hm

set_option maxRecDepth 10000 in
set_option synthInstance.maxSize 1000 in
set_option synthInstance.maxHeartbeats 0 in
theorem misc_table : ∀ op ∈ opcodes, ∀ q ∈ (loadStoreMiscOp op.name).toList, ∀ a ∈ (addressingMisc op.mask).toList,
    op.type = .type10 ∧ HasFields op.encoding (loadStoreMisc 0 a.2 1 (if a.1 = .reg then 0 else 1) 0 q.1 0 0 0 q.2 0) ∧
    op.has .uncond = false ∧ op.has .dn = false ∧ op.has .dm = false ∧ 'n' ∈ op.mask.toList ∧ 'd' ∈ op.mask.toList ∧
    'S' ∉ op.name.toList ∧
    op.has .immediate = decide (a.1 = .const) ∧ op.has .register = decide (a.1 = .reg) ∧
    op.has .sign = decide ('v' ∈ op.mask.toList) ∧ (a.1 ≠ .reg → op.has .sign = false) ∧
    op.has .abs = decide (a.1 = .const ∧ op.name ≠ "ldrCd" ∧ op.name ≠ "strCd") ∧ (a.1 = .reg → 'm' ∈ op.mask.toList) ∧
    (a.1 = .const → immediateBits op.mask.toList = 8 ∧ 'Y' ∉ op.mask.toList) ∧ 'S' ∉ op.mask.toList ∧ 'z' ∉ op.mask.toList ∧
    op.has .shift = false ∧ op.has .pool = false ∧ op.has .branch = false ∧ op.has .absimm = false ∧ op.has .swi = false ∧
    op.has .copop = false ∧ op.has .copinf = false ∧ op.has .rdeven = false := by decide +kernel

/-- A constant offset whose sign is not separated: negative ones are refused. -/
theorem const_unsigned {op : Op} {len : Nat} (r : ConstRow op len) (hab : op.has .abs = false) (hl : len < 31) {version : Version}
    {b : BitVec 32} {a : Int} : immediate op version len b a =
      if b.toNat < 2 ^ len then .ok { value := b } else .error (.error "Immediate value out of range") := by
  have hl32 : len ≠ 32 := by omega
  unfold immediate immCases
  simp only [r.shift, r.pool, r.branch, r.absimm, r.swi, hab, Bool.false_eq_true, if_false, Bool.false_and, checkWidth, hl32,
    ne_eq, not_false_eq_true, Bool.not_false, and_self, if_true]
  by_cases h : b.toNat < 2 ^ len
  · rw [if_neg (by omega), if_pos h]
  · rw [if_pos (by omega), if_neg h]

/-! ### Addresses -/

theorem emod_of_ofInt {a b : Int} (h : BitVec.ofInt 32 a = BitVec.ofInt 32 b) : a % 2 ^ 32 = b % 2 ^ 32 := by
  have := congrArg BitVec.toNat h
  simp only [BitVec.toNat_ofInt] at this
  omega

theorem ofInt_emod {a b : Int} (h : a % 2 ^ 32 = b % 2 ^ 32) : BitVec.ofInt 32 a = BitVec.ofInt 32 b := by
  apply BitVec.eq_of_toNat_eq
  simp only [BitVec.toNat_ofInt]
  omega

theorem toInt_emod (b : BitVec 32) : b.toInt % 2 ^ 32 = (b.toNat : Int) := by
  have := b.isLt
  rw [BitVec.toInt_eq_toNat_cond]
  split <;> omega

/-- Sign and magnitude give the value back. -/
theorem sign_magnitude {d : BitVec 32} {k : Int} {w : BitVec 32} {a : Int} (hd : d.toInt.natAbs < 4096)
    (hk : d.toInt % 2 ^ 32 = (k - a - 8) % 2 ^ 32) (hU : field w 23 1 = if d.toInt < 0 then 0 else 1)
    (hO : field w 0 12 = d.toInt.natAbs) : (literalAddress w a) % 2 ^ 32 = k % 2 ^ 32 := by
  unfold literalAddress
  rw [hU, hO]
  by_cases h : d.toInt < 0
  · rw [if_pos h, if_neg (by decide)]
    omega
  · rw [if_neg h, if_pos rfl]
    omega

theorem absolute_cases {bitLen : Nat} {v : BitVec 32} {a : Int} {m : Imm} (hl : bitLen < 31) (h : immAbsolute bitLen v a = .ok m) :
    m = { value := BitVec.ofInt 32 (v.toInt - a - 8) } ∧ m.value.toInt.natAbs < 2 ^ bitLen ∧
      (offset { imm := m }).toNat = m.value.toInt.natAbs := by
  have hpow : 2 ^ bitLen < 2 ^ 31 := Nat.pow_lt_pow_right (by decide) hl
  unfold immAbsolute at h
  generalize BitVec.ofInt 32 (v.toInt - a - 8) = d at *
  cases ha : absInt d with
  | error e => simp [ha] at h
  | ok x =>
    simp only [ha] at h
    split at h
    · simp at h
    · rename_i hlt
      simp only [Except.ok.injEq] at h
      subst h
      obtain ⟨hb, hx⟩ := absInt_ok ha
      refine ⟨rfl, ?_, ?_⟩
      · simp only
        by_cases hn : d.toInt < 0
        · rw [if_pos hn] at hx
          obtain ⟨n1, n2⟩ := neg_toNat hb hn
          subst hx
          have : ((2 ^ bitLen : Nat) : Int) = 2 ^ bitLen := by simp
          omega
        · rw [if_neg hn] at hx
          subst hx
          have : ((2 ^ bitLen : Nat) : Int) = 2 ^ bitLen := by simp
          omega
      · simp only [offset]
        by_cases hn : d.toInt < 0
        · rw [if_pos hn]; exact (neg_toNat hb hn).2
        · rw [if_neg hn]; exact pos_toNat (by omega)

set_option maxRecDepth 10000 in
set_option synthInstance.maxSize 1000 in
set_option synthInstance.maxHeartbeats 0 in
theorem absolute_table : ∀ op ∈ opcodes, op.mask = "d0,[/#j\x0c]" → ∀ q ∈ (loadStoreOp op.name).toList,
    op.type = .type9 ∧ HasFields op.encoding (loadStore 0 0 1 1 q.1 0 q.2.1 15 0 (offset12 0)) ∧
    op.has .uncond = false ∧ op.has .n = false ∧ op.has .d = true ∧ 'd' ∈ op.mask.toList ∧ 'S' ∉ op.name.toList ∧
    'W' ∉ op.mask.toList ∧ op.has .immediate = true ∧ op.has .sign = false ∧ op.has .abs = false ∧
    immediateBits op.mask.toList = 12 ∧ 'Y' ∉ op.mask.toList ∧ 'S' ∉ op.mask.toList ∧ 'z' ∉ op.mask.toList ∧
    op.has .shift = false ∧ op.has .pool = false ∧ op.has .branch = false ∧ op.has .absimm = true ∧
    op.has .copop = false ∧ op.has .copinf = false ∧ op.has .rdeven = false := by decide +kernel

set_option maxRecDepth 10000 in
set_option synthInstance.maxSize 1000 in
set_option synthInstance.maxHeartbeats 0 in
theorem literal_table : ∀ op ∈ opcodes, op.mask = "d0,=/#i" → 
    op.type = .type9 ∧ HasFields op.encoding (loadStore 0 0 1 1 0 0 1 15 0 (offset12 0)) ∧
    op.has .uncond = false ∧ op.has .n = false ∧ op.has .d = true ∧ 'd' ∈ op.mask.toList ∧ 'S' ∉ op.name.toList ∧
    'W' ∉ op.mask.toList ∧ op.has .immediate = true ∧ op.has .sign = false ∧ op.has .abs = false ∧
    immediateBits op.mask.toList = 32 ∧ 'Y' ∉ op.mask.toList ∧ 'S' ∉ op.mask.toList ∧ 'z' ∉ op.mask.toList ∧
    op.has .shift = false ∧ op.has .pool = true ∧ 
    op.has .copop = false ∧ op.has .copinf = false ∧ op.has .rdeven = false := by decide +kernel

/-- A data processing word with an immediate whose opcode and first operand are fixed. -/
theorem fixedImm_fields {op : Op} {o : Operands} {f : Final} {n r : Nat} (hc : o.c ≤ 15) (hd : o.rd ≤ 15)
    (ht : (if f.imm.asMov then .type5 else op.type) = Ty.type5)
    (he : HasFields (f.imm.encoding.getD op.encoding) (dataImmediate 0 n 0 r 0 0 0)) (h1 : op.has .uncond = false)
    (h2 : op.has .n = false) (h3 : op.has .d = true) (h4 : op.has .immediate = true) (hs : f.shift = none)
    (hrot : f.imm.rot % 2 = 0 ∧ f.imm.rot < 32) (hval : f.imm.value.toNat < 2 ^ 8) :
    HasFields (encode op o f) (dataImmediate o.c n o.s.toNat r o.rd (f.imm.rot / 2) f.imm.value.toNat) := by
  have hsa : shiftAmount f = f.imm.rot := by simp [shiftAmount, hs]
  have hrot' : f.imm.rot / 2 ≤ 15 := by omega
  have v1 : ∀ lo len, 8 ≤ lo → field f.imm.value lo len = 0 := fun lo len h => field_high hval h
  have v2 : field f.imm.value 0 8 = f.imm.value.toNat := field_low hval
  unfold encode encodeBase
  rw [ht]
  simp only [encodeType, encodeOp2, h1, h2, h3, h4, hsa, field_rot hrot.1, Bool.not_false, orIf_true, orIf_false, if_true]
  generalize f.imm.encoding.getD op.encoding = e at *
  generalize f.imm.rot / 2 = rr at *
  simp only [dataImmediate, hasFields_cons, hasFields_nil] at he
  obtain ⟨a1, a2, a3, a4, a5, a6, a7, a8, a9, -⟩ := he
  clear hrot hsa ht hs h4
  unfold dataImmediate
  load_word

set_option maxRecDepth 10000 in
set_option synthInstance.maxSize 1000 in
set_option synthInstance.maxHeartbeats 0 in
theorem adr_table : ∀ op ∈ opcodes, op.mask = "d1,=/#I" ∨ op.mask = "d1,/#I" →
    op.type = .type5 ∧ HasFields op.encoding (dataImmediate 0 4 0 15 0 0 0) ∧
    HasFields (op.encoding ^^^ 0xC00000#32) (dataImmediate 0 2 0 15 0 0 0) ∧
    op.has .uncond = false ∧ op.has .n = false ∧ op.has .d = true ∧ 'd' ∈ op.mask.toList ∧
    op.has .immediate = true ∧ op.has .abs = false ∧
    immediateBits op.mask.toList = 32 ∧ 'Y' ∉ op.mask.toList ∧ 'S' ∉ op.mask.toList ∧ 'z' ∉ op.mask.toList ∧
    op.has .shift = true ∧ op.has .pcr = true ∧ op.has .optimize = false ∧
    op.has .copop = false ∧ op.has .copinf = false ∧ op.has .rdeven = false := by decide +kernel

set_option maxRecDepth 10000 in
set_option synthInstance.maxSize 1000 in
set_option synthInstance.maxHeartbeats 0 in
theorem msrImm_table : ∀ op ∈ opcodes, op.mask = "P0,/#i" →
    op.type = .type6 ∧ HasFields op.encoding (msrImmediate 0 0 0 0 0) ∧
    op.has .uncond = false ∧ op.has .mrs = false ∧ op.has .register = false ∧ op.mask.toList.take 2 = ['P', '0'] ∧ 'S' ∉ op.name.toList ∧
    op.has .immediate = true ∧ op.has .abs = false ∧
    immediateBits op.mask.toList = 32 ∧ 'Y' ∉ op.mask.toList ∧ 'S' ∉ op.mask.toList ∧ 'z' ∉ op.mask.toList ∧
    op.has .shift = true ∧ op.has .pcr = false ∧ op.has .optimize = false ∧
    op.has .copop = false ∧ op.has .copinf = false ∧ op.has .rdeven = false := by decide +kernel

theorem msrImm_fields {op : Op} {o : Operands} {f : Final} (h : op ∈ opcodes) (hn : op.mask = "P0,/#i") (hv : Valid op o)
    (h1 : f.imm.asMov = false) (h2 : f.imm.encoding = none) (hs : f.shift = none)
    (hrot : f.imm.rot % 2 = 0 ∧ f.imm.rot < 32) (hval : f.imm.value.toNat < 2 ^ 8) :
    HasFields (encode op o f) (msrImmediate o.c o.spsr.toNat o.field (f.imm.rot / 2) f.imm.value.toNat) := by
  obtain ⟨t1, t2, t3, t4, t5, t6, t7, t8, -⟩ := msrImm_table op h hn
  have hc := c15 hv
  have hfd := hv.field t6
  have hos := noS hv t7
  have hsa : shiftAmount f = f.imm.rot := by simp [shiftAmount, hs]
  have hrot' : f.imm.rot / 2 ≤ 15 := by omega
  have v1 : ∀ lo len, 8 ≤ lo → field f.imm.value lo len = 0 := fun lo len h => field_high hval h
  have v2 : field f.imm.value 0 8 = f.imm.value.toNat := field_low hval
  unfold encode encodeBase
  simp only [h1, h2, t1, encodeType, t3, t4, t5, t8, hsa, field_rot hrot.1, Bool.not_false, orIf_true, orIf_false, if_true,
    Bool.false_eq_true, if_false, hos, Option.getD_none]
  generalize f.imm.rot / 2 = rr at *
  simp only [msrImmediate, hasFields_cons, hasFields_nil] at t2
  obtain ⟨a1, a2, a3, a4, a5, a6, a7, a8, -⟩ := t2
  clear hrot hsa hs hv
  unfold msrImmediate
  load_word

set_option maxRecDepth 10000 in
set_option synthInstance.maxSize 1000 in
set_option synthInstance.maxHeartbeats 0 in
theorem pld_table : ∀ op ∈ opcodes, op.name = "pld" →
    op.type = .type9 ∧ HasFields op.encoding (loadStore 15 (if op.mask = "[n0,vm1S1]" then 1 else 0) 1 1 1 0 1 0 15 (offset12 0)) ∧
    op.has .uncond = true ∧ op.has .n = true ∧ op.has .dn = false ∧ op.has .dm = false ∧ op.has .d = false ∧
    'n' ∈ op.mask.toList ∧ 'S' ∉ op.name.toList ∧ 'W' ∉ op.mask.toList ∧
    op.mask ∈ ["[n0]", "[n0,vm1S1]", "[n0,/#j\x0c]"] ∧
    op.has .immediate = decide (op.mask = "[n0,/#j\x0c]") ∧ op.has .register = decide (op.mask = "[n0,vm1S1]") ∧
    op.has .sign = decide (op.mask = "[n0,vm1S1]") ∧ op.has .abs = decide (op.mask = "[n0,/#j\x0c]") ∧
    (op.mask = "[n0,vm1S1]" → 'm' ∈ op.mask.toList) ∧
    (op.mask = "[n0,/#j\x0c]" → immediateBits op.mask.toList = 12 ∧ 'S' ∉ op.mask.toList ∧ 'z' ∉ op.mask.toList ∧ 'Y' ∉ op.mask.toList) ∧
    op.has .shift = false ∧ op.has .pool = false ∧ op.has .branch = false ∧ op.has .absimm = false ∧ op.has .swi = false ∧
    op.has .copop = false ∧ op.has .copinf = false ∧ op.has .rdeven = false := by decide +kernel

end Armips.Arm


