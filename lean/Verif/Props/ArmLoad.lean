import Verif.Lemmas.ArmSample
import Verif.Lemmas.ArmLoad
/-!
# C25: ARM loads and stores field by field
-/
namespace Armips.Props
open Armips.Arm Spec Spec.Arm Spec.Instr
open Sample (row plain ctx idle)

variable {E : Env} {version : Version} {op : Op} {o : Operands} {c : Ctx} {st : ArchState} {w : BitVec 32}

/-- The W bit: user mode transfers set it; otherwise the `!`. -/
def wBit (q : Nat × Nat × Nat) (a : Offset × Nat × Nat) (o : Operands) : Nat :=
  if q.2.2 = 1 then 1 else a.2.2 ||| o.writeback.toNat

theorem loadRow {q : Nat × Nat × Nat} {a : Offset × Nat × Nat} (h : op ∈ opcodes) (hq : loadStoreOp op.name = some q)
    (ha : addressing op.mask = some a) (hu : ¬ (q.2.2 = 1 ∧ a.1 = .none)) (hv : Valid op o) :
    LoadRow op o 0 (if a.1 = .reg then 1 else 0) a.2.1 q.1 (if q.2.2 = 1 then 1 else a.2.2) q.2.1 0 0 ∧
    ∀ u off, loadHead op o 0 (if a.1 = .reg then 1 else 0) a.2.1 q.1 (if q.2.2 = 1 then 1 else a.2.2) q.2.1 0 0 u off =
      loadStore o.c (if a.1 = .reg then 1 else 0) a.2.1 u q.1 (wBit q a o) q.2.1 o.rn o.rd off := by
  obtain ⟨t1, t2, t3, t4, t5, t6, t7, t8, t9, t10, t11, t12, t13, t14, t15, t16, t17, t18, t19, t20, t21, t22, t23, t24, t25,
    t26, t27⟩ := load_table op h q (by simp [hq]) a (by simp [ha]) hu
  have hrn : rnOf op o = o.rn := by simp [rnOf, t5]
  have hs : o.s = false := by
    cases hs : o.s with
    | false => rfl
    | true => exact absurd (hv.s hs) t10
  refine ⟨⟨t1, t2, ?_, fun _ => hv.rd t9, hs⟩, ?_⟩
  · rw [hrn]; exact fun _ => hv.rn t8
  · intro u off
    have hw : (if q.2.2 = 1 then 1 else a.2.2) ||| o.writeback.toNat = wBit q a o := by
      unfold wBit
      split
      · cases o.writeback <;> rfl
      · rfl
    unfold loadHead
    rw [hw, hrn]
    simp [t3, t4, t6]

/-- No offset. The user mode instructions are wrong here, see `user_mode_wrong`. -/
theorem arm_load_plain_word {q : Nat × Nat × Nat} {a : Offset × Nat × Nat} (h : op ∈ opcodes)
    (hq : loadStoreOp op.name = some q) (ha : addressing op.mask = some a) (hu : q.2.2 = 0) (hn : a.1 = .none)
    (hv : Valid op o) (he : Emits (sem E version op o) c st w) :
    HasFields w (loadStore o.c 0 1 1 q.1 a.2.2 q.2.1 o.rn o.rd (offset12 0)) := by
  obtain ⟨f, hf, rfl⟩ := emits_word he
  have hu' : ¬ (q.2.2 = 1 ∧ a.1 = .none) := by omega
  obtain ⟨r, e⟩ := loadRow h hq ha hu' hv
  obtain ⟨t1, t2, t3, t4, t5, t6, t7, t8, t9, t10, t11, t12, t13, t14, t15, t16, t17, t18, t19, t20, t21, t22, t23, t24, t25,
    t26, t27⟩ := load_table op h q (by simp [hq]) a (by simp [ha]) hu'
  simp only [hn, reduceCtorEq, decide_false, decide_true] at t12 t13 t14
  have := load_none (c15 hv) r (hf.noImm t12) t12 t13 t14
  rw [e] at this
  have hp : a.2.1 = 1 := by
    have : ∀ m a, addressing m = some a → a.1 = .none → a.2.1 = 1 := by
      intro m a hm ha
      unfold addressing at hm
      split at hm <;> simp at hm <;> subst hm <;> simp at ha ⊢
    exact this _ _ ha hn
  have hw : o.writeback = false := by
    cases hw : o.writeback with
    | false => rfl
    | true => exact absurd (hv.writeback hw) (t11 (.inl hn))
  simpa [hn, hp, wBit, hu, hw] using this

/-- A constant offset: its magnitude is in bits 11-0 and its sign in bit 23. -/
theorem arm_load_const_word {q : Nat × Nat × Nat} {a : Offset × Nat × Nat} {v : Int} (h : op ∈ opcodes)
    (hq : loadStoreOp op.name = some q) (ha : addressing op.mask = some a) (hn : a.1 = .const)
    (hv : Valid op o) (he : Emits (sem E version op o) c st w) (hev : Evaluates E .arm c o.imm (.int v))
    (h1 : -2 ^ 31 ≤ v) (h2 : v < 2 ^ 31) :
    v.natAbs < 4096 ∧ HasFields w (loadStore o.c 0 a.2.1 (if v < 0 then 0 else 1) q.1
      (if q.2.2 = 1 then 1 else o.writeback.toNat) q.2.1 o.rn o.rd (offset12 v.natAbs)) := by
  obtain ⟨f, hf, rfl⟩ := emits_word he
  have hu' : ¬ (q.2.2 = 1 ∧ a.1 = .none) := by rw [hn]; simp
  obtain ⟨r, e⟩ := loadRow h hq ha hu' hv
  obtain ⟨t1, t2, t3, t4, t5, t6, t7, t8, t9, t10, t11, t12, t13, t14, t15, t16, t17, t18, t19, t20, t21, t22, t23, t24, t25,
    t26, t27⟩ := load_table op h q (by simp [hq]) a (by simp [ha]) hu'
  simp only [hn, reduceCtorEq, decide_false, decide_true] at t12 t13 t14 t15
  obtain ⟨u1, u2, u3, u4⟩ := t17 hn
  have cr : ConstRow op 12 := ⟨t12, t18, t19, t20, t21, t22, u1, u2, u3, u4, t23, t24, t25⟩
  obtain ⟨val, b, hv', hb, hm⟩ := hf.imm t12
  cases evaluates_unique hev hv'
  simp only [valueBits, Option.some.injEq] at hb
  subst hb
  rw [cr.bitLen hv] at hm
  obtain ⟨k1, k2, k3, k4⟩ := const_abs cr t15 (by decide) hm
  rw [toInt32 h1 h2] at k1 k2 k3 k4
  have hoff : (offset f).toNat = v.natAbs := by
    unfold offset
    rw [k2]
    simp only
    rw [if_neg (by omega), k3]
  have hsub : subtracts op f = decide (v < 0) := by
    unfold subtracts
    rw [t15, k2]
    simp only [Bool.true_and]
    have hpos : decide ((if v < 0 then -BitVec.ofInt 32 v else BitVec.ofInt 32 v).toInt < 0) = false :=
      decide_eq_false (by omega)
    rw [hpos, Bool.or_false]
  have := load_const (c15 hv) r (by rw [k2]) (by rw [k2]) (by rw [hoff]; exact k1) t12 t14
  rw [e, hoff, hsub] at this
  refine ⟨k1, ?_⟩
  have ha2 := t27 (by rw [hn]; simp)
  simpa [hn, wBit, ha2] using this

/-- A constant offset is accepted if and only if it fits in 12 bits. -/
theorem arm_load_const_accepted {q : Nat × Nat × Nat} {a : Offset × Nat × Nat} {v : Int} (h : op ∈ opcodes)
    (hq : loadStoreOp op.name = some q) (ha : addressing op.mask = some a) (hn : a.1 = .const)
    (hv : Valid op o) (hev : Evaluates E .arm c o.imm (.int v)) (h1 : -2 ^ 31 < v) (h2 : v < 2 ^ 31) :
    (v.natAbs < 4096 → ∃ w, Emits (sem E version op o) c st w) ∧ (4096 ≤ v.natAbs → Rejects (sem E version op o) c st) := by
  obtain ⟨t1, t2, t3, t4, t5, t6, t7, t8, t9, t10, t11, t12, t13, t14, t15, t16, t17, t18, t19, t20, t21, t22, t23, t24, t25,
    t26, t27⟩ := load_table op h q (by simp [hq]) a (by simp [ha]) (by rw [hn]; simp)
  simp only [hn, reduceCtorEq, decide_false, decide_true] at t12 t13 t14 t15
  obtain ⟨u1, u2, u3, u4⟩ := t17 hn
  have cr : ConstRow op 12 := ⟨t12, t18, t19, t20, t21, t22, u1, u2, u3, u4, t23, t24, t25⟩
  have hns : ∀ s, o.shift = some s → s.byRegister = true := by rw [hv.noShift u2 u3]; simp
  constructor
  · intro hr
    obtain ⟨m, hm, hp⟩ := const_abs_ok (version := version) (a := c.virtualAddress) cr t15 (by decide)
      (b := BitVec.ofInt 32 v) (by rw [toInt32 (by omega) h2]; exact hr)
    obtain ⟨f, out, hfm, rfl, hacc⟩ := accepted_of (st := st) hns t23 t24 t25 t12 hev rfl (by rw [cr.bitLen hv]; exact hm)
    exact ⟨_, _, hacc, fun p => outcome_words (by rw [hfm]; exact hp) p⟩
  · intro hr
    obtain ⟨t, ht⟩ := const_abs_bad (version := version) (a := c.virtualAddress) cr t15 (by decide)
      (b := BitVec.ofInt 32 v) (by rw [toInt32 (by omega) h2]; exact hr) (by
        intro h
        have := congrArg BitVec.toInt h
        rw [toInt32 (by omega) h2] at this
        have h' : (0x80000000#32).toInt = -2147483648 := by decide
        omega)
    exact rejected_of hns t23 t24 t25 t12 hev rfl (by rw [cr.bitLen hv]; exact ht)

/-- A register offset, possibly shifted by a constant; the type and amount fields mean the shift that was written. -/
theorem arm_load_register_word {q : Nat × Nat × Nat} {a : Offset × Nat × Nat} (h : op ∈ opcodes)
    (hq : loadStoreOp op.name = some q) (ha : addressing op.mask = some a) (hn : a.1 = .reg)
    (hv : Valid op o) (he : Emits (sem E version op o) c st w)
    (hsh : ∀ s, o.shift = some s → s.byRegister = false ∧ ∀ v, Evaluates E .arm c s.amount (.int v) →
      -2 ^ 31 ≤ v ∧ v < 2 ^ 31 ∧ ¬ (shiftName s.type = .ror ∧ v = 32)) :
    ∃ amount type, HasFields w (loadStore o.c 1 a.2.1 o.signPlus.toNat q.1 (if q.2.2 = 1 then 1 else o.writeback.toNat) q.2.1
        o.rn o.rd (offsetRegister amount type o.rm)) ∧
      (o.shift = none → type = 0 ∧ amount = 0) ∧
      ∀ s v, o.shift = some s → Evaluates E .arm c s.amount (.int v) → ∀ x cf,
        decodeShift type amount x cf = shiftBy (shiftName s.type) v x cf ∧
          (shiftBy (shiftName s.type) v x cf).isSome = true := by
  obtain ⟨f, hf, rfl⟩ := emits_word he
  have hu' : ¬ (q.2.2 = 1 ∧ a.1 = .none) := by rw [hn]; simp
  obtain ⟨r, e⟩ := loadRow h hq ha hu' hv
  obtain ⟨t1, t2, t3, t4, t5, t6, t7, t8, t9, t10, t11, t12, t13, t14, t15, t16, t17, t18, t19, t20, t21, t22, t23, t24, t25,
    t26, t27⟩ := load_table op h q (by simp [hq]) a (by simp [ha]) hu'
  simp only [hn, reduceCtorEq, decide_false, decide_true] at t12 t13 t14 t15
  have hrm : rmOf op o = o.rm := by simp [rmOf, t7]
  have hrm' : rmOf op o ≤ 15 := by rw [hrm]; exact hv.rm (t16 hn)
  have ha2 := t27 (by rw [hn]; simp)
  cases hs : o.shift with
  | none =>
    refine ⟨0, 0, ?_, fun _ => ⟨rfl, rfl⟩, by simp⟩
    have := load_reg (c15 hv) r (hf.noImm t12) t12 t13 t14 t15 (.inl ⟨hs, rfl, rfl⟩) (by decide) (by decide) hrm'
    rw [e, hrm] at this
    simpa [hn, wBit, ha2] using this
  | some s =>
    obtain ⟨hb, hrange⟩ := hsh s hs
    obtain ⟨v, ⟨type, amount⟩, hv', hr, hfs⟩ := hf.immShift s hs hb
    obtain ⟨h1, h2, hror⟩ := hrange v hv'
    obtain ⟨g1, g2, g3⟩ := shiftFinal_ok (hv.shift s hs).1 h1 h2 hr (by
      rintro ⟨h3, h32⟩
      exact hror ⟨by rw [h3]; rfl, h32⟩)
    refine ⟨amount, type, ?_, by simp, ?_⟩
    · have := load_reg (c15 hv) r (hf.noImm t12) t12 t13 t14 t15
        (.inr ⟨s, hs, by simp [shiftType, hfs], by simp [shiftAmount, hfs]⟩) g1 g2 hrm'
      rw [e, hrm] at this
      simpa [hn, wBit, ha2] using this
    · intro s' v' hs' hv''
      cases hs'
      cases evaluates_unique hv' hv''
      exact g3

/-! ### Halfwords, signed bytes and doublewords -/

theorem miscRow {q : Nat × Nat} {a : Offset × Nat} (h : op ∈ opcodes) (hq : loadStoreMiscOp op.name = some q)
    (ha : addressingMisc op.mask = some a) (hv : Valid op o) :
    MiscRow op o a.2 (if a.1 = .reg then 0 else 1) 0 q.1 q.2 0 ∧ rnOf op o = o.rn ∧ rmOf op o = o.rm := by
  obtain ⟨t1, t2, t3, t4, t5, t6, t7, t8, -⟩ := misc_table op h q (by simp [hq]) a (by simp [ha])
  have hrn : rnOf op o = o.rn := by simp [rnOf, t4]
  have hrm : rmOf op o = o.rm := by simp [rmOf, t5]
  have hs : o.s = false := by
    cases hs : o.s with
    | false => rfl
    | true => exact absurd (hv.s hs) t8
  exact ⟨⟨t1, t2, t3, by rw [hrn]; exact hv.rn t6, hv.rd t7, hs⟩, hrn, hrm⟩

/-- No offset. -/
theorem arm_misc_plain_word {q : Nat × Nat} {a : Offset × Nat} (h : op ∈ opcodes) (hq : loadStoreMiscOp op.name = some q)
    (ha : addressingMisc op.mask = some a) (hn : a.1 = .none) (hv : Valid op o) (he : Emits (sem E version op o) c st w) :
    HasFields w (loadStoreMisc o.c a.2 1 1 o.writeback.toNat q.1 o.rn o.rd 0 q.2 0) := by
  obtain ⟨f, hf, rfl⟩ := emits_word he
  obtain ⟨r, hrn, -⟩ := miscRow h hq ha hv
  obtain ⟨t1, t2, t3, t4, t5, t6, t7, t8, t9, t10, t11, t12, -⟩ := misc_table op h q (by simp [hq]) a (by simp [ha])
  simp only [hn, reduceCtorEq, decide_false] at t9 t10
  have := misc_none (c15 hv) r (hf.noImm t9) t9 t10 (t12 (by rw [hn]; simp))
  simpa [miscHead, hrn, hn] using this

/-- A register offset; without sign in the syntax it is added. -/
theorem arm_misc_register_word {q : Nat × Nat} {a : Offset × Nat} (h : op ∈ opcodes) (hq : loadStoreMiscOp op.name = some q)
    (ha : addressingMisc op.mask = some a) (hn : a.1 = .reg) (hv : Valid op o) (he : Emits (sem E version op o) c st w) :
    HasFields w (loadStoreMisc o.c a.2 (if 'v' ∈ op.mask.toList ∧ o.signPlus = false then 0 else 1) 0 o.writeback.toNat q.1
      o.rn o.rd 0 q.2 o.rm) := by
  obtain ⟨f, hf, rfl⟩ := emits_word he
  obtain ⟨r, hrn, hrm⟩ := miscRow h hq ha hv
  obtain ⟨t1, t2, t3, t4, t5, t6, t7, t8, t9, t10, t11, t12, t13, t14, -⟩ := misc_table op h q (by simp [hq]) a (by simp [ha])
  simp only [hn, reduceCtorEq, decide_false, decide_true, false_and] at t9 t10 t13
  have := misc_reg (c15 hv) r (hf.noImm t9) t9 t10 (by rw [hrm]; exact hv.rm (t14 hn)) t13
  simpa [miscHead, hrn, hrm, hn, t11] using this

/-- A constant offset: its magnitude is split over bits 11-8 and 3-0 and its sign is in bit 23. -/
theorem arm_misc_const_word {q : Nat × Nat} {a : Offset × Nat} {v : Int} (h : op ∈ opcodes)
    (hq : loadStoreMiscOp op.name = some q) (ha : addressingMisc op.mask = some a) (hn : a.1 = .const) (hv : Valid op o)
    (he : Emits (sem E version op o) c st w) (hev : Evaluates E .arm c o.imm (.int v)) (h1 : -2 ^ 31 ≤ v) (h2 : v < 2 ^ 31) :
    v.natAbs < 256 ∧ HasFields w (loadStoreMisc o.c a.2 (if v < 0 then 0 else 1) 1 o.writeback.toNat q.1 o.rn o.rd
      (v.natAbs / 16) q.2 (v.natAbs % 16)) := by
  obtain ⟨f, hf, rfl⟩ := emits_word he
  obtain ⟨r, hrn, hrm⟩ := miscRow h hq ha hv
  obtain ⟨t1, t2, t3, t4, t5, t6, t7, t8, t9, t10, t11, t12, t13, t14, t15, t16, t17, t18, t19, t20, t21, t22, t23, t24, t25⟩ :=
    misc_table op h q (by simp [hq]) a (by simp [ha])
  simp only [hn, decide_true] at t9
  have hsg := t12 (by rw [hn]; simp)
  obtain ⟨u1, u2⟩ := t15 hn
  have cr : ConstRow op 8 := ⟨t9, t18, t19, t20, t21, t22, u1, t16, t17, u2, t23, t24, t25⟩
  obtain ⟨val, b, hv', hb, hm⟩ := hf.imm t9
  cases evaluates_unique hev hv'
  simp only [valueBits, Option.some.injEq] at hb
  subst hb
  rw [cr.bitLen hv] at hm
  have key : v.natAbs < 256 ∧ (offset f).toNat = v.natAbs ∧ subtracts op f = decide (v < 0) ∧ f.imm.asMov = false ∧
      f.imm.encoding = none := by
    cases hab : op.has .abs with
    | true =>
      obtain ⟨k1, k2, k3, k4⟩ := const_abs cr hab (by decide) hm
      rw [toInt32 h1 h2] at k1 k2 k3 k4
      refine ⟨k1, ?_, ?_, by rw [k2], by rw [k2]⟩
      · unfold offset
        rw [k2]
        simp only
        rw [if_neg (by omega), k3]
      · unfold subtracts
        rw [hab, k2]
        simp only [Bool.true_and]
        have hpos : decide ((if v < 0 then -BitVec.ofInt 32 v else BitVec.ofInt 32 v).toInt < 0) = false :=
          decide_eq_false (by omega)
        rw [hpos, Bool.or_false]
    | false =>
      rw [const_unsigned cr hab (by decide)] at hm
      split at hm
      · rename_i hlt
        simp only [Except.ok.injEq] at hm
        have hvv : 0 ≤ v ∧ v < 256 ∧ (BitVec.ofInt 32 v).toNat = v.toNat := by
          rw [BitVec.toNat_ofInt] at hlt ⊢
          omega
        have hti := toInt32 h1 h2
        refine ⟨by omega, ?_, ?_, by rw [← hm], by rw [← hm]⟩
        · unfold offset
          rw [← hm]
          simp only
          rw [if_neg (by omega), hvv.2.2]
          omega
        · unfold subtracts
          rw [hab, ← hm]
          simp only [Bool.false_and, Bool.false_or]
          rw [hti]
      · simp at hm
  obtain ⟨k1, k2, k3, k4, k5⟩ := key
  have := misc_const (c15 hv) r k4 k5 (by rw [k2]; exact k1) t9 hsg
  refine ⟨k1, ?_⟩
  rw [k2, k3] at this
  simpa [miscHead, hrn, hn] using this

/-- A constant offset is accepted if and only if it fits in 8 bits; for `ldrd` and `strd` only if it is not negative either. -/
theorem arm_misc_const_accepted {q : Nat × Nat} {a : Offset × Nat} {v : Int} (h : op ∈ opcodes)
    (hq : loadStoreMiscOp op.name = some q) (ha : addressingMisc op.mask = some a) (hn : a.1 = .const) (hv : Valid op o)
    (hev : Evaluates E .arm c o.imm (.int v)) (h1 : -2 ^ 31 < v) (h2 : v < 2 ^ 31) :
    (v.natAbs < 256 → (v < 0 → op.name ≠ "ldrCd" ∧ op.name ≠ "strCd") → ∃ w, Emits (sem E version op o) c st w) ∧
    (256 ≤ v.natAbs ∨ (v < 0 ∧ (op.name = "ldrCd" ∨ op.name = "strCd")) → Rejects (sem E version op o) c st) := by
  obtain ⟨t1, t2, t3, t4, t5, t6, t7, t8, t9, t10, t11, t12, t13, t14, t15, t16, t17, t18, t19, t20, t21, t22, t23, t24, t25⟩ :=
    misc_table op h q (by simp [hq]) a (by simp [ha])
  simp only [hn, decide_true, true_and] at t9 t13
  obtain ⟨u1, u2⟩ := t15 hn
  have cr : ConstRow op 8 := ⟨t9, t18, t19, t20, t21, t22, u1, t16, t17, u2, t23, t24, t25⟩
  have hns : ∀ s, o.shift = some s → s.byRegister = true := by rw [hv.noShift t16 t17]; simp
  have hti := toInt32 (by omega) h2
  have acc : ∀ m, immediate op version 8 (BitVec.ofInt 32 v) c.virtualAddress = .ok m → m.pool = false →
      ∃ w, Emits (sem E version op o) c st w := by
    intro m hm hp
    obtain ⟨f, out, hfm, rfl, hacc⟩ := accepted_of (st := st) hns t23 t24 t25 t9 hev rfl (by rw [cr.bitLen hv]; exact hm)
    exact ⟨_, _, hacc, fun p => outcome_words (by rw [hfm]; exact hp) p⟩
  have rej : ∀ t, immediate op version 8 (BitVec.ofInt 32 v) c.virtualAddress = .error (.error t) →
      Rejects (sem E version op o) c st := fun t ht => rejected_of hns t23 t24 t25 t9 hev rfl (by rw [cr.bitLen hv]; exact ht)
  by_cases hd : op.name ≠ "ldrCd" ∧ op.name ≠ "strCd"
  · have hab : op.has .abs = true := by rw [t13]; simp [hd]
    constructor
    · intro hr _
      obtain ⟨m, hm, hp⟩ := const_abs_ok (version := version) (a := c.virtualAddress) cr hab (by decide)
        (b := BitVec.ofInt 32 v) (by rw [hti]; exact hr)
      exact acc m hm hp
    · intro hr
      have hr : 256 ≤ v.natAbs := by
        rcases hr with h | ⟨-, h | h⟩
        · exact h
        · exact absurd h hd.1
        · exact absurd h hd.2
      obtain ⟨t, ht⟩ := const_abs_bad (version := version) (a := c.virtualAddress) cr hab (by decide)
        (b := BitVec.ofInt 32 v) (by rw [hti]; exact hr) (by
          intro h
          have := congrArg BitVec.toInt h
          rw [hti] at this
          have h' : (0x80000000#32).toInt = -2147483648 := by decide
          omega)
      exact rej t ht
  · have hab : op.has .abs = false := by rw [t13]; exact decide_eq_false hd
    have hnat := BitVec.toNat_ofInt (n := 32) v
    constructor
    · intro hr hs
      have h0 : 0 ≤ v := by
        rcases (by omega : 0 ≤ v ∨ v < 0) with h | h
        · exact h
        · exact absurd (hs h) hd
      refine acc { value := BitVec.ofInt 32 v } ?_ rfl
      rw [const_unsigned cr hab (by decide), if_pos]
      omega
    · intro hr
      refine rej "Immediate value out of range" ?_
      rw [const_unsigned cr hab (by decide), if_neg]
      omega

/-! ### Examples -/

/-- `ldr r1,[r2,-8]!` -/
example : Valid (row "ldrC" "d0,[n0,/#j\x0c]W") { plain with rd := 1, rn := 2, imm := .int (-8), bitLen := 12, writeback := true } ∧
    Emits (sem Sample.env .gba (row "ldrC" "d0,[n0,/#j\x0c]W")
      { plain with rd := 1, rn := 2, imm := .int (-8), bitLen := 12, writeback := true }) ctx idle 0xE5321008#32 :=
  ⟨by valid, by emits⟩
/-- `strb r1,[r2],-r3,asr 4` -/
example : Valid (row "strCb" "d0,[n0],vm1S1")
      { plain with rd := 1, rn := 2, rm := 3, signPlus := false, shift := some ⟨2, false, 0, .int 4⟩ } ∧
    Emits (sem Sample.env .gba (row "strCb" "d0,[n0],vm1S1")
      { plain with rd := 1, rn := 2, rm := 3, signPlus := false, shift := some ⟨2, false, 0, .int 4⟩ }) ctx idle 0xE6421243#32 :=
  ⟨by valid, by emits⟩
/-- `ldrne r1,[r2]!` -/
example : Valid (row "ldrC" "d0,[n0]!") { plain with c := 1, rd := 1, rn := 2 } ∧
    Emits (sem Sample.env .gba (row "ldrC" "d0,[n0]!") { plain with c := 1, rd := 1, rn := 2 }) ctx idle 0x15B21000#32 :=
  ⟨by valid, by emits⟩
/-- `ldrsh r1,[r2,0x12]` -/
example : Valid (row "ldrCsh" "d0,[n0,/#j\x08]") { plain with rd := 1, rn := 2, imm := .int 0x12, bitLen := 8 } ∧
    Emits (sem Sample.env .gba (row "ldrCsh" "d0,[n0,/#j\x08]") { plain with rd := 1, rn := 2, imm := .int 0x12, bitLen := 8 })
      ctx idle 0xE1D211F2#32 := ⟨by valid, by emits⟩
/-- `strh r1,[r2],-r3` -/
example : Valid (row "strCh" "d0,[n0],vm1") { plain with rd := 1, rn := 2, rm := 3, signPlus := false } ∧
    Emits (sem Sample.env .gba (row "strCh" "d0,[n0],vm1") { plain with rd := 1, rn := 2, rm := 3, signPlus := false })
      ctx idle 0xE00210B3#32 := ⟨by valid, by emits⟩
/-- `ldrd r2,[r4]` -/
example : Valid (row "ldrCd" "d0,[n0]") { plain with rd := 2, rn := 4 } ∧
    Emits (sem Sample.env .nds (row "ldrCd" "d0,[n0]") { plain with rd := 2, rn := 4 }) ctx idle 0xE1C420D0#32 :=
  ⟨by valid, by emits⟩

/-! ### Where the code is wrong -/

/-- `ldrt r0,[r1]` is written pre-indexed with writeback: that is `ldr r0,[r1,0]!`, not a user mode load. -/
theorem user_mode_wrong : ∃ op ∈ opcodes, ∃ o w, op.name = "ldrCt" ∧ Valid op o ∧
    Emits (sem Sample.env .gba op o) ctx idle w ∧ HasFields w (loadStore o.c 0 1 1 0 1 1 o.rn o.rd (offset12 0)) :=
  ⟨row "ldrCt" "d0,[n0]", by decide +kernel, { plain with rn := 1 }, 0xE5B10000#32, by decide +kernel, by valid, by emits,
    by decide +kernel⟩

/-- `ldrd` with an odd register is accepted. -/
theorem ldrd_odd_register : ∃ op ∈ opcodes, ∃ o w, op.name = "ldrCd" ∧ Valid op o ∧ o.rd % 2 = 1 ∧
    Emits (sem Sample.env .nds op o) ctx idle w :=
  ⟨row "ldrCd" "d0,[n0]", by decide +kernel, { plain with rd := 3 }, 0xE1C030D0#32, by decide +kernel, by valid, by decide, by emits⟩

end Armips.Props
