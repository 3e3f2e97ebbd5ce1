import Verif.Lemmas.ArmSample
import Verif.Lemmas.ArmLoad
/-!
# C20, C25: ARM instructions that form addresses and constants

Loads and stores with an absolute address, `ldr rd,=value`, `adr`, and the remaining instructions with an immediate.
-/
namespace Armips.Props
open Armips.Arm Spec Spec.Arm Spec.Instr
open Sample (row plain ctx idle)

variable {E : Env} {version : Version} {op : Op} {o : Operands} {c : Ctx} {st : ArchState} {w : BitVec 32}

/-- `ldr rd,[address]` and `str rd,[address]`: relative to the program counter, and the address accessed is the one given
(modulo 2^32). -/
theorem arm_absolute_word {q : Nat × Nat × Nat} {v : Int} (h : op ∈ opcodes) (hm : op.mask = "d0,[/#j\x0c]")
    (hq : loadStoreOp op.name = some q) (hv : Valid op o) (he : Emits (sem E version op o) c st w)
    (hev : Evaluates E .arm c o.imm (.int v)) :
    ∃ u n, HasFields w (loadStore o.c 0 1 u q.1 0 q.2.1 15 o.rd (offset12 n)) ∧
      literalAddress w c.virtualAddress % 2 ^ 32 = v % 2 ^ 32 := by
  obtain ⟨f, hf, rfl⟩ := emits_word he
  obtain ⟨t1, t2, t3, t4, t5, t6, t7, t8, t9, t10, t11, t12, t13, t14, t15, t16, t17, t18, t19, t20, t21, t22⟩ :=
    absolute_table op h hm q (by simp [hq])
  obtain ⟨val, b, hv', hb, hi⟩ := hf.imm t9
  cases evaluates_unique hev hv'
  simp only [valueBits, Option.some.injEq] at hb
  subst hb
  have hbl : o.bitLen = 12 := by
    rw [hv.bits t9, t12]
  have hi' : immAbsolute 12 (BitVec.ofInt 32 v) c.virtualAddress = .ok f.imm := by
    simp only [immediate, immCases, t16, t17, t18, t19, Bool.false_eq_true, if_false, if_true, hbl] at hi
    cases hx : immAbsolute 12 (BitVec.ofInt 32 v) c.virtualAddress with
    | error e => rw [hx] at hi; simp at hi
    | ok m =>
      rw [hx] at hi
      simpa [checkWidth, t19] using hi
  obtain ⟨k1, k2, k3⟩ := absolute_cases (by decide) hi'
  have k3 : (offset f).toNat = f.imm.value.toInt.natAbs := k3
  have hs : o.s = false := by
    cases hs : o.s with
    | false => rfl
    | true => exact absurd (hv.s hs) t7
  have hw : o.writeback = false := by
    cases hw : o.writeback with
    | false => rfl
    | true => exact absurd (hv.writeback hw) t8
  have hsub : subtracts op f = decide (f.imm.value.toInt < 0) := by simp [subtracts, t11]
  have hfl := load_const (c15 hv) ⟨t1, t2, by rw [t4]; exact fun h => absurd h (by decide), fun _ => hv.rd t6, hs⟩
    (by rw [k1]) (by rw [k1]) (by rw [k3]; exact k2) t9 t10
  rw [hsub, k3] at hfl
  simp only [loadHead, t3, t4, t5, hw, Bool.not_false, if_true, Bool.false_eq_true, if_false, Nat.zero_or, Nat.or_zero,
    Bool.toNat_false, decide_eq_true_eq] at hfl
  refine ⟨_, _, hfl, ?_⟩
  refine sign_magnitude k2 (k := v) ?_
    (hfl (23, 1, if f.imm.value.toInt < 0 then 0 else 1) (by simp [loadStore])) (hfl (0, 12, f.imm.value.toInt.natAbs) (by simp [loadStore, offset12]))
  rw [k1]
  simp only
  rw [toInt_emod, BitVec.toNat_ofInt]
  have := toInt_emod (BitVec.ofInt 32 v)
  rw [BitVec.toNat_ofInt] at this
  omega

theorem immWord_of {op : Op} {v : BitVec 32} {m : Imm} {e : Option (BitVec 32)} (ho : op.has .optimize = false)
    (h : rotated op v false e = .ok m) : ∃ r x, getShiftedImmediate v = some (r, x) ∧
      m = { value := x, rot := r, encoding := e } := by
  rcases rotated_cases h with ⟨r, x, h1, h2⟩ | ⟨r, x, h1, h2, -⟩
  · exact ⟨r, x, h1, h2⟩
  · rw [ho] at h2; simp at h2

/-- `msr cpsr_…,value` and the like, also written `mov`: the value is denoted exactly. -/
theorem arm_msr_immediate_word {val : Value} {b : BitVec 32} (h : op ∈ opcodes) (hm : op.mask = "P0,/#i") (hv : Valid op o)
    (he : Emits (sem E version op o) c st w) (hval : Evaluates E .arm c o.imm val) (hb : constantBits E val = some b) :
    ∃ rot imm, HasFields w (msrImmediate o.c o.spsr.toNat o.field rot imm) ∧ immediateOf w = b := by
  obtain ⟨f, hf, rfl⟩ := emits_word he
  obtain ⟨t1, t2, t3, t4, t5, t6, t7, t8, t9, t10, t11, t12, t13, t14, t15, t16, -⟩ := msrImm_table op h hm
  obtain ⟨val', b', hv', hb', hi⟩ := hf.imm t8
  cases evaluates_unique hval hv'
  rw [valueBits_shift t14, hb] at hb'
  simp only [Option.some.injEq] at hb'
  subst hb'
  have hbl : o.bitLen = 32 := by
    rw [hv.bits t8, t10]
  have hi' : rotated op b false none = .ok f.imm := by
    simp only [immediate, immCases, t14, if_true, immShift, t9, pcRelative, t15, Bool.false_and, Bool.false_eq_true, if_false,
      hbl] at hi
    cases hx : rotated op b false none with
    | error e => rw [hx] at hi; simp at hi
    | ok m => rw [hx] at hi; simpa [checkWidth] using hi
  obtain ⟨r, x, hg, hfm⟩ := immWord_of t16 hi'
  obtain ⟨g1, g2, g3, g4⟩ := shifted_some hg
  have hfl := msrImm_fields h hm hv (by rw [hfm]) (by rw [hfm]) (hf.noShift (hv.noShift t12 t13)) (by rw [hfm]; exact ⟨g1, g2⟩)
    (by rw [hfm]; exact g3)
  refine ⟨_, _, hfl, ?_⟩
  have h1 : field (Arm.encode op o f) 8 4 = f.imm.rot / 2 := hfl (8, 4, f.imm.rot / 2) (by simp [msrImmediate])
  have h2 : field (Arm.encode op o f) 0 8 = f.imm.value.toNat := hfl (0, 8, f.imm.value.toNat) (by simp [msrImmediate])
  rw [immediateOf, h1, h2, hfm]
  exact rot_back hg

/-- `adr rd,address`, `add rd,=address` and `sub rd,=address`: an addition to or subtraction from the program counter whose
result is the address. -/
theorem arm_adr_word {v : Int} (h : op ∈ opcodes) (hm : op.mask = "d1,=/#I" ∨ op.mask = "d1,/#I" ∧ op.name = "adrCS")
    (hv : Valid op o) (he : Emits (sem E version op o) c st w) (hev : Evaluates E .arm c o.imm (.int v))
    (ha : c.virtualAddress % 4 = 0) :
    ∃ n rot imm, HasFields w (dataImmediate o.c n o.s.toNat 15 o.rd rot imm) ∧ (n = 4 ∨ n = 2) ∧
      ∀ carry, (compute n (BitVec.ofInt 32 (c.virtualAddress + 8)) (immediateOf w) carry).1 = BitVec.ofInt 32 v := by
  obtain ⟨f, hf, rfl⟩ := emits_word he
  obtain ⟨t1, t2, t2', t3, t4, t5, t6, t7, t8, t9, t10, t11, t12, t13, t14, t15, -⟩ := adr_table op h (by
    rcases hm with h | h
    · exact .inl h
    · exact .inr h.1)
  obtain ⟨val', b', hv', hb', hi⟩ := hf.imm t7
  cases evaluates_unique hev hv'
  simp only [valueBits, Option.some.injEq] at hb'
  subst hb'
  have hbl : o.bitLen = 32 := by
    rw [hv.bits t7, t9]
  have hal : c.virtualAddress + 8 - (c.virtualAddress + 8) % 4 = c.virtualAddress + 8 := by omega
  simp only [immediate, immCases, t13, if_true, immShift, t8, Bool.false_and, Bool.false_eq_true, if_false, hbl, pcRelative, t14,
    hal] at hi
  have hdd : BitVec.ofInt 32 ((BitVec.ofInt 32 v).toInt - (c.virtualAddress + 8)) =
      BitVec.ofInt 32 v - BitVec.ofInt 32 (c.virtualAddress + 8) := by
    apply BitVec.eq_of_toInt_eq
    simp [BitVec.toInt_ofInt, BitVec.toInt_sub]
  rw [hdd] at hi
  have hshift := hf.noShift (hv.noShift t11 t12)
  have fin : ∀ n e x0, rotated op x0 false e = .ok f.imm → HasFields (e.getD op.encoding) (dataImmediate 0 n 0 15 0 0 0) →
      ∃ rot imm, HasFields (Arm.encode op o f) (dataImmediate o.c n o.s.toNat 15 o.rd rot imm) ∧
        immediateOf (Arm.encode op o f) = x0 := by
    intro n e x0 hr hen
    obtain ⟨r, x, hg, hfm⟩ := immWord_of t15 hr
    obtain ⟨g1, g2, g3, g4⟩ := shifted_some hg
    have hfl := fixedImm_fields (o := o) (c15 hv) (hv.rd t6) (by rw [hfm]; exact t1) (by rw [hfm]; exact hen) t3 t4 t5 t7 hshift
      (by rw [hfm]; exact ⟨g1, g2⟩) (by rw [hfm]; exact g3)
    refine ⟨_, _, hfl, ?_⟩
    rw [decode_imm hfl, hfm]
    exact rot_back hg
  generalize BitVec.ofInt 32 (c.virtualAddress + 8) = pc at *
  generalize BitVec.ofInt 32 v = vv at *
  by_cases hneg : (vv - pc).toInt < 0
  · rw [if_pos hneg] at hi
    cases hab : absInt (vv - pc) with
    | error e => rw [hab] at hi; simp at hi
    | ok x =>
      rw [hab] at hi
      simp only at hi
      obtain ⟨-, hx⟩ := absInt_ok hab
      rw [if_pos hneg] at hx
      cases hr : rotated op x false (some (op.encoding ^^^ 0xC00000#32)) with
      | error e => rw [hr] at hi; simp at hi
      | ok m =>
        rw [hr] at hi
        simp only [checkWidth, ne_eq, not_true_eq_false, false_and, if_false, Except.ok.injEq] at hi
        subst hi
        obtain ⟨rot, imm, hfl, himm⟩ := fin 2 _ x hr t2'
        refine ⟨2, rot, imm, hfl, .inr rfl, fun carry => ?_⟩
        rw [himm, hx]
        simp only [compute, addWithCarry]
        apply BitVec.eq_of_toNat_eq
        simp
        omega
  · rw [if_neg hneg] at hi
    simp only at hi
    cases hr : rotated op (vv - pc) false none with
    | error e => rw [hr] at hi; simp at hi
    | ok m =>
      rw [hr] at hi
      simp only [checkWidth, ne_eq, not_true_eq_false, false_and, if_false, Except.ok.injEq] at hi
      subst hi
      obtain ⟨rot, imm, hfl, himm⟩ := fin 4 _ _ hr t2
      refine ⟨4, rot, imm, hfl, .inl rfl, fun carry => ?_⟩
      rw [himm]
      simp only [compute, addWithCarry]
      apply BitVec.eq_of_toNat_eq
      simp
      omega

theorem movBase : HasFields 0x03A00000#32 (dataImmediate 0 13 0 0 0 0 0) := by decide +kernel
theorem mvnBase : HasFields 0x03E00000#32 (dataImmediate 0 15 0 0 0 0 0) := by decide +kernel

/-- `ldr rd,=value`. A value that `mov` or `mvn` can produce is loaded by that instruction. Otherwise the
instruction asks for a literal pool entry with the value and becomes a load relative to the program counter: when the entry
gets an address and this is not reported as out of range, the load reads exactly that address (modulo 2^32). -/
theorem arm_literal_word {val : Value} {b : BitVec 32} {out : InstrOut} (h : op ∈ opcodes) (hm : op.mask = "d0,=/#i")
    (hv : Valid op o) (he : Accepts (sem E version op o) c st out) (hval : Evaluates E .arm c o.imm val)
    (hb : constantBits E val = some b) :
    (out.pool = none ∧ ∃ n rot imm w, (∀ p, out.words p = [(Width.w32, (w.toNat : Int))]) ∧
      HasFields w (dataImmediate o.c n 0 0 o.rd rot imm) ∧ (n = 13 ∨ n = 15) ∧
      ∀ a carry, (compute n a (immediateOf w) carry).1 = b) ∨
    (¬ Encodable b ∧ ¬ Encodable (~~~b) ∧ out.pool = some b.toInt ∧
      (c.virtualAddress % 4 = 0 → 0 ≤ c.virtualAddress → c.virtualAddress + 8 < 2 ^ 32 → ∀ p, out.poolDiags p = [] →
        ∃ u n w, out.words (some p) = [(Width.w32, (w.toNat : Int))] ∧
          HasFields w (loadStore o.c 0 1 u 0 0 1 15 o.rd (offset12 n)) ∧
          literalAddress w c.virtualAddress % 2 ^ 32 = p % 2 ^ 32)) := by
  obtain ⟨f, hf, rfl⟩ := accepted he
  obtain ⟨t1, t2, t3, t4, t5, t6, t7, t8, t9, t10, t11, t12, t13, t14, t15, t16, t17, -⟩ := literal_table op h hm
  obtain ⟨val', b', hv', hb', hi⟩ := hf.imm t9
  cases evaluates_unique hval hv'
  have : valueBits E op val = constantBits E val := by cases val <;> simp [valueBits, constantBits, t17]
  rw [this, hb] at hb'
  simp only [Option.some.injEq] at hb'
  subst hb'
  have hbl : o.bitLen = 32 := by
    rw [hv.bits t9, t12]
  simp only [immediate, immCases, t16, t17, if_true, Bool.false_eq_true, if_false, hbl, checkWidth, ne_eq, not_true_eq_false,
    false_and, Except.ok.injEq] at hi
  have hshift := hf.noShift (hv.noShift t14 t15)
  have hos := noS hv t7
  have hw : o.writeback = false := by
    cases hw : o.writeback with
    | false => rfl
    | true => exact absurd (hv.writeback hw) t8
  unfold immPool at hi
  cases hg : getShiftedImmediate b with
  | some p =>
    obtain ⟨r, x⟩ := p
    rw [hg] at hi
    simp only at hi
    obtain ⟨g1, g2, g3, g4⟩ := shifted_some hg
    left
    have hfl := fixedImm_fields (n := 13) (r := 0) (o := o) (f := f) (c15 hv) (hv.rd t6) (by rw [← hi]; rfl)
      (by rw [← hi]; exact movBase) t3 t4 t5 t9 hshift
      (by rw [← hi]; exact ⟨g1, g2⟩) (by rw [← hi]; exact g3)
    refine ⟨by simp [outcome, ← hi], 13, f.imm.rot / 2, f.imm.value.toNat, Arm.encode op o f,
      fun p => outcome_words (by rw [← hi]) p, ?_, .inl rfl, ?_⟩
    · rw [hos] at hfl
      exact hfl
    · intro a carry
      rw [decode_imm hfl, ← hi]
      exact rot_back hg
  | none =>
    rw [hg] at hi
    simp only at hi
    cases hg2 : getShiftedImmediate (~~~b) with
    | some p =>
      obtain ⟨r, x⟩ := p
      rw [hg2] at hi
      simp only at hi
      obtain ⟨g1, g2, g3, g4⟩ := shifted_some hg2
      left
      have hfl := fixedImm_fields (n := 15) (r := 0) (o := o) (f := f) (c15 hv) (hv.rd t6) (by rw [← hi]; rfl)
        (by rw [← hi]; exact mvnBase) t3 t4 t5 t9 hshift
        (by rw [← hi]; exact ⟨g1, g2⟩) (by rw [← hi]; exact g3)
      refine ⟨by simp [outcome, ← hi], 15, f.imm.rot / 2, f.imm.value.toNat, Arm.encode op o f,
        fun p => outcome_words (by rw [← hi]) p, ?_, .inr rfl, ?_⟩
      · rw [hos] at hfl
        exact hfl
      · intro a carry
        rw [decode_imm hfl, ← hi]
        simp only [compute]
        rw [rot_back hg2]
        simp
    | none =>
      rw [hg2] at hi
      simp only at hi
      right
      refine ⟨shifted_none hg, shifted_none hg2, by simp [outcome, ← hi], ?_⟩
      intro ha h0 h1 p hp
      have hnf : poolFar c.virtualAddress p = false := by
        simp only [outcome] at hp
        cases hx : poolFar c.virtualAddress p with
        | false => rfl
        | true => simp [hx] at hp
      have hpi : poolImm c.virtualAddress f.imm (some p) = { value := poolPos c.virtualAddress p, pool := true } := by
        rw [← hi]
        simp [poolImm, hnf]
      have hpc : (BitVec.ofInt 64 (c.virtualAddress + 8) &&& 0xFFFFFFFD#64).toInt = c.virtualAddress + 8 := by
        generalize c.virtualAddress = a at *
        obtain ⟨n, hn⟩ : ∃ n : Nat, a + 8 = n := ⟨(a + 8).toNat, by omega⟩
        rw [hn]
        have e : (BitVec.ofInt 64 (n : Int) &&& 0xFFFFFFFD#64) = BitVec.ofNat 64 n := by
          apply BitVec.eq_of_toNat_eq
          simp only [BitVec.ofInt_natCast, BitVec.toNat_and, BitVec.toNat_ofNat]
          rw [Nat.mod_eq_of_lt (by omega : n < 2 ^ 64)]
          apply Nat.eq_of_testBit_eq
          intro i
          rw [Nat.testBit_and]
          by_cases hi1 : i = 1
          · subst hi1
            have : n.testBit 1 = false := by
              rw [Nat.testBit_succ, Nat.testBit_zero]
              simp
              omega
            rw [this]; rfl
          · by_cases hi32 : i < 32
            · have : ∀ i : Fin 32, i.val ≠ 1 → (4294967293 % 2 ^ 64).testBit i.val = true := by decide
              rw [this ⟨i, hi32⟩ hi1, Bool.and_true]
            · rw [Nat.testBit_lt_two_pow (Nat.lt_of_lt_of_le (by omega : n < 2 ^ 32) (Nat.pow_le_pow_right (by decide) (by omega)))]
              rfl
        rw [e]
        rw [BitVec.toInt_eq_toNat_of_lt (by simp; omega), BitVec.toNat_ofNat, Nat.mod_eq_of_lt (by omega)]
      have hd : (poolPos c.virtualAddress p).toInt.natAbs < 4096 := by
        simp only [poolFar, decide_eq_false_iff_not] at hnf
        omega
      have hne : poolPos c.virtualAddress p ≠ 0x80000000#32 := by
        intro h
        rw [h] at hd
        exact absurd hd (by decide)
      have hoff : ∀ g : Final, g.imm = { value := poolPos c.virtualAddress p, pool := true } →
          (offset g).toNat = (poolPos c.virtualAddress p).toInt.natAbs := by
        intro g hg
        simp only [offset, hg]
        by_cases hn : (poolPos c.virtualAddress p).toInt < 0
        · rw [if_pos hn]; exact (neg_toNat hne hn).2
        · rw [if_neg hn]; exact pos_toNat (by omega)
      have hfl := load_const (o := o) (f := { f with imm := poolImm c.virtualAddress f.imm (some p) }) (c15 hv)
        ⟨t1, t2, by rw [t4]; exact fun h => absurd h (by decide), fun _ => hv.rd t6, hos⟩
        (by rw [hpi]) (by rw [hpi]) (by rw [hoff _ hpi]; exact hd) t9 t10
      rw [hoff _ hpi] at hfl
      have hsub : subtracts op { f with imm := poolImm c.virtualAddress f.imm (some p) } =
          decide ((poolPos c.virtualAddress p).toInt < 0) := by
        simp [subtracts, t11, hpi]
      rw [hsub] at hfl
      simp only [loadHead, t3, t4, t5, hw, Bool.not_false, if_true, Bool.false_eq_true, if_false, Nat.zero_or, Nat.or_zero,
        Bool.toNat_false, decide_eq_true_eq] at hfl
      refine ⟨_, _, _, rfl, hfl, ?_⟩
      refine sign_magnitude hd (k := p) ?_
        (hfl (23, 1, if (poolPos c.virtualAddress p).toInt < 0 then 0 else 1) (by simp [loadStore]))
        (hfl (0, 12, (poolPos c.virtualAddress p).toInt.natAbs) (by simp [loadStore, offset12]))
      simp only [poolPos, hpc]
      rw [toInt_emod, BitVec.toNat_ofInt]
      omega

/-- `ldr rd,=value` is accepted whatever the value. -/
theorem arm_literal_accepted {val : Value} {b : BitVec 32} (h : op ∈ opcodes) (hm : op.mask = "d0,=/#i")
    (hv : Valid op o) (hval : Evaluates E .arm c o.imm val) (hb : constantBits E val = some b) :
    ∃ out, Accepts (sem E version op o) c st out := by
  obtain ⟨t1, t2, t3, t4, t5, t6, t7, t8, t9, t10, t11, t12, t13, t14, t15, t16, t17, t18, t19, t20⟩ := literal_table op h hm
  have hbl : o.bitLen = 32 := by
    rw [hv.bits t9, t12]
  have : valueBits E op val = constantBits E val := by cases val <;> simp [valueBits, constantBits, t17]
  obtain ⟨f, out, -, -, hacc⟩ := accepted_of (version := version) (st := st) (m := immPool b)
    (by rw [hv.noShift t14 t15]; simp) t18 t19 t20 t9 hval (this.trans hb)
    (by simp only [immediate, immCases, t16, t17, if_true, Bool.false_eq_true, if_false, hbl, checkWidth, ne_eq,
      not_true_eq_false, false_and])
  exact ⟨out, hacc⟩

/-- `pld`: the layout of a byte load with condition field 15 and register field 15. -/
theorem arm_pld_word (h : op ∈ opcodes) (hn : op.name = "pld") (hv : Valid op o) (he : Emits (sem E version op o) c st w) :
    (op.mask = "[n0]" → HasFields w (loadStore 15 0 1 1 1 0 1 o.rn 15 (offset12 0))) ∧
    (op.mask = "[n0,/#j\x0c]" → ∀ v : Int, Evaluates E .arm c o.imm (.int v) → -2 ^ 31 ≤ v → v < 2 ^ 31 →
      v.natAbs < 4096 ∧ HasFields w (loadStore 15 0 1 (if v < 0 then 0 else 1) 1 0 1 o.rn 15 (offset12 v.natAbs))) ∧
    (op.mask = "[n0,vm1S1]" → o.shift = none →
      HasFields w (loadStore 15 1 1 o.signPlus.toNat 1 0 1 o.rn 15 (offsetRegister 0 0 o.rm))) := by
  obtain ⟨f, hf, rfl⟩ := emits_word he
  obtain ⟨t1, t2, t3, t4, t5, t6, t7, t8, t9, t10, t11, t12, t13, t14, t15, t16, t17, t18, t19, t20, t21, t22, t23, t24, t25⟩ :=
    pld_table op h hn
  have hrn : rnOf op o = o.rn := by simp [rnOf, t5]
  have hrm : rmOf op o = o.rm := by simp [rmOf, t6]
  have hs := noS hv t9
  have hw : o.writeback = false := by
    cases hw : o.writeback with
    | false => rfl
    | true => exact absurd (hv.writeback hw) t10
  have r : LoadRow op o 15 (if op.mask = "[n0,vm1S1]" then 1 else 0) 1 1 0 1 0 15 :=
    ⟨t1, t2, by rw [hrn]; exact fun _ => hv.rn t8, by rw [t7]; exact fun h => absurd h (by decide), hs⟩
  refine ⟨?_, ?_, ?_⟩
  · intro hm
    simp only [hm, String.reduceEq, decide_false, if_false] at t12 t13 t14 r
    have := load_none (c15 hv) r (hf.noImm t12) t12 t13 t14
    simpa [loadHead, t3, t4, t7, hw, hrn] using this
  · intro hm v hev h1 h2
    obtain ⟨u1, u2, u3, u4⟩ := t17 hm
    simp only [hm, String.reduceEq, decide_false, decide_true, if_false] at t12 t13 t14 t15 r
    have cr : ConstRow op 12 := ⟨t12, t18, t19, t20, t21, t22, u1, u2, u3, u4, t23, t24, t25⟩
    obtain ⟨val, b, hv', hb, hmm⟩ := hf.imm t12
    cases evaluates_unique hev hv'
    simp only [valueBits, Option.some.injEq] at hb
    subst hb
    rw [cr.bitLen hv] at hmm
    obtain ⟨k1, k2, k3, k4⟩ := const_abs cr t15 (by decide) hmm
    rw [toInt32 h1 h2] at k1 k2 k3 k4
    have hoff : (offset f).toNat = v.natAbs := by
      unfold offset
      rw [k2]
      simp only
      rw [if_neg (by omega), k3]
    have hsub : subtracts op f = decide (v < 0) := by
      unfold subtracts
      rw [t15, k2]
      simp only [Bool.true_and]
      have hpos : decide ((if v < 0 then -BitVec.ofInt 32 v else BitVec.ofInt 32 v).toInt < 0) = false :=
        decide_eq_false (by omega)
      rw [hpos, Bool.or_false]
    have := load_const (c15 hv) r (by rw [k2]) (by rw [k2]) (by rw [hoff]; exact k1) t12 t14
    rw [hoff, hsub] at this
    exact ⟨k1, by simpa [loadHead, t3, t4, t7, hw, hrn] using this⟩
  · intro hm hsh
    have hmm := t16 hm
    simp only [hm, String.reduceEq, decide_false, decide_true, if_true] at t12 t13 t14 t15 r
    have := load_reg (c15 hv) r (hf.noImm t12) t12 t13 t14 t15 (.inl ⟨hsh, rfl, rfl⟩) (by decide) (by decide)
      (by rw [hrm]; exact hv.rm hmm)
    simpa [loadHead, t3, t4, t7, hw, hrn, hrm] using this

/-- `nop` is `mov r0,r0`. -/
theorem arm_nop_word (h : op ∈ opcodes) (hn : op.name = "nop") (hv : Valid op o) (he : Emits (sem E version op o) c st w) :
    HasFields w (dataRegister 14 13 0 0 0 0 0 0) := by
  obtain ⟨f, hf, rfl⟩ := emits_word he
  have ht : ∀ op ∈ opcodes, op.name = "nop" → op.type = .type5 ∧ op.encoding = 0xE1A00000#32 ∧ op.has .uncond = true ∧
      op.has .n = false ∧ op.has .d = false ∧ op.has .immediate = false ∧ op.has .register = false ∧ 'S' ∉ op.name.toList := by
    set_option maxRecDepth 10000 in decide +kernel
  obtain ⟨t1, t2, t3, t4, t5, t6, t7, t8⟩ := ht op h hn
  have hs := noS hv t8
  have hf := hf.noImm t6
  simp only [Arm.encode, encodeBase, encodeType, encodeOp2, hf, t1, t2, t3, t4, t5, t6, t7, hs, Bool.not_true, orIf_false,
    Bool.false_eq_true, if_false, Option.getD_none]
  decide +kernel

/-- Every row of the table is covered by one of the theorems, except the last three cases, where the code is wrong
(`smlal_halfword_wrong`, `user_mode_wrong`) or uses an uninitialised variable (`strh` with an absolute address). -/
theorem arm_rows_covered : ∀ op ∈ opcodes,
    (op.mask ∈ dataImmediateSyntax ∧ (opcode op.name).isSome = true) ∨
    (op.mask ∈ dataRegisterSyntax ∧ (opcode op.name).isSome = true) ∨
    (pseudoOp op.name).isSome = true ∨
    op.name ∈ ["bC", "blC", "blx", "bxC", "blxC", "swpC", "swpCb", "clzC", "ldmCA", "stmCA", "pushC", "popC", "cdpC", "cdp2",
      "mcrrC", "mrrcC", "swiC", "bkpt", "pld", "nop"] ∨
    (mcrOp op.name op.mask).isSome = true ∨
    op.mask ∈ ["d1,P1", "P0,m1", "P0,/#i", "d1,=/#I", "d0,=/#i"] ∨ (op.mask = "d1,/#I" ∧ op.name = "adrCS") ∨
    (saturatingOp op.name).isSome = true ∨
    ((multiplyOp op.name).isSome = true ∧ op.name ≠ "smlalXYC") ∨
    ((loadStoreOp op.name).isSome = true ∧ op.mask = "d0,[/#j\x0c]") ∨
    (∃ q ∈ (loadStoreOp op.name).toList, ∃ a ∈ (addressing op.mask).toList, ¬ (q.2.2 = 1 ∧ a.1 = .none)) ∨
    ((loadStoreMiscOp op.name).isSome = true ∧ (addressingMisc op.mask).isSome = true) ∨
    op.name = "smlalXYC" ∨ (op.name ∈ ["ldrCt", "strCt", "ldrCbt", "strCbt"] ∧ op.mask = "d0,[n0]") ∨
    (op.name = "strCh" ∧ op.mask = "d0,[/#j\x08]") := by
  set_option maxRecDepth 10000 in
  set_option synthInstance.maxSize 1000 in
  set_option synthInstance.maxHeartbeats 0 in
  decide +kernel

/-! ### Examples -/

/-- `ldr r1,[0x8000000]` at 0x8000010 -/
example : Valid (row "ldrC" "d0,[/#j\x0c]") { plain with rd := 1, imm := .int 0x8000000, bitLen := 12 } ∧
    Emits (sem Sample.env .gba (row "ldrC" "d0,[/#j\x0c]") { plain with rd := 1, imm := .int 0x8000000, bitLen := 12 }) ctx idle
      0xE51F1018#32 := ⟨by valid, by emits⟩
/-- `adr r1,0x8000000` at 0x8000010 -/
example : Valid (row "adrCS" "d1,/#I") { plain with rd := 1, imm := .int 0x8000000 } ∧
    Emits (sem Sample.env .gba (row "adrCS" "d1,/#I") { plain with rd := 1, imm := .int 0x8000000 }) ctx idle
      0xE24F1018#32 := ⟨by valid, by emits⟩
/-- `ldr r1,=-2` is `mvn r1,1`. -/
example : Valid (row "ldrC" "d0,=/#i") { plain with rd := 1, imm := .int (-2) } ∧
    Emits (sem Sample.env .gba (row "ldrC" "d0,=/#i") { plain with rd := 1, imm := .int (-2) }) ctx idle 0xE3E01001#32 :=
  ⟨by valid, by emits⟩
/-- `ldr r1,=0x12345678` reads the pool entry at 0x8000020. -/
example : ∃ out, Accepts (sem Sample.env .gba (row "ldrC" "d0,=/#i") { plain with rd := 1, imm := .int 0x12345678 }) ctx idle out ∧
    out.pool = some 0x12345678 ∧ out.poolDiags 0x8000020 = [] ∧
    out.words (some 0x8000020) = [(Width.w32, 0xE59F1008)] :=
  ⟨_, ⟨_, [], rfl, fun _ h => by cases h⟩, rfl, rfl, rfl⟩
/-- `msr cpsr_f,0xF0000000` -/
example : Valid (row "msrC" "P0,/#i") { plain with field := 8, imm := .int 0xF0000000 } ∧
    Emits (sem Sample.env .gba (row "msrC" "P0,/#i") { plain with field := 8, imm := .int 0xF0000000 }) ctx idle 0xE328F20F#32 :=
  ⟨by valid, by emits⟩
/-- `pld [r3,-4]` -/
example : Valid (row "pld" "[n0,/#j\x0c]") { plain with c := 0, rn := 3, imm := .int (-4), bitLen := 12 } ∧
    Emits (sem Sample.env .nds (row "pld" "[n0,/#j\x0c]") { plain with c := 0, rn := 3, imm := .int (-4), bitLen := 12 }) ctx idle
      0xF553F004#32 := ⟨by valid, by emits⟩

end Armips.Props
