import Verif.Lemmas.ArmWord
/-! Lemmas about ARM branches. -/
namespace Armips.Arm
open Spec Spec.Arm Spec.Instr

structure BranchRow (op : Op) (base : BitVec 32) (half uncond : Bool) : Prop where
  type : op.type = .type4
  imm : op.has .immediate = true
  shift : op.has .shift = false
  pool : op.has .pool = false
  branch : op.has .branch = true
  uncond : op.has .uncond = uncond
  half : op.has .halfword = half
  copop : op.has .copop = false
  copinf : op.has .copinf = false
  rdeven : op.has .rdeven = false
  bits : immediateBits op.mask.toList = 32
  noS : 'S' ∉ op.mask.toList ∧ 'z' ∉ op.mask.toList ∧ 'Y' ∉ op.mask.toList ∧ 'S' ∉ op.name.toList
  enc : op.encoding = base

def branchRowB (op : Op) (base : BitVec 32) (half uncond : Bool) : Bool :=
  decide (op.type = .type4) && op.has .immediate && !op.has .shift && !op.has .pool && op.has .branch &&
  decide (op.has .uncond = uncond) && decide (op.has .halfword = half) && !op.has .copop && !op.has .copinf &&
  !op.has .rdeven && decide (immediateBits op.mask.toList = 32) &&
  decide ('S' ∉ op.mask.toList ∧ 'z' ∉ op.mask.toList ∧ 'Y' ∉ op.mask.toList ∧ 'S' ∉ op.name.toList) &&
  decide (op.encoding = base)

theorem branchRow_of {op : Op} {base : BitVec 32} {half uncond : Bool} (h : branchRowB op base half uncond = true) :
    BranchRow op base half uncond := by
  simp only [branchRowB, Bool.and_eq_true, decide_eq_true_eq, Bool.not_eq_true'] at h
  obtain ⟨⟨⟨⟨⟨⟨⟨⟨⟨⟨⟨⟨t1, t2⟩, t3⟩, t4⟩, t5⟩, t6⟩, t7⟩, t8⟩, t9⟩, t10⟩, t11⟩, t12⟩, t13⟩ := h
  exact ⟨t1, t2, t3, t4, t5, t6, t7, t8, t9, t10, t11, t12, t13⟩

set_option maxRecDepth 10000 in
theorem branch_table : ∀ op ∈ opcodes,
    (op.name = "bC" → branchRowB op 0x0A000000#32 false false = true) ∧
    (op.name = "blC" → branchRowB op 0x0B000000#32 false false = true) ∧
    (op.name = "blx" → branchRowB op 0xFA000000#32 true true = true) := by decide +kernel

theorem immediate_branch {op : Op} {base : BitVec 32} {half uncond : Bool} (hr : BranchRow op base half uncond) (version : Version)
    (b : BitVec 32) (a : Int) : immediate op version 32 b a = immBranch op b a := by
  unfold immediate immCases
  simp only [hr.shift, hr.pool, hr.branch, Bool.false_eq_true, if_false, if_true]
  cases h : immBranch op b a with
  | error e => rfl
  | ok m => simp [checkWidth]

theorem immBranch_ok {op : Op} {base : BitVec 32} {half uncond : Bool} (hr : BranchRow op base half uncond) {b : BitVec 32} {a : Int}
    {m : Imm} : immBranch op b a = .ok m ↔
      b.toNat % (if half = true then 2 else 4) = 0 ∧ (BitVec.ofInt 32 (b.toInt - a - 8)).toInt.natAbs < 0x2000000 ∧
      m = { value := BitVec.ofInt 32 (b.toInt - a - 8) } := by
  have hand1 : b &&& 1#32 ≠ 0#32 ↔ b.toNat % 2 ≠ 0 := by
    refine not_congr ?_
    rw [← BitVec.toNat_inj]
    simp only [BitVec.toNat_and, BitVec.toNat_ofNat]
    rw [show 1 % 2 ^ 32 = 2 ^ 1 - 1 by decide, Nat.and_two_pow_sub_one_eq_mod]
  have hand3 : b &&& 3#32 ≠ 0#32 ↔ b.toNat % 4 ≠ 0 := by
    refine not_congr ?_
    rw [← BitVec.toNat_inj]
    simp only [BitVec.toNat_and, BitVec.toNat_ofNat]
    rw [show 3 % 2 ^ 32 = 2 ^ 2 - 1 by decide, Nat.and_two_pow_sub_one_eq_mod]
  have habs : ∀ d : BitVec 32, ∀ x, absInt d = .ok x → x.toInt = d.toInt.natAbs := by
    intro d x hx
    unfold absInt at hx
    split at hx
    · simp at hx
    · rename_i hne
      simp only [Except.ok.injEq] at hx
      subst hx
      split
      · rw [BitVec.toInt_neg]
        have h1 : d.toInt ≠ -2147483648 := by
          intro h
          apply hne
          apply BitVec.eq_of_toInt_eq
          rw [h]; decide
        have := d.toInt_lt
        have := d.le_toInt
        rw [Int.bmod_def]
        simp at *
        omega
      · omega
  have hmin : ∀ d : BitVec 32, absInt d = .error .ub ↔ d.toInt = -2147483648 := by
    intro d
    unfold absInt
    split
    · rename_i h; subst h; simp
    · rename_i h
      simp only [reduceCtorEq, false_iff]
      intro h'
      apply h
      apply BitVec.eq_of_toInt_eq
      rw [h']; decide
  unfold immBranch
  simp only [hr.half]
  generalize BitVec.ofInt 32 (b.toInt - a - 8) = d
  cases half
  · simp only [Bool.false_and, Bool.false_eq_true, if_false, Bool.not_false, Bool.true_and, decide_eq_true_eq, hand3]
    by_cases h4 : b.toNat % 4 = 0
    · simp only [h4, ne_eq, not_true_eq_false, if_false, true_and]
      cases ha : absInt d with
      | error e =>
        cases e with
        | ub => have := (hmin _).1 ha; simp [this]
        | error t => unfold absInt at ha; split at ha <;> simp at ha
      | ok x =>
        have := habs _ _ ha
        simp only
        split
        · simp; omega
        · simp only [Except.ok.injEq]
          constructor
          · intro h; exact ⟨by omega, h.symm⟩
          · intro h; exact h.2.symm
    · simp [h4]
  · simp only [Bool.true_and, decide_eq_true_eq, Bool.not_true, Bool.false_and, Bool.false_eq_true, if_false, if_true, hand1]
    by_cases h4 : b.toNat % 2 = 0
    · simp only [h4, ne_eq, not_true_eq_false, if_false, true_and]
      cases ha : absInt d with
      | error e =>
        cases e with
        | ub => have := (hmin _).1 ha; simp [this]
        | error t => unfold absInt at ha; split at ha <;> simp at ha
      | ok x =>
        have := habs _ _ ha
        simp only
        split
        · simp; omega
        · simp only [Except.ok.injEq]
          constructor
          · intro h; exact ⟨by omega, h.symm⟩
          · intro h; exact h.2.symm
    · have : b.toNat % 2 = 1 := by omega
      simp [this]

theorem field24 (y : BitVec 32) : field (y &&& 0xFFFFFF#32) 0 24 = (y.toInt % 2 ^ 24).toNat := by
  have h : (y &&& 0xFFFFFF#32).toNat = y.toNat % 2 ^ 24 := by
    rw [BitVec.toNat_and, BitVec.toNat_ofNat, show 0xFFFFFF % 2 ^ 32 = 2 ^ 24 - 1 by decide, Nat.and_two_pow_sub_one_eq_mod]
  rw [field, h, BitVec.toInt_eq_toNat_cond]
  have := y.isLt
  split <;> omega

theorem field24_high (y : BitVec 32) {lo len : Nat} (h : 24 ≤ lo) : field (y &&& 0xFFFFFF#32) lo len = 0 := by
  apply field_high (k := 24) _ h
  rw [BitVec.toNat_and, BitVec.toNat_ofNat, show 0xFFFFFF % 2 ^ 32 = 2 ^ 24 - 1 by decide, Nat.and_two_pow_sub_one_eq_mod]
  omega

theorem signed24 {y : Int} (h1 : -(2 ^ 23) ≤ y) (h2 : y < 2 ^ 23) : signed 24 (y % 2 ^ 24).toNat = y := by
  unfold signed
  split <;> omega

theorem sshift2 (x : BitVec 32) : (x.sshiftRight 2).toInt = x.toInt / 4 := by
  rw [BitVec.toInt_sshiftRight, Int.shiftRight_eq_div_pow]; rfl

theorem and2 (x : BitVec 32) : decide (x &&& 2#32 ≠ 0#32) = decide (x.toInt / 2 % 2 = 1) := by
  have h : x &&& 2#32 ≠ 0#32 ↔ x.getLsbD 1 = true := by
    constructor
    · intro h
      cases hb : x.getLsbD 1 with
      | true => rfl
      | false =>
        exfalso
        apply h
        apply BitVec.eq_of_getLsbD_eq
        intro i hi
        simp only [BitVec.getLsbD_and, BitVec.getLsbD_zero]
        by_cases h1 : i = 1
        · subst h1; rw [hb]; rfl
        · have : (2#32).getLsbD i = false := by
            have : ∀ j : Fin 32, j.val ≠ 1 → (2#32).getLsbD j.val = false := by decide
            exact this ⟨i, hi⟩ h1
          rw [this, Bool.and_false]
    · intro hb h
      have := congrArg (fun y => y.getLsbD 1) h
      simp only [BitVec.getLsbD_and, hb, BitVec.getLsbD_zero] at this
      exact absurd this (by decide)
  have h2 : x.getLsbD 1 = true ↔ x.toNat / 2 % 2 = 1 := by
    rw [← BitVec.testBit_toNat, Nat.testBit, Nat.shiftRight_eq_div_pow]
    rw [show (1 : Nat) &&& x.toNat / 2 ^ 1 = x.toNat / 2 % 2 by rw [Nat.and_comm]; exact Nat.and_two_pow_sub_one_eq_mod _ 1]
    simp
  have h3 : x.toNat / 2 % 2 = 1 ↔ x.toInt / 2 % 2 = 1 := by
    rw [BitVec.toInt_eq_toNat_cond]
    split <;> omega
  rw [decide_eq_decide, h, h2, h3]

theorem branch_fields {op : Op} {o : Operands} {f : Final} {link : Bool}
    (hr : BranchRow op (if link = true then 0x0B000000#32 else 0x0A000000#32) false false) (hv : Valid op o)
    (hm : f.imm = { value := f.imm.value }) :
    HasFields (encode op o f) (branch o.c link.toNat ((f.imm.value.toInt / 4) % 2 ^ 24).toNat) := by
  have hc : o.c ≤ 15 := Nat.le_trans hv.c (by decide)
  have hs : o.s = false := by
    cases h : o.s with
    | false => rfl
    | true => exact absurd (hv.s h) hr.noS.2.2.2
  unfold encode encodeBase encodeType
  rw [hm]
  simp only [Bool.false_eq_true, if_false, hr.type, hr.uncond, hr.half, hr.enc, Bool.false_and, Option.getD_none, hs]
  cases link <;>
  simp [branch, hasFields_cons, hasFields_nil, field_or, field_orIf, f4, f4_ne, field_ofNat, field24, field24_high, Int.shiftRight_eq_div_pow, hc]

theorem blx_fields {op : Op} {o : Operands} {f : Final} (hr : BranchRow op 0xFA000000#32 true true) (hv : Valid op o)
    (hm : f.imm = { value := f.imm.value }) :
    HasFields (encode op o f) (blx (f.imm.value.toInt / 2 % 2).toNat ((f.imm.value.toInt / 4) % 2 ^ 24).toNat) := by
  have hs : o.s = false := by
    cases h : o.s with
    | false => rfl
    | true => exact absurd (hv.s h) hr.noS.2.2.2
  unfold encode encodeBase encodeType
  rw [hm]
  simp only [Bool.false_eq_true, if_false, hr.type, hr.uncond, hr.half, hr.enc, Bool.true_and, Option.getD_none, hs, and2]
  by_cases h2 : f.imm.value.toInt / 2 % 2 = 1
  · simp [blx, hasFields_cons, hasFields_nil, field_or, field_orIf, field_ofNat, field24, field24_high, Int.shiftRight_eq_div_pow, h2]
  · have h0 : f.imm.value.toInt / 2 % 2 = 0 := by omega
    simp [blx, hasFields_cons, hasFields_nil, field_or, field_orIf, field_ofNat, field24, field24_high, Int.shiftRight_eq_div_pow, h0]

/-- What is known after an accepted branch. -/
theorem branch_final {E : Env} {version : Version} {op : Op} {o : Operands} {c : Ctx} {base : BitVec 32}
    {half uncond : Bool} {v : Int} {f : Final} (hr : BranchRow op base half uncond) (hv : Valid op o)
    (hf : FinalFor E version op o c f) (hval : Evaluates E .arm c o.imm (.int v)) :
    (BitVec.ofInt 32 v).toNat % (if half = true then 2 else 4) = 0 ∧ f.imm = { value := f.imm.value } ∧
      f.imm.value.toInt.natAbs < 0x2000000 ∧ f.imm.value = BitVec.ofInt 32 (v - c.virtualAddress - 8) := by
  obtain ⟨val', b', hv', hb', hm⟩ := hf.imm hr.imm
  have := evaluates_unique hval hv'
  subst this
  simp only [valueBits, Option.some.injEq] at hb'
  subst hb'
  have hbl : o.bitLen = 32 := by
    rw [hv.bits hr.imm, hr.bits]
  rw [hbl, immediate_branch hr, immBranch_ok hr] at hm
  obtain ⟨h1, h2, h3⟩ := hm
  refine ⟨h1, by rw [h3], by rw [h3]; exact h2, ?_⟩
  rw [h3]
  apply BitVec.eq_of_toInt_eq
  simp only [BitVec.toInt_ofInt, Int.sub_sub]
  exact Int.bmod_sub_bmod (x := v)

theorem branch_accepts {E : Env} {version : Version} {op : Op} {o : Operands} {c : Ctx} {st : ArchState} {base : BitVec 32}
    {half uncond : Bool} {v : Int} (hr : BranchRow op base half uncond) (hv : Valid op o)
    (hval : Evaluates E .arm c o.imm (.int v)) (h1 : v % (if half = true then 2 else 4) = 0)
    (h2 : -0x2000000 < v - c.virtualAddress - 8) (h3 : v - c.virtualAddress - 8 < 0x2000000) :
    ∃ w, Emits (sem E version op o) c st w := by
  have hbl : o.bitLen = 32 := by
    rw [hv.bits hr.imm, hr.bits]
  have hsub : BitVec.ofInt 32 ((BitVec.ofInt 32 v).toInt - c.virtualAddress - 8) = BitVec.ofInt 32 (v - c.virtualAddress - 8) := by
    apply BitVec.eq_of_toInt_eq
    simp only [BitVec.toInt_ofInt, Int.sub_sub]
    exact Int.bmod_sub_bmod (x := v)
  have hd : (BitVec.ofInt 32 (v - c.virtualAddress - 8)).toInt = v - c.virtualAddress - 8 := by
    rw [BitVec.toInt_ofInt, Int.bmod_def]
    split <;> omega
  have hm : immediate op version o.bitLen (BitVec.ofInt 32 v) c.virtualAddress =
      .ok { value := BitVec.ofInt 32 (v - c.virtualAddress - 8) } := by
    rw [hbl, immediate_branch hr, immBranch_ok hr, hsub, hd]
    refine ⟨?_, by omega, rfl⟩
    rw [BitVec.toNat_ofInt]
    cases half <;> simp only [Bool.false_eq_true, if_false, if_true] at h1 ⊢ <;> omega
  obtain ⟨f, out, hfm, rfl, hacc⟩ := accepted_of (version := version) (st := st)
    (by rw [hv.noShift hr.noS.1 hr.noS.2.1]; simp) hr.copop hr.copinf hr.rdeven hr.imm hval
    (by simp only [valueBits]) hm
  exact ⟨encode op o f, _, hacc, fun p => outcome_words (by rw [hfm]) p⟩

/-- A misaligned or too distant target is refused with an error. -/
theorem branch_rejects {E : Env} {version : Version} {op : Op} {o : Operands} {c : Ctx} {st : ArchState} {base : BitVec 32}
    {half uncond : Bool} {v : Int} (hr : BranchRow op base half uncond) (hv : Valid op o)
    (hval : Evaluates E .arm c o.imm (.int v))
    (h : v % (if half = true then 2 else 4) ≠ 0 ∨
      (0x2000000 ≤ (v - c.virtualAddress - 8).natAbs ∧ (v - c.virtualAddress - 8).natAbs < 2 ^ 31)) :
    Rejects (sem E version op o) c st := by
  have hbl : o.bitLen = 32 := by
    rw [hv.bits hr.imm, hr.bits]
  have hsub : BitVec.ofInt 32 ((BitVec.ofInt 32 v).toInt - c.virtualAddress - 8) = BitVec.ofInt 32 (v - c.virtualAddress - 8) := by
    apply BitVec.eq_of_toInt_eq
    simp only [BitVec.toInt_ofInt, Int.sub_sub]
    exact Int.bmod_sub_bmod (x := v)
  have hne : ∀ m, immBranch op (BitVec.ofInt 32 v) c.virtualAddress ≠ .ok m := by
    intro m hm
    rw [immBranch_ok hr, hsub] at hm
    obtain ⟨hm1, hm2, -⟩ := hm
    rcases h with h | ⟨h, h'⟩
    · rw [BitVec.toNat_ofInt] at hm1
      cases half <;> simp only [Bool.false_eq_true, if_false, if_true] at h hm1 <;> omega
    · have hd : (BitVec.ofInt 32 (v - c.virtualAddress - 8)).toInt = v - c.virtualAddress - 8 := by
        rw [BitVec.toInt_ofInt, Int.bmod_def]
        split <;> omega
      rw [hd] at hm2
      omega
  have hub : immBranch op (BitVec.ofInt 32 v) c.virtualAddress ≠ .error .ub := by
    intro hm
    unfold immBranch at hm
    split at hm
    · simp at hm
    · rename_i hA
      split at hm
      · simp at hm
      · rename_i hB
        simp only [hsub] at hm
        rcases h with h | ⟨h, h'⟩
        · have hal : ∀ k : Nat, k = 1 ∨ k = 2 → (BitVec.ofInt 32 v &&& BitVec.ofNat 32 (2 ^ k - 1) = 0#32 ↔ v % 2 ^ k = 0) := by
            intro k hk
            rw [← BitVec.toNat_inj]
            rw [BitVec.toNat_and, BitVec.toNat_ofNat, BitVec.toNat_ofInt, Nat.mod_eq_of_lt (a := 2 ^ k - 1)
              (by rcases hk with rfl | rfl <;> decide), Nat.and_two_pow_sub_one_eq_mod]
            rcases hk with rfl | rfl <;> simp <;> omega
          have e1 := hal 1 (.inl rfl)
          have e2 := hal 2 (.inr rfl)
          simp only [hr.half] at hA hB
          cases half
          · simp at hB h e2
            exact h (e2.1 hB)
          · simp at hA h e1
            have := e1.1 hA
            omega
        · have hd : (BitVec.ofInt 32 (v - c.virtualAddress - 8)).toInt = v - c.virtualAddress - 8 := by
            rw [BitVec.toInt_ofInt, Int.bmod_def]
            split <;> omega
          have hmin : ¬ BitVec.ofInt 32 (v - c.virtualAddress - 8) = 0x80000000#32 := by
            intro he
            rw [he] at hd
            have : (0x80000000#32).toInt = -2147483648 := by decide
            rw [this] at hd
            omega
          simp only [absInt, if_neg hmin] at hm
          generalize (if (BitVec.ofInt 32 (v - c.virtualAddress - 8)).toInt < 0 then _ else _ : BitVec 32) = x at hm
          split at hm <;> cases hm
  cases hres : immBranch op (BitVec.ofInt 32 v) c.virtualAddress with
  | ok m => exact absurd hres (hne m)
  | error e =>
    cases e with
    | ub => exact absurd hres hub
    | error t =>
      exact rejected_of (t := t) (b := BitVec.ofInt 32 v) (by rw [hv.noShift hr.noS.1 hr.noS.2.1]; simp) hr.copop hr.copinf hr.rdeven hr.imm hval
        (by simp only [valueBits]) (by rw [hbl, immediate_branch hr, hres])

end Armips.Arm
