import Verif.Spec.ArmOperands
import Verif.Lemmas.ArmRun
import Verif.Lemmas.ArmFields
import Verif.Lemmas.ArmImm
namespace Armips.Arm
open Spec Spec.Arm Spec.Instr

theorem emits_word {E : Env} {version : Version} {op : Op} {o : Operands} {c : Ctx} {st : ArchState} {w : BitVec 32}
    (h : Emits (sem E version op o) c st w) : ∃ f, FinalFor E version op o c f ∧ w = encode op o f := by
  obtain ⟨out, ha, hw⟩ := h
  obtain ⟨f, hf, rfl⟩ := accepted ha
  refine ⟨f, hf, ?_⟩
  have := hw none
  simp only [outcome, poolImm, List.cons.injEq, Prod.mk.injEq, true_and, and_true] at this
  exact (BitVec.eq_of_toNat_eq (Int.ofNat.inj this)).symm

theorem outcome_words {op : Op} {o : Operands} {a : Int} {f : Final} (h : f.imm.pool = false) (p : Option Int) :
    (outcome op o a (.ok f)).words p = [(Width.w32, ((encode op o f).toNat : Int))] := by
  have : poolImm a f.imm p = f.imm := by cases p <;> simp [poolImm, h]
  simp only [outcome, this]

theorem hasFields_cons {n} {w : BitVec n} {a b c l} : HasFields w ((a, b, c) :: l) ↔ field w a b = c ∧ HasFields w l := by
  simp [HasFields]
theorem hasFields_nil {n} {w : BitVec n} : HasFields w [] ↔ True := by
  simp [HasFields]
theorem field_ofNat (k lo len : Nat) : field (BitVec.ofNat 32 k) lo len = k % 2 ^ 32 / 2 ^ lo % 2 ^ len := by
  simp [field]
theorem fb {b : Bool} {sh : Nat} (hn : sh + 1 ≤ 32) : field (fld b.toNat sh) sh 1 = b.toNat :=
  field_fld (by cases b <;> decide) hn
theorem fb_ne {b : Bool} {sh lo len : Nat} (hd : sh + 1 ≤ lo ∨ lo + len ≤ sh) : field (fld b.toNat sh) lo len = 0 :=
  field_fld_ne (k := 1) (by cases b <;> decide) hd

/-! ### Data processing with an immediate -/

theorem addWithCarry_neg {a v : BitVec 32} (h0 : v ≠ 0#32) (h1 : v ≠ 0x80000000#32) :
    addWithCarry a (-v) false = addWithCarry a (~~~v) true := by
  have hv0 : v.toNat ≠ 0 := fun h => h0 (BitVec.eq_of_toNat_eq h)
  have hv1 : v.toNat ≠ 2147483648 := fun h => h1 (BitVec.eq_of_toNat_eq h)
  have hn : (-v).toNat = 2 ^ 32 - v.toNat := by
    rw [BitVec.toNat_neg]; have := v.isLt; omega
  have hc : (~~~v).toNat = 2 ^ 32 - 1 - v.toNat := BitVec.toNat_not
  have hni : (-v).toInt = -v.toInt := by
    rw [BitVec.toInt_eq_toNat_cond, BitVec.toInt_eq_toNat_cond, hn]
    have := v.isLt
    split <;> split <;> omega
  have hci : (~~~v).toInt = -v.toInt - 1 := by
    rw [BitVec.toInt_eq_toNat_cond, BitVec.toInt_eq_toNat_cond, hc]
    have := v.isLt
    split <;> split <;> omega
  have hsum : a.toNat + (-v).toNat + false.toNat = a.toNat + (~~~v).toNat + true.toNat := by
    rw [hn, hc]
    have := v.isLt
    simp only [Bool.toNat_false, Bool.toNat_true]
    omega
  have hisum : a.toInt + (-v).toInt + ((false.toNat : Nat) : Int) = a.toInt + (~~~v).toInt + ((true.toNat : Nat) : Int) := by
    rw [hni, hci]
    simp only [Bool.toNat_false, Bool.toNat_true]
    omega
  unfold addWithCarry
  simp only [hsum, hisum]

theorem encodable_zero : getShiftedImmediate 0#32 ≠ none := by decide +kernel
theorem encodable_min : getShiftedImmediate 0x80000000#32 ≠ none := by decide +kernel

/-- Substituting an instruction for its partner preserves result and flags. -/
theorem substituted {v a : BitVec 32} {c : Bool} (hv : getShiftedImmediate v = none) :
    compute 15 a (~~~v) c = compute 13 a v c ∧ compute 13 a (~~~v) c = compute 15 a v c ∧
    compute 14 a (~~~v) c = compute 0 a v c ∧ compute 0 a (~~~v) c = compute 14 a v c ∧
    compute 11 a (-v) c = compute 10 a v c ∧ compute 10 a (-v) c = compute 11 a v c ∧
    compute 4 a (-v) c = compute 2 a v c ∧ compute 2 a (-v) c = compute 4 a v c := by
  have h0 : v ≠ 0#32 := by rintro rfl; exact encodable_zero hv
  have h1 : v ≠ 0x80000000#32 := by rintro rfl; exact encodable_min hv
  have e1 := addWithCarry_neg (a := a) h0 h1
  have h0' : -v ≠ 0#32 := by simpa using h0
  have h1' : -v ≠ 0x80000000#32 := by
    intro h
    apply h1
    have := congrArg (fun x => -x) h
    simpa using this
  have e2 := addWithCarry_neg (a := a) h0' h1'
  rw [BitVec.neg_neg] at e2
  refine ⟨?_, ?_, ?_, ?_, ?_, ?_, ?_, ?_⟩ <;> simp [compute, e1, e2]

structure DataImmRow (op : Op) (n : Nat) : Prop where
  n15 : n ≤ 15
  type : op.type = .type5
  imm : op.has .immediate = true
  shift : op.has .shift = true
  pcr : op.has .pcr = false
  abs : op.has .abs = false
  uncond : op.has .uncond = false
  copop : op.has .copop = false
  copinf : op.has .copinf = false
  rdeven : op.has .rdeven = false
  bits : immediateBits op.mask.toList = 32
  d : op.has .d = !isTest n
  useN : op.has .n = !(n == 13 || n == 15)
  dn : op.has .dn = (op.mask == "d0,/#i" && !(n == 13 || n == 15))
  noS : 'S' ∉ op.mask.toList ∧ 'z' ∉ op.mask.toList ∧ 'Y' ∉ op.mask.toList
  hasD : isTest n = false → 'd' ∈ op.mask.toList
  hasN : (n == 13 || n == 15) = false → op.mask ≠ "d0,/#i" → 'n' ∈ op.mask.toList
  sTest : 'S' ∈ op.name.toList → isTest n = false
  enc : op.encoding = 0x02000000#32 ||| fld n 21 ||| fld (isTest n).toNat 20
  subst : op.has .optimize = true → ∀ v, (n = 13 ∧ substitute op v = (0x02000000#32 ||| fld 15 21 ||| fld 0 20, ~~~v)) ∨
    (n = 15 ∧ substitute op v = (0x02000000#32 ||| fld 13 21 ||| fld 0 20, ~~~v)) ∨
    (n = 0 ∧ substitute op v = (0x02000000#32 ||| fld 14 21 ||| fld 0 20, ~~~v)) ∨
    (n = 14 ∧ substitute op v = (0x02000000#32 ||| fld 0 21 ||| fld 0 20, ~~~v)) ∨
    (n = 10 ∧ substitute op v = (0x02000000#32 ||| fld 11 21 ||| fld 1 20, -v)) ∨
    (n = 11 ∧ substitute op v = (0x02000000#32 ||| fld 10 21 ||| fld 1 20, -v)) ∨
    (n = 2 ∧ substitute op v = (0x02000000#32 ||| fld 4 21 ||| fld 0 20, -v)) ∨
    (n = 4 ∧ substitute op v = (0x02000000#32 ||| fld 2 21 ||| fld 0 20, -v))

/-- The decidable part of `DataImmRow`. -/
def dataImmRowB (op : Op) (n : Nat) : Bool :=
  decide (op.type = .type5) && op.has .immediate && op.has .shift && !op.has .pcr && !op.has .abs && !op.has .uncond &&
  !op.has .copop && !op.has .copinf && !op.has .rdeven && decide (immediateBits op.mask.toList = 32) &&
  decide (op.has .d = !isTest n) && decide (op.has .n = !(n == 13 || n == 15)) &&
  decide (op.has .dn = (op.mask == "d0,/#i" && !(n == 13 || n == 15))) &&
  decide ('S' ∉ op.mask.toList ∧ 'z' ∉ op.mask.toList ∧ 'Y' ∉ op.mask.toList) &&
  decide (isTest n = false → 'd' ∈ op.mask.toList) &&
  decide ((n == 13 || n == 15) = false → op.mask ≠ "d0,/#i" → 'n' ∈ op.mask.toList) &&
  decide ('S' ∈ op.name.toList → isTest n = false) &&
  decide (op.encoding = 0x02000000#32 ||| fld n 21 ||| fld (isTest n).toNat 20) &&
  decide (op.has .optimize = true →
    (n = 13 ∧ op.has .opmovmvn = true ∧ op.encoding ^^^ 0x0400000#32 = 0x02000000#32 ||| fld 15 21 ||| fld 0 20) ∨
    (n = 15 ∧ op.has .opmovmvn = true ∧ op.encoding ^^^ 0x0400000#32 = 0x02000000#32 ||| fld 13 21 ||| fld 0 20) ∨
    (n = 0 ∧ op.has .opmovmvn = false ∧ op.has .opandbic = true ∧
      op.encoding ^^^ 0x1C00000#32 = 0x02000000#32 ||| fld 14 21 ||| fld 0 20) ∨
    (n = 14 ∧ op.has .opmovmvn = false ∧ op.has .opandbic = true ∧
      op.encoding ^^^ 0x1C00000#32 = 0x02000000#32 ||| fld 0 21 ||| fld 0 20) ∨
    (n = 10 ∧ op.has .opmovmvn = false ∧ op.has .opandbic = false ∧ op.has .opcmpcmn = true ∧
      op.encoding ^^^ 0x0200000#32 = 0x02000000#32 ||| fld 11 21 ||| fld 1 20) ∨
    (n = 11 ∧ op.has .opmovmvn = false ∧ op.has .opandbic = false ∧ op.has .opcmpcmn = true ∧
      op.encoding ^^^ 0x0200000#32 = 0x02000000#32 ||| fld 10 21 ||| fld 1 20) ∨
    (n = 2 ∧ op.has .opmovmvn = false ∧ op.has .opandbic = false ∧ op.has .opcmpcmn = false ∧ op.has .opaddsub = true ∧
      op.encoding ^^^ 0x0C00000#32 = 0x02000000#32 ||| fld 4 21 ||| fld 0 20) ∨
    (n = 4 ∧ op.has .opmovmvn = false ∧ op.has .opandbic = false ∧ op.has .opcmpcmn = false ∧ op.has .opaddsub = true ∧
      op.encoding ^^^ 0x0C00000#32 = 0x02000000#32 ||| fld 2 21 ||| fld 0 20))

set_option maxRecDepth 10000 in
theorem dataImm_table : ∀ op ∈ opcodes, op.mask ∈ dataImmediateSyntax → ∀ n : Fin 16, opcode op.name = some n.val →
    dataImmRowB op n.val = true := by decide +kernel

theorem opcode_lt {s : String} {n : Nat} (h : opcode s = some n) : n ≤ 15 := by
  unfold opcode at h
  split at h <;> simp at h <;> omega

theorem dataImm_row {op : Op} {n : Nat} (h : op ∈ opcodes) (hm : op.mask ∈ dataImmediateSyntax) (hn : opcode op.name = some n) :
    DataImmRow op n := by
  have h15 := opcode_lt hn
  have ht := dataImm_table op h hm ⟨n, by omega⟩ hn
  simp only [dataImmRowB, Bool.and_eq_true, decide_eq_true_eq, Bool.not_eq_true'] at ht
  obtain ⟨⟨⟨⟨⟨⟨⟨⟨⟨⟨⟨⟨⟨⟨⟨⟨⟨⟨t1, t2⟩, t3⟩, t4⟩, t5⟩, t6⟩, t7⟩, t8⟩, t9⟩, t10⟩, t11⟩, t12⟩, t13⟩, t14⟩, t15⟩, t16⟩, t17⟩, t18⟩, t19⟩ := ht
  refine ⟨h15, t1, t2, t3, t4, t5, t6, t7, t8, t9, t10, t11, t12, t13, t14, t15, t16, t17, t18, ?_⟩
  intro ho v
  rcases t19 ho with ⟨a, b, c⟩ | ⟨a, b, c⟩ | ⟨a, b, c, d⟩ | ⟨a, b, c, d⟩ | ⟨a, b, c, d, e⟩ | ⟨a, b, c, d, e⟩ |
    ⟨a, b, c, d, e, f⟩ | ⟨a, b, c, d, e, f⟩ <;> subst a
  · exact .inl ⟨rfl, by simp [substitute, b, c]⟩
  · exact .inr (.inl ⟨rfl, by simp [substitute, b, c]⟩)
  · exact .inr (.inr (.inl ⟨rfl, by simp [substitute, b, c, d]⟩))
  · exact .inr (.inr (.inr (.inl ⟨rfl, by simp [substitute, b, c, d]⟩)))
  · exact .inr (.inr (.inr (.inr (.inl ⟨rfl, by simp [substitute, b, c, d, e]⟩))))
  · exact .inr (.inr (.inr (.inr (.inr (.inl ⟨rfl, by simp [substitute, b, c, d, e]⟩)))))
  · exact .inr (.inr (.inr (.inr (.inr (.inr (.inl ⟨rfl, by simp [substitute, b, c, d, e, f]⟩))))))
  · exact .inr (.inr (.inr (.inr (.inr (.inr (.inr ⟨rfl, by simp [substitute, b, c, d, e, f]⟩))))))

theorem field_rot {r : Nat} (h2 : r % 2 = 0) : fld r 7 = fld (r / 2) 8 := by
  unfold fld
  apply BitVec.eq_of_toNat_eq
  simp only [BitVec.toNat_shiftLeft, BitVec.toNat_ofNat, Nat.shiftLeft_eq]
  omega

theorem dataImm_word {c n rn rd rot : Nat} {s d bn : Bool} {v : BitVec 32} (hc : c ≤ 15) (hn : n ≤ 15)
    (hrn : bn = true → rn ≤ 15) (hrd : d = true → rd ≤ 15) (hr : rot ≤ 15) (hv : v.toNat < 256) :
    HasFields (orIf d (fld rd 12) (orIf bn (fld rn 16) (orIf s (1#32 <<< 20) (orIf (!false) (fld c 28)
      (0x02000000#32 ||| fld n 21 ||| fld (isTest n).toNat 20)))) ||| fld rot 8 ||| v)
    [(28, 4, c), (26, 2, 0), (25, 1, 1), (21, 4, n), (20, 1, (s || isTest n).toNat), (16, 4, if bn = true then rn else 0),
      (12, 4, if d = true then rd else 0), (8, 4, rot), (0, 8, v.toNat)] := by
  have h8 : v.toNat < 2 ^ 8 := hv
  have h1 : ∀ lo len, 8 ≤ lo → field v lo len = 0 := fun lo len h => field_high h8 h
  have h2 : field v 0 8 = v.toNat := field_low h8
  cases d <;> cases bn <;> cases s <;> cases ht : isTest n <;>
  simp [hasFields_cons, hasFields_nil, field_or, field_orIf, f4, f4_ne, fb, fb_ne, field_ofNat, h1, h2, hc, hn, hr,
    show (true = true → rn ≤ 15) = (rn ≤ 15) by simp] <;>
  simp_all [f4, f4_ne, field_or] <;> simp [fld, field_ofNat]

/-- `encodeType` for a data processing instruction with immediate, whatever opcode number the base has. -/
theorem dataImm_fields {op : Op} {o : Operands} {f : Final} {n n' : Nat} (hr : DataImmRow op n) (hv : Valid op o)
    (hn' : n' ≤ 15) (ht : isTest n' = isTest n) (hmov : (n' == 13 || n' == 15) = (n == 13 || n == 15))
    (henc : f.imm.encoding.getD op.encoding = 0x02000000#32 ||| fld n' 21 ||| fld (isTest n').toNat 20)
    (hs : f.shift = none) (has : f.imm.asMov = false) (hrot : f.imm.rot % 2 = 0 ∧ f.imm.rot < 32)
    (hval : f.imm.value.toNat < 256) :
    HasFields (encode op o f) (dataImmediate o.c n' (o.s || isTest n').toNat (firstOperand op o n')
      (if isTest n' = true then 0 else o.rd) (f.imm.rot / 2) f.imm.value.toNat) := by
  have hc : o.c ≤ 15 := Nat.le_trans hv.c (by decide)
  have hsa : shiftAmount f = f.imm.rot := by simp [shiftAmount, hs]
  have hrn : op.has .n = true → rnOf op o ≤ 15 := by
    intro h
    unfold rnOf
    rw [hr.useN] at h
    rw [hr.dn]
    by_cases hm : op.mask = "d0,/#i"
    · have : 'd' ∈ op.mask.toList := by rw [hm]; decide
      simp only [Bool.not_eq_true'] at h
      simp [hm, h, hv.rd this]
    · simp only [Bool.not_eq_true'] at h
      simp [hm, hv.rn (hr.hasN h hm)]
  have hrnv : op.has .n = true → rnOf op o = if op.mask = "d0,/#i" then o.rd else o.rn := by
    intro h
    rw [hr.useN] at h
    simp only [Bool.not_eq_true'] at h
    unfold rnOf
    rw [hr.dn, h]
    by_cases hm : op.mask = "d0,/#i" <;> simp [hm]
  have hrd : op.has .d = true → o.rd ≤ 15 := by
    intro h
    rw [hr.d] at h
    exact hv.rd (hr.hasD (by simpa using h))
  have hrot' : f.imm.rot / 2 ≤ 15 := by omega
  have hd' : op.has .d = !isTest n' := by rw [hr.d, ht]
  have hn2 : op.has .n = !(n' == 13 || n' == 15) := by rw [hr.useN, hmov]
  unfold encode encodeBase encodeType encodeOp2 dataImmediate firstOperand
  simp only [has, Bool.false_eq_true, if_false, hr.type, hr.imm, if_true, hr.uncond, henc, hsa, field_rot hrot.1]
  have key := dataImm_word (s := o.s) hc hn' hrn hrd hrot' hval
  have e1 : (if isTest n' = true then 0 else o.rd) = if op.has .d = true then o.rd else 0 := by
    rw [hd']; cases isTest n' <;> rfl
  have e2 : (if (n' == 13 || n' == 15) = true then 0 else if op.mask = "d0,/#i" then o.rd else o.rn) =
      if op.has .n = true then rnOf op o else 0 := by
    cases hN : op.has .n
    · have : (n' == 13 || n' == 15) = true := by
        rw [hN] at hn2
        cases h : (n' == 13 || n' == 15)
        · rw [h] at hn2; exact absurd hn2 (by decide)
        · rfl
      rw [if_pos this]; rfl
    · have : (n' == 13 || n' == 15) = false := by
        rw [hN] at hn2
        cases h : (n' == 13 || n' == 15)
        · rfl
        · rw [h] at hn2; exact absurd hn2 (by decide)
      rw [this, hrnv hN]; rfl
  rw [e1, e2]
  exact key

/-! ### From acceptance to the word -/

theorem valueBits_shift {E : Env} {op : Op} (h : op.has .shift = true) (v : Value) : valueBits E op v = constantBits E v := by
  cases v <;> simp [valueBits, constantBits, h]

theorem rotated_cases {op : Op} {v : BitVec 32} {e : Option (BitVec 32)} {neg : Bool} {m : Imm} (h : rotated op v neg e = .ok m) :
    (∃ r x, getShiftedImmediate v = some (r, x) ∧ m = { value := x, negative := neg, rot := r, encoding := e }) ∨
    (∃ r x, getShiftedImmediate v = none ∧ op.has .optimize = true ∧ getShiftedImmediate (substitute op v).2 = some (r, x) ∧
      m = { value := x, negative := neg, rot := r, encoding := some (substitute op v).1 }) := by
  unfold rotated at h
  cases hg : getShiftedImmediate v with
  | some p =>
    obtain ⟨r, x⟩ := p
    rw [hg] at h
    simp only [Except.ok.injEq] at h
    exact .inl ⟨r, x, rfl, h.symm⟩
  | none =>
    rw [hg] at h
    simp only at h
    split at h
    · rename_i ho
      cases hg2 : getShiftedImmediate (substitute op v).2 with
      | some p =>
        obtain ⟨r, x⟩ := p
        rw [hg2] at h
        simp only [Except.ok.injEq] at h
        exact .inr ⟨r, x, rfl, ho, rfl, h.symm⟩
      | none => rw [hg2] at h; simp at h
    · simp at h

theorem immediate_dataImm {op : Op} {n : Nat} (hr : DataImmRow op n) (version : Version) (b : BitVec 32) (a : Int) :
    immediate op version 32 b a = rotated op b false none := by
  unfold immediate immCases immShift pcRelative
  simp only [hr.shift, if_true, hr.abs, hr.pcr, Bool.false_and, Bool.false_eq_true, if_false]
  cases h : rotated op b false none with
  | error e => rfl
  | ok m => simp [checkWidth]

theorem decode_imm {w : BitVec 32} {cond n s rn rd rot imm : Nat} (h : HasFields w (dataImmediate cond n s rn rd rot imm)) :
    immediateOf w = (BitVec.ofNat 32 imm).rotateRight (2 * rot) := by
  have h1 : field w 8 4 = rot := h (8, 4, rot) (by simp [dataImmediate])
  have h2 : field w 0 8 = imm := h (0, 8, imm) (by simp [dataImmediate])
  rw [immediateOf, h1, h2]

theorem rot_back {x v : BitVec 32} {r : Nat} (h : getShiftedImmediate v = some (r, x)) :
    (BitVec.ofNat 32 x.toNat).rotateRight (2 * (r / 2)) = v := by
  obtain ⟨h1, h2, h3, h4⟩ := shifted_some h
  rw [BitVec.ofNat_toNat, BitVec.setWidth_eq, show 2 * (r / 2) = r by omega, h4]

/-- Everything about a data processing instruction with an immediate. -/
theorem dataImm_emits {E : Env} {version : Version} {op : Op} {o : Operands} {c : Ctx} {st : ArchState} {w : BitVec 32}
    {n : Nat} {val : Value} {b : BitVec 32} (hr : DataImmRow op n) (hv : Valid op o)
    (he : Emits (sem E version op o) c st w) (hval : Evaluates E .arm c o.imm val) (hb : constantBits E val = some b) :
    ∃ n' rot imm, HasFields w (dataImmediate o.c n' (o.s || isTest n').toNat (firstOperand op o n')
        (if isTest n' = true then 0 else o.rd) rot imm) ∧
      (∀ a cf, compute n' a (immediateOf w) cf = compute n a b cf) ∧ isTest n' = isTest n ∧
      firstOperand op o n' = firstOperand op o n ∧
      ((n' = n ∧ immediateOf w = b) ∨ (n' ≠ n ∧ ¬ Encodable b)) := by
  obtain ⟨f, hf, rfl⟩ := emits_word he
  obtain ⟨val', b', hv', hb', hm⟩ := hf.imm hr.imm
  have := evaluates_unique hval hv'
  subst this
  rw [valueBits_shift hr.shift, hb] at hb'
  simp only [Option.some.injEq] at hb'
  subst hb'
  have hbl : o.bitLen = 32 := by
    rw [hv.bits hr.imm, hr.bits]
  rw [hbl, immediate_dataImm hr] at hm
  have hsh : f.shift = none := hf.noShift (hv.noShift hr.noS.1 hr.noS.2.1)
  rcases rotated_cases hm with ⟨r, x, hg, hfm⟩ | ⟨r, x, hg, ho, hg2, hfm⟩
  · obtain ⟨h1, h2, h3, -⟩ := shifted_some hg
    have hfld := dataImm_fields (f := f) hr hv hr.n15 rfl rfl (by rw [hfm]; exact hr.enc) hsh (by rw [hfm]) (by rw [hfm]; exact ⟨h1, h2⟩)
      (by rw [hfm]; exact h3)
    have hi : immediateOf (encode op o f) = b := by
      rw [decode_imm hfld, hfm]
      exact rot_back hg
    exact ⟨n, _, _, hfld, fun a cf => by rw [hi], rfl, rfl, .inl ⟨rfl, hi⟩⟩
  · obtain ⟨h1, h2, h3, -⟩ := shifted_some hg2
    have fin : ∀ n' : Nat, n' ≤ 15 → isTest n' = isTest n → (n' == 13 || n' == 15) = (n == 13 || n == 15) → n' ≠ n →
        (substitute op b).1 = 0x02000000#32 ||| fld n' 21 ||| fld (isTest n').toNat 20 →
        (∀ a cf, compute n' a (substitute op b).2 cf = compute n a b cf) →
        ∃ n' rot imm, HasFields (encode op o f) (dataImmediate o.c n' (o.s || isTest n').toNat (firstOperand op o n')
            (if isTest n' = true then 0 else o.rd) rot imm) ∧
          (∀ a cf, compute n' a (immediateOf (encode op o f)) cf = compute n a b cf) ∧ isTest n' = isTest n ∧
          firstOperand op o n' = firstOperand op o n ∧
          ((n' = n ∧ immediateOf (encode op o f) = b) ∨ (n' ≠ n ∧ ¬ Encodable b)) := by
      intro n' hn' ht hmov hne henc hcomp
      have hfld := dataImm_fields (f := f) hr hv hn' ht hmov (by rw [hfm]; exact henc) hsh (by rw [hfm])
        (by rw [hfm]; exact ⟨h1, h2⟩) (by rw [hfm]; exact h3)
      have hi : immediateOf (encode op o f) = (substitute op b).2 := by
        rw [decode_imm hfld, hfm]
        exact rot_back hg2
      refine ⟨n', _, _, hfld, fun a cf => by rw [hi]; exact hcomp a cf, ht, ?_, .inr ⟨hne, shifted_none hg⟩⟩
      simp only [firstOperand, hmov]
    have hcs := fun a cf => substituted (a := a) (c := cf) hg
    rcases hr.subst ho b with ⟨rfl, hs⟩ | ⟨rfl, hs⟩ | ⟨rfl, hs⟩ | ⟨rfl, hs⟩ | ⟨rfl, hs⟩ | ⟨rfl, hs⟩ | ⟨rfl, hs⟩ | ⟨rfl, hs⟩
    · exact fin 15 (by decide) rfl rfl (by decide) (by rw [hs]; rfl) (fun a cf => by rw [hs]; exact (hcs a cf).1)
    · exact fin 13 (by decide) rfl rfl (by decide) (by rw [hs]; rfl) (fun a cf => by rw [hs]; exact (hcs a cf).2.1)
    · exact fin 14 (by decide) rfl rfl (by decide) (by rw [hs]; rfl) (fun a cf => by rw [hs]; exact (hcs a cf).2.2.1)
    · exact fin 0 (by decide) rfl rfl (by decide) (by rw [hs]; rfl) (fun a cf => by rw [hs]; exact (hcs a cf).2.2.2.1)
    · exact fin 11 (by decide) rfl rfl (by decide) (by rw [hs]; rfl) (fun a cf => by rw [hs]; exact (hcs a cf).2.2.2.2.1)
    · exact fin 10 (by decide) rfl rfl (by decide) (by rw [hs]; rfl) (fun a cf => by rw [hs]; exact (hcs a cf).2.2.2.2.2.1)
    · exact fin 4 (by decide) rfl rfl (by decide) (by rw [hs]; rfl) (fun a cf => by rw [hs]; exact (hcs a cf).2.2.2.2.2.2.1)
    · exact fin 2 (by decide) rfl rfl (by decide) (by rw [hs]; rfl) (fun a cf => by rw [hs]; exact (hcs a cf).2.2.2.2.2.2.2)

/-- A data processing instruction with an encodable constant is accepted. -/
theorem dataImm_accepts {E : Env} {version : Version} {op : Op} {o : Operands} {c : Ctx} {st : ArchState}
    {n : Nat} {val : Value} {b : BitVec 32} (hr : DataImmRow op n) (hv : Valid op o) (hval : Evaluates E .arm c o.imm val)
    (hb : constantBits E val = some b) (hx : ∃ m, rotated op b false none = .ok m) :
    ∃ w, Emits (sem E version op o) c st w := by
  obtain ⟨m, hm⟩ := hx
  have hbl : o.bitLen = 32 := by
    rw [hv.bits hr.imm, hr.bits]
  obtain ⟨f, out, hfm, rfl, hacc⟩ := accepted_of (version := version) (st := st) (m := m) (b := b)
    (by rw [hv.noShift hr.noS.1 hr.noS.2.1]; simp) hr.copop hr.copinf hr.rdeven hr.imm hval
    (by rw [valueBits_shift hr.shift, hb]) (by rw [hbl, immediate_dataImm hr, hm])
  refine ⟨encode op o f, _, hacc, fun p => outcome_words ?_ p⟩
  rw [hfm]
  rcases rotated_cases hm with ⟨_, _, _, h⟩ | ⟨_, _, _, _, _, h⟩ <;> rw [h]

end Armips.Arm
