import Verif.Spec.Thumb
import Verif.Lemmas.ArmRows
/-! The rows of the THUMB table and the fields of the words they produce. -/
namespace Armips.Thumb
open Spec Spec.Thumb Spec.Instr
open Armips.Arm (fld orIf field_fld field_fld_ne field_orIf bit_eq bit_ne hasFields_cons hasFields_nil decHasFields ob ob_ne
  orIf_true orIf_false)

/-- The type a format is encoded with. -/
def formatType : Format → Nat
  | .shift _ => 1 | .addRegister _ => 2 | .addSmall _ => 2 | .imm8 _ => 3 | .alu _ => 4 | .high _ => 5 | .exchange _ => 5
  | .literal => 6 | .registerOffset _ _ => 7 | .registerOffsetMisc _ _ => 8 | .offset5 _ _ => 9 | .halfOffset5 _ => 10
  | .stackOffset _ => 11 | .address _ => 12 | .adjust _ => 13 | .stack _ => 14 | .multiple _ => 15 | .conditional _ => 16
  | .interrupt => 17 | .breakpoint => 17 | .branch => 18 | .linkLow => 19

/-- The operands a format uses. -/
def needs : Format → List Char
  | .shift _ | .addSmall _ | .imm8 _ | .literal | .stackOffset _ | .address _ | .multiple _ => ['d']
  | .addRegister _ => ['d', 'n']
  | .alu _ | .offset5 _ _ | .halfOffset5 _ => ['d', 's']
  | .high _ => ['D', 'S']
  | .exchange _ => ['S']
  | .registerOffset _ _ | .registerOffsetMisc _ _ => ['d', 's', 'o']
  | _ => []

/-- A number by which the proofs tell formats of one type apart. -/
def kind : Format → Nat
  | .addRegister _ => 1 | .addSmall _ => 2 | .high _ => 3 | .exchange _ => 4 | _ => 0

/-- Facts about the flags of a row. -/
structure RowCore (op : Op) (f : Format) : Prop where
  type : op.type = formatType f
  imm : op.has .immediate = hasConstant op
  long : op.has .long = false
  needs : ∀ ch ∈ needs f, ch ∈ op.mask.toList
  ds : 'd' ∈ op.mask.toList → op.type ∈ [1, 2, 4, 7, 8, 9, 10] → op.has .ds = decide ('s' ∉ op.mask.toList)
  ds5 : op.type = 5 → op.has .ds = false
  low : 'S' ∈ op.mask.toList → op.type = 5
  addReg : kind f = 1 → op.has .register = true ∧ op.has .immediate = false
  addSmall : kind f = 2 → op.has .register = false
  high : kind f = 3 → op.has .d = true ∧ op.has .s = true
  exchange : kind f = 4 → op.has .d = false ∧ op.has .s = true

instance (op : Op) (f : Format) : Decidable (RowCore op f) :=
  decidable_of_iff
    (op.type = formatType f ∧ op.has .immediate = hasConstant op ∧ op.has .long = false ∧
      (∀ ch ∈ Thumb.needs f, ch ∈ op.mask.toList) ∧
      ('d' ∈ op.mask.toList → op.type ∈ [1, 2, 4, 7, 8, 9, 10] → op.has .ds = decide ('s' ∉ op.mask.toList)) ∧
      (op.type = 5 → op.has .ds = false) ∧ ('S' ∈ op.mask.toList → op.type = 5) ∧
      (kind f = 1 → op.has .register = true ∧ op.has .immediate = false) ∧ (kind f = 2 → op.has .register = false) ∧
      (kind f = 3 → op.has .d = true ∧ op.has .s = true) ∧ (kind f = 4 → op.has .d = false ∧ op.has .s = true))
    ⟨fun ⟨h1, h2, h3, h4, h5, h6, h7, h9, h10, h11, h12⟩ => ⟨h1, h2, h3, h4, h5, h6, h7, h9, h10, h11, h12⟩,
      fun ⟨h1, h2, h3, h4, h5, h6, h7, h9, h10, h11, h12⟩ => ⟨h1, h2, h3, h4, h5, h6, h7, h9, h10, h11, h12⟩⟩

set_option maxRecDepth 10000 in
set_option synthInstance.maxSize 1000 in
set_option synthInstance.maxHeartbeats 0 in
/-- Every row with a format: flags and fixed fields. -/
theorem row_table : ∀ op ∈ opcodes, ∀ f ∈ (format op.name op.mask).toList,
    RowCore op f ∧ HasFields op.encoding (f.layout {}) := by decide +kernel

set_option maxRecDepth 10000 in
set_option synthInstance.maxSize 1000 in
set_option synthInstance.maxHeartbeats 0 in
/-- Rows with a plain constant. -/
theorem constant_table : ∀ op ∈ opcodes, ∀ f ∈ (format op.name op.mask).toList, plainConstant op f = true →
    op.has .word = decide (f.scale = 4) ∧ op.has .halfword = decide (f.scale = 2) ∧ op.has .branch = false ∧
      op.has .pool = false ∧ op.has .pcr = false ∧ constantBits op.mask.toList = f.bits ∧
      op.has .addsub = f.opposite.isSome ∧ f.scale ∈ [1, 2, 4] ∧ f.bits ∈ [3, 5, 7, 8, 11] ∧ op.has .immediate = true ∧
      op.type ≠ 1 ∧
      ∀ f' ∈ f.opposite.toList, RowCore op f' ∧ f'.scale = f.scale ∧ f'.bits = f.bits ∧
        (negated op).isSome = true ∧ HasFields ((negated op).getD 0#32) (f'.layout {}) := by decide +kernel

set_option maxRecDepth 10000 in
set_option synthInstance.maxSize 1000 in
set_option synthInstance.maxHeartbeats 0 in
/-- Rows without a constant. -/
theorem no_constant_table : ∀ op ∈ opcodes, ∀ f ∈ (format op.name op.mask).toList, hasConstant op = false →
    f.bits = 0 ∨ formatType f ∈ [2, 9, 10, 11] ∨ f = .literal ∨ f = .linkLow := by decide +kernel

set_option maxRecDepth 10000 in
set_option synthInstance.maxSize 1000 in
set_option synthInstance.maxHeartbeats 0 in
theorem long_type19 : ∀ op ∈ opcodes, op.has .long = true → op.type = 19 := by decide +kernel

/-! ### Fields -/

theorem field_setWidth {w : BitVec 32} {lo len : Nat} (h : lo + len ≤ 16) : field (w.setWidth 16) lo len = field w lo len := by
  apply Nat.eq_of_testBit_eq
  intro i
  rw [testBit_field, testBit_field]
  by_cases hi : i < len
  · have : lo + i < 16 := by omega
    simp [hi, this]
  · simp [hi]

/-- A register r0 to r7. -/
def Low (v : Nat) : Prop := v ≤ 7

theorem f3 {v sh : Nat} (h : Low v) (hn : sh + 3 ≤ 32) : field (fld v sh) sh 3 = v :=
  field_fld (Nat.lt_succ_of_le h) hn
theorem f3_ne {v sh lo len : Nat} (h : Low v) (hd : sh + 3 ≤ lo ∨ lo + len ≤ sh) : field (fld v sh) lo len = 0 :=
  field_fld_ne (k := 3) (Nat.lt_succ_of_le h) hd

theorem low_mod (v : Nat) : Low (v % 8) := by unfold Low; omega

theorem fld_shift (n k : Nat) : fld n 0 <<< k = fld n k := by simp [fld]

theorem fld8 (v : Nat) : field (fld (v % 256) 0) 0 8 = v % 256 := field_fld (by omega) (by decide)
theorem fld8_ne {v lo len : Nat} (h : 8 ≤ lo) : field (fld (v % 256) 0) lo len = 0 :=
  field_fld_ne (k := 8) (by omega) (.inl (by omega))

theorem fld_and11 {n : Nat} (h : n < 2 ^ 11) : fld n 0 &&& 0x7FF#32 = fld n 0 := by
  apply BitVec.eq_of_toNat_eq
  have : (fld n 0).toNat = n := by simp [fld]; omega
  rw [BitVec.toNat_and, this]
  exact (Nat.and_two_pow_sub_one_eq_mod n 11).trans (Nat.mod_eq_of_lt h)

/-- Compute the fields of an encoded halfword. -/
macro "thumb_word" : tactic => `(tactic|
  simp [encodeType, hasFields_cons, hasFields_nil, Format.layout, args, field_or, orIf_true, orIf_false, ob, ob_ne, f3, f3_ne,
    fld_shift, low_mod, fld8, fld8_ne, formatType, -BitVec.reduceShiftLeft, -BitVec.reduceHShiftLeft, -BitVec.reduceHShiftLeft', *])

theorem high_bit {v : Nat} (h : v ≤ 15) : (decide (v > 7)).toNat = v / 8 := by
  by_cases hv : v > 7
  · simp only [hv, decide_true, Bool.toNat_true]; omega
  · simp only [hv, decide_false, Bool.toNat_false]; omega

theorem encode_one {op : Op} {o : Operands} {m : Imm} {f : Format} (r : RowCore op f) (h19 : f ≠ .linkLow) :
    written op o m = [encodeType op o m.value (m.encoding.getD op.encoding)] := by
  have : op.type ≠ 19 := by
    rw [r.type]
    cases f <;> simp_all [formatType]
  simp [written, r.long, encode, this]

/-- The registers of a row. -/
theorem row_regs {op : Op} {o : Operands} {f : Format} (r : RowCore op f) (hv : Valid op o) :
    ('d' ∈ needs f → Low o.rd) ∧ ('n' ∈ needs f → Low o.rn) ∧ ('o' ∈ needs f → Low o.ro) ∧
    ('d' ∈ needs f → op.type ∈ [1, 2, 4, 7, 8, 9, 10] → Low (rsOf op o) ∧
      (if 's' ∈ op.mask.toList ∨ 'S' ∈ op.mask.toList then o.rs else o.rd) = rsOf op o) := by
  refine ⟨fun h => hv.rd (r.needs _ h), fun h => hv.rn (r.needs _ h), fun h => hv.ro (r.needs _ h), fun h ht => ?_⟩
  have hd := r.needs _ h
  have hds := r.ds hd ht
  have hS : 'S' ∉ op.mask.toList := by
    intro h'
    have := r.low h'
    rw [this] at ht
    simp at ht
  unfold rsOf
  rw [hds]
  by_cases hs : 's' ∈ op.mask.toList
  · simp only [hs, not_true, decide_false, Bool.false_eq_true, if_false, true_or, if_true, and_true]
    exact hv.rs hs
  · simp only [hs, hS, not_false_eq_true, decide_true, if_true, or_self, if_false, and_true]
    exact hv.rd hd

/-- Formats that hold operands in the plain way. -/
def regular : Format → Bool
  | .shift _ | .stack _ | .multiple _ | .linkLow => false
  | _ => true

theorem encode_fields {op : Op} {o : Operands} {f : Format} {enc v : BitVec 32} {n : Nat} (r : RowCore op f) (hv : Valid op o)
    (he : HasFields enc (f.layout {})) (hreg : regular f = true) (hn : n < 2 ^ f.bits)
    (hval : op.has .immediate = true ∨ f = .literal → v = fld n 0) (hno : op.has .immediate = false → n = 0)
    (hc : f.bits ≠ 0 → op.has .immediate = false → formatType f ∈ [2, 9, 10, 11]) :
    HasFields (encodeType op o v enc) (f.layout (args op o n)) := by
  obtain ⟨a1, a2, a3, a4⟩ := row_regs r hv
  have k1 : ∀ sh, sh + f.bits ≤ 32 → field (fld n sh) sh f.bits = n := fun sh h => field_fld hn h
  have k2 : ∀ sh lo len, (sh + f.bits ≤ lo ∨ lo + len ≤ sh) → field (fld n sh) lo len = 0 := fun sh lo len h =>
    field_fld_ne hn h
  have ty := r.type
  rw [ty] at a4
  cases f with
  | shift _ => simp [regular] at hreg
  | stack _ => simp [regular] at hreg
  | linkLow => simp [regular] at hreg
  | multiple _ => simp [regular] at hreg
  | addRegister s =>
    obtain ⟨b1, b2⟩ := r.addReg rfl
    simp [needs, formatType] at a1 a2 a4
    simp [Format.layout, hasFields_cons, hasFields_nil] at he
    have := a4.2
    thumb_word
  | addSmall s =>
    have b1 := r.addSmall rfl
    simp [needs, formatType] at a1 a4
    simp [Format.layout, hasFields_cons, hasFields_nil] at he
    simp only [Format.bits] at k1 k2
    have := a4.2
    cases hi : op.has .immediate with
    | true => have := hval (.inl hi); thumb_word
    | false => have := hno hi; thumb_word
  | imm8 s =>
    cases hi : op.has .immediate with
    | false => have := hc (by simp [Format.bits]) hi; simp [formatType] at this
    | true =>
      have := hval (.inl hi)
      simp [needs] at a1
      simp [Format.layout, hasFields_cons, hasFields_nil] at he
      simp only [Format.bits] at k1 k2
      thumb_word
  | alu s =>
    simp [needs, formatType] at a1 a4
    simp [Format.layout, hasFields_cons, hasFields_nil] at he
    have := a4.2
    thumb_word
  | high s =>
    obtain ⟨b1, b2⟩ := r.high rfl
    have c1 : o.rd ≤ 15 := hv.rD (r.needs _ (by simp [needs]))
    have c2 : o.rs ≤ 15 := hv.rS (r.needs _ (by simp [needs]))
    have c3 : 'S' ∈ op.mask.toList := r.needs _ (by simp [needs])
    have hr : rsOf op o = o.rs := by simp [rsOf, r.ds5 ty]
    simp [Format.layout, hasFields_cons, hasFields_nil] at he
    have e1 := high_bit c1
    have e2 := high_bit c2
    clear c1 c2
    thumb_word
  | exchange s =>
    obtain ⟨b1, b2⟩ := r.exchange rfl
    have c2 : o.rs ≤ 15 := hv.rS (r.needs _ (by simp [needs]))
    have c3 : 'S' ∈ op.mask.toList := r.needs _ (by simp [needs])
    have hr : rsOf op o = o.rs := by simp [rsOf, r.ds5 ty]
    simp [Format.layout, hasFields_cons, hasFields_nil] at he
    have e2 := high_bit c2
    clear c2
    thumb_word
  | literal =>
    have := hval (.inr rfl)
    simp [needs] at a1
    simp [Format.layout, hasFields_cons, hasFields_nil] at he
    simp only [Format.bits] at k1 k2
    thumb_word
  | registerOffset a b =>
    simp [needs, formatType] at a1 a3 a4
    simp [Format.layout, hasFields_cons, hasFields_nil] at he
    have := a4.2
    thumb_word
  | registerOffsetMisc a b =>
    simp [needs, formatType] at a1 a3 a4
    simp [Format.layout, hasFields_cons, hasFields_nil] at he
    have := a4.2
    thumb_word
  | offset5 a b =>
    simp [needs, formatType] at a1 a4
    simp [Format.layout, hasFields_cons, hasFields_nil] at he
    simp only [Format.bits] at k1 k2
    have := a4.2
    cases hi : op.has .immediate with
    | true => have := hval (.inl hi); thumb_word
    | false => have := hno hi; thumb_word
  | halfOffset5 a =>
    simp [needs, formatType] at a1 a4
    simp [Format.layout, hasFields_cons, hasFields_nil] at he
    simp only [Format.bits] at k1 k2
    have := a4.2
    cases hi : op.has .immediate with
    | true => have := hval (.inl hi); thumb_word
    | false => have := hno hi; thumb_word
  | stackOffset a =>
    simp [needs] at a1
    simp [Format.layout, hasFields_cons, hasFields_nil] at he
    simp only [Format.bits] at k1 k2
    cases hi : op.has .immediate with
    | true => have := hval (.inl hi); thumb_word
    | false => have := hno hi; thumb_word
  | _ =>
    cases hi : op.has .immediate with
    | false => have := hc (by simp [Format.bits]) hi; simp [formatType] at this
    | true =>
      have := hval (.inl hi)
      simp [needs] at a1
      simp [Format.layout, hasFields_cons, hasFields_nil] at he
      simp only [Format.bits] at k1 k2
      thumb_word

theorem multiple_fields {op : Op} {o : Operands} {enc v : BitVec 32} {l n : Nat} (r : RowCore op (.multiple l)) (hv : Valid op o)
    (he : HasFields enc ((Format.multiple l).layout {})) (hl : o.rlist < 256) :
    HasFields (encodeType op o v enc) ((Format.multiple l).layout (args op o n)) := by
  obtain ⟨a1, -⟩ := row_regs r hv
  have ty := r.type
  have hm : o.rlist % 256 = o.rlist := Nat.mod_eq_of_lt hl
  have k1 : field (fld o.rlist 0) 0 8 = o.rlist := by have := fld8 o.rlist; rwa [hm] at this
  have k2 : ∀ lo len, 8 ≤ lo → field (fld o.rlist 0) lo len = 0 := fun lo len h => by
    have := fld8_ne (v := o.rlist) (len := len) h; rwa [hm] at this
  simp [needs] at a1
  simp [Format.layout, hasFields_cons, hasFields_nil] at he
  thumb_word

theorem stack_fields {op : Op} {o : Operands} {enc v : BitVec 32} {l n : Nat} (r : RowCore op (.stack l))
    (he : HasFields enc ((Format.stack l).layout {})) (hl : l ≤ 1)
    (hr : (decide (o.rlist &&& 0xC000 ≠ 0)).toNat = if l = 1 then o.rlist / 2 ^ 15 % 2 else o.rlist / 2 ^ 14 % 2) :
    HasFields (encodeType op o v enc) ((Format.stack l).layout (args op o n)) := by
  have ty := r.type
  simp [Format.layout, hasFields_cons, hasFields_nil] at he
  simp only [encodeType, ty, formatType, Format.layout, args, ← hr]
  generalize decide (o.rlist &&& 0xC000 ≠ 0) = b
  clear hr
  thumb_word

end Armips.Thumb
