import Verif.Lemmas.ThumbImm
import Verif.Lemmas.ArmSample
/-!
# C25: THUMB instruction words field by field

`Spec.Thumb.format` says which instruction a mnemonic with an operand syntax denotes, `Format.layout` what its fields hold.
Constants are 32-bit numbers: the assembler truncates every constant to an `int` (`int32`).
-/
namespace Armips.Props
open Armips.Thumb Spec Spec.Thumb Spec.Instr
open Arm (fld orIf field_fld field_fld_ne hasFields_cons hasFields_nil)
open Spec.Arm (compute addWithCarry shiftBy decodeShift ShiftOp)

theorem hasFields_setWidth {W : BitVec 32} {l : List (Nat × Nat × Nat)} (hl : ∀ x ∈ l, x.1 + x.2.1 ≤ 16) (h : HasFields W l) :
    HasFields (W.setWidth 16) l := by
  intro x hx
  rw [field_setWidth (hl x hx)]
  exact h x hx

theorem layout_small (f : Format) (a : Spec.Thumb.Args) : ∀ x ∈ f.layout a, x.1 + x.2.1 ≤ 16 := by
  cases f <;> simp [Format.layout]

/-- The layouts describe all 16 bits. -/
theorem thumb_layouts_cover (f : Format) (a : Spec.Thumb.Args) : Covers 16 (f.layout a) = true := by
  cases f <;> rfl

/-- C25. Instructions without a constant are always accepted and hold the registers in their fields. (Block transfers and
`ldr rd,[pc]` are treated below.) -/
theorem thumb_register_word {E : Env} {op : Op} {o : Operands} {c : Ctx} {st : ArchState} {f : Format} (h : op ∈ opcodes)
    (hf : format op.name op.mask = some f) (hv : Valid op o) (hc : hasConstant op = false) (hl : f ≠ .literal)
    (hb : ∀ l, f ≠ .stack l ∧ f ≠ .multiple l) :
    ∃ w, Emits (sem E op o) c st w ∧ HasFields w (f.layout (args op o 0)) := by
  obtain ⟨r, hfields⟩ := row_table op h f (by simp [hf])
  have hi : op.has .immediate = false := by rw [r.imm, hc]
  have hm : FinalFor E op o c { value := o.stale } := ⟨fun _ => rfl, by simp [hi]⟩
  by_cases h19 : f = .linkLow
  · subst h19
    have ty : op.type = 19 := r.type
    have hw : written op o { value := o.stale } = [op.encoding] := by
      simp [written, Thumb.encode, r.long, ty, Arm.orIf, hi]
    refine ⟨_, emits_of hm rfl hw, hasFields_setWidth (layout_small _ _) ?_⟩
    simp only [Format.layout, args] at hfields ⊢
    exact hfields
  · refine ⟨_, emits_of hm rfl (encode_one r h19), hasFields_setWidth (layout_small _ _) ?_⟩
    have hreg : regular f = true ∨ ∃ t, f = .shift t := by
      cases f <;> simp_all [regular]
    have hcc : f.bits ≠ 0 → op.has .immediate = false → formatType f ∈ [2, 9, 10, 11] := by
      have := no_constant_table op h f (by simp [hf]) hc
      intro h1 _
      rcases this with h | h | h | h
      · exact absurd h h1
      · exact h
      · exact absurd h hl
      · exact absurd h h19
    rcases hreg with hreg | ⟨t, rfl⟩
    · exact encode_fields (n := 0) r hv hfields hreg (Nat.two_pow_pos _) (by simp [hi, hl]) (by simp) hcc
    · have := hcc (by simp [Format.bits]) hi
      simp [formatType] at this

/-- C25. Instructions with a constant operand: if the constant can be expressed the instruction is accepted and its fields
hold the registers and the constant, in units of the format's scale. A negative constant of an addition is expressed by the
subtraction and the other way round. -/
theorem thumb_constant_word {E : Env} {op : Op} {o : Operands} {c : Ctx} {st : ArchState} {f f' : Format} {v : Int} {k : Nat}
    (h : op ∈ opcodes) (hf : format op.name op.mask = some f) (hv : Valid op o) (hc : plainConstant op f = true)
    (hval : Evaluates E .arm c o.imm (.int v)) (he : Encodes f (int32 v) f' k) :
    ∃ w, Emits (sem E op o) c st w ∧ HasFields w (f'.layout (args op o k)) := by
  rw [← toInt_int32] at he
  have hi := (constant_table op h f (by simp [hf]) hc).2.2.2.2.2.2.2.2.2.1
  obtain ⟨m, hm, hmv, hpool, r, hfields, hbits⟩ := plain_ok (a := c.virtualAddress) h hf hc he
  rw [← hv.bits hi] at hm
  have hm := final_of hi hval hm
  by_cases h19 : f' = .linkLow
  · subst h19
    have hk : k < 2 ^ 11 := by have := he.1; rw [← hbits] at this; exact this
    have ty : op.type = 19 := r.type
    have hw : written op o m = [m.encoding.getD op.encoding ||| (fld k 0 &&& 0x7FF#32)] := by
      simp [written, Thumb.encode, r.long, ty, orIf, hi, hmv]
    refine ⟨_, emits_of hm hpool hw, hasFields_setWidth (layout_small _ _) ?_⟩
    rw [fld_and11 hk]
    simp only [Format.layout, hasFields_cons, hasFields_nil] at hfields
    simp only [Format.layout, hasFields_cons, hasFields_nil, field_or, args, field_fld (show k < 2 ^ 11 from hk),
      field_fld_ne (k := 11) (show k < 2 ^ 11 from hk) (.inl (Nat.le_refl 11) : 0 + 11 ≤ 11 ∨ 11 + 5 ≤ 0), hfields]
    simp only [Nat.or_zero, Nat.zero_or, true_and, and_true]
    exact field_fld hk (by decide)
  · refine ⟨_, emits_of hm hpool (encode_one r h19), hasFields_setWidth (layout_small _ _) ?_⟩
    refine encode_fields r hv hfields ?_ (by rw [hbits]; exact he.1) (fun _ => hmv) (by simp [hi]) (by simp [hi])
    have hb := (constant_table op h f (by simp [hf]) hc).2.2.2.2.2.2.2.2.1
    rw [← hbits] at hb
    have h1 := (constant_table op h f (by simp [hf]) hc).2.2.2.2.2.2.2.2.2.2.1
    rw [r.type] at h1
    clear hm hfields he hval hbits r
    cases f' <;> simp [regular, Format.bits, formatType] at h1 hb h19 ⊢

/-- C25. A constant that cannot be expressed is reported as an error. -/
theorem thumb_constant_rejects {E : Env} {op : Op} {o : Operands} {c : Ctx} {st : ArchState} {f : Format} {v : Int}
    (h : op ∈ opcodes) (hf : format op.name op.mask = some f) (hv : Valid op o) (hc : plainConstant op f = true)
    (hval : Evaluates E .arm c o.imm (.int v)) (he : ¬ ∃ f' k, Encodes f (int32 v) f' k) : Rejects (sem E op o) c st := by
  rw [← toInt_int32] at he
  have hi := (constant_table op h f (by simp [hf]) hc).2.2.2.2.2.2.2.2.2.1
  obtain ⟨t, ht⟩ := plain_bad (a := c.virtualAddress) h hf hc he
  rw [← hv.bits hi] at ht
  exact rejects_of hi hval ht

/-- C22, C25. However the constant of an addition or subtraction is expressed, the instruction computes the result and the
flags of the operation and constant that were written. -/
theorem thumb_opposite_effect {f f' : Format} {n : Int} {k q : Nat} (he : Encodes f n f' k) (hq : f.operation = some q)
    (a : BitVec 32) (c : Bool) :
    ∃ q', f'.operation = some q' ∧ compute q' a (BitVec.ofNat 32 (f.scale * k)) c = compute q a (BitVec.ofInt 32 n) c := by
  obtain ⟨hk, ⟨rfl, rfl⟩ | ⟨ho, hneg, rfl⟩⟩ := he
  · refine ⟨q, hq, ?_⟩
    congr 1
  · have hx : 0 < f.scale * k ∧ f.scale * k < 8192 := by
      refine ⟨by omega, ?_⟩
      have h1 : f.scale ≤ 4 := by
        cases f <;> simp [Format.scale]
        split <;> simp
      have h2 : 2 ^ f.bits ≤ 2 ^ 11 := Nat.pow_le_pow_right (by decide) (by cases f <;> simp [Format.bits])
      have : f.scale * k ≤ 4 * k := Nat.mul_le_mul_right k h1
      omega
    rw [← Int.natCast_mul]
    generalize f.scale * k = x at hx
    have e0 : BitVec.ofInt 32 (-(x : Int)) = -BitVec.ofNat 32 x := by
      rw [BitVec.ofInt_neg]; rfl
    have n1 : (BitVec.ofNat 32 x).toNat = x := by rw [BitVec.toNat_ofNat]; omega
    have v0 : BitVec.ofNat 32 x ≠ 0#32 := fun h => by have := congrArg BitVec.toNat h; rw [n1] at this; simp at this; omega
    have v1 : BitVec.ofNat 32 x ≠ 0x80000000#32 := fun h => by
      have := congrArg BitVec.toNat h; rw [n1] at this; simp at this; omega
    have e1 := Arm.addWithCarry_neg (a := a) v0 v1
    have w0 : -BitVec.ofNat 32 x ≠ 0#32 := fun h => v0 (BitVec.neg_eq_zero_iff.1 h)
    have w1 : -BitVec.ofNat 32 x ≠ 0x80000000#32 := fun h => v1 (by
      have := congrArg (fun y => -y) h
      simpa using this)
    have e2 := Arm.addWithCarry_neg (a := a) w0 w1
    rw [BitVec.neg_neg] at e2
    rw [e0]
    have h4 : compute 2 a (BitVec.ofNat 32 x) c = compute 4 a (-BitVec.ofNat 32 x) c := by
      simp only [compute, e1]
    have h2 : compute 4 a (BitVec.ofNat 32 x) c = compute 2 a (-BitVec.ofNat 32 x) c := by
      simp only [compute, e2]
    have hf : (q = 4 ∧ f'.operation = some 2) ∨ (q = 2 ∧ f'.operation = some 4) := by
      clear e1 e2 h2 h4 w0 w1 v0 v1 e0 n1 hneg hk
      unfold Format.operation at hq
      split at hq <;> simp at hq <;> simp [Format.opposite] at ho <;> subst ho <;> subst hq <;> simp [Format.operation]
    rcases hf with ⟨rfl, h⟩ | ⟨rfl, h⟩
    · exact ⟨2, h, h4⟩
    · exact ⟨4, h, h2⟩

end Armips.Props
