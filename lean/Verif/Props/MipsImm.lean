import Verif.Lemmas.MipsScaled
import Verif.Props.MipsBranch
/-!
# C27: MIPS immediates

`scaled` is the number that an immediate stands for: its value as a signed 32-bit number; negated for subtractions; counted in
units for the RSP. Branches and jumps are in `Props.MipsBranch`, half precision numbers in `Props.MipsWords`.
-/
namespace Armips.Props
open Armips.Mips Spec Spec.Mips Spec.Instr Sample

/-- C27. An immediate of an accepted instruction is a multiple of the instruction's unit, the number it stands for has at most
as many bits as its field, not counting the sign, and the field holds this number modulo 2^n. What is missing from C27: the
number need not be representable in the field, since the assembler takes the same numbers with either sign
(`mips_immediate_wraps`). -/
theorem mips_immediate_partial {E : Env} {cfg : Config} {op : Op} {o : Operands} {c : Ctx} {st : ArchState} {nop : Bool}
    {w : BitVec 32} {t : ImmType} {x : Int} (hm : op ∈ opcodes) (ho : op.name ∉ ["vcmovf.S", "vmfvc.S", "vmtvc.S"])
    (hv : Mips.Valid op o) (hi : FieldInside E c op o) (hb : op.name ∉ branches) (hj : op.name ∉ jumps)
    (ht : primType op.syms = some t) (hh : t ≠ .half) (hx : ImmValue E c o x)
    (h : Mips.Emits (Mips.sem E cfg op o) c st nop w) :
    Multiple op.name (int32 x) ∧ (scaled op.name x).natAbs < 2 ^ t.bits ∧
      ∃ sec, Holds op o (scaled op.name x % 2 ^ t.bits).toNat sec w := by
  obtain ⟨prim, sec, -, rfl, hc, -⟩ := mips_emits_inv h
  obtain ⟨hs, hsf⟩ := secStored hm hv hc hi
  have H := encode_holds (k := ⟨nop, prim, sec⟩) hm ho hv (primFits hm hc) hsf
  have hpr := hc.primOk
  rw [ht] at hpr
  obtain ⟨v, hsrc, hpv⟩ := hpr
  obtain ⟨y, hy, rfl⟩ := hsrc.1 hh
  cases immValue_unique hx hy
  obtain ⟨h1, h2, h3⟩ := (primary_scaled (names hm) hb hj ht).1 _ hpv
  refine ⟨h1, h2, sec.toNat, ?_⟩
  rw [← h3]
  exact H

/-- C27. Every immediate that is representable in its field, with or without sign, is accepted. -/
theorem mips_immediate_accepted {E : Env} {cfg : Config} {op : Op} {o : Operands} {c : Ctx} {st : ArchState}
    {t : ImmType} {x : Int} (hm : op ∈ opcodes) (hv : Mips.Valid op o) (hb : op.name ∉ branches) (hj : op.name ∉ jumps)
    (ht : primType op.syms = some t) (hh : t ≠ .half) (hsec : secType op.syms = none) (hx : ImmValue E c o x)
    (ha : c.virtualAddress % 4 = 0) (hs : SlotAllowed cfg op.name st) (hmul : Multiple op.name (int32 x))
    (h1 : -2 ^ (t.bits - 1) ≤ scaled op.name x) (h2 : scaled op.name x < 2 ^ t.bits) :
    ∃ nop w, Mips.Emits (Mips.sem E cfg op o) c st nop w := by
  have hr : (scaled op.name x).natAbs < 2 ^ t.bits := by
    have hp : (2 : Nat) ^ t.bits = 2 * 2 ^ (t.bits - 1) := by
      cases t <;> rfl
    have hp1 : ((2 ^ t.bits : Nat) : Int) = 2 ^ t.bits := by simp
    have hp2 : ((2 ^ (t.bits - 1) : Nat) : Int) = 2 ^ (t.bits - 1) := by simp
    rw [← hp1] at h2
    rw [← hp2] at h1
    omega
  obtain ⟨p, hpr⟩ := (primary_scaled (names hm) hb hj ht (a := c.virtualAddress)).2.1 hmul hr
  obtain ⟨q, hq⟩ := vSecondary_branch (E := E) (c := c) (p := p) hv hm (.inl hsec)
  exact ⟨_, _, mips_emits_of (accepts_of hm ha hs (vPrimary_of ht hh hx hpr) hq)⟩

/-- C27. An immediate that has more bits than its field, or is not a multiple of the unit, is rejected. The exception is the
smallest number, for which the assembler's own calculation is undefined (`mips_immediate_min_undefined`). -/
theorem mips_immediate_rejected {E : Env} {cfg : Config} {op : Op} {o : Operands} {c : Ctx} {st : ArchState}
    {t : ImmType} {x : Int} (hm : op ∈ opcodes) (hb : op.name ∉ branches) (hj : op.name ∉ jumps)
    (ht : primType op.syms = some t) (hh : t ≠ .half) (hx : ImmValue E c o x) (hne : int32 x ≠ -2 ^ 31)
    (h : ¬ (Multiple op.name (int32 x) ∧ (scaled op.name x).natAbs < 2 ^ t.bits)) : Rejects (Mips.sem E cfg op o) c st := by
  obtain ⟨m, hmsg⟩ := (primary_scaled (names hm) hb hj ht (a := c.virtualAddress)).2.2 hne h
  exact rejects_of ht hh hx hmsg

/-- `addiu a0,a1,-3` meets the hypotheses. -/
example : rAddiu.name ∉ branches ∧ rAddiu.name ∉ jumps ∧ primType rAddiu.syms = some .i16 ∧
    ImmValue Sample.env ctx (maddiu (-3)) (-3) ∧ scaled rAddiu.name (-3) = -3 ∧ Multiple rAddiu.name (int32 (-3)) :=
  ⟨by decide, by decide, by decide, ⟨[], rfl, fun _ h => by cases h⟩, by decide,
    ⟨(fun k h => by cases (show (none : Option Nat) = some k from h)), (fun h => absurd h (by decide))⟩⟩

/-- A number that is not representable in 16 bits is accepted, and stored as another number. -/
theorem mips_immediate_wraps : ∃ w,
    Mips.Emits (Mips.sem Sample.env psx rAddiu (maddiu (-40000))) ctx idle false w ∧
    Mips.Emits (Mips.sem Sample.env psx rAddiu (maddiu 25536)) ctx idle false w :=
  ⟨0x24A463C0#32, ⟨_, ⟨_, [], rfl, fun _ h => by cases h⟩, fun _ => rfl⟩, ⟨_, ⟨_, [], rfl, fun _ h => by cases h⟩, fun _ => rfl⟩⟩

/-- The absolute value of the smallest 32-bit number is computed, which is undefined. -/
theorem mips_immediate_min_undefined :
    (Mips.sem Sample.env psx rAddiu (maddiu (-0x80000000))).run ctx idle = .ub := rfl

end Armips.Props
