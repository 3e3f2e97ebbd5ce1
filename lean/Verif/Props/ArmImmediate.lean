import Verif.Lemmas.ArmSample
import Verif.Lemmas.ArmWord
/-!
# C21, C22: immediates of ARM data processing instructions

`opcodes` is the instruction table, `sem` the instruction as a command, `Emits` says that it is accepted and which word is
written. `immediateOf`, `Encodable`, `compute` and `dataImmediate` are the processor's side (`Spec/Arm.lean`).
-/
namespace Armips.Props
open Armips.Arm Spec Spec.Arm Spec.Instr
open Sample (row plain ctx idle cmp1 add1 bl1 blx1)

/-- C21. If the word written for a data processing instruction with the constant `b` carries the mnemonic's own opcode number
then its 8-bit value, rotated right by twice the rotation field, is exactly `b`. If it carries another number, no 8-bit value
and even rotation give `b`. -/
theorem arm_immediate_exact {E : Env} {version : Version} {op : Op} {o : Operands} {c : Ctx} {st : ArchState} {w : BitVec 32}
    {n : Nat} {val : Value} {b : BitVec 32} (h : op ∈ opcodes) (hm : op.mask ∈ dataImmediateSyntax)
    (hn : opcode op.name = some n) (hv : Valid op o) (he : Emits (sem E version op o) c st w)
    (hval : Evaluates E .arm c o.imm val) (hb : constantBits E val = some b) :
    (field w 21 4 = n ∧ immediateOf w = b) ∨ (field w 21 4 ≠ n ∧ ¬ Encodable b) := by
  obtain ⟨n', rot, imm, h1, -, -, -, h5⟩ := dataImm_emits (dataImm_row h hm hn) hv he hval hb
  have : field w 21 4 = n' := h1 (21, 4, n') (by simp [dataImmediate])
  rw [this]
  exact h5

/-- C21. A constant that some 8-bit value and even rotation produce is never rejected. -/
theorem arm_immediate_complete {E : Env} {version : Version} {op : Op} {o : Operands} {c : Ctx} {st : ArchState}
    {n : Nat} {val : Value} {b : BitVec 32} (h : op ∈ opcodes) (hm : op.mask ∈ dataImmediateSyntax)
    (hn : opcode op.name = some n) (hv : Valid op o) (hval : Evaluates E .arm c o.imm val) (hb : constantBits E val = some b)
    (henc : Encodable b) : ∃ w, Emits (sem E version op o) c st w ∧ field w 21 4 = n ∧ immediateOf w = b := by
  have hr := dataImm_row h hm hn
  have hx : ∃ m, rotated op b false none = .ok m := by
    rw [encodable_iff, Option.isSome_iff_exists] at henc
    obtain ⟨⟨r, x⟩, hg⟩ := henc
    exact ⟨_, by simp only [rotated, hg]; rfl⟩
  obtain ⟨w, hw⟩ := dataImm_accepts (version := version) (st := st) hr hv hval hb hx
  refine ⟨w, hw, ?_⟩
  rcases arm_immediate_exact h hm hn hv hw hval hb with h | h
  · exact h
  · exact absurd henc h.2

/-- C22, C25. The whole word of a data processing instruction with an immediate: the condition, the S bit, both registers and
the constant are in their fields. The opcode number is the mnemonic's or that of its partner; in both cases the word computes
what the mnemonic means with the constant that was asked for: the same result and, for the arithmetic instructions, the same
carry and overflow flags, for every value of the register and of the carry flag. -/
theorem arm_immediate_effect {E : Env} {version : Version} {op : Op} {o : Operands} {c : Ctx} {st : ArchState} {w : BitVec 32}
    {n : Nat} {val : Value} {b : BitVec 32} (h : op ∈ opcodes) (hm : op.mask ∈ dataImmediateSyntax)
    (hn : opcode op.name = some n) (hv : Valid op o) (he : Emits (sem E version op o) c st w)
    (hval : Evaluates E .arm c o.imm val) (hb : constantBits E val = some b) :
    ∃ n' rot imm,
      HasFields w (dataImmediate o.c n' (o.s || isTest n).toNat (firstOperand op o n)
        (if isTest n = true then 0 else o.rd) rot imm) ∧
      isTest n' = isTest n ∧ ∀ a carry, compute n' a (immediateOf w) carry = compute n a b carry := by
  obtain ⟨n', rot, imm, h1, h2, h3, h4, -⟩ := dataImm_emits (dataImm_row h hm hn) hv he hval hb
  rw [h3, h4] at h1
  exact ⟨n', rot, imm, h1, h3, h2⟩

/-- C22. A substitution is found whenever the complemented (mov/mvn, and/bic) or negated (cmp/cmn, add/sub) constant is
encodable: these instructions are rejected only if neither constant is. -/
theorem arm_immediate_substitution_complete {E : Env} {version : Version} {op : Op} {o : Operands} {c : Ctx} {st : ArchState}
    {n : Nat} {val : Value} {b : BitVec 32} (h : op ∈ opcodes) (hm : op.mask ∈ dataImmediateSyntax)
    (hn : opcode op.name = some n) (hv : Valid op o) (hval : Evaluates E .arm c o.imm val) (hb : constantBits E val = some b)
    (henc : Encodable b ∨ (n ∈ [13, 15, 0, 14] ∧ Encodable (~~~b)) ∨ (n ∈ [10, 11, 2, 4] ∧ Encodable (-b))) :
    ∃ w, Emits (sem E version op o) c st w := by
  have hr := dataImm_row h hm hn
  apply dataImm_accepts hr hv hval hb
  cases hg : getShiftedImmediate b with
  | some p => obtain ⟨r, x⟩ := p; exact ⟨_, by simp only [rotated, hg]; rfl⟩
  | none =>
    have hne := shifted_none hg
    have hopt : ∀ op ∈ opcodes, op.mask ∈ dataImmediateSyntax →
        ∀ n ∈ [13, 15, 0, 14, 10, 11, 2, 4], opcode op.name = some n → op.has .optimize = true := by
      set_option maxRecDepth 10000 in decide +kernel
    have fin : ∀ v', (n ∈ [13, 15, 0, 14, 10, 11, 2, 4]) → (substitute op b).2 = v' → Encodable v' →
        ∃ m, rotated op b false none = .ok m := by
      intro v' hmem hs he
      have ho := hopt op h hm n hmem hn
      rw [encodable_iff, Option.isSome_iff_exists] at he
      obtain ⟨⟨r, x⟩, hg2⟩ := he
      rw [← hs] at hg2
      exact ⟨_, by simp only [rotated, hg, ho, if_true, hg2]; rfl⟩
    rcases henc with he | ⟨hmem, he⟩ | ⟨hmem, he⟩
    · exact absurd he hne
    · have hmem' : n ∈ [13, 15, 0, 14, 10, 11, 2, 4] := by simp at hmem ⊢; omega
      refine fin _ hmem' ?_ he
      have ho := hopt op h hm n hmem' hn
      rcases hr.subst ho b with ⟨rfl, hs⟩ | ⟨rfl, hs⟩ | ⟨rfl, hs⟩ | ⟨rfl, hs⟩ | ⟨rfl, hs⟩ | ⟨rfl, hs⟩ | ⟨rfl, hs⟩ | ⟨rfl, hs⟩ <;>
        first | (rw [hs]; done) | (exact absurd hmem (by decide))
    · have hmem' : n ∈ [13, 15, 0, 14, 10, 11, 2, 4] := by simp at hmem ⊢; omega
      refine fin _ hmem' ?_ he
      have ho := hopt op h hm n hmem' hn
      rcases hr.subst ho b with ⟨rfl, hs⟩ | ⟨rfl, hs⟩ | ⟨rfl, hs⟩ | ⟨rfl, hs⟩ | ⟨rfl, hs⟩ | ⟨rfl, hs⟩ | ⟨rfl, hs⟩ | ⟨rfl, hs⟩ <;>
        first | (rw [hs]; done) | (exact absurd hmem (by decide))

/-! ### Examples -/

example : row "cmpC" "n0,/#i" ∈ opcodes ∧ opcode "cmpC" = some 10 ∧ Valid (row "cmpC" "n0,/#i") cmp1 ∧
    Evaluates Sample.env .arm ctx cmp1.imm (.int (-1)) ∧ constantBits Sample.env (.int (-1)) = some 0xFFFFFFFF#32 :=
  ⟨by decide +kernel, by decide +kernel, by valid, ⟨[], rfl, fun _ h => by cases h⟩, by decide +kernel⟩
/-- `cmp r1,-1` is written as `cmn r1,1`. -/
example : Emits (sem Sample.env .gba (row "cmpC" "n0,/#i") cmp1) ctx idle 0xE3710001#32 := by emits
example : ¬ Encodable 0xFFFFFFFF#32 ∧ Encodable (-0xFFFFFFFF#32) := by
  rw [encodable_iff, encodable_iff]; decide +kernel

example : Valid (row "addCS" "d0,n0,/#i") add1 := by valid
example : Emits (sem Sample.env .gba (row "addCS" "d0,n0,/#i") add1) ctx idle 0x029324FF#32 := by emits

end Armips.Props
