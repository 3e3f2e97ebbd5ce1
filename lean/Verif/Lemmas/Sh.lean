import Verif.Spec.Sh
import Verif.Lemmas.ArmRun
import Verif.Lemmas.BitInt
/-! The bits of a SuperH instruction, and what an accepted one has gone through. -/
namespace Armips.Sh
open Spec Spec.Sh Spec.Instr
open Armips.Arm (failWith not_clean_failWith)

/-- The bits of a nibble of the opcode. -/
def nib (b : BitVec 16) (k : Nat) : List Bool := [b.getLsbD (4 * k + 3), b.getLsbD (4 * k + 2), b.getLsbD (4 * k + 1), b.getLsbD (4 * k)]
/-- The bits of a nibble of a number. -/
def num (r k : Nat) : List Bool := [r.testBit (4 * k + 3), r.testBit (4 * k + 2), r.testBit (4 * k + 1), r.testBit (4 * k)]

/-- The bits of an instruction by format. -/
def opBits (op : Op) (t s d : Nat) : List Bool :=
  match op.format with
  | .none => nib op.base 3 ++ nib op.base 2 ++ nib op.base 1 ++ nib op.base 0
  | .n => nib op.base 3 ++ num t 0 ++ nib op.base 1 ++ nib op.base 0
  | .m => nib op.base 3 ++ num s 0 ++ nib op.base 1 ++ nib op.base 0
  | .nm => nib op.base 3 ++ num t 0 ++ num s 0 ++ nib op.base 0
  | .md => nib op.base 3 ++ nib op.base 2 ++ num s 0 ++ num d 0
  | .nd4 => nib op.base 3 ++ nib op.base 2 ++ num t 0 ++ num d 0
  | .nmd => nib op.base 3 ++ num t 0 ++ num s 0 ++ num d 0
  | .d | .i => nib op.base 3 ++ nib op.base 2 ++ num d 1 ++ num d 0
  | .d12 => nib op.base 3 ++ num d 2 ++ num d 1 ++ num d 0
  | .nd8 | .ni => nib op.base 3 ++ num t 0 ++ num d 1 ++ num d 0

/-- The number of bits of the immediate. -/
def Format.bits : Format → Nat
  | .md | .nd4 | .nmd => 4
  | .d | .nd8 | .i | .ni => 8
  | .d12 => 12
  | _ => 0

/-- The operands' fields are 0 in the opcode. -/
def baseOk (op : Op) : Bool := opBits op 0 0 0 == nib op.base 3 ++ nib op.base 2 ++ nib op.base 1 ++ nib op.base 0

theorem range_bits (w : BitVec 16) : (List.range 16).map w.getMsbD = nib w 3 ++ nib w 2 ++ nib w 1 ++ nib w 0 := by
  simp [List.range, List.range.loop, nib, BitVec.getMsbD]

theorem reg_bit (r sh j : Nat) (h : sh + 4 ≤ 16) : (reg r sh).getLsbD j = (decide (sh ≤ j ∧ j < sh + 4) && r.testBit (j - sh)) := by
  have hr : r % 16 = r % 2 ^ 4 := rfl
  simp only [reg, BitVec.getLsbD_shiftLeft, BitVec.getLsbD_ofNat, hr, Nat.testBit_mod_two_pow]
  by_cases h1 : sh ≤ j <;> by_cases h2 : j < sh + 4
  · simp [show j < 16 by omega, show ¬ j < sh by omega, show j - sh < 16 by omega, show j - sh < 4 by omega, h1, h2]
  · simp [show ¬ j - sh < 4 by omega, h2]
  · simp [show j < sh by omega, h1]
  · omega

theorem encode_bits {op : Op} {o : Operands} {m : BitVec 32} (hb : baseOk op = true) (hm : m.toNat < 2 ^ op.format.bits) :
    (List.range 16).map (encode op o m).getMsbD = opBits op o.grt o.grs m.toNat := by
  rw [range_bits]
  have hd : ∀ j, (m.setWidth 16).getLsbD j = (decide (j < 16) && m.toNat.testBit j) := fun j => by
    rw [BitVec.getLsbD_setWidth]; rfl
  have hz : ∀ j, op.format.bits ≤ j → m.toNat.testBit j = false := fun j hj =>
    Nat.testBit_lt_two_pow (Nat.lt_of_lt_of_le hm (Nat.pow_le_pow_right (by decide) hj))
  unfold baseOk at hb
  have h4 : ∀ r j, (reg r 4).getLsbD j = (decide (4 ≤ j ∧ j < 8) && r.testBit (j - 4)) := fun r j => reg_bit r 4 j (by decide)
  have h8 : ∀ r j, (reg r 8).getLsbD j = (decide (8 ≤ j ∧ j < 12) && r.testBit (j - 8)) := fun r j => reg_bit r 8 j (by decide)
  cases hf : op.format <;> simp only [hf, Format.bits] at hz <;>
    simp only [opBits, encode, hf, nib, num, BitVec.getLsbD_or, h4, h8, hd, List.cons_append, List.nil_append, beq_iff_eq, List.cons.injEq,
      Nat.zero_testBit] at hb ⊢ <;> (try simp at hb) <;> simp [hz] <;> (try simp [hb])

/-- What an accepted instruction has gone through. -/
structure FinalFor (E : Env) (op : Op) (o : Operands) (c : Ctx) (m : BitVec 32) : Prop where
  even : c.virtualAddress % 2 = 0
  noImm : o.bits = 0 → m = 0#32
  imm : o.bits ≠ 0 → ∃ v, Evaluates E .superH c o.imm (.int v) ∧ immediate op o.bits (BitVec.ofInt 32 v) c.virtualAddress = .ok m

theorem not_clean_fail {t : Option String} {r : Except Bool (BitVec 32)} : ¬ Clean (fail t) r := by
  cases t with
  | none => rintro ⟨_, h, _⟩; cases h
  | some t => exact not_clean_failWith

theorem clean_validate {E : Env} {op : Op} {o : Operands} {c : Ctx} {r : Except Bool (BitVec 32)} :
    Clean (validate E op o c) r ↔ ∃ m, r = .ok m ∧ FinalFor E op o c m := by
  unfold validate
  constructor
  · intro h
    split at h
    · exact absurd h not_clean_failWith
    · rename_i hev
      have hev : c.virtualAddress % 2 = 0 := by omega
      split at h
      · rename_i hb
        exact ⟨_, (clean_pure.1 h).symm, hev, fun _ => rfl, fun h' => absurd hb h'⟩
      · rename_i hb
        rw [clean_bind] at h
        obtain ⟨v, h1, h2⟩ := h
        cases v with
        | invalid => exact absurd h2 not_clean_failWith
        | str _ => exact absurd h2 not_clean_failWith
        | float _ => exact absurd h2 not_clean_failWith
        | int v =>
          simp only at h2
          cases hm : immediate op o.bits (BitVec.ofInt 32 v) c.virtualAddress with
          | error t => rw [hm] at h2; exact absurd h2 not_clean_fail
          | ok m => rw [hm] at h2; exact ⟨m, (clean_pure.1 h2).symm, hev, fun h' => absurd h' hb, fun _ => ⟨v, h1, hm⟩⟩
  · rintro ⟨m, rfl, hm⟩
    rw [if_neg (by have := hm.even; omega)]
    split
    · rename_i hb
      rw [hm.noImm hb]; exact clean_pure.2 rfl
    · rename_i hb
      obtain ⟨v, h1, h2⟩ := hm.imm hb
      rw [clean_bind]
      refine ⟨_, h1, ?_⟩
      simp only [h2]
      exact clean_pure.2 rfl

theorem accepts_iff {E : Env} {op : Op} {o : Operands} {c : Ctx} {st : ArchState} {out : InstrOut} :
    Accepts (sem E op o) c st out ↔ ∃ m, FinalFor E op o c m ∧ out = outcome op o (.ok m) := by
  constructor
  · rintro ⟨st', h⟩
    simp only [sem, clean_bind, clean_pure] at h
    obtain ⟨r, h1, h2⟩ := h
    obtain ⟨m, rfl, hm⟩ := clean_validate.1 h1
    exact ⟨m, hm, (congrArg Prod.fst h2).symm⟩
  · rintro ⟨m, hm, rfl⟩
    refine ⟨st, ?_⟩
    simp only [sem, clean_bind, clean_pure]
    exact ⟨.ok m, clean_validate.2 ⟨m, rfl, hm⟩, rfl⟩

/-- The halfword of an accepted instruction. -/
theorem emits_iff {E : Env} {op : Op} {o : Operands} {c : Ctx} {st : ArchState} {w : BitVec 16} :
    (∃ out, Accepts (sem E op o) c st out ∧ ∀ p, out.words p = [(Width.w16, (w.toNat : Int))]) ↔
      ∃ m, FinalFor E op o c m ∧ w = encode op o m := by
  constructor
  · rintro ⟨out, h1, h2⟩
    obtain ⟨m, hm, rfl⟩ := accepts_iff.1 h1
    have := h2 none
    simp only [outcome, List.cons.injEq, Prod.mk.injEq, true_and, and_true] at this
    exact ⟨m, hm, BitVec.eq_of_toNat_eq (Int.ofNat.inj this).symm⟩
  · rintro ⟨m, hm, rfl⟩
    exact ⟨_, accepts_iff.2 ⟨m, hm, rfl⟩, fun _ => rfl⟩

/-- What the number in an instruction is. -/
inductive Kind | plain (u : Nat) | branch | rel (u : Nat) | manual (u : Nat)
  deriving DecidableEq

/-- By flags. -/
def kind (op : Op) : Option Kind :=
  match op.has .imm16, op.has .imm32, op.has .immrel, op.has .immsigned, op.has .pcrelmanual with
  | false, false, false, false, false => some (.plain 1)
  | true, false, false, false, false => some (.plain 2)
  | false, true, false, false, false => some (.plain 4)
  | true, false, true, true, false => some .branch
  | true, false, true, false, false => some (.rel 2)
  | false, true, true, false, false => some (.rel 4)
  | true, false, false, false, true => some (.manual 2)
  | false, true, false, false, true => some (.manual 4)
  | _, _, _, _, _ => none

/-- By mnemonic and operands. -/
def kindOf (name : String) (ops : List Operand) : Kind :=
  if .label ∈ ops then (if .rn ∈ ops ∨ .r0 ∈ ops then .rel (unit name) else .branch)
  else if .dispPc ∈ ops then .manual (unit name)
  else if .dispRn ∈ ops ∨ .dispRm ∈ ops ∨ .dispGbr ∈ ops then .plain (unit name)
  else .plain 1

/-- How the parser reads an instruction of the manual. -/
structure Row (x : Entry) (n m : Nat) (e : Expr) (op : Op) (o : Operands) : Prop where
  parse : parseOpcode x.1 (toks n m e x.2.1) = some (op, o)
  base : baseOk op = true
  kind : Sh.kind op = some (kindOf x.1 x.2.1)
  bits : o.bits = width x.2.2 ∧ op.format.bits = width x.2.2
  imm : o.bits ≠ 0 → o.imm = e
  fields : ∀ d, opBits op o.grt o.grs d = patternBits (letters n m d) x.2.2.toList

end Armips.Sh
