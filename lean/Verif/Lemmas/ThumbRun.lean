import Verif.Lemmas.ThumbRows
import Verif.Lemmas.ArmRun
/-! What an accepted THUMB instruction has gone through. -/
namespace Armips.Thumb
open Spec Spec.Thumb Spec.Instr
open Armips.Arm (fld orIf failWith not_clean_failWith)

/-- The 32 bits that stand for a value. -/
def valueBits (E : Env) (op : Op) : Value → Option (BitVec 32)
  | .int v => some (BitVec.ofInt 32 v)
  | .float v => if !op.has .pool then none else some (BitVec.ofInt 32 (E.floatBits v))
  | _ => none

/-- The members after a successful `Validate`. -/
structure FinalFor (E : Env) (op : Op) (o : Operands) (c : Ctx) (m : Imm) : Prop where
  noImm : op.has .immediate = false → m = { value := o.stale }
  imm : op.has .immediate = true →
    ∃ v b, Evaluates E .arm c o.imm v ∧ valueBits E op v = some b ∧ immediate op o.bitLen b c.virtualAddress = .ok m

theorem clean_vValue {E : Env} {c : Ctx} {op : Op} {e : Expr} {r : Except Bool (BitVec 32)} :
    Clean (vValue E c op e) r ↔ ∃ v b, r = .ok b ∧ Evaluates E .arm c e v ∧ valueBits E op v = some b := by
  unfold vValue
  rw [clean_bind]
  constructor
  · rintro ⟨v, h1, h2⟩
    cases v with
    | invalid => exact absurd h2 not_clean_failWith
    | str _ => exact absurd h2 not_clean_failWith
    | int v => simp only [clean_pure] at h2; exact ⟨_, _, h2.symm, h1, rfl⟩
    | float v =>
      simp only at h2
      split at h2
      · exact absurd h2 not_clean_failWith
      · rename_i hc
        simp only [clean_pure] at h2
        exact ⟨_, _, h2.symm, h1, by simp only [valueBits, hc, if_false, Bool.false_eq_true]⟩
  · rintro ⟨v, b, rfl, h1, h2⟩
    refine ⟨v, h1, ?_⟩
    cases v with
    | invalid => simp [valueBits] at h2
    | str _ => simp [valueBits] at h2
    | int v => simpa [valueBits] using h2
    | float v =>
      simp only [valueBits] at h2
      split at h2
      · simp at h2
      · rename_i hc
        simp only [hc, if_false, Bool.false_eq_true, clean_pure]
        simpa using h2

theorem clean_vAlign {c : Ctx} : Clean (vAlign c) () := by
  unfold vAlign
  split
  · simp
  · simp

theorem clean_validate {E : Env} {op : Op} {o : Operands} {c : Ctx} {r : Except Bool Imm} :
    Clean (validate E op o c) r ↔ ∃ m, r = .ok m ∧ FinalFor E op o c m := by
  unfold validate
  rw [clean_bind]
  constructor
  · rintro ⟨_, -, h⟩
    unfold vImm at h
    by_cases hi : op.has .immediate = true
    · rw [if_pos hi, clean_bind] at h
      obtain ⟨r1, h1, h2⟩ := h
      obtain ⟨v, b, rfl, hv, hb⟩ := clean_vValue.1 h1
      simp only at h2
      cases hm : immediate op o.bitLen b c.virtualAddress with
      | error t =>
        rw [hm] at h2
        exact absurd h2 not_clean_failWith
      | ok m =>
        rw [hm] at h2
        simp only [clean_pure] at h2
        exact ⟨m, h2.symm, by simp [hi], fun _ => ⟨v, b, hv, hb, hm⟩⟩
    · rw [if_neg hi, clean_pure] at h
      exact ⟨_, h.symm, fun _ => rfl, fun h' => absurd h' hi⟩
  · rintro ⟨m, rfl, hm⟩
    refine ⟨(), clean_vAlign, ?_⟩
    unfold vImm
    by_cases hi : op.has .immediate = true
    · obtain ⟨v, b, hv, hb, him⟩ := hm.imm hi
      rw [if_pos hi, clean_bind]
      refine ⟨.ok b, clean_vValue.2 ⟨v, b, rfl, hv, hb⟩, ?_⟩
      simp only [him, clean_pure]
    · rw [if_neg hi, clean_pure, hm.noImm (by simpa using hi)]

theorem accepts_iff {E : Env} {op : Op} {o : Operands} {c : Ctx} {st : ArchState} {out : InstrOut} :
    Accepts (sem E op o) c st out ↔ ∃ m, FinalFor E op o c m ∧ out = outcome op o c.virtualAddress (.ok m) := by
  constructor
  · rintro ⟨st', h⟩
    simp only [sem, clean_bind, clean_pure] at h
    obtain ⟨r, h1, h2⟩ := h
    obtain ⟨m, rfl, hm⟩ := clean_validate.1 h1
    exact ⟨m, hm, (congrArg Prod.fst h2).symm⟩
  · rintro ⟨m, hm, rfl⟩
    refine ⟨st, ?_⟩
    simp only [sem, clean_bind, clean_pure]
    exact ⟨.ok m, clean_validate.2 ⟨m, rfl, hm⟩, rfl⟩

theorem toNat_inj {w w' : BitVec 16} (h : ((w.toNat : Nat) : Int) = (w'.toNat : Nat)) : w = w' :=
  BitVec.eq_of_toNat_eq (Int.ofNat.inj h)

theorem emits_word {E : Env} {op : Op} {o : Operands} {c : Ctx} {st : ArchState} {w : BitVec 16}
    (h : Emits (sem E op o) c st w) :
    ∃ m W, FinalFor E op o c m ∧ written op o m = [W] ∧ w = W.setWidth 16 := by
  obtain ⟨out, ha, hw⟩ := h
  obtain ⟨m, hm, rfl⟩ := accepts_iff.1 ha
  have := hw none
  simp only [outcome, poolImm] at this
  cases hl : written op o m with
  | nil => rw [hl] at this; simp at this
  | cons W l =>
    rw [hl] at this
    cases l with
    | cons _ _ => simp at this
    | nil =>
      refine ⟨m, W, hm, hl, ?_⟩
      simp only [List.map, unit, List.cons.injEq, Prod.mk.injEq, true_and, and_true] at this
      exact (toNat_inj this).symm

theorem outcome_words {op : Op} {o : Operands} {a : Int} {m : Imm} (hp : m.pool = false) (p : Option Int) :
    (outcome op o a (.ok m)).words p = (written op o m).map unit := by
  have : poolImm a m p = m := by cases p <;> simp [poolImm, hp]
  simp only [outcome, this]

theorem emits_of {E : Env} {op : Op} {o : Operands} {c : Ctx} {st : ArchState} {m : Imm} {W : BitVec 32}
    (hm : FinalFor E op o c m) (hp : m.pool = false) (hw : written op o m = [W]) :
    Emits (sem E op o) c st (W.setWidth 16) := by
  refine ⟨_, accepts_iff.2 ⟨m, hm, rfl⟩, fun p => ?_⟩
  have : poolImm c.virtualAddress m p = m := by cases p <;> simp [poolImm, hp]
  simp only [outcome, this, hw, List.map, unit]

theorem emits2_of {E : Env} {op : Op} {o : Operands} {c : Ctx} {st : ArchState} {m : Imm} {W1 W2 : BitVec 32}
    (hm : FinalFor E op o c m) (hp : m.pool = false) (hw : written op o m = [W1, W2]) :
    Emits2 (sem E op o) c st (W1.setWidth 16) (W2.setWidth 16) := by
  refine ⟨_, accepts_iff.2 ⟨m, hm, rfl⟩, fun p => ?_⟩
  have : poolImm c.virtualAddress m p = m := by cases p <;> simp [poolImm, hp]
  simp only [outcome, this, hw, List.map, unit]

theorem final_of {E : Env} {op : Op} {o : Operands} {c : Ctx} {m : Imm} {v : Int} (hi : op.has .immediate = true)
    (hv : Evaluates E .arm c o.imm (.int v))
    (hm : immediate op o.bitLen (BitVec.ofInt 32 v) c.virtualAddress = .ok m) : FinalFor E op o c m :=
  ⟨by simp [hi], fun _ => ⟨_, _, hv, rfl, hm⟩⟩

theorem final_imm {E : Env} {op : Op} {o : Operands} {c : Ctx} {m : Imm} {v : Int} (hf : FinalFor E op o c m)
    (hi : op.has .immediate = true) (hv : Evaluates E .arm c o.imm (.int v)) :
    immediate op o.bitLen (BitVec.ofInt 32 v) c.virtualAddress = .ok m := by
  obtain ⟨v', b, h1, h2, h3⟩ := hf.imm hi
  cases evaluates_unique h1 hv
  simp only [valueBits, Option.some.injEq] at h2
  rw [h2]; exact h3

theorem rejects_of {E : Env} {op : Op} {o : Operands} {c : Ctx} {st : ArchState} {v : Int} {t : String}
    (hi : op.has .immediate = true) (hv : Evaluates E .arm c o.imm (.int v))
    (hm : immediate op o.bitLen (BitVec.ofInt 32 v) c.virtualAddress = .error t) : Rejects (sem E op o) c st := by
  obtain ⟨ds, he, hd⟩ := hv
  have ha : ∃ da, vAlign c = .ok () da := by
    unfold vAlign
    split
    · exact ⟨_, rfl⟩
    · exact ⟨[], rfl⟩
  obtain ⟨da, ha⟩ := ha
  have hvv : vValue E c op o.imm = .ok (.ok (BitVec.ofInt 32 v)) ds := by
    unfold vValue
    rw [he, Ev.ok_bind]
    simp [pure]
  have : validate E op o c = .ok (.error true) (da ++ (ds ++ ([{ type := .error, text := t }] ++ []))) := by
    unfold validate
    rw [ha, Ev.ok_bind]
    unfold vImm
    rw [if_pos hi, hvv, Ev.ok_bind]
    simp only [hm]
    rfl
  refine ⟨outcome op o c.virtualAddress (.error true), st,
    (da ++ (ds ++ ([{ type := .error, text := t }] ++ []))) ++ [], ?_, ?_⟩
  · simp only [sem]
    rw [this, Ev.ok_bind]
    rfl
  · intro hne
    have := hne { type := .error, text := t } (by simp)
    simp at this

/-- Conversion to `int`. -/
theorem toInt_int32 (v : Int) : (BitVec.ofInt 32 v).toInt = int32 v := by
  rw [BitVec.toInt_ofInt, int32, Int.bmod_def]
  split <;> omega

end Armips.Thumb
