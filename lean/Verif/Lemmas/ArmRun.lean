import Verif.Model.Arm
import Verif.Lemmas.Clean
/-! What an accepted ARM instruction has gone through. -/
namespace Armips.Arm
open Spec.Instr

/-- The 32 bits that stand for a value: an integer is truncated, a float (where it is allowed) is its single precision bits. -/
def valueBits (E : Env) (op : Op) : Value → Option (BitVec 32)
  | .int v => some (BitVec.ofInt 32 v)
  | .float v => if !op.has .shift && !op.has .pool then none else some (BitVec.ofInt 32 (E.floatBits v))
  | _ => none

/-- The members after a successful `Validate`. -/
structure FinalFor (E : Env) (version : Version) (op : Op) (o : Operands) (c : Ctx) (f : Final) : Prop where
  noShift : o.shift = none → f.shift = none
  regShift : ∀ s, o.shift = some s → s.byRegister = true → f.shift = none
  immShift : ∀ s, o.shift = some s → s.byRegister = false →
    ∃ v r, Evaluates E .arm c s.amount (.int v) ∧ shiftFinal s.type (BitVec.ofInt 32 v) = .ok r ∧ f.shift = some r
  cpop : op.has .copop = true →
    ∃ v, Evaluates E .arm c o.cpop (.int v) ∧ (BitVec.ofInt 32 v).toInt ≤ 15 ∧ f.cpop = BitVec.ofInt 32 v
  cpinf : op.has .copinf = true →
    ∃ v, Evaluates E .arm c o.cpinf (.int v) ∧ (BitVec.ofInt 32 v).toInt ≤ 7 ∧ f.cpinf = BitVec.ofInt 32 v
  noImm : op.has .immediate = false → f.imm = {}
  imm : op.has .immediate = true →
    ∃ v b, Evaluates E .arm c o.imm v ∧ valueBits E op v = some b ∧
      immediate op version o.bitLen b c.virtualAddress = .ok f.imm

theorem not_clean_failWith {α} {a : Bool} {t : String} {r : Except Bool α} : ¬ Clean (failWith a t : Ev (Except Bool α)) r :=
  not_clean_fail rfl

theorem clean_evalInt {E : Env} {c : Ctx} {e : Expr} {b : BitVec 32} (h : Clean (evalInt E c e) (some b)) :
    ∃ v, Evaluates E .arm c e (.int v) ∧ b = BitVec.ofInt 32 v := by
  unfold evalInt at h
  rw [clean_bind] at h
  obtain ⟨v, h1, h2⟩ := h
  cases v <;> simp at h2
  exact ⟨_, h1, h2.symm⟩

theorem clean_vShift {E : Env} {c : Ctx} {o : Operands} {r : Except Bool (Option (Nat × Nat))} (h : Clean (vShift E c o) r) :
    ∃ sh, r = .ok sh ∧ (o.shift = none → sh = none) ∧ (∀ s, o.shift = some s → s.byRegister = true → sh = none) ∧
      (∀ s, o.shift = some s → s.byRegister = false → ∃ v r, Evaluates E .arm c s.amount (.int v) ∧
        shiftFinal s.type (BitVec.ofInt 32 v) = .ok r ∧ sh = some r) := by
  unfold vShift at h
  cases hs : o.shift with
  | none =>
    rw [hs] at h
    simp only [clean_pure] at h
    exact ⟨none, h.symm, by simp, by simp, by simp⟩
  | some s =>
    rw [hs] at h
    simp only at h
    by_cases hr : s.byRegister = true
    · simp only [hr, if_true, clean_pure] at h
      refine ⟨none, h.symm, by simp, by simp, ?_⟩
      intro s' hs'
      cases hs'
      simp [hr]
    · simp only [hr, Bool.false_eq_true, if_false, clean_bind] at h
      obtain ⟨b, h1, h2⟩ := h
      cases b with
      | none => exact absurd h2 not_clean_failWith
      | some b =>
        obtain ⟨v, hv, rfl⟩ := clean_evalInt h1
        simp only at h2
        cases hf : shiftFinal s.type (BitVec.ofInt 32 v) with
        | error t => rw [hf] at h2; exact absurd h2 not_clean_failWith
        | ok p =>
          rw [hf] at h2
          simp only [clean_pure] at h2
          refine ⟨some p, h2.symm, by simp, ?_, ?_⟩
          · intro s' hs'; cases hs'; intro h'; exact absurd h' hr
          · intro s' hs'; cases hs'; intro _; exact ⟨v, p, hv, hf, rfl⟩

theorem clean_vCop {E : Env} {c : Ctx} {b : Bool} {e : Expr} {l : Int} {r : Except Bool (BitVec 32)}
    (h : Clean (vCop E c b e l) r) :
    ∃ w, r = .ok w ∧ (b = true → ∃ v, Evaluates E .arm c e (.int v) ∧ (BitVec.ofInt 32 v).toInt ≤ l ∧
      w = BitVec.ofInt 32 v) := by
  unfold vCop at h
  cases b with
  | false => simp only [Bool.false_eq_true, if_false, clean_pure] at h; exact ⟨_, h.symm, by simp⟩
  | true =>
    simp only [if_true, clean_bind] at h
    obtain ⟨b, h1, h2⟩ := h
    cases b with
    | none => exact absurd h2 not_clean_failWith
    | some b =>
      obtain ⟨v, hv, rfl⟩ := clean_evalInt h1
      simp only at h2
      split at h2
      · exact absurd h2 not_clean_failWith
      · rename_i hl
        simp only [clean_pure] at h2
        exact ⟨_, h2.symm, fun _ => ⟨v, hv, by omega, rfl⟩⟩

theorem clean_vValue {E : Env} {c : Ctx} {op : Op} {e : Expr} {r : Except Bool (BitVec 32)} (h : Clean (vValue E c op e) r) :
    ∃ v b, r = .ok b ∧ Evaluates E .arm c e v ∧ valueBits E op v = some b := by
  unfold vValue at h
  rw [clean_bind] at h
  obtain ⟨v, h1, h2⟩ := h
  cases v with
  | invalid => exact absurd h2 not_clean_failWith
  | str _ => exact absurd h2 not_clean_failWith
  | int v => simp only [clean_pure] at h2; exact ⟨_, _, h2.symm, h1, rfl⟩
  | float v =>
    simp only at h2
    split at h2
    · exact absurd h2 not_clean_failWith
    · rename_i hc
      simp only [clean_pure] at h2
      exact ⟨_, _, h2.symm, h1, by simp only [valueBits, hc, if_false, Bool.false_eq_true]⟩

theorem clean_vImm {E : Env} {version : Version} {c : Ctx} {op : Op} {o : Operands} {r : Except Bool Imm}
    (h : Clean (vImm E version c op o) r) :
    ∃ m, r = .ok m ∧ (op.has .immediate = false → m = {}) ∧ (op.has .immediate = true →
      ∃ v b, Evaluates E .arm c o.imm v ∧ valueBits E op v = some b ∧
        immediate op version o.bitLen b c.virtualAddress = .ok m) := by
  unfold vImm at h
  by_cases hi : op.has .immediate = true
  · rw [if_pos hi, clean_bind] at h
    obtain ⟨r1, h1, h2⟩ := h
    obtain ⟨v, b, rfl, hv, hb⟩ := clean_vValue h1
    simp only at h2
    cases hm : immediate op version o.bitLen b c.virtualAddress with
    | error t =>
      rw [hm] at h2
      cases t with
      | ub => exact absurd h2 clean_ub
      | error t => exact absurd h2 not_clean_failWith
    | ok m =>
      rw [hm] at h2
      simp only [clean_pure] at h2
      exact ⟨m, h2.symm, by simp [hi], fun _ => ⟨v, b, hv, hb, hm⟩⟩
  · rw [if_neg hi, clean_pure] at h
    exact ⟨{}, h.symm, fun _ => rfl, fun h' => absurd h' hi⟩

theorem clean_validate {E : Env} {version : Version} {op : Op} {o : Operands} {c : Ctx} {r : Except Bool Final}
    (h : Clean (validate E version op o c) r) : ∃ f, r = .ok f ∧ FinalFor E version op o c f := by
  simp only [validate, clean_bind] at h
  obtain ⟨_, _, r1, h1, h⟩ := h
  obtain ⟨sh, rfl, s1, s2, s3⟩ := clean_vShift h1
  simp only [clean_bind] at h
  obtain ⟨r2, h2, h⟩ := h
  obtain ⟨cp, rfl, hcp⟩ := clean_vCop h2
  simp only [clean_bind] at h
  obtain ⟨r3, h3, h⟩ := h
  obtain ⟨ci, rfl, hci⟩ := clean_vCop h3
  simp only at h
  split at h
  · exact absurd h not_clean_failWith
  · rw [clean_bind] at h
    obtain ⟨r4, h4, h⟩ := h
    obtain ⟨m, rfl, m1, m2⟩ := clean_vImm h4
    simp only [clean_pure] at h
    exact ⟨_, h.symm, ⟨s1, s2, s3, hcp, hci, m1, m2⟩⟩

/-- An accepted instruction is written from the members after a successful `Validate`. -/
theorem accepted {E : Env} {version : Version} {op : Op} {o : Operands} {c : Ctx} {st : ArchState} {out : InstrOut}
    (h : Accepts (sem E version op o) c st out) :
    ∃ f, FinalFor E version op o c f ∧ out = outcome op o c.virtualAddress (.ok f) := by
  obtain ⟨st', h⟩ := h
  simp only [sem, clean_bind, clean_pure] at h
  obtain ⟨r, h1, h2⟩ := h
  obtain ⟨f, rfl, hf⟩ := clean_validate h1
  exact ⟨f, hf, (congrArg Prod.fst h2).symm⟩

/-- The converse for an instruction without shift and coprocessor operands. -/
theorem accepted_of {E : Env} {version : Version} {op : Op} {o : Operands} {c : Ctx} {st : ArchState} {v : Value} {b : BitVec 32}
    {m : Imm} (hs : ∀ s, o.shift = some s → s.byRegister = true) (h1 : op.has .copop = false) (h2 : op.has .copinf = false)
    (h3 : op.has .rdeven = false) (hi : op.has .immediate = true) (hv : Evaluates E .arm c o.imm v)
    (hb : valueBits E op v = some b) (hm : immediate op version o.bitLen b c.virtualAddress = .ok m) :
    ∃ f out, f.imm = m ∧ out = outcome op o c.virtualAddress (.ok f) ∧ Accepts (sem E version op o) c st out := by
  have hval : Clean (vValue E c op o.imm) (.ok b) := by
    unfold vValue
    rw [clean_bind]
    refine ⟨v, hv, ?_⟩
    cases v with
    | invalid => simp [valueBits] at hb
    | str _ => simp [valueBits] at hb
    | int v => simpa [valueBits] using hb
    | float v =>
      simp only [valueBits] at hb
      split at hb
      · simp at hb
      · rename_i hc
        simp only [hc, if_false, Bool.false_eq_true, clean_pure]
        simpa using hb
  have himm : Clean (vImm E version c op o) (.ok m) := by
    unfold vImm
    rw [if_pos hi, clean_bind]
    refine ⟨.ok b, hval, ?_⟩
    simp only [hm, clean_pure]
  have hshift : Clean (vShift E c o) (.ok none) := by
    unfold vShift
    cases hsh : o.shift with
    | none => simp
    | some s => simp [hs s hsh]
  refine ⟨{ imm := m }, _, rfl, rfl, st, ?_⟩
  simp only [sem, clean_bind, clean_pure]
  refine ⟨.ok { imm := m }, ?_, rfl⟩
  simp only [validate, clean_bind]
  have hw : Clean (vAlign c) () := by
    unfold vAlign
    split <;> simp
  refine ⟨(), hw, .ok none, hshift, ?_⟩
  simp only [clean_bind]
  refine ⟨.ok 0#32, by simp [vCop, h1], ?_⟩
  simp only [clean_bind]
  refine ⟨.ok 0#32, by simp [vCop, h2], ?_⟩
  simp only [h3, Bool.false_and, Bool.false_eq_true, if_false, clean_bind]
  exact ⟨.ok m, himm, by simp⟩

/-- An instruction whose immediate is refused reports an error. -/
theorem rejected_of {E : Env} {version : Version} {op : Op} {o : Operands} {c : Ctx} {st : ArchState} {v : Value} {b : BitVec 32}
    {t : String} (hs : ∀ s, o.shift = some s → s.byRegister = true) (h1 : op.has .copop = false) (h2 : op.has .copinf = false)
    (h3 : op.has .rdeven = false) (hi : op.has .immediate = true) (hv : Evaluates E .arm c o.imm v)
    (hb : valueBits E op v = some b) (hm : immediate op version o.bitLen b c.virtualAddress = .error (.error t)) :
    Rejects (sem E version op o) c st := by
  obtain ⟨ds, hev, -⟩ := hv
  have hval : vValue E c op o.imm = .ok (.ok b) ds := by
    unfold vValue
    rw [hev, Ev.ok_bind]
    cases v with
    | invalid => simp [valueBits] at hb
    | str _ => simp [valueBits] at hb
    | int v => simp only [valueBits, Option.some.injEq] at hb; simp [hb]
    | float v =>
      simp only [valueBits] at hb
      split at hb
      · simp at hb
      · rename_i hc
        simp only [Option.some.injEq] at hb
        simp [hc, hb]
  have himm : vImm E version c op o = .ok (.error true) (ds ++ [{ type := .error, text := t }]) := by
    unfold vImm
    rw [if_pos hi, hval, Ev.ok_bind]
    simp [hm, failWith, Ev.queue]
  have hshift : vShift E c o = .ok (.ok none) [] := by
    unfold vShift
    cases hsh : o.shift with
    | none => simp
    | some s => simp [hs s hsh]
  obtain ⟨ds0, hal⟩ : ∃ ds0, vAlign c = .ok () ds0 := by
    unfold vAlign
    split
    · exact ⟨_, rfl⟩
    · exact ⟨_, rfl⟩
  have hval : validate E version op o c = .ok (.error true) (ds0 ++ (ds ++ [{ type := .error, text := t }])) := by
    simp only [validate]
    rw [hal, Ev.ok_bind, hshift, Ev.ok_bind]
    simp [vCop, h1, h2, h3, himm]
  refine ⟨outcome op o c.virtualAddress (.error true), st, ds0 ++ (ds ++ [{ type := .error, text := t }]), ?_, ?_⟩
  · simp only [sem]
    rw [hval, Ev.ok_bind]
    simp
  · intro h
    have := h { type := .error, text := t } (by simp)
    simp at this

/-- An instruction whose parts are all accepted. -/
theorem accepts_parts {E : Env} {version : Version} {op : Op} {o : Operands} {c : Ctx} {st : ArchState} {f : Final}
    (hs : Clean (vShift E c o) (.ok f.shift)) (h1 : Clean (vCop E c (op.has .copop) o.cpop 15) (.ok f.cpop))
    (h2 : Clean (vCop E c (op.has .copinf) o.cpinf 7) (.ok f.cpinf)) (h3 : op.has .rdeven = false ∨ o.rd % 2 = 0)
    (hi : Clean (vImm E version c op o) (.ok f.imm)) :
    Accepts (sem E version op o) c st (outcome op o c.virtualAddress (.ok f)) := by
  refine ⟨st, ?_⟩
  simp only [sem, clean_bind, clean_pure]
  refine ⟨.ok f, ?_, rfl⟩
  simp only [validate, clean_bind]
  have hw : Clean (vAlign c) () := by
    unfold vAlign
    split <;> simp
  refine ⟨(), hw, .ok f.shift, hs, ?_⟩
  simp only [clean_bind]
  refine ⟨.ok f.cpop, h1, ?_⟩
  simp only [clean_bind]
  refine ⟨.ok f.cpinf, h2, ?_⟩
  have h3' : (op.has .rdeven && o.rd % 2 == 1) = false := by
    rcases h3 with h | h <;> simp [h]
  simp only [h3', Bool.false_eq_true, if_false, clean_bind]
  exact ⟨.ok f.imm, hi, by simp⟩

theorem vShift_none {E : Env} {c : Ctx} {o : Operands} (hs : ∀ s, o.shift = some s → s.byRegister = true) :
    Clean (vShift E c o) (.ok none) := by
  unfold vShift
  cases hsh : o.shift with
  | none => simp
  | some s => simp [hs s hsh]

theorem clean_evalInt_of {E : Env} {c : Ctx} {e : Expr} {v : Int} (h : Evaluates E .arm c e (.int v)) :
    Clean (evalInt E c e) (some (BitVec.ofInt 32 v)) := by
  unfold evalInt
  rw [clean_bind]
  exact ⟨_, h, by simp⟩

theorem vShift_some {E : Env} {c : Ctx} {o : Operands} {s : Shift} {v : Int} {r : Nat × Nat} (hs : o.shift = some s)
    (hb : s.byRegister = false) (hv : Evaluates E .arm c s.amount (.int v))
    (hr : shiftFinal s.type (BitVec.ofInt 32 v) = .ok r) : Clean (vShift E c o) (.ok (some r)) := by
  unfold vShift
  simp only [hs, hb, Bool.false_eq_true, if_false, clean_bind]
  refine ⟨_, clean_evalInt_of hv, ?_⟩
  simp only [hr, clean_pure]

theorem vCop_false {E : Env} {c : Ctx} {e : Expr} {l : Int} : Clean (vCop E c false e l) (.ok 0#32) := by simp [vCop]

theorem vCop_true {E : Env} {c : Ctx} {e : Expr} {l v : Int} (hv : Evaluates E .arm c e (.int v))
    (hl : (BitVec.ofInt 32 v).toInt ≤ l) : Clean (vCop E c true e l) (.ok (BitVec.ofInt 32 v)) := by
  unfold vCop
  simp only [if_true, clean_bind]
  refine ⟨_, clean_evalInt_of hv, ?_⟩
  simp only
  rw [if_neg (by omega)]
  simp

theorem vImm_false {E : Env} {version : Version} {c : Ctx} {op : Op} {o : Operands} (hi : op.has .immediate = false) :
    Clean (vImm E version c op o) (.ok {}) := by simp [vImm, hi]

/-- A refused shift. -/
theorem rejects_shift {E : Env} {version : Version} {op : Op} {o : Operands} {c : Ctx} {st : ArchState} {s : Shift} {v : Int}
    {t : String} (hs : o.shift = some s) (hb : s.byRegister = false) (hv : Evaluates E .arm c s.amount (.int v))
    (hr : shiftFinal s.type (BitVec.ofInt 32 v) = .error t) : Rejects (sem E version op o) c st := by
  obtain ⟨ds, hev, -⟩ := hv
  obtain ⟨ds0, hal⟩ : ∃ ds0, vAlign c = .ok () ds0 := by
    unfold vAlign
    split
    · exact ⟨_, rfl⟩
    · exact ⟨_, rfl⟩
  have hval : validate E version op o c = .ok (.error false) (ds0 ++ (ds ++ [{ type := .error, text := t }])) := by
    simp only [validate]
    rw [hal, Ev.ok_bind]
    simp [vShift, hs, hb, evalInt, hev, hr, failWith, Ev.queue]
  refine ⟨outcome op o c.virtualAddress (.error false), st, ds0 ++ (ds ++ [{ type := .error, text := t }]), ?_, ?_⟩
  · simp only [sem]
    rw [hval, Ev.ok_bind]
    simp
  · intro h
    have := h { type := .error, text := t } (by simp)
    simp at this

end Armips.Arm
