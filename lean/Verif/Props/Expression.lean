import Verif.Lemmas.IntOps
import Verif.Lemmas.Simplify
/-!
# Properties of expressions (C10, C11, C12, C34, C53)
-/
namespace Armips.Props
open Armips Spec

/-- Some host; used only in examples. -/
def exampleHost : Host where
  add a _ := a
  sub a _ := a
  mul a _ := a
  div a _ := a
  ofInt v := if v = 0 then 0#64 else 0x3FF0000000000000#64
  toInt _ := none
  round _ := none
  frac a := a
  fmt17 _ := lit "1.0"
  fmtG _ := lit "1"
  fmtHex _ _ := lit "0"
  regexMatch _ _ := none
  regexSearch _ _ := none
  regexGroups _ _ := none
  endianness := .little

/-- A context without labels, output file and input files; used only in examples. -/
def exampleCtx : Ctx where
  label _ _ _ := none
  file := none
  endianness := .little
  readFile _ := none
  isArm := false
  isThumb := false

/-! ## C10 -/

/-- For all subexpressions `x` and `y` with 64-bit integer values `a` and `b`, `x op y` has the value that
`Spec.IntResult` requires, and gives the warning it names, for every operator and every operand pair for which C++
defines the operation. The diagnostics of the operands are kept. -/
theorem int_operators (H : Host) (F : Funcs) (c : Ctx) (op : BinOp) (x y : Expr) (a b : Int) (m₁ m₂ : List Diag)
    (hx : x.eval H F c = .ok (.int a) m₁) (hy : y.eval H F c = .ok (.int b) m₂)
    (ha : InI64 a) (hb : InI64 b) (hr : InRange op a b) :
    ∃ r w, (Expr.bin op x y).eval H F c =
        .ok (.int r) (m₁ ++ m₂ ++ (match w with | none => [] | some s => [{ type := .warning, text := s }])) ∧
      InI64 r ∧ IntResult op a b r w := by
  obtain ⟨r, w, h1, h2, h3⟩ := apply_int H op a b ha hb hr
  refine ⟨r, w, ?_, h2, h3⟩
  simp only [Expr.eval, hx, hy, Ev.ok_bind, h1]
  cases w <;> simp [warning]

/-- The requirement determines the result. -/
theorem int_result_unique (op : BinOp) (a b r r' : Int) (w w' : Option String) (hr : InI64 r) (hr' : InI64 r')
    (h : IntResult op a b r w) (h' : IntResult op a b r' w') : r = r' ∧ w = w' := by
  have bits : (∀ i < 64, bit r i = bit r' i) → r = r' := by
    intro hb
    have e : BitVec.ofInt 64 r = BitVec.ofInt 64 r' := by
      apply BitVec.eq_of_getLsbD_eq
      intro i hi
      rw [bit_ofInt 64 _ i hi, bit_ofInt 64 _ i hi, hb i hi]
    have e2 := congrArg BitVec.toInt e
    unfold InI64 at hr hr'
    rwa [BitVec.toInt_ofInt_eq_self (by decide) (by simpa using hr.1) (by simpa using hr.2),
      BitVec.toInt_ofInt_eq_self (by decide) (by simpa using hr'.1) (by simpa using hr'.2)] at e2
  have wrap : ∀ x, (∃ k, r = x + k * 2 ^ 64) → (∃ k, r' = x + k * 2 ^ 64) → r = r' := by
    rintro x ⟨k, hk⟩ ⟨k', hk'⟩
    unfold InI64 at hr hr'
    omega
  have quot : ∀ q q' m m' : Int, a = b * q + m → a = b * q' + m' → b ≠ 0 → -(b.natAbs : Int) < m → m < b.natAbs →
      -(b.natAbs : Int) < m' → m' < b.natAbs → (0 ≤ a → 0 ≤ m) → (a ≤ 0 → m ≤ 0) → (0 ≤ a → 0 ≤ m') →
      (a ≤ 0 → m' ≤ 0) → q = q' ∧ m = m' := by
    intro q q' m m' e e' hb l u l' u' s1 s2 s1' s2'
    have hd : b * (q - q') = m' - m := by rw [Int.mul_sub]; omega
    have hlt : (m' - m).natAbs < b.natAbs := by omega
    have hq : q - q' = 0 := by
      have h1 : b.natAbs * (q - q').natAbs = (m' - m).natAbs := by rw [← Int.natAbs_mul, hd]
      have h2 : (q - q').natAbs = 0 := by
        rcases Nat.eq_zero_or_pos (q - q').natAbs with h | h
        · exact h
        · have := Nat.le_mul_of_pos_right b.natAbs h
          omega
      omega
    have : m' - m = 0 := by rw [← hd, hq, Int.mul_zero]
    omega
  cases op with
  | div =>
    simp only [IntResult] at h h'
    split at h
    · rename_i hb; rw [if_pos hb] at h'; exact ⟨h.1.trans h'.1.symm, h.2.trans h'.2.symm⟩
    · rename_i hb
      rw [if_neg hb] at h'
      split at h
      · rename_i hc; rw [if_pos hc] at h'; exact ⟨h.1.trans h'.1.symm, h.2.trans h'.2.symm⟩
      · rename_i hc
        rw [if_neg hc] at h'
        obtain ⟨e, m, h1, h2, h3, h4, h5⟩ := h
        obtain ⟨e', m', h1', h2', h3', h4', h5'⟩ := h'
        exact ⟨(quot r r' m m' h1 h1' hb h2 h3 h2' h3' h4 h5 h4' h5').1, e.trans e'.symm⟩
  | mod =>
    simp only [IntResult] at h h'
    split at h
    · rename_i hb; rw [if_pos hb] at h'; exact ⟨h.1.trans h'.1.symm, h.2.trans h'.2.symm⟩
    · rename_i hb
      rw [if_neg hb] at h'
      split at h
      · rename_i hc; rw [if_pos hc] at h'; exact ⟨h.1.trans h'.1.symm, h.2.trans h'.2.symm⟩
      · rename_i hc
        rw [if_neg hc] at h'
        obtain ⟨e, m, h1, h2, h3, h4, h5⟩ := h
        obtain ⟨e', m', h1', h2', h3', h4', h5'⟩ := h'
        exact ⟨(quot m m' r r' h1 h1' hb h2 h3 h2' h3' h4 h5 h4' h5').2, e.trans e'.symm⟩
  | leftShift => exact ⟨wrap _ h.1 h'.1, h.2.trans h'.2.symm⟩
  | rightShift => exact ⟨wrap _ h.1 h'.1, h.2.trans h'.2.symm⟩
  | bitAnd => exact ⟨bits fun i hi => (h.1 i hi).trans (h'.1 i hi).symm, h.2.trans h'.2.symm⟩
  | bitOr => exact ⟨bits fun i hi => (h.1 i hi).trans (h'.1 i hi).symm, h.2.trans h'.2.symm⟩
  | xor => exact ⟨bits fun i hi => (h.1 i hi).trans (h'.1 i hi).symm, h.2.trans h'.2.symm⟩
  | _ => exact ⟨h.1.trans h'.1.symm, h.2.trans h'.2.symm⟩

/-- Outside of the range nothing is promised: the operation is undefined behaviour of the C++ program. -/
theorem int_overflow_undefined (H : Host) (F : Funcs) (c : Ctx) (op : BinOp) (a b : Int) (hr : ¬ InRange op a b) :
    (Expr.bin op (.int a) (.int b)).eval H F c = .ub := by
  cases op <;> simp only [InRange, not_true_eq_false] at hr <;>
    simp [Expr.eval, BinOp.apply, Value.add, Value.sub, Value.mul, Value.shl, Value.shr, chk, hr]

/-- Negation and complement. -/
theorem int_neg (H : Host) (F : Funcs) (c : Ctx) (x : Expr) (a : Int) (m : List Diag)
    (hx : x.eval H F c = .ok (.int a) m) (ha : InI64 a) (h : a ≠ -(2 ^ 63)) :
    (Expr.un .neg x).eval H F c = .ok (.int (-a)) m := by
  have : InI64 (0 - a) := by unfold InI64 at *; omega
  have e : UnOp.neg.apply H (.int a) = .ok (.int (-a)) [] := by
    rw [← Int.zero_sub a]; exact chk_ok this
  simp [Expr.eval, hx, e]

theorem int_complement (H : Host) (F : Funcs) (c : Ctx) (x : Expr) (a : Int) (m : List Diag)
    (hx : x.eval H F c = .ok (.int a) m) :
    ∃ r, (Expr.un .bitNot x).eval H F c = .ok (.int r) m ∧ InI64 r ∧ ∀ i < 64, bit r i = !bit a i := by
  refine ⟨(~~~ BitVec.ofInt 64 a).toInt, by simp [Expr.eval, hx, UnOp.apply, Value.bnot], toInt_inI64 _, ?_⟩
  intro i hi
  rw [bit_toInt 64 _ i hi, BitVec.getLsbD_not, bit_ofInt 64 _ i hi]
  simp [hi]

/-- `(-7) / 2 = -3` and `(-7) % 2 = -1`; the extreme cases; shifts. -/
example : (Expr.bin .div (.int (-7)) (.int 2)).eval exampleHost (fun _ => none) exampleCtx = .ok (.int (-3)) [] := by
  decide +kernel
example : (Expr.bin .mod (.int (-7)) (.int 2)).eval exampleHost (fun _ => none) exampleCtx = .ok (.int (-1)) [] := by
  decide +kernel
example : InI64 (-7) ∧ InI64 2 ∧ InRange .div (-7) 2 := ⟨by decide, by decide, trivial⟩
example : InRange .leftShift (-7) 63 ∧ InRange .mult 3037000499 3037000499 :=
  ⟨⟨by decide, by decide⟩, by simp only [InRange]; decide⟩

/-! ## C11 -/

/-- Truth of a number. -/
def Truthy : Value → Prop
  | .int v => v ≠ 0
  | .float f => f.mag ≠ 0
  | _ => False

/-- A value is a number. -/
def Numeric : Value → Prop
  | .int _ => True
  | .float _ => True
  | _ => False

/-- The full property C11. -/
def LogicalOperatorsGiveZeroOrOne : Prop :=
  ∀ (H : Host) (a b : Value), Numeric a → Numeric b →
    (∃ r, BinOp.logAnd.apply H a b = .ok (.int r) [] ∧ (r = 0 ∨ r = 1) ∧ (r = 1 ↔ Truthy a ∧ Truthy b)) ∧
    (∃ r, BinOp.logOr.apply H a b = .ok (.int r) [] ∧ (r = 0 ∨ r = 1) ∧ (r = 1 ↔ Truthy a ∨ Truthy b)) ∧
    (∃ r, UnOp.logNot.apply H a = .ok (.int r) [] ∧ (r = 0 ∨ r = 1) ∧ (r = 1 ↔ ¬ Truthy a))

/-- C11 does not hold of armips: `1.0 && 1` is 4607182418800017408. -/
theorem logical_operators_can_exceed_one : ¬ LogicalOperatorsGiveZeroOrOne := by
  intro h
  obtain ⟨⟨r, h1, h2, _⟩, _⟩ := h exampleHost (.float F64.one) (.int 1) trivial trivial
  have : BinOp.logAnd.apply exampleHost (.float F64.one) (.int 1) = .ok (.int 4607182418800017408) [] := by
    decide +kernel
  rw [this] at h1
  simp at h1
  omega

/-- C11 restricted: `!` for all numbers, `&&` and `||` for integers. Missing: `&&` and `||` with a float operand, where
the value is 0 or the bit pattern of 1.0 (see `logical_operators_float`). -/
theorem logical_operators_partial (H : Host) :
    (∀ a b : Int,
      (∃ r, BinOp.logAnd.apply H (.int a) (.int b) = .ok (.int r) [] ∧ (r = 0 ∨ r = 1) ∧ (r = 1 ↔ a ≠ 0 ∧ b ≠ 0)) ∧
      (∃ r, BinOp.logOr.apply H (.int a) (.int b) = .ok (.int r) [] ∧ (r = 0 ∨ r = 1) ∧ (r = 1 ↔ a ≠ 0 ∨ b ≠ 0))) ∧
    (∀ a, Numeric a →
      ∃ r, UnOp.logNot.apply H a = .ok (.int r) [] ∧ (r = 0 ∨ r = 1) ∧ (r = 1 ↔ ¬ Truthy a)) := by
  refine ⟨fun a b => ⟨⟨if a ≠ 0 ∧ b ≠ 0 then 1 else 0, ?_, ?_, ?_⟩, ⟨if a ≠ 0 ∨ b ≠ 0 then 1 else 0, ?_, ?_, ?_⟩⟩, ?_⟩
  · simp only [BinOp.apply, Value.land]; rw [ofBool_eq (a ≠ 0 ∧ b ≠ 0) _ (by simp)]; rfl
  · split <;> simp
  · split <;> simp_all
  · simp only [BinOp.apply, Value.lor]; rw [ofBool_eq (a ≠ 0 ∨ b ≠ 0) _ (by simp)]; rfl
  · split <;> simp
  · split <;> simp_all
  · intro a ha
    cases a with
    | int v =>
      by_cases h : v = 0
      · exact ⟨1, by simp [UnOp.apply, Value.lnot, Value.ofBool, h], .inr rfl, by simp [Truthy, h]⟩
      · exact ⟨0, by simp [UnOp.apply, Value.lnot, Value.ofBool, h], .inl rfl, by simp [Truthy, h]⟩
    | float f =>
      by_cases h : f.mag = 0
      · exact ⟨1, by simp [UnOp.apply, Value.lnot, Value.ofBool, F64.toBool, h], .inr rfl, by simp [Truthy, h]⟩
      · exact ⟨0, by simp [UnOp.apply, Value.lnot, Value.ofBool, F64.toBool, h], .inl rfl, by simp [Truthy, h]⟩
    | invalid => exact ha.elim
    | str s => exact ha.elim

/-- What `&&` and `||` do with a float operand: the truth value is right (nonzero exactly if the statement holds), but
the number that stands for "true" is the bit pattern of 1.0. -/
theorem logical_operators_float (H : Host) (a b : Value) (ha : Numeric a) (hb : Numeric b)
    (hf : (∃ f, a = .float f) ∨ (∃ f, b = .float f)) :
    (∃ r, BinOp.logAnd.apply H a b = .ok (.int r) [] ∧ (r = 0 ∨ r = 0x3FF0000000000000) ∧
      (r ≠ 0 ↔ Truthy a ∧ Truthy b)) ∧
    (∃ r, BinOp.logOr.apply H a b = .ok (.int r) [] ∧ (r = 0 ∨ r = 0x3FF0000000000000) ∧
      (r ≠ 0 ↔ Truthy a ∨ Truthy b)) := by
  have key : ∀ (x : Bool), ((F64.ofBool x).toInt = 0 ∨ (F64.ofBool x).toInt = 0x3FF0000000000000) ∧
      ((F64.ofBool x).toInt ≠ 0 ↔ x = true) := by decide
  cases a with
  | int v =>
    cases b with
    | int w => simp at hf
    | float g =>
      refine ⟨⟨_, rfl, (key _).1, (key _).2.trans ?_⟩, ⟨_, rfl, (key _).1, (key _).2.trans ?_⟩⟩ <;>
        simp [Truthy, F64.toBool]
    | invalid => exact hb.elim
    | str s => exact hb.elim
  | float f =>
    cases b with
    | int w =>
      refine ⟨⟨_, rfl, (key _).1, (key _).2.trans ?_⟩, ⟨_, rfl, (key _).1, (key _).2.trans ?_⟩⟩ <;>
        simp [Truthy, F64.toBool]
    | float g =>
      refine ⟨⟨_, rfl, (key _).1, (key _).2.trans ?_⟩, ⟨_, rfl, (key _).1, (key _).2.trans ?_⟩⟩ <;>
        simp [Truthy, F64.toBool]
    | invalid => exact hb.elim
    | str s => exact hb.elim
  | invalid => exact ha.elim
  | str s => exact ha.elim

/-! ## C12 -/

/-- Folding with the functions registered after any history of a run (`ops`) and in any context `c₀` gives an expression
with the same value as the original, in every context `c` (labels, memory position, output file, byte order arbitrary)
and for every registry `F` in which the functions called have not been replaced. The parser builds call nodes only
for registered functions, so the names called are registered. `Stable` says what folding relies on: see there. -/
theorem simplify_preserves_value (H : Host) (ops : List Registry.Op) (F : Funcs) (c₀ c : Ctx) (inBlock : Bool)
    (e e' : Expr) (ok : Bool) (m : List Diag)
    (hcalls : ∀ n ∈ e.calls, ((Registry.run ops).entries n).isSome ∧ F n = (Registry.run ops).entries n)
    (hs : Stable inBlock c₀ c)
    (h : e.simplify H (Registry.run ops).entries c₀ inBlock = .ok (e', ok) m) :
    (e'.eval H F c).val = (e.eval H F c).val :=
  (simplify_spec H _ F c₀ c inBlock (regOk_run ops) hs e (Expr.known_of_calls _ F e hcalls) e' ok m h).1

/-- If folding reports success the result is a constant with the value that the original has everywhere. -/
theorem simplify_success_constant (H : Host) (ops : List Registry.Op) (F : Funcs) (c₀ c : Ctx) (inBlock : Bool)
    (e e' : Expr) (m : List Diag)
    (hcalls : ∀ n ∈ e.calls, ((Registry.run ops).entries n).isSome ∧ F n = (Registry.run ops).entries n)
    (hs : Stable inBlock c₀ c)
    (h : e.simplify H (Registry.run ops).entries c₀ inBlock = .ok (e', true) m) :
    ∃ v, e' = .ofValue v ∧ (e.eval H F c).val = some v :=
  (simplify_spec H _ F c₀ c inBlock (regOk_run ops) hs e (Expr.known_of_calls _ F e hcalls) e' true m h).2 rfl

/-- An expression with a label, a foldable part and a safe call, folded for MIPS. -/
def exampleExpr : Expr :=
  .bin .add (.ident (lit "label") 0 0) (.call (lit "hi") (.cons (.bin .mult (.int 0x1234) (.int 0x10001)) .nil))

/-- Values of `exampleExpr` stay the same although it was folded to `label + 0x1234`. -/
example : ∃ m, exampleExpr.simplify exampleHost (Registry.run [.arch .mips]).entries exampleCtx true =
    .ok (.bin .add (.ident (lit "label") 0 0) (.int 0x1234), false) m := ⟨[], by with_unfolding_all rfl⟩
example : ∀ n ∈ exampleExpr.calls, ((Registry.run [.arch .mips]).entries n).isSome := by
  intro n hn
  simp [exampleExpr, Expr.calls, Args.calls] at hn
  subst hn
  decide +kernel
example : Stable true exampleCtx { exampleCtx with file := some (4, 5, []), endianness := .big } :=
  ⟨fun _ => rfl, fun h => by simp at h, rfl, rfl⟩

end Armips.Props
