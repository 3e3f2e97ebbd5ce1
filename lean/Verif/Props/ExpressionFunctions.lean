import Verif.Props.Expression
import Verif.Props.FunctionRegistry
import Verif.Lemmas.MinMax
/-!
# Properties of the expression functions (C34, C53, C61, C62)
-/
namespace Armips.Props
open Armips Spec

/-! ## C53 -/

/-- `r` is the least/greatest of the numbers `xs` with respect to `le`. -/
def IsLeast {α} (le : α → α → Prop) (xs : List α) (r : α) : Prop := r ∈ xs ∧ ∀ x ∈ xs, le r x
def IsGreatest {α} (le : α → α → Prop) (xs : List α) (r : α) : Prop := r ∈ xs ∧ ∀ x ∈ xs, le x r

/-- C53 for integers: `min` and `max` of any nonempty list of 64-bit integers. -/
theorem min_max_integers (H : Host) (c : Ctx) (xs : List Int) (hne : xs ≠ []) (hx : ∀ x ∈ xs, InI64 x) :
    (∃ r, Builtin.min.exec H c (xs.map .int) = .ok (.int r) [] ∧ IsLeast (· ≤ ·) xs r) ∧
    (∃ r, Builtin.max.exec H c (xs.map .int) = .ok (.int r) [] ∧ IsGreatest (· ≤ ·) xs r) := by
  obtain ⟨x, xs', rfl⟩ := List.exists_cons_of_ne_nil hne
  constructor
  · obtain ⟨fa, ic, fc, h⟩ := minMax_ints H (fun a b => a < b) (fun a b => a.lt b) (x :: xs') (2 ^ 63 - 1) dblMax
      (2 ^ 63 - 1) dblMax
    obtain ⟨h1, -, h3, h4⟩ := keep_spec (fun a b : Int => decide (a < b)) id (fun _ => True) (by simp) (2 ^ 63 - 1) (x :: xs')
      trivial (by simp)
    refine ⟨_, by simp only [Builtin.exec, expMin, minMax, h]; rfl, ?_, fun y hy => h4 y hy⟩
    rcases h1 with h1 | h1
    · have h5 := h4 x (by simp)
      have h6 := hx x (by simp)
      unfold InI64 at h6
      simp only [id] at h5
      rw [h1] at h5 ⊢
      have : x = 2 ^ 63 - 1 := by omega
      rw [this]; simp
    · exact h1
  · obtain ⟨fa, ic, fc, h⟩ := minMax_ints H (fun a b => b < a) (fun a b => b.lt a) (x :: xs') (-(2 ^ 63)) dblMin
      (-(2 ^ 63)) dblMin
    obtain ⟨h1, -, h3, h4⟩ := keep_spec (fun a b : Int => decide (b < a)) (fun v => -v) (fun _ => True)
      (by intro a b _ _; simp only [decide_eq_true_eq]; omega) (-(2 ^ 63)) (x :: xs') trivial (by simp)
    refine ⟨_, by simp only [Builtin.exec, expMax, minMax, h]; rfl, ?_, fun y hy => by have := h4 y hy; omega⟩
    rcases h1 with h1 | h1
    · have h5 := h4 x (by simp)
      have h6 := hx x (by simp)
      unfold InI64 at h6
      rw [h1] at h5 ⊢
      have : x = -(2 ^ 63) := by omega
      rw [this]; simp
    · exact h1

/-- The full property C53 for lists with a float: the result is the least/greatest of the arguments, converted to double. -/
def MinMaxOfFloats : Prop :=
  ∀ (H : Host) (c : Ctx) (ps : List Value), (∀ p ∈ ps, Numeric p) → (∃ f, Value.float f ∈ ps) →
    (∀ p ∈ ps, (toF64 H p).isNaN = false) →
    (∃ r, Builtin.min.exec H c ps = .ok (.float r) [] ∧ IsLeast (fun a b => a.le b = true) (ps.map (toF64 H)) r) ∧
    (∃ r, Builtin.max.exec H c ps = .ok (.float r) [] ∧ IsGreatest (fun a b => a.le b = true) (ps.map (toF64 H)) r)

/-- C53 does not hold of armips for floats: `max(-1.0)` is DBL_MIN, the smallest positive normal number. -/
theorem max_of_negative_floats_wrong : ¬ MinMaxOfFloats := by
  intro h
  obtain ⟨_, r, h1, h2, _⟩ := h exampleHost exampleCtx [.float 0xBFF0000000000000#64] (by simp [Numeric]) (by simp)
    (by decide)
  have : Builtin.max.exec exampleHost exampleCtx [.float 0xBFF0000000000000#64] = .ok (.float 0x0010000000000000#64) [] := by
    decide +kernel
  rw [this] at h1
  simp at h1
  rw [← h1] at h2
  simp [toF64] at h2

/-- C53 for lists with floats, restricted to lists where an argument is at most DBL_MAX (for `min`) or at least DBL_MIN
(for `max`). Missing: the lists for which the property is false — all arguments +∞ for `min`, all below DBL_MIN for
`max` — and NaN. -/
theorem min_max_floats_partial (H : Host) (c : Ctx) (ps : List Value) (hn : ∀ p ∈ ps, Numeric p)
    (hf : ∃ f, Value.float f ∈ ps) (hnan : ∀ p ∈ ps, (toF64 H p).isNaN = false) :
    ((∃ p ∈ ps, (toF64 H p).le dblMax = true) →
      ∃ r, Builtin.min.exec H c ps = .ok (.float r) [] ∧ IsLeast (fun a b => a.le b = true) (ps.map (toF64 H)) r) ∧
    ((∃ p ∈ ps, F64.le dblMin (toF64 H p) = true) →
      ∃ r, Builtin.max.exec H c ps = .ok (.float r) [] ∧ IsGreatest (fun a b => a.le b = true) (ps.map (toF64 H)) r) := by
  have hn' : ∀ p ∈ ps, (∃ v, p = .int v) ∨ (∃ f, p = .float f) := by
    intro p hp
    have := hn p hp
    cases p with
    | int v => exact .inl ⟨v, rfl⟩
    | float v => exact .inr ⟨v, rfl⟩
    | invalid => exact this.elim
    | str s => exact this.elim
  have hall : ps.all notFloat = false := by
    obtain ⟨f, hf⟩ := hf
    rw [List.all_eq_false]
    exact ⟨_, hf, by simp [notFloat]⟩
  have hok : ∀ x ∈ ps.map (toF64 H), x.isNaN = false := by
    intro x hx
    obtain ⟨p, hp, rfl⟩ := List.mem_map.1 hx
    exact hnan p hp
  constructor
  · rintro ⟨p, hp, hle⟩
    obtain ⟨ia, ic, fc, h⟩ := minMax_floats H (fun a b => a < b) (fun a b => a.lt b) ps hn' (2 ^ 63 - 1) dblMax
      (2 ^ 63 - 1) dblMax true
    obtain ⟨h1, h2, h3, h4⟩ := keep_spec (fun a b : F64 => a.lt b) F64.rank (fun x => x.isNaN = false)
      (fun a b ha hb => F64.lt_iff a b ha hb) dblMax (ps.map (toF64 H)) (by decide) hok
    refine ⟨_, by simp only [Builtin.exec, expMin, minMax, h, hall, Bool.and_false, Bool.false_eq_true, if_false]; rfl, ?_, ?_⟩
    · rcases h1 with h1 | h1
      · have h5 := h4 _ (List.mem_map_of_mem (f := toF64 H) hp)
        have h6 : (toF64 H p).rank ≤ dblMax.rank := by
          simp [F64.le] at hle; exact hle.2
        rw [h1] at h5 ⊢
        have := F64.eq_of_rank (toF64 H p) dblMax (by omega) (by decide)
        rw [← this]
        exact List.mem_map_of_mem hp
      · exact h1
    · intro x hx
      simp [F64.le, h2, hok x hx, h4 x hx]
  · rintro ⟨p, hp, hle⟩
    obtain ⟨ia, ic, fc, h⟩ := minMax_floats H (fun a b => b < a) (fun a b => b.lt a) ps hn' (-(2 ^ 63)) dblMin
      (-(2 ^ 63)) dblMin true
    obtain ⟨h1, h2, h3, h4⟩ := keep_spec (fun a b : F64 => b.lt a) (fun x => - x.rank) (fun x => x.isNaN = false)
      (fun a b ha hb => (F64.lt_iff b a hb ha).trans (by omega)) dblMin (ps.map (toF64 H)) (by decide) hok
    refine ⟨_, by simp only [Builtin.exec, expMax, minMax, h, hall, Bool.and_false, Bool.false_eq_true, if_false]; rfl, ?_, ?_⟩
    · rcases h1 with h1 | h1
      · have h5 := h4 _ (List.mem_map_of_mem (f := toF64 H) hp)
        have h6 : dblMin.rank ≤ (toF64 H p).rank := by
          simp [F64.le] at hle; exact hle.2
        rw [h1] at h5 ⊢
        have := F64.eq_of_rank (toF64 H p) dblMin (by omega) (by decide)
        rw [← this]
        exact List.mem_map_of_mem hp
      · exact h1
    · intro x hx
      have := h4 x hx
      simp [F64.le, h2, hok x hx]
      omega

/-- Nonvacuity: `min(3, -4, 9223372036854775807)`, and a mixed list. -/
example : Builtin.min.exec exampleHost exampleCtx [.int 3, .int (-4), .int (2 ^ 63 - 1)] = .ok (.int (-4)) [] := by
  decide +kernel
example : (∀ x ∈ [3, -4, (2 : Int) ^ 63 - 1], InI64 x) := by decide
example : ∃ p ∈ [Value.float 0xBFF0000000000000#64, .int 1], F64.le dblMin (toF64 exampleHost p) = true :=
  ⟨.int 1, by simp, by decide⟩

/-! ## C34 -/

/-- For every 64-bit integer: `hi` fits 16 unsigned bits, `lo` 16 signed bits, and they recombine modulo 2^32. -/
theorem hi_lo_recombine (H : Host) (c : Ctx) (v : Int) :
    ∃ h l : Int, Builtin.hi.exec H c [.int v] = .ok (.int h) [] ∧ Builtin.lo.exec H c [.int v] = .ok (.int l) [] ∧
      0 ≤ h ∧ h < 2 ^ 16 ∧ -(2 ^ 15) ≤ l ∧ l < 2 ^ 15 ∧ ∃ k, h * 2 ^ 16 + l = v + k * 2 ^ 32 := by
  have hbit : (BitVec.ofInt 64 v &&& 0x8000#64 ≠ 0#64) ↔ 2 ^ 15 ≤ v % 2 ^ 16 := by
    have e : (BitVec.ofInt 64 v &&& 0x8000#64 ≠ 0#64) ↔ (BitVec.ofInt 64 v).getLsbD 15 = true := by
      constructor
      · intro h
        cases hb : (BitVec.ofInt 64 v).getLsbD 15 with
        | true => rfl
        | false =>
          exfalso; apply h
          apply BitVec.eq_of_getLsbD_eq
          intro i hi
          rw [BitVec.getLsbD_and]
          by_cases h15 : i = 15
          · subst h15; rw [hb]; simp
          · have : (0x8000#64).getLsbD i = false := by
              have : ∀ i : Fin 64, i.val ≠ 15 → (0x8000#64).getLsbD i.val = false := by decide
              exact this ⟨i, hi⟩ h15
            rw [this]; simp
      · intro h he
        have := congrArg (fun x : BitVec 64 => x.getLsbD 15) he
        simp only [BitVec.getLsbD_and, h] at this
        exact absurd this (by decide)
    rw [e, bit_ofInt 64 v 15 (by decide)]
    simp only [bit, decide_eq_true_eq]
    omega
  have hmask : ∀ w : Int, (BitVec.ofInt 64 w &&& 0xFFFF#64).toNat = (w % 2 ^ 16).toNat := by
    intro w
    rw [BitVec.toNat_and, BitVec.toNat_ofInt]
    have : (0xFFFF#64).toNat = 2 ^ 16 - 1 := by decide
    rw [this, Nat.and_two_pow_sub_one_eq_mod]
    have h2 : ((2 ^ 64 : Nat) : Int) = 2 ^ 64 := rfl
    rw [h2]
    omega
  refine ⟨_, _, rfl, rfl, ?_⟩
  have hh : ∀ w : Int, (BitVec.ofInt 64 w &&& 0xFFFF#64).toInt = w % 2 ^ 16 := by
    intro w
    rw [BitVec.toInt_eq_toNat_cond, hmask]
    split <;> omega
  have hl : ((BitVec.ofInt 64 v &&& 0xFFFF#64).truncate 16).toInt =
      if v % 2 ^ 16 < 2 ^ 15 then v % 2 ^ 16 else v % 2 ^ 16 - 2 ^ 16 := by
    rw [BitVec.toInt_eq_toNat_cond, BitVec.truncate_eq_setWidth, BitVec.toNat_setWidth, hmask]
    split <;> split <;> omega
  rw [hh, hl]
  by_cases hb : 2 ^ 15 ≤ v % 2 ^ 16
  · rw [if_pos (hbit.2 hb), if_neg (by omega)]
    refine ⟨by omega, by omega, by omega, by omega, ((v / 2 ^ 16 + 1) % 2 ^ 16 - (v / 2 ^ 16 + 1)) / 2 ^ 16, ?_⟩
    omega
  · rw [if_neg (fun h => hb (hbit.1 h)), if_pos (by omega)]
    refine ⟨by omega, by omega, by omega, by omega, ((v / 2 ^ 16) % 2 ^ 16 - (v / 2 ^ 16)) / 2 ^ 16, ?_⟩
    omega

/-- `hi` and `lo` are what those names call while MIPS is selected (see also `architecture_functions_available`). -/
theorem hi_lo_callable (ops : List Registry.Op) (hm : Registry.lastArch ops = .mips) (H : Host) (c : Ctx) (x : Expr)
    (v : Int) (m : List Diag) (hx : x.eval H (Registry.run ops).entries c = .ok (.int v) m)
    (hu : ∀ k f, Registry.Op.user (lit "hi") k f ∉ ops) (hu' : ∀ k f, Registry.Op.user (lit "lo") k f ∉ ops) :
    (Expr.call (lit "hi") (.cons x .nil)).eval H (Registry.run ops).entries c =
      (Ev.ok () m >>= fun _ => Builtin.hi.exec H c [.int v]) ∧
    (Expr.call (lit "lo") (.cons x .nil)).eval H (Registry.run ops).entries c =
      (Ev.ok () m >>= fun _ => Builtin.lo.exec H c [.int v]) := by
  have h1 := architecture_functions_available ops "hi" .hi 1 1 (by rw [hm]; decide) hu
  have h2 := architecture_functions_available ops "lo" .lo 1 1 (by rw [hm]; decide) hu'
  constructor
  · simp [Expr.eval, h1, Args.length, Args.eval, hx]
  · simp [Expr.eval, h2, Args.length, Args.eval, hx]

example : Builtin.hi.exec exampleHost exampleCtx [.int 0x80018000] = .ok (.int 0x8002) [] ∧
    Builtin.lo.exec exampleHost exampleCtx [.int 0x80018000] = .ok (.int (-0x8000)) [] := by decide +kernel

end Armips.Props
