import Verif.Lemmas.MipsLines
import Verif.Lemmas.IntOps
/-! Values of the expressions in the macros, and effects of their instructions. -/
namespace Armips.MacroProof
open Spec Spec.Instr Spec.Mips Spec.Macro Spec.Isa
open Armips.Mips hiding validate encode names

/-! ## Expressions -/

theorem ev_bin {E : Env} {c : Ctx} {op : BinOp} {a b : Expr} {x y r : Int} (ha : Evaluates E .mips c a (.int x))
    (hb : Evaluates E .mips c b (.int y)) (h : op.apply E.host (.int x) (.int y) = .ok (.int r) []) :
    Evaluates E .mips c (.bin op a b) (.int r) := by
  unfold Evaluates at *
  simp only [Expr.eval, clean_bind]
  exact ⟨_, ha, _, hb, [], h, noErrors_nil⟩

theorem ev_int {E : Env} {c : Ctx} (v : Int) : Evaluates E .mips c (.int v) (.int v) := by
  unfold Evaluates; simp [Expr.eval]

theorem ev_and {E : Env} {c : Ctx} {a b : Expr} {x y : Int} (ha : Evaluates E .mips c a (.int x))
    (hb : Evaluates E .mips c b (.int y)) :
    Evaluates E .mips c (.bin .bitAnd a b) (.int (BitVec.ofInt 64 x &&& BitVec.ofInt 64 y).toInt) := ev_bin ha hb rfl

theorem ev_less {E : Env} {c : Ctx} {a b : Expr} {x y : Int} (ha : Evaluates E .mips c a (.int x))
    (hb : Evaluates E .mips c b (.int y)) : Evaluates E .mips c (.bin .less a b) (.int (if x < y then 1 else 0)) :=
  ev_bin ha hb (by simp only [BinOp.apply, Value.lt, ofBool_eq (x < y) _ decide_eq_true_iff]; rfl)

theorem ev_greater {E : Env} {c : Ctx} {a b : Expr} {x y : Int} (ha : Evaluates E .mips c a (.int x))
    (hb : Evaluates E .mips c b (.int y)) : Evaluates E .mips c (.bin .greater a b) (.int (if x > y then 1 else 0)) :=
  ev_bin ha hb (by simp only [BinOp.apply, Value.gt, Value.lt, ofBool_eq (x > y) _ decide_eq_true_iff]; rfl)

theorem ev_ge {E : Env} {c : Ctx} {a b : Expr} {x y : Int} (ha : Evaluates E .mips c a (.int x))
    (hb : Evaluates E .mips c b (.int y)) : Evaluates E .mips c (.bin .greaterEqual a b) (.int (if x ≥ y then 1 else 0)) :=
  ev_bin ha hb (by simp only [BinOp.apply, Value.ge, Value.le, ofBool_eq (x ≥ y) _ decide_eq_true_iff]; rfl)

theorem ev_equal {E : Env} {c : Ctx} {a b : Expr} {x y : Int} (ha : Evaluates E .mips c a (.int x))
    (hb : Evaluates E .mips c b (.int y)) : Evaluates E .mips c (.bin .equal a b) (.int (if x = y then 1 else 0)) :=
  ev_bin ha hb (by simp only [BinOp.apply, Value.eq]; rw [ofBool_eq (x = y) _ (by simp)]; rfl)

theorem ev_notEqual {E : Env} {c : Ctx} {a b : Expr} {x y : Int} (ha : Evaluates E .mips c a (.int x))
    (hb : Evaluates E .mips c b (.int y)) : Evaluates E .mips c (.bin .notEqual a b) (.int (if x ≠ y then 1 else 0)) :=
  ev_bin ha hb (by simp only [BinOp.apply, Value.eq]; rw [ofBool_eq (x ≠ y) _ (by simp)]; rfl)

theorem ev_land {E : Env} {c : Ctx} {a b : Expr} {x y : Int} (ha : Evaluates E .mips c a (.int x))
    (hb : Evaluates E .mips c b (.int y)) :
    Evaluates E .mips c (.bin .logAnd a b) (.int (if x ≠ 0 ∧ y ≠ 0 then 1 else 0)) :=
  ev_bin ha hb (by simp only [BinOp.apply, Value.land]; rw [ofBool_eq (x ≠ 0 ∧ y ≠ 0) _ (by simp)]; rfl)

theorem ev_lor {E : Env} {c : Ctx} {a b : Expr} {x y : Int} (ha : Evaluates E .mips c a (.int x))
    (hb : Evaluates E .mips c b (.int y)) :
    Evaluates E .mips c (.bin .logOr a b) (.int (if x ≠ 0 ∨ y ≠ 0 then 1 else 0)) :=
  ev_bin ha hb (by simp only [BinOp.apply, Value.lor]; rw [ofBool_eq (x ≠ 0 ∨ y ≠ 0) _ (by simp)]; rfl)

theorem ev_add {E : Env} {c : Ctx} {a b : Expr} {x y : Int} (ha : Evaluates E .mips c a (.int x))
    (hb : Evaluates E .mips c b (.int y)) (h : InI64 (x + y)) : Evaluates E .mips c (.bin .add a b) (.int (x + y)) :=
  ev_bin ha hb (chk_ok h)

theorem ev_sub {E : Env} {c : Ctx} {a b : Expr} {x y : Int} (ha : Evaluates E .mips c a (.int x))
    (hb : Evaluates E .mips c b (.int y)) (h : InI64 (x - y)) : Evaluates E .mips c (.bin .sub a b) (.int (x - y)) :=
  ev_bin ha hb (chk_ok h)

theorem ev_neg {E : Env} {c : Ctx} {a : Expr} {x : Int} (ha : Evaluates E .mips c a (.int x)) (h : InI64 (-x)) :
    Evaluates E .mips c (.un .neg a) (.int (-x)) := by
  unfold Evaluates at *
  simp only [Expr.eval, clean_bind]
  refine ⟨_, ha, [], ?_, noErrors_nil⟩
  simp only [UnOp.apply, Value.sub]
  have : (0 : Int) - x = -x := by omega
  rw [this, chk_ok h]

theorem ev_not {E : Env} {c : Ctx} {a : Expr} {x : Int} (ha : Evaluates E .mips c a (.int x)) :
    Evaluates E .mips c (.un .bitNot a) (.int (~~~ BitVec.ofInt 64 x).toInt) := by
  unfold Evaluates at *
  simp only [Expr.eval, clean_bind]
  exact ⟨_, ha, [], rfl, noErrors_nil⟩

theorem ev_flag {E : Env} {c : Ctx} (b : Bool) : Evaluates E .mips c (flag b) (.int (if b then 1 else 0)) := ev_int _

theorem ev_call {E : Env} {c : Ctx} {n : String} {b : Builtin} {s : Safety} {a : Expr} {x r : Int}
    (hf : E.funcs .mips (lit n) = some ⟨.builtin b, 1, 1, s⟩) (ha : Evaluates E .mips c a (.int x))
    (h : b.exec E.host c [.int x] = .ok (.int r) []) : Evaluates E .mips c (call1 n a) (.int r) := by
  unfold Evaluates at *
  simp only [call1, Expr.eval, hf]
  rw [if_neg (show ¬ (1 > (Args.cons a Args.nil).length) by simp [Args.length]),
    if_neg (show ¬ (1 < (Args.cons a Args.nil).length) by simp [Args.length])]
  simp only [Args.eval, clean_bind]
  refine ⟨some [.int x], ?_, [], h, noErrors_nil⟩
  refine ⟨_, ha, ?_⟩
  rw [if_neg (by simp)]
  simp

/-- The bits `n` to `m - 1` of a number. -/
theorem and_bits (x M : BitVec 64) (n m : Nat) (hM : ∀ i : Fin 64, M.getLsbD i = decide (n ≤ i ∧ i < m)) (hm : m ≤ 64) :
    (x &&& M).toNat = x.toNat % 2 ^ m / 2 ^ n * 2 ^ n := by
  apply Nat.eq_of_testBit_eq
  intro i
  rw [Nat.testBit_mul_two_pow, Nat.testBit_div_two_pow, Nat.testBit_mod_two_pow, ← BitVec.getLsbD, BitVec.getLsbD_and]
  by_cases hi : i < 64
  · rw [hM ⟨i, hi⟩]
    by_cases h1 : n ≤ i
    · have : i - n + n = i := by omega
      rw [this, ← BitVec.getLsbD]
      by_cases h2 : i < m <;> simp [h1, h2]
    · simp [h1]
  · rw [BitVec.getLsbD_of_ge _ _ (by omega), BitVec.getLsbD_of_ge _ _ (by omega)]
    by_cases h1 : n ≤ i
    · have : i - n + n = i := by omega
      rw [this]
      have : ¬ i < m := by omega
      simp [this]
    · simp [h1]

theorem toNat_ofInt64 (v : Int) : ((BitVec.ofInt 64 v).toNat : Int) = v % 2 ^ 64 := by
  rw [BitVec.toNat_ofInt]; omega

theorem toInt_small {x : BitVec 64} (h : x.toNat < 2 ^ 63) : x.toInt = x.toNat := by
  rw [BitVec.toInt_eq_toNat_cond]; split <;> omega

theorem toInt_zero {x : BitVec 64} : x.toInt = 0 ↔ x.toNat = 0 := by
  rw [BitVec.toInt_eq_toNat_cond]; have := x.isLt; split <;> omega

/-- `v & ~0xFFFF` -/
theorem and_notFFFF {v : Int} (h : InI64 v) :
    (BitVec.ofInt 64 v &&& BitVec.ofInt 64 (~~~ BitVec.ofInt 64 0xFFFF).toInt).toInt = 0 ↔ 0 ≤ v ∧ v < 65536 := by
  have hb := and_bits (BitVec.ofInt 64 v) (BitVec.ofInt 64 (~~~ BitVec.ofInt 64 0xFFFF).toInt) 16 64 (by decide +kernel) (by decide)
  have hv := toNat_ofInt64 v
  rw [toInt_zero, hb]
  generalize (BitVec.ofInt 64 v).toNat = n at *
  unfold InI64 at h
  omega

/-- `v & ~0xFFFFFFFF` -/
theorem and_notFFFFFFFF {v : Int} (h : InI64 v) :
    (BitVec.ofInt 64 v &&& BitVec.ofInt 64 (~~~ BitVec.ofInt 64 0xFFFFFFFF).toInt).toInt = 0 ↔ 0 ≤ v ∧ v < 4294967296 := by
  have hb := and_bits (BitVec.ofInt 64 v) (BitVec.ofInt 64 (~~~ BitVec.ofInt 64 0xFFFFFFFF).toInt) 32 64 (by decide +kernel) (by decide)
  have hv := toNat_ofInt64 v
  rw [toInt_zero, hb]
  generalize (BitVec.ofInt 64 v).toNat = n at *
  unfold InI64 at h
  omega

/-- `v & 0xFFFF` -/
theorem and_FFFF (v : Int) : (BitVec.ofInt 64 v &&& BitVec.ofInt 64 0xFFFF).toInt = v % 65536 := by
  have hb := and_bits (BitVec.ofInt 64 v) (BitVec.ofInt 64 0xFFFF) 0 16 (by decide +kernel) (by decide)
  have hv := toNat_ofInt64 v
  rw [toInt_small (by omega), hb]
  generalize (BitVec.ofInt 64 v).toNat = n at *
  omega

/-- `v & 31` -/
theorem and_31 (v : Int) : (BitVec.ofInt 64 v &&& BitVec.ofInt 64 31).toInt = v % 32 := by
  have hb := and_bits (BitVec.ofInt 64 v) (BitVec.ofInt 64 31) 0 5 (by decide +kernel) (by decide)
  have hv := toNat_ofInt64 v
  rw [toInt_small (by omega), hb]
  generalize (BitVec.ofInt 64 v).toNat = n at *
  omega

/-- `(v & 0xFFFF8000) == 0xFFFF8000` -/
theorem and_FFFF8000 (v : Int) :
    (BitVec.ofInt 64 v &&& BitVec.ofInt 64 0xFFFF8000).toInt = 0xFFFF8000 ↔ v % 4294967296 ≥ 0xFFFF8000 := by
  have hb := and_bits (BitVec.ofInt 64 v) (BitVec.ofInt 64 0xFFFF8000) 15 32 (by decide +kernel) (by decide)
  have hv := toNat_ofInt64 v
  rw [toInt_small (by omega), hb]
  generalize (BitVec.ofInt 64 v).toNat = n at *
  omega

/-- The upper half of an address whose lower half is added as a signed number. -/
def hiV (v : Int) : Int := (v / 65536 + if v % 65536 ≥ 32768 then 1 else 0) % 65536
/-- The lower half as a signed number. -/
def loV (v : Int) : Int := if v % 65536 ≥ 32768 then v % 65536 - 65536 else v % 65536

theorem ev_hi {E : Env} (hE : Functions E) {c : Ctx} {a : Expr} {x : Int} (ha : Evaluates E .mips c a (.int x)) :
    Evaluates E .mips c (call1 "hi" a) (.int (hiV x)) := by
  obtain ⟨s, hf⟩ := hE.hi
  refine ev_call hf ha ?_
  have h8 : (BitVec.ofInt 64 x &&& 0x8000#64 ≠ 0#64) ↔ x % 65536 ≥ 32768 := by
    have hb := and_bits (BitVec.ofInt 64 x) 0x8000#64 15 16 (by decide +kernel) (by decide)
    have hv := toNat_ofInt64 x
    have : (BitVec.ofInt 64 x &&& 0x8000#64 ≠ 0#64) ↔ (BitVec.ofInt 64 x &&& 0x8000#64).toNat ≠ 0 := by
      rw [Ne, ← BitVec.toNat_inj]; rfl
    rw [this, hb]
    generalize (BitVec.ofInt 64 x).toNat = n at *
    omega
  simp only [Builtin.exec, paramInt, List.getElem?_cons_zero]
  simp only [h8]
  have := and_FFFF (x / 2 ^ 16 + if x % 65536 ≥ 32768 then 1 else 0)
  have e : (0xFFFF#64) = BitVec.ofInt 64 0xFFFF := by decide
  rw [e, this]
  rfl

theorem ev_lo {E : Env} (hE : Functions E) {c : Ctx} {a : Expr} {x : Int} (ha : Evaluates E .mips c a (.int x)) :
    Evaluates E .mips c (call1 "lo" a) (.int (loV x)) := by
  obtain ⟨s, hf⟩ := hE.lo
  refine ev_call hf ha ?_
  simp only [Builtin.exec, paramInt, List.getElem?_cons_zero]
  have hb := and_bits (BitVec.ofInt 64 x) 0xFFFF#64 0 16 (by decide +kernel) (by decide)
  have hv := toNat_ofInt64 x
  have : ((BitVec.ofInt 64 x &&& 0xFFFF#64).truncate 16).toInt = loV x := by
    rw [BitVec.toInt_eq_toNat_cond, BitVec.truncate_eq_setWidth, BitVec.toNat_setWidth, hb]
    generalize (BitVec.ofInt 64 x).toNat = n at *
    unfold loV
    split <;> split <;> omega
  rw [this]
  rfl

theorem ev_abs {E : Env} (hE : Functions E) {c : Ctx} {a : Expr} {x : Int} (ha : Evaluates E .mips c a (.int x))
    (hx : -(2 ^ 63) < x ∧ x < 2 ^ 63) : Evaluates E .mips c (call1 "abs" a) (.int x.natAbs) := by
  obtain ⟨s, hf⟩ := hE.abs
  refine ev_call hf ha ?_
  simp only [Builtin.exec]
  split
  · rename_i h
    have : (x.natAbs : Int) = x := by omega
    rw [this]; rfl
  · rw [chk_ok (by unfold InI64; omega)]
    have : (x.natAbs : Int) = -x := by omega
    rw [this]

/-! ## Instructions -/

theorem exec_append (be : Bool) (a b : List (BitVec 32)) (m : Machine) :
    exec be (a ++ b) m = (exec be a m).bind (exec be b) := by
  induction a generalizing m with
  | nil => rfl
  | cons w a ih =>
    simp only [List.cons_append, exec]
    cases step be w m with
    | none => rfl
    | some m' => exact ih m'

theorem set_zero (m : Machine) (v : BitVec 32) : m.set 0 v = m := rfl

theorem get_set (m : Machine) (r : Nat) (v : BitVec 32) (x : Nat) :
    (m.set r v).get x = if x = r ∧ r ≠ 0 then v else m.get x := by
  unfold Machine.set Machine.get
  by_cases h : r = 0
  · simp [h]
  · by_cases hx : x = r
    · subst hx; simp [h]
    · by_cases h0 : x = 0
      · subst h0; simp [h, Ne.symm h]
      · simp [h0, h, hx]

theorem mem_set (m : Machine) (r : Nat) (v : BitVec 32) : (m.set r v).mem = m.mem := by
  unfold Machine.set; split <;> rfl

theorem set_set (m : Machine) (r : Nat) (v w : BitVec 32) : (m.set r v).set r w = m.set r w := by
  unfold Machine.set
  split
  · rfl
  · congr 1; funext x; simp only; split <;> rfl

theorem step_R {be : Bool} {rs rt rd sa fn : Nat} {w : BitVec 32} (h : IsR rs rt rd sa fn w) (m : Machine) :
    step be w m = Isa.special rs rt rd sa fn m := by
  obtain ⟨h1, h2, h3, h4, h5, h6⟩ := h
  simp only [step, h1, h2, h3, h4, h5, h6, if_true]

theorem step_nop (be : Bool) (m : Machine) : step be 0#32 m = some m := by
  rw [step_R (rs := 0) (rt := 0) (rd := 0) (sa := 0) (fn := 0) (by unfold IsR; decide)]
  simp [Isa.special, set_zero]

/-- The effect of what is written for one line. -/
theorem exec_writes {P : ParseEnv} {st : St} {W : BitVec 32 → Prop} {ws : List (BitVec 32)} {be : Bool} {F : Machine → Machine}
    (h : Writes P st W ws) (hW : ∀ w, W w → ∀ m, step be w m = some (F m)) (m : Machine) : exec be ws m = some (F m) := by
  obtain ⟨nop, w, rfl, hw, -⟩ := h
  cases nop <;> simp [exec, step_nop, hW w hw]

end Armips.MacroProof
