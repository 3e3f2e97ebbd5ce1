import Verif.Lemmas.ShRows
import Verif.Lemmas.ShImm
/-! Acceptance and refusal of the instructions of the manual. -/
namespace Armips.Sh
open Spec Spec.Sh Spec.Instr
open Armips.Arm (failWith)

theorem width_cases {x : Entry} (hx : x ∈ manual) : width x.2.2 = 0 ∨ width x.2.2 = 4 ∨ width x.2.2 = 8 ∨ width x.2.2 = 12 := by
  have h : (manual.all fun x => width x.2.2 == 0 || width x.2.2 == 4 || width x.2.2 == 8 || width x.2.2 == 12) = true := by
    decide +kernel
  have := List.all_eq_true.1 h x hx
  simp only [Bool.or_eq_true, beq_iff_eq] at this
  omega

/-- The number fits its field. -/
theorem taken_lt {op : Op} {k : Kind} (h : kind op = some k) {b : Nat} {x a d : Int} (ht : Taken k b x a d) : 0 ≤ d ∧ d < 2 ^ b := by
  have hp : (0 : Int) < 2 ^ b := Int.pow_pos (by decide)
  rcases kind_cases h with rfl | rfl | rfl | rfl | rfl | rfl | rfl | rfl <;> simp only [Taken] at ht
  iterate 3
    · rw [ht.2.2]; exact ⟨Int.emod_nonneg _ (by omega), Int.emod_lt_of_pos _ hp⟩
  · rw [ht.2.2]; exact ⟨Int.emod_nonneg _ (by omega), Int.emod_lt_of_pos _ hp⟩
  all_goals omega

/-- Everything about acceptance. -/
theorem assembles_iff {E : Env} {x : Entry} (hx : x ∈ manual) {n m : Nat} {e : Expr} {c : Ctx} {st : ArchState} {w : BitVec 16} :
    Assembles E x.1 (toks n m e x.2.1) c st w ↔ c.virtualAddress % 2 = 0 ∧
      (width x.2.2 = 0 ∧ Shows x.2.2 n m 0 w ∨
       width x.2.2 ≠ 0 ∧ ∃ (v : Int) (d : Nat), Evaluates E .superH c e (.int v) ∧
          Taken (kindOf x.1 x.2.1) (width x.2.2) (int32 v) c.virtualAddress d ∧ Shows x.2.2 n m d w) := by
  obtain ⟨op, o, hrow⟩ := row_exists hx n m e
  have hb2 := hrow.bits
  have hshow : ∀ M : BitVec 32, M.toNat < 2 ^ width x.2.2 → Shows x.2.2 n m M.toNat (encode op o M) := fun M hM => by
    unfold Shows
    rw [encode_bits hrow.base (by rw [hb2.2]; exact hM), hrow.fields]
  have huniq : ∀ d w w', Shows x.2.2 n m d w → Shows x.2.2 n m d w' → w = w' := fun d w w' h1 h2 => by
    unfold Shows at h1 h2
    rw [← h2] at h1
    refine BitVec.eq_of_getMsbD_eq fun i hi => ?_
    have := congrArg (fun l => l[i]?) h1
    simpa [hi] using this
  have hcore : Assembles E x.1 (toks n m e x.2.1) c st w ↔ ∃ M, FinalFor E op o c M ∧ w = encode op o M := by
    rw [← emits_iff (st := st)]
    constructor
    · rintro ⟨op', o', hp, h⟩
      rw [hrow.parse, Option.some.injEq, Prod.mk.injEq] at hp
      obtain ⟨rfl, rfl⟩ := hp
      exact h
    · exact fun h => ⟨op, o, hrow.parse, h⟩
  rw [hcore]
  constructor
  · rintro ⟨M, hF, rfl⟩
    refine ⟨hF.even, ?_⟩
    by_cases h0 : width x.2.2 = 0
    · refine .inl ⟨h0, ?_⟩
      have hM := hF.noImm (by omega)
      have := hshow M (by rw [hM]; simp [h0])
      rwa [hM] at this ⊢
    · refine .inr ⟨h0, ?_⟩
      obtain ⟨v, hv, hi⟩ := hF.imm (by omega)
      rw [hrow.imm (by omega)] at hv
      have hw := width_cases hx
      rw [immediate_iff hrow.kind (by omega), toInt_ofInt32, hb2.1] at hi
      have hlt := taken_lt hrow.kind hi
      refine ⟨v, M.toNat, hv, hi, hshow M ?_⟩
      have hpn : ((2 ^ width x.2.2 : Nat) : Int) = 2 ^ width x.2.2 := by simp
      omega
  · rintro ⟨he, ⟨h0, hs⟩ | ⟨h0, v, d, hv, ht, hs⟩⟩
    · refine ⟨0#32, ⟨he, fun _ => rfl, fun h => absurd (hb2.1.trans h0) h⟩, ?_⟩
      exact huniq 0 _ _ hs (by simpa using hshow 0#32 (by simp [h0]))
    · have hlt := taken_lt hrow.kind ht
      have hw := width_cases hx
      have hpn : ((2 ^ width x.2.2 : Nat) : Int) = 2 ^ width x.2.2 := by simp
      have hd : d < 2 ^ width x.2.2 := by omega
      have hd32 : d < 2 ^ 32 := by
        refine Nat.lt_of_lt_of_le hd (Nat.pow_le_pow_right (by decide) (by omega))
      have hM : (BitVec.ofNat 32 d).toNat = d := by rw [BitVec.toNat_ofNat, Nat.mod_eq_of_lt hd32]
      refine ⟨BitVec.ofNat 32 d, ⟨he, fun h => absurd (hb2.1.symm.trans h) h0, fun h => ⟨v, ?_, ?_⟩⟩, ?_⟩
      · rw [hrow.imm h]; exact hv
      · rw [immediate_iff hrow.kind (by omega), toInt_ofInt32, hb2.1, hM]; exact ht
      · exact huniq d _ _ hs (by have := hshow (BitVec.ofNat 32 d) (by rw [hM]; exact hd); rwa [hM] at this)

/-- There is a word for every number that fits. -/
theorem shows_exists {x : Entry} (hx : x ∈ manual) (n m d : Nat) (hd : d < 2 ^ width x.2.2) : ∃ w, Shows x.2.2 n m d w := by
  obtain ⟨op, o, hrow⟩ := row_exists hx n m (.int 0)
  have hw := width_cases hx
  have hd32 : d < 2 ^ 32 := Nat.lt_of_lt_of_le hd (Nat.pow_le_pow_right (by decide) (by omega))
  have hM : (BitVec.ofNat 32 d).toNat = d := by rw [BitVec.toNat_ofNat, Nat.mod_eq_of_lt hd32]
  refine ⟨encode op o (BitVec.ofNat 32 d), ?_⟩
  unfold Shows
  rw [encode_bits hrow.base (by rw [hrow.bits.2, hM]; exact hd), hrow.fields, hM]

/-- When the code's behaviour is undefined. -/
def Undefined : Kind → Int → Int → Prop
  | .plain 1, x, _ => x = -2 ^ 31
  | .manual _, x, a => ¬ (-2 ^ 31 ≤ x + int32 a ∧ x + int32 a < 2 ^ 31)
  | _, _, _ => False

theorem ite_ne_none {α : Type} {P : Prop} [Decidable P] {t : String} {y : α} :
    (if P then Except.error (some t) else .ok y : Except (Option String) α) ≠ .error none := by
  split <;> simp

theorem undefined_of {op : Op} {k : Kind} (h : kind op = some k) {b : Nat} {v : BitVec 32} {a : Int}
    (hi : immediate op b v a = .error none) : Undefined k v.toInt a := by
  have hk := kind_flags h
  unfold immediate at hi
  cases ha : aligned op v a with
  | error t =>
    simp only [ha, bind, Except.bind, Except.error.injEq] at hi
    subst hi
    rcases kind_cases h with rfl | rfl | rfl | rfl | rfl | rfl | rfl | rfl <;>
      simp only [List.mem_singleton, Prod.mk.injEq] at hk <;> obtain ⟨h1, h2, h3, h4, h5⟩ := hk <;>
      simp only [aligned, h1, h2, h5, Bool.or_false, Bool.or_true, Bool.false_or, Bool.or_self, if_true, if_false,
        Bool.false_and, Bool.true_and, Bool.false_eq_true, toInt_ofInt32, Bool.not_eq_true', decide_eq_false_iff_not] at ha <;>
      simp only [Undefined]
    iterate 6
      · repeat' split at ha
        all_goals simp at ha
    iterate 2
      · split at ha
        · assumption
        · repeat' split at ha
          all_goals simp at ha
  | ok v1 =>
    rw [aligned_iff h] at ha
    simp only [aligned_iff h |>.2 ha, bind, Except.bind] at hi
    cases hr : relative op b v1 a with
    | error t =>
      simp only [hr, Except.error.injEq] at hi
      subst hi
      simp only [relative] at hr
      split at hr
      · exact absurd hr ite_ne_none
      · cases hr
    | ok v2 =>
      simp only [hr] at hi
      unfold limited at hi
      repeat' split at hi
      · rename_i hs
        rw [scale_toInt] at hs
        rw [relative_iff h] at hr
        have hlt := BitVec.le_toInt v2
        rcases kind_cases h with rfl | rfl | rfl | rfl | rfl | rfl | rfl | rfl <;>
          simp only [List.mem_singleton, Prod.mk.injEq] at hk <;> obtain ⟨h1, h2, h3, h4, h5⟩ := hk <;>
          simp only [h1, h2, if_true, if_false, Bool.false_eq_true, Undefined] at hs hlt ⊢ 
        · rw [hr, ha.2] at hs; omega
        all_goals omega
      all_goals simp at hi

theorem refused_of {E : Env} {x : Entry} (hx : x ∈ manual) (h0 : width x.2.2 ≠ 0) {n m : Nat} {e : Expr} {c : Ctx} {st : ArchState} {v : Int}
    (hv : Evaluates E .superH c e (.int v))
    (hn : ∀ d, c.virtualAddress % 2 = 0 → ¬ Taken (kindOf x.1 x.2.1) (width x.2.2) (int32 v) c.virtualAddress d)
    (hu : ¬ Undefined (kindOf x.1 x.2.1) (int32 v) c.virtualAddress) :
    Refused E x.1 (toks n m e x.2.1) c st := by
  obtain ⟨op, o, hrow⟩ := row_exists hx n m e
  intro op' o' hp
  rw [hrow.parse, Option.some.injEq, Prod.mk.injEq] at hp
  obtain ⟨rfl, rfl⟩ := hp
  have hb2 := hrow.bits
  unfold Rejects
  simp only [sem, validate]
  by_cases hev : c.virtualAddress % 2 = 0
  · rw [if_neg (by omega), if_neg (by omega), hrow.imm (by omega)]
    obtain ⟨ds, he, _⟩ := hv
    cases hi : immediate op o.bits (BitVec.ofInt 32 v) c.virtualAddress with
    | ok M =>
      have hw := width_cases hx
      rw [immediate_iff hrow.kind (by omega), toInt_ofInt32, hb2.1] at hi
      exact absurd hi (hn _ hev)
    | error t =>
      cases t with
      | none => have := undefined_of hrow.kind hi; rw [toInt_ofInt32] at this; exact absurd this hu
      | some t =>
        simp only [he, bind, Ev.bind, hi, fail, failWith, Ev.queue, pure]
        refine ⟨_, _, _, rfl, ?_⟩
        intro hne
        have := hne _ (List.mem_append_left _ (List.mem_append_right _ (List.mem_append_left _ (List.mem_singleton_self _))))
        simp at this
  · rw [if_pos (by omega)]
    simp only [bind, Ev.bind, failWith, Ev.queue, pure]
    refine ⟨_, _, _, rfl, ?_⟩
    intro hne
    have := hne _ (List.mem_append_left _ (List.mem_append_left _ (List.mem_singleton_self _)))
    simp at this

/-! The same with the parts of the entry named. -/

theorem assembles_entry {E : Env} {name : String} {ops : List Operand} {p : String} (hx : (name, ops, p) ∈ manual) {n m : Nat} {e : Expr}
    {c : Ctx} {st : ArchState} {w : BitVec 16} :
    Assembles E name (toks n m e ops) c st w ↔ c.virtualAddress % 2 = 0 ∧
      (width p = 0 ∧ Shows p n m 0 w ∨
       width p ≠ 0 ∧ ∃ (v : Int) (d : Nat), Evaluates E .superH c e (.int v) ∧
          Taken (kindOf name ops) (width p) (int32 v) c.virtualAddress d ∧ Shows p n m d w) := assembles_iff hx

theorem shows_entry {name : String} {ops : List Operand} {p : String} (hx : (name, ops, p) ∈ manual) (n m d : Nat) (hd : d < 2 ^ width p) :
    ∃ w, Shows p n m d w := shows_exists hx n m d hd

theorem taken_entry {name : String} {ops : List Operand} {p : String} (hx : (name, ops, p) ∈ manual) {b : Nat} {x a d : Int}
    (ht : Taken (kindOf name ops) b x a d) : 0 ≤ d ∧ d < 2 ^ b := by
  obtain ⟨op, o, hrow⟩ := row_exists hx 0 0 (.int 0)
  exact taken_lt hrow.kind ht

theorem refused_entry {E : Env} {name : String} {ops : List Operand} {p : String} (hx : (name, ops, p) ∈ manual) (h0 : width p ≠ 0) {n m : Nat}
    {e : Expr} {c : Ctx} {st : ArchState} {v : Int} (hv : Evaluates E .superH c e (.int v))
    (hn : ∀ d, c.virtualAddress % 2 = 0 → ¬ Taken (kindOf name ops) (width p) (int32 v) c.virtualAddress d)
    (hu : ¬ Undefined (kindOf name ops) (int32 v) c.virtualAddress) :
    Refused E name (toks n m e ops) c st := refused_of hx h0 hv hn hu

end Armips.Sh
