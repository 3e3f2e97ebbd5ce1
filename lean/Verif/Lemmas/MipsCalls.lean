import Verif.Spec.MipsCalls
/-!
# MIPS code with loops and calls: lemmas
-/
namespace Armips.Spec.Calls
open Armips.Spec.Isa

/-! ### Memory -/

theorem ofBytes_byte (v : BitVec 32) : ofBytes (fun j => byte v j) = v := by
  unfold byte ofBytes
  apply BitVec.eq_of_getLsbD_eq
  intro i hi
  simp only [BitVec.getLsbD_extractLsb', BitVec.getLsbD_append]
  split
  · rename_i h; simp only [h, decide_true, Bool.true_and]; congr 1; omega
  · split
    · rename_i h; simp only [h, decide_true, Bool.true_and]; congr 1; omega
    · split
      · rename_i h; simp only [h, decide_true, Bool.true_and]; congr 1; omega
      · have h : i - 8 - 8 - 8 < 8 := by omega
        simp only [h, decide_true, Bool.true_and]; congr 1; omega

theorem add_ne {a : BitVec 32} {i j : Nat} (hi : i < 2 ^ 32) (hj : j < 2 ^ 32) (h : i ≠ j) : a + BitVec.ofNat 32 i ≠ a + BitVec.ofNat 32 j := by
  intro he
  have h1 : BitVec.ofNat 32 i = BitVec.ofNat 32 j := by
    have := congrArg (fun x => x - a) he
    simpa [BitVec.add_comm a, BitVec.add_sub_cancel] using this
  have := congrArg BitVec.toNat h1
  simp only [BitVec.toNat_ofNat, Nat.mod_eq_of_lt hi, Nat.mod_eq_of_lt hj] at this
  exact h this

theorem store_other (m : Machine) (p : Nat → BitVec 32) (b : Nat → BitVec 8) (n : Nat) {x : BitVec 32} (h : ∀ i, i < n → x ≠ p i) :
    (m.store p b n).mem x = m.mem x := by
  induction n with
  | zero => rfl
  | succ n ih =>
    simp only [Machine.store]
    rw [if_neg (h n (by omega))]
    exact ih fun i hi => h i (by omega)

theorem store_at (m : Machine) (p : Nat → BitVec 32) (b : Nat → BitVec 8) (n : Nat) (hp : ∀ i j, i < n → j < n → i ≠ j → p i ≠ p j) {i : Nat} (hi : i < n) :
    (m.store p b n).mem (p i) = b i := by
  induction n with
  | zero => omega
  | succ n ih =>
    simp only [Machine.store]
    by_cases h : i = n
    · subst h; simp
    · rw [if_neg (hp i n (by omega) (by omega) h)]
      exact ih (fun a b ha hb => hp a b (by omega) (by omega)) (by omega)

theorem store_reg (m : Machine) (p : Nat → BitVec 32) (b : Nat → BitVec 8) (n : Nat) : (m.store p b n).reg = m.reg := by
  induction n with
  | zero => rfl
  | succ n ih => exact ih

theorem storeWord_reg (be : Bool) (m : Machine) (a v : BitVec 32) : (storeWord be m a v).reg = m.reg := store_reg _ _ _ _

theorem storeWord_other (be : Bool) (m : Machine) (a v : BitVec 32) {x : BitVec 32} (h : ∀ i, i < 4 → x ≠ a + BitVec.ofNat 32 i) :
    (storeWord be m a v).mem x = m.mem x := store_other _ _ _ _ h

theorem load_store (be : Bool) (m : Machine) (a v : BitVec 32) : loadWord be (storeWord be m a v) a = v := by
  have h : ∀ i, i < 4 → (storeWord be m a v).mem (a + BitVec.ofNat 32 i) = byte v (if be then 3 - i else i) := fun i hi =>
    store_at m (fun i => a + BitVec.ofNat 32 i) (fun i => byte v (if be then 3 - i else i)) 4
      (fun i j hi hj => add_ne (by omega) (by omega)) hi
  unfold loadWord
  conv => rhs; rw [← ofBytes_byte v]
  unfold ofBytes
  cases be
  · simp only [Bool.false_eq_true, if_false] at h ⊢
    rw [h 0 (by omega), h 1 (by omega), h 2 (by omega), h 3 (by omega)]
  · simp only [if_true] at h ⊢
    rw [h (3 - 3) (by omega), h (3 - 2) (by omega), h (3 - 1) (by omega), h (3 - 0) (by omega)]

theorem load_congr {be : Bool} {m m' : Machine} {a : BitVec 32} (h : ∀ i, i < 4 → m'.mem (a + BitVec.ofNat 32 i) = m.mem (a + BitVec.ofNat 32 i)) :
    loadWord be m' a = loadWord be m a := by
  unfold loadWord ofBytes
  cases be
  · simp only [Bool.false_eq_true, if_false]
    rw [h 0 (by omega), h 1 (by omega), h 2 (by omega), h 3 (by omega)]
  · simp only [if_true]
    rw [h (3 - 3) (by omega), h (3 - 2) (by omega), h (3 - 1) (by omega), h (3 - 0) (by omega)]

/-! ### Registers -/

theorem set_mem (m : Machine) (r : Nat) (v : BitVec 32) : (m.set r v).mem = m.mem := by unfold Machine.set; split <;> rfl
theorem set_same (m : Machine) {r : Nat} (v : BitVec 32) (h : r ≠ 0) : (m.set r v).reg r = v := by simp [Machine.set, h]
theorem set_other (m : Machine) {r k : Nat} (v : BitVec 32) (h : k ≠ r) : (m.set r v).reg k = m.reg k := by
  unfold Machine.set; split <;> simp [h]
theorem get_reg (m : Machine) {r : Nat} (h : r ≠ 0) : m.get r = m.reg r := by simp [Machine.get, h]

/-! ### Steps -/

section
variable {be : Bool} {code : List (BitVec 32)} {base : BitVec 32} {call : BitVec 32 → Machine → Machine}

/-- From one position and machine to another, with calls in between. -/
def Steps (be : Bool) (code : List (BitVec 32)) (base : BitVec 32) (call : BitVec 32 → Machine → Machine)
    (pc : Nat) (m : Machine) (tr : List (BitVec 32)) (pc' : Nat) (m' : Machine) : Prop :=
  ∃ c, ∀ n, go be code base call (n + c) pc m = (go be code base call n pc' m').map fun r => (tr ++ r.1, r.2)

theorem Steps.refl (pc : Nat) (m : Machine) : Steps be code base call pc m [] pc m :=
  ⟨0, fun n => by simp⟩

theorem Steps.trans {pc pc' pc'' : Nat} {m m' m'' : Machine} {t t' : List (BitVec 32)} (h : Steps be code base call pc m t pc' m')
    (h' : Steps be code base call pc' m' t' pc'' m'') : Steps be code base call pc m (t ++ t') pc'' m'' := by
  obtain ⟨c, hc⟩ := h
  obtain ⟨c', hc'⟩ := h'
  refine ⟨c' + c, fun n => ?_⟩
  rw [← Nat.add_assoc, hc, hc', Option.map_map]
  congr 1
  funext r
  simp [List.append_assoc]

/-- An instruction that is no branch and no jump. -/
theorem steps_plain {pc : Nat} {m m' : Machine} {w d : BitVec 32} (hw : code[pc]? = some w) (hd : code[pc + 1]? = some d)
    (h5 : field w 26 6 ≠ 5) (h9 : ¬ (field w 26 6 = 0 ∧ field w 0 6 = 9)) (h8 : ¬ (field w 26 6 = 0 ∧ field w 0 6 = 8))
    (hp : plain be w m = some m') : Steps be code base call pc m [] (pc + 1) m' := by
  refine ⟨1, fun n => ?_⟩
  rw [go, hw, hd]
  simp only []
  rw [if_neg h5, if_neg h9, if_neg h8, hp]
  simp

/-- A branch. -/
theorem steps_bne {pc : Nat} {m m' : Machine} {w d : BitVec 32} (hw : code[pc]? = some w) (hd : code[pc + 1]? = some d)
    (h5 : field w 26 6 = 5) (hp : plain be d m = some m') :
    Steps be code base call pc m [] (if m.get (field w 21 5) ≠ m.get (field w 16 5) then target pc w else pc + 2) m' := by
  refine ⟨1, fun n => ?_⟩
  rw [go, hw, hd]
  simp only []
  rw [if_pos h5, hp]
  simp

/-- A call. -/
theorem steps_jalr {pc : Nat} {m m' : Machine} {w d : BitVec 32} (hw : code[pc]? = some w) (hd : code[pc + 1]? = some d)
    (h9 : field w 26 6 = 0 ∧ field w 0 6 = 9)
    (hp : plain be d (m.set (field w 11 5) (base + BitVec.ofNat 32 (4 * (pc + 2)))) = some m') :
    Steps be code base call pc m [m.get (field w 21 5)] (pc + 2) (call (m.get (field w 21 5)) m') := by
  refine ⟨1, fun n => ?_⟩
  rw [go, hw, hd]
  simp only []
  rw [if_neg (by omega), if_pos h9, hp]
  simp

/-- The end. -/
theorem go_jr {pc : Nat} {m m' : Machine} {w d : BitVec 32} (hw : code[pc]? = some w) (hd : code[pc + 1]? = some d)
    (h8 : field w 26 6 = 0 ∧ field w 0 6 = 8) (hp : plain be d m = some m') :
    go be code base call 1 pc m = some ([], m.get (field w 21 5), m') := by
  rw [go, hw, hd]
  simp only []
  rw [if_neg (by omega), if_neg (by omega), if_pos h8, hp]
  rfl

theorem Steps.runs {m m' m'' : Machine} {pc : Nat} {tr : List (BitVec 32)} {ret : BitVec 32} (h : Steps be code base call 0 m tr pc m')
    (he : go be code base call 1 pc m' = some ([], ret, m'')) : Runs be code base call m tr ret m'' := by
  obtain ⟨c, hc⟩ := h
  refine ⟨1 + c, ?_⟩
  rw [hc, he]
  simp

/-- An instruction of `Spec/MipsIsa.lean` is none of those added here. -/
theorem step_plain {w : BitVec 32} {m m' : Machine} (h : step be w m = some m') :
    field w 26 6 ≠ 5 ∧ ¬ (field w 26 6 = 0 ∧ field w 0 6 = 9) ∧ ¬ (field w 26 6 = 0 ∧ field w 0 6 = 8) ∧ plain be w m = some m' := by
  have hn : ∀ k, k ∈ [5, 35, 43] → field w 26 6 ≠ k := by
    intro k hk he
    unfold step at h
    simp only [he] at h
    simp only [List.mem_cons, List.not_mem_nil, or_false] at hk
    rcases hk with rfl | rfl | rfl <;> simp at h
  have hs : ∀ k, k ∈ [8, 9] → ¬ (field w 26 6 = 0 ∧ field w 0 6 = k) := by
    intro k hk he
    unfold step special at h
    simp only [he.1, he.2] at h
    simp only [List.mem_cons, List.not_mem_nil, or_false] at hk
    rcases hk with rfl | rfl <;> simp at h
  refine ⟨hn 5 (by simp), hs 9 (by simp), hs 8 (by simp), ?_⟩
  unfold plain
  simp only []
  rw [if_neg (hn 35 (by simp)), if_neg (hn 43 (by simp)), h]

/-- A block of instructions of `Spec/MipsIsa.lean`. -/
theorem steps_exec {m m' : Machine} {ws : List (BitVec 32)} {pc : Nat} (hc : ∀ i, i < ws.length → code[pc + i]? = ws[i]?)
    (hl : pc + ws.length < code.length) (h : exec be ws m = some m') : Steps be code base call pc m [] (pc + ws.length) m' := by
  induction ws generalizing pc m with
  | nil => simp only [exec, Option.some.injEq] at h; subst h; exact Steps.refl _ _
  | cons w ws ih =>
    simp only [exec] at h
    cases h1 : step be w m with
    | none => simp [h1] at h
    | some m1 =>
      simp only [h1, Option.bind_some] at h
      obtain ⟨h5, h9, h8, hp⟩ := step_plain h1
      have hw : code[pc]? = some w := by simpa using hc 0 (by simp)
      simp only [List.length_cons] at hl
      have hd : ∃ d, code[pc + 1]? = some d := ⟨_, List.getElem?_eq_getElem (by omega)⟩
      obtain ⟨d, hd⟩ := hd
      have := (steps_plain (base := base) (call := call) hw hd h5 h9 h8 hp).trans (ih (pc := pc + 1) (fun i hi => by
        have := hc (i + 1) (by simp; omega)
        rw [show pc + 1 + i = pc + (i + 1) by omega, this]
        simp) (by omega) h)
      rw [show pc + 1 + ws.length = pc + (w :: ws).length by simp; omega] at this
      simpa using this

/-- More steps do no harm. -/
theorem go_more {n : Nat} : ∀ {pc : Nat} {m : Machine} {r : List (BitVec 32) × BitVec 32 × Machine}, go be code base call n pc m = some r →
    go be code base call (n + 1) pc m = some r := by
  induction n with
  | zero => intro pc m r h; simp [go] at h
  | succ n ih =>
    intro pc m r h
    rw [go] at h ⊢
    split at h
    · rename_i w d hw hd
      simp only [] at h ⊢
      split at h
      · rename_i h5
        rw [if_pos h5]
        cases hp : plain be d m with
        | none => simp [hp] at h
        | some m1 => rw [hp] at h; exact ih h
      · rename_i h5
        rw [if_neg h5]
        split at h
        · rename_i h9
          rw [if_pos h9]
          cases hp : plain be d (m.set (field w 11 5) (base + BitVec.ofNat 32 (4 * (pc + 2)))) with
          | none => simp [hp] at h
          | some m1 =>
            rw [hp] at h
            simp only [Option.bind_some, Option.map_eq_some_iff] at h ⊢
            obtain ⟨x, h1, h2⟩ := h
            exact ⟨x, ih h1, h2⟩
        · rename_i h9
          rw [if_neg h9]
          split at h
          · rename_i h8
            rw [if_pos h8]; exact h
          · rename_i h8
            rw [if_neg h8]
            cases hp : plain be w m with
            | none => simp [hp] at h
            | some m1 => rw [hp] at h; exact ih h
    · cases h

theorem go_plus {n : Nat} (k : Nat) {pc : Nat} {m : Machine} {r : List (BitVec 32) × BitVec 32 × Machine} (h : go be code base call n pc m = some r) :
    go be code base call (n + k) pc m = some r := by
  induction k with
  | zero => exact h
  | succ k ih => exact go_more ih

/-- The calls of the first steps are the first calls. -/
theorem Steps.head {m m' m'' : Machine} {pc : Nat} {tr calls : List (BitVec 32)} {ret : BitVec 32} (h : Steps be code base call 0 m tr pc m')
    (hr : Runs be code base call m calls ret m'') : calls.head? = (tr ++ calls.drop tr.length).head? := by
  obtain ⟨c, hc⟩ := h
  obtain ⟨n, hn⟩ := hr
  have := go_plus c hn
  rw [hc, Option.map_eq_some_iff] at this
  obtain ⟨x, -, h2⟩ := this
  have h3 : tr ++ x.1 = calls := congrArg Prod.fst h2
  rw [← h3]
  simp

end

end Armips.Spec.Calls
