import Verif.Lemmas.Expression
namespace Armips

/-- The loop that keeps the better element. -/
def keep {α} (better : α → α → Bool) (a : α) (xs : List α) : α := xs.foldl (fun acc x => if better x acc then x else acc) a

theorem keep_spec {α} (better : α → α → Bool) (key : α → Int) (ok : α → Prop)
    (hb : ∀ x y, ok x → ok y → (better x y = true ↔ key x < key y)) (a : α) (xs : List α) (ha : ok a)
    (hx : ∀ x ∈ xs, ok x) :
    (keep better a xs = a ∨ keep better a xs ∈ xs) ∧ ok (keep better a xs) ∧ key (keep better a xs) ≤ key a ∧
      ∀ x ∈ xs, key (keep better a xs) ≤ key x := by
  unfold keep
  induction xs generalizing a with
  | nil => simp [ha]
  | cons x xs ih =>
    rw [List.foldl_cons]
    have hxo := hx x (by simp)
    have hxs : ∀ y ∈ xs, ok y := fun y hy => hx y (by simp [hy])
    by_cases h : better x a = true
    · rw [if_pos h]
      obtain ⟨h1, h2, h3, h4⟩ := ih x hxo hxs
      have := (hb x a hxo ha).1 h
      refine ⟨?_, h2, by omega, ?_⟩
      · rcases h1 with h1 | h1
        · exact .inr (by rw [h1]; simp)
        · exact .inr (List.mem_cons_of_mem _ h1)
      · intro y hy
        rcases List.mem_cons.1 hy with rfl | hy
        · exact h3
        · exact h4 y hy
    · rw [if_neg h]
      obtain ⟨h1, h2, h3, h4⟩ := ih a ha hxs
      have : ¬ key x < key a := fun hh => h ((hb x a hxo ha).2 hh)
      refine ⟨?_, h2, h3, ?_⟩
      · rcases h1 with h1 | h1
        · exact .inl h1
        · exact .inr (List.mem_cons_of_mem _ h1)
      · intro y hy
        rcases List.mem_cons.1 hy with rfl | hy
        · omega
        · exact h4 y hy

theorem minMax_ints (H : Host) (bI : Int → Int → Bool) (bF : F64 → F64 → Bool) (xs : List Int) (ia fa ic fc) :
    ∃ fa' ic' fc', (xs.map Value.int).foldl (minMaxStep H bI bF) (some (ia, fa, ic, fc, true)) =
      some (keep bI ia xs, fa', ic', fc', true) := by
  induction xs generalizing ia fa ic fc with
  | nil => exact ⟨fa, ic, fc, rfl⟩
  | cons x xs ih =>
    simp only [List.map_cons, List.foldl_cons, minMaxStep]
    obtain ⟨fa', ic', fc', h⟩ := ih (if bI x ia then x else ia) (if bF (H.ofInt x) fa then H.ofInt x else fa) x (H.ofInt x)
    exact ⟨fa', ic', fc', h⟩

/-- A number as a double. -/
def toF64 (H : Host) : Value → F64
  | .int v => H.ofInt v
  | .float f => f
  | _ => F64.zero

def notFloat : Value → Bool
  | .float _ => false
  | _ => true

theorem minMax_floats (H : Host) (bI : Int → Int → Bool) (bF : F64 → F64 → Bool) (ps : List Value)
    (hn : ∀ p ∈ ps, (∃ v, p = .int v) ∨ (∃ f, p = .float f)) (ia fa ic fc) (isI : Bool) :
    ∃ ia' ic' fc', ps.foldl (minMaxStep H bI bF) (some (ia, fa, ic, fc, isI)) =
      some (ia', keep bF fa (ps.map (toF64 H)), ic', fc', isI && ps.all notFloat) := by
  induction ps generalizing ia fa ic fc isI with
  | nil => exact ⟨ia, ic, fc, by simp [keep]⟩
  | cons p ps ih =>
    have hps : ∀ q ∈ ps, (∃ v, q = .int v) ∨ (∃ f, q = .float f) := fun q hq => hn q (by simp [hq])
    rcases hn p (by simp) with ⟨v, rfl⟩ | ⟨f, rfl⟩
    · simp only [List.foldl_cons, minMaxStep]
      obtain ⟨ia', ic', fc', h⟩ := ih hps (if bI v ia then v else ia) (if bF (H.ofInt v) fa then H.ofInt v else fa) v (H.ofInt v) isI
      exact ⟨ia', ic', fc', by rw [h]; simp [keep, toF64, notFloat]⟩
    · simp only [List.foldl_cons, minMaxStep]
      obtain ⟨ia', ic', fc', h⟩ := ih hps (if bI ic ia then ic else ia) (if bF f fa then f else fa) ic f false
      exact ⟨ia', ic', fc', by rw [h]; simp [keep, toF64, notFloat]⟩

theorem F64.lt_iff (a b : F64) (ha : a.isNaN = false) (hb : b.isNaN = false) : a.lt b = true ↔ a.rank < b.rank := by
  simp [F64.lt, ha, hb]

theorem F64.eq_of_rank (a b : F64) (h : a.rank = b.rank) (hb : b.rank ≠ 0) : a = b := by
  have h1 := a.isLt
  have h2 := b.isLt
  apply BitVec.eq_of_toNat_eq
  unfold F64.rank F64.sign F64.mag at *
  simp only [decide_eq_true_eq] at *
  split at h <;> split at h <;> split at hb <;> omega
end Armips
