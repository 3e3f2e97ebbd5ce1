import Verif.Lemmas.Elf
/-! Lemmas about placing and copying sections. -/
namespace Armips.Elf
open Armips Spec Spec.Elf

theorem alignUp_some {a p : Int} {n : Nat} (h : alignUp a n = some p) : 0 < n ∧ (n : Int) ∣ p ∧ a ≤ p ∧ p < a + n := by
  unfold alignUp at h
  split at h
  · cases h
  · rename_i hn
    cases h
    have hn' : (0 : Int) < n := by omega
    have h1 := Int.emod_nonneg (-a) (show (n : Int) ≠ 0 by omega)
    have h2 := Int.emod_lt_of_pos (-a) hn'
    refine ⟨by omega, ?_, by omega, by omega⟩
    have h3 := Int.mul_ediv_add_emod (-a) n
    exact ⟨-(-a / n), by rw [Int.mul_neg]; omega⟩

theorem offsetOf_cons_ne {m : List (Nat × Int)} {i j : Nat} {p : Int} (h : j ≠ i) : offsetOf ((i, p) :: m) j = offsetOf m j := by
  unfold offsetOf
  rw [List.lookup_cons, show (j == i) = false by simp [h]]

theorem offsetOf_cons_eq {m : List (Nat × Int)} {i : Nat} {p : Int} : offsetOf ((i, p) :: m) i = p := by
  unfold offsetOf
  rw [List.lookup_cons]
  simp

theorem layout_cons {a e : Int} {s : Section} {l : List Section} {m : List (Nat × Int)} (h : layout a (s :: l) = some (m, e)) :
    ∃ p r, alignUp a s.align = some p ∧ layout (p + s.size) l = some (r, e) ∧ m = (s.index, p) :: r := by
  simp only [layout, bind, Option.bind_eq_some_iff, Option.some.injEq, Prod.mk.injEq, Prod.exists] at h
  obtain ⟨p, hp, r, e', hr, rfl, rfl⟩ := h
  exact ⟨p, r, hp, hr, rfl⟩

theorem layout_fst {l : List Section} : ∀ {a e : Int} {m : List (Nat × Int)}, layout a l = some (m, e) → m.map Prod.fst = l.map (·.index) := by
  induction l with
  | nil => intro a e m h; cases h; rfl
  | cons s l ih =>
    intro a e m h
    obtain ⟨p, r, _, hr, rfl⟩ := layout_cons h
    simp [ih hr]

/-- The facts about the addresses that `layout` chooses. -/
theorem layout_props {l : List Section} : ∀ {a e : Int} {m : List (Nat × Int)}, layout a l = some (m, e) → (l.map (·.index)).Nodup →
    a ≤ e ∧
    (∀ s ∈ l, (s.align : Int) ∣ offsetOf m s.index ∧ a ≤ offsetOf m s.index ∧ offsetOf m s.index + s.size ≤ e) ∧
    l.Pairwise (fun s s' => offsetOf m s.index + s.size ≤ offsetOf m s'.index) ∧
    (∀ s l', l = s :: l' → offsetOf m s.index < a + s.align) ∧
    (∀ l1 s s' l2, l = l1 ++ s :: s' :: l2 → offsetOf m s'.index < offsetOf m s.index + s.size + s'.align) := by
  induction l with
  | nil =>
    intro a e m h _
    cases h
    refine ⟨Int.le_refl _, fun s hs => (by cases hs), .nil, fun s l' h => (by cases h), fun l1 s s' l2 h => ?_⟩
    cases l1 <;> cases h
  | cons s l ih =>
    intro a e m h hn
    obtain ⟨p, r, hp, hr, rfl⟩ := layout_cons h
    obtain ⟨h1, h2, h3, h4⟩ := alignUp_some hp
    rw [List.map_cons, List.nodup_cons] at hn
    obtain ⟨i1, i2, i3, i4, i5⟩ := ih hr hn.2
    have hne : ∀ t ∈ l, t.index ≠ s.index := fun t ht he => hn.1 (by rw [← he]; exact List.mem_map_of_mem ht)
    have hoff : ∀ t ∈ l, offsetOf ((s.index, p) :: r) t.index = offsetOf r t.index := fun t ht => offsetOf_cons_ne (hne t ht)
    refine ⟨by omega, ?_, ?_, ?_, ?_⟩
    · intro t ht
      rcases List.mem_cons.1 ht with rfl | ht
      · rw [offsetOf_cons_eq]; exact ⟨h2, h3, by omega⟩
      · rw [hoff t ht]
        obtain ⟨j1, j2, j3⟩ := i2 t ht
        exact ⟨j1, by omega, j3⟩
    · refine List.pairwise_cons.2 ⟨fun t ht => ?_, ?_⟩
      · rw [offsetOf_cons_eq, hoff t ht]; exact (i2 t ht).2.1
      · refine List.Pairwise.imp_of_mem ?_ i3
        intro t t' ht ht' h
        rw [hoff t ht, hoff t' ht']; exact h
    · intro t l' he
      cases he
      rw [offsetOf_cons_eq]; exact h4
    · intro l1 t t' l2 he
      cases l1 with
      | nil =>
        obtain ⟨rfl, rfl⟩ := List.cons.inj he
        rw [offsetOf_cons_eq, hoff t' (by simp)]
        exact i4 _ _ rfl
      | cons u l1 =>
        obtain ⟨rfl, rfl⟩ := List.cons.inj he
        rw [hoff t (by simp), hoff t' (by simp)]
        exact i5 l1 t t' l2 rfl

theorem copyTo_some {out out' : List Byte} {p : Int} {d : List Byte} (h : copyTo out p d = some out') :
    0 ≤ p ∧ p + d.length ≤ out.length ∧ out'.length = out.length ∧ (∀ j : Nat, j < d.length → out'[p.toNat + j]? = d[j]?) ∧
      ∀ i : Nat, (i : Int) < p ∨ p + d.length ≤ i → out'[i]? = out[i]? := by
  unfold copyTo at h
  split at h
  · rename_i hp
    cases h
    have hl : (out.take p.toNat).length = p.toNat := by rw [List.length_take]; omega
    refine ⟨hp.1, hp.2, ?_, ?_, ?_⟩
    · simp only [List.length_append, List.length_take, List.length_drop]; omega
    · intro j hj
      rw [List.append_assoc, List.getElem?_append_right (by omega), hl, Nat.add_sub_cancel_left, List.getElem?_append_left hj]
    · intro i hi
      by_cases h1 : (i : Int) < p
      · rw [List.append_assoc, List.getElem?_append_left (by omega), List.getElem?_take_of_lt (by omega)]
      · rw [List.getElem?_append_right (by rw [List.length_append]; omega), List.getElem?_drop]
        congr 1
        rw [List.length_append]
        omega
  · cases h

/-- After each section, nothing is left in the relocator. -/
def Resets (M : Machine) : Prop := ∀ q x, M.finish q = some x → x.state = M.init

theorem mipsFinish_state {q : List Hi16} {x : Step (List Hi16)} (h : mipsFinish q = some x) : x.state = [] := by
  cases q with
  | nil => cases h; rfl
  | cons y q =>
    simp only [mipsFinish, bind, Option.bind_eq_some_iff] at h
    obtain ⟨s, _, h⟩ := h
    cases h; rfl

theorem mips_resets : Resets mips := by
  intro q x h
  change mipsFinish q = some x at h
  cases q with
  | nil => cases h; rfl
  | cons y q =>
    exact mipsFinish_state h

theorem arm_resets (arm9 : Bool) : Resets (arm arm9) := fun _ _ _ => rfl

theorem sh_resets : Resets sh := fun _ _ _ => rfl

/-- The sections after copying. -/
theorem loadSections_props {M : Machine} (hM : Resets M) {f : File} {ext : String → Option Ext} {m : List (Nat × Int)} {start : Int} {l : List Section} :
    ∀ {out out' : List Byte} {o : Outcome M.State}, loadSections M f ext m start M.init out l = some (out', o) →
      l.Pairwise (fun s s' => s.nobits = false → s'.nobits = false → offsetOf m s.index + s.data.length ≤ offsetOf m s'.index) →
      out'.length = out.length ∧ o.state = M.init ∧
      (∀ s ∈ l, s.nobits = false → start ≤ offsetOf m s.index ∧ ∃ d o', relocSection M f ext m s M.init = some (d, o') ∧ (o.ok = true → o'.ok = true) ∧
        (o'.ok = false → o.ok = false) ∧ (∀ t ∈ o'.errors, t ∈ o.errors) ∧
        ∀ j, j < d.length → out'[(offsetOf m s.index - start).toNat + j]? = d[j]?) ∧
      ∀ i : Nat, (∀ s ∈ l, s.nobits = false → (i : Int) < offsetOf m s.index - start ∨ offsetOf m s.index - start + s.data.length ≤ i) → out'[i]? = out[i]? := by
  induction l with
  | nil => intro out out' o h _; cases h; exact ⟨rfl, rfl, fun s hs => (by cases hs), fun _ _ => rfl⟩
  | cons s l ih =>
    intro out out' o h hp
    rw [List.pairwise_cons] at hp
    cases hn : s.nobits with
    | true =>
      simp only [loadSections, hn, if_true] at h
      obtain ⟨h1, h2, h3, h4⟩ := ih h hp.2
      refine ⟨h1, h2, ?_, ?_⟩
      · intro t ht hb
        rcases List.mem_cons.1 ht with rfl | ht
        · rw [hn] at hb; cases hb
        · exact h3 t ht hb
      · intro i hi
        exact h4 i fun t ht => hi t (List.mem_cons_of_mem _ ht)
    | false =>
      simp only [loadSections, hn, Bool.false_eq_true, if_false, bind, Option.bind_eq_some_iff, Option.some.injEq, Prod.mk.injEq, Prod.exists] at h
      obtain ⟨d, o1, hd, out1, hc, out2, o2, hl, rfl, rfl⟩ := h
      have hq : o1.state = M.init := by
        obtain ⟨_, x, _, hx, _, rfl⟩ := relocSection_eq hd
        exact hM _ _ hx
      rw [hq] at hl
      obtain ⟨c1, c2, c3, c4, c5⟩ := copyTo_some hc
      have hlen := relocSection_length hd
      obtain ⟨h1, h2, h3, h4⟩ := ih hl hp.2
      refine ⟨by rw [h1, c3], h2, ?_, ?_⟩
      · intro t ht hb
        rcases List.mem_cons.1 ht with rfl | ht
        · refine ⟨by omega, d, o1, hd, ?_, ?_, ?_, ?_⟩
          · intro h; simp only [Bool.and_eq_true] at h; exact h.1
          · intro h; simp [h]
          · intro e he; exact List.mem_append_left _ he
          · intro j hj
            rw [h4, c4 j hj]
            intro u hu hub
            have := hp.1 u hu hb hub
            omega
        · obtain ⟨k0, d', o', k1, k2, k3, k4, k5⟩ := h3 t ht hb
          refine ⟨k0, d', o', k1, ?_, ?_, ?_, k5⟩
          · intro h; simp only [Bool.and_eq_true] at h; exact k2 h.2
          · intro h; simp [k3 h]
          · intro e he; exact List.mem_append_right _ (k4 e he)
      · intro i hi
        rw [h4 i fun t ht => hi t (List.mem_cons_of_mem _ ht)]
        apply c5
        have := hi s (List.mem_cons_self ..) hn
        rw [hlen]
        exact this

theorem placeSymbols_props {m : List (Nat × Int)} {l : List Sym} : ∀ {a e : Int} {r : List Int}, placeSymbols m a l = some (r, e) →
    a ≤ e ∧ r.length = l.length ∧
    (∀ (i : Nat) (s : Sym) (v : Int), l[i]? = some s → r[i]? = some v →
      (s.shndx = 0xFFF1 → v = s.value) ∧ (s.shndx = 0xFFF2 → (s.value : Int) ∣ v ∧ a ≤ v ∧ v + s.size ≤ e) ∧
      (s.shndx ≠ 0xFFF1 → s.shndx ≠ 0xFFF2 → v = offsetOf m s.shndx + s.value)) ∧
    (∀ (i j : Nat) (s t : Sym) (v u : Int), i < j → l[i]? = some s → l[j]? = some t → r[i]? = some v → r[j]? = some u →
      s.shndx = 0xFFF2 → t.shndx = 0xFFF2 → v + s.size ≤ u) := by
  induction l with
  | nil =>
    intro a e r h; cases h
    exact ⟨Int.le_refl _, rfl, fun i s v h => (by simp at h), fun i j s t v u _ h => (by simp at h)⟩
  | cons s l ih =>
    intro a e r h
    simp only [placeSymbols] at h
    have key : ∃ p a' r', placeSymbols m a' l = some (r', e) ∧ r = p :: r' ∧ a ≤ a' ∧ (s.shndx = 0xFFF1 → p = s.value) ∧
        (s.shndx = 0xFFF2 → (s.value : Int) ∣ p ∧ a ≤ p ∧ p + s.size ≤ a') ∧
        (s.shndx ≠ 0xFFF1 → s.shndx ≠ 0xFFF2 → p = offsetOf m s.shndx + s.value) := by
      split at h
      · rename_i h1
        simp only [bind, Option.bind_eq_some_iff, Option.some.injEq, Prod.mk.injEq, Prod.exists] at h
        obtain ⟨r', e', hr, rfl, rfl⟩ := h
        exact ⟨_, a, r', hr, rfl, Int.le_refl _, fun _ => rfl, fun h2 => by omega, fun h2 => absurd h1 h2⟩
      · rename_i h1
        split at h
        · rename_i h2
          simp only [bind, Option.bind_eq_some_iff, Option.some.injEq, Prod.mk.injEq, Prod.exists] at h
          obtain ⟨p, hp, r', e', hr, rfl, rfl⟩ := h
          obtain ⟨_, k2, k3, _⟩ := alignUp_some hp
          exact ⟨_, _, r', hr, rfl, by omega, fun h => absurd h h1, fun _ => ⟨k2, k3, Int.le_refl _⟩, fun _ h => absurd h2 h⟩
        · rename_i h2
          simp only [bind, Option.bind_eq_some_iff, Option.some.injEq, Prod.mk.injEq, Prod.exists] at h
          obtain ⟨r', e', hr, rfl, rfl⟩ := h
          exact ⟨_, a, r', hr, rfl, Int.le_refl _, fun h => absurd h h1, fun h => absurd h h2, fun _ _ => Int.add_comm _ _⟩
    obtain ⟨p, a', r', hr, rfl, ha, k1, k2, k3⟩ := key
    obtain ⟨i1, i2, i3, i4⟩ := ih hr
    refine ⟨by omega, by simp [i2], ?_, ?_⟩
    · intro i t v ht hv
      cases i with
      | zero =>
        simp only [List.getElem?_cons_zero, Option.some.injEq] at ht hv
        subst ht; subst hv
        exact ⟨k1, fun h => (by obtain ⟨a, b, c⟩ := k2 h; exact ⟨a, b, by omega⟩), k3⟩
      | succ i =>
        simp only [List.getElem?_cons_succ] at ht hv
        obtain ⟨j1, j2, j3⟩ := i3 i t v ht hv
        exact ⟨j1, fun h => (by obtain ⟨a, b, c⟩ := j2 h; exact ⟨a, by omega, c⟩), j3⟩
    · intro i j t u v w hij ht hu hv hw h1 h2
      cases j with
      | zero => omega
      | succ j =>
        simp only [List.getElem?_cons_succ] at hu hw
        cases i with
        | zero =>
          simp only [List.getElem?_cons_zero, Option.some.injEq] at ht hv
          subst ht; subst hv
          have := (k2 h1).2.2
          have := ((i3 j u w hu hw).2.1 h2).2.1
          omega
        | succ i =>
          simp only [List.getElem?_cons_succ] at ht hv
          exact i4 i j t u v w (by omega) ht hu hv hw h1 h2

end Armips.Elf
