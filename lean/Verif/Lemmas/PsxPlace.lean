import Verif.Spec.Psx
import Verif.Lemmas.Elf
/-! Addresses of segments and symbols; copying the segments. -/
namespace Armips.Psx
open Armips.Elf (getWord copyTo inInt)
open Armips.Spec.Psx (next4 segAddress segEnd bssEnd Numbered)

theorem up4_eq (a : Int) : up4 a = next4 a := by unfold up4 next4; split <;> omega

theorem next4_ge (a : Int) : a ≤ next4 a := by unfold next4; split <;> omega

theorem chk_some {v x : Int} (h : chk v = some x) : x = v := by
  unfold chk at h
  split at h <;> cases h
  rfl

theorem segAddress_zero (a : Int) (l : List Segment) : segAddress a l 0 = a := by cases l <;> rfl

theorem layout_spec {l : List Segment} : ∀ {a : Int} {m : List (Int × Int)} {z : Int}, layout a l = some (m, z) →
    m.map (·.1) = l.map (·.id) ∧ z = segEnd a l ∧ ∀ i s, l[i]? = some s → m[i]? = some (s.id, segAddress a l i) := by
  induction l with
  | nil => intro a m z h; cases h; exact ⟨rfl, rfl, fun i s h => by cases h⟩
  | cons s l ih =>
    intro a m z h
    simp only [layout, bind, Option.bind_eq_some_iff, Option.some.injEq, Prod.exists, Prod.mk.injEq] at h
    obtain ⟨n, hn, e, he, e', he', m', z', h', rfl, rfl⟩ := h
    have h1 := chk_some hn
    have h2 := chk_some he
    have h3 := chk_some he'
    subst h1 h2
    rw [up4_eq] at h3
    subst h3
    obtain ⟨i1, i2, i3⟩ := ih h'
    refine ⟨by simp [i1], i2, fun i t ht => ?_⟩
    cases i with
    | zero => simp only [List.getElem?_cons_zero, Option.some.injEq] at ht ⊢; subst ht; rfl
    | succ i => rw [List.getElem?_cons_succ] at ht ⊢; exact i3 i t ht

theorem segAddress_ge {l : List Segment} : ∀ {a : Int} {i : Nat}, a ≤ segAddress a l i := by
  induction l with
  | nil => intro a i; cases i <;> exact Int.le_refl _
  | cons s l ih =>
    intro a i
    cases i with
    | zero => exact Int.le_refl _
    | succ i =>
      have := @ih (next4 (a + s.data.length)) i
      have := next4_ge (a + s.data.length)
      rw [segAddress]; omega

theorem segAddress_mono {l : List Segment} : ∀ {a : Int} {i j : Nat} {s : Segment}, l[i]? = some s → i < j → j ≤ l.length →
    segAddress a l i + s.data.length ≤ segAddress a l j := by
  induction l with
  | nil => intro a i j s h; cases h
  | cons s l ih =>
    intro a i j t ht hij hj
    obtain ⟨j, rfl⟩ : ∃ k, j = k + 1 := ⟨j - 1, by omega⟩
    cases i with
    | zero =>
      simp only [List.getElem?_cons_zero, Option.some.injEq] at ht
      subst ht
      have := @segAddress_ge l (next4 (a + s.data.length)) j
      have := next4_ge (a + s.data.length)
      rw [segAddress_zero, segAddress]; omega
    | succ i =>
      rw [List.getElem?_cons_succ] at ht
      simp only [segAddress]
      exact ih ht (by omega) (by simpa using hj)

theorem mem_lookup {l : List (Int × Int)} {k v : Int} (h : (k, v) ∈ l) (hn : (l.map (·.1)).Nodup) : l.lookup k = some v := by
  induction l with
  | nil => cases h
  | cons x l ih =>
    obtain ⟨a, b⟩ := x
    rw [List.map_cons, List.nodup_cons] at hn
    rcases List.mem_cons.1 h with he | h
    · cases he; simp [List.lookup]
    · have hne : k ≠ a := fun hc => hn.1 (hc ▸ List.mem_map_of_mem (f := (·.1)) h)
      rw [List.lookup_cons]
      have : (k == a) = false := by simpa using hne
      rw [this]
      exact ih h hn.2

theorem at0_mem {l : List (Int × Int)} {k v : Int} (h : (k, v) ∈ l) (hn : (l.map (·.1)).Nodup) : at0 l k = v := by
  unfold at0
  rw [mem_lookup (List.mem_reverse.2 h) (by rw [List.map_reverse]; unfold List.Nodup; rw [List.pairwise_reverse]; exact hn.imp Ne.symm)]
  rfl

theorem at0_segment {a : Int} {l : List Segment} {m : List (Int × Int)} {z : Int} (h : layout a l = some (m, z)) (hn : (l.map (·.id)).Nodup)
    {i : Nat} {s : Segment} (hs : l[i]? = some s) : at0 m s.id = segAddress a l i := by
  obtain ⟨h1, _, h3⟩ := layout_spec h
  exact at0_mem (List.mem_of_getElem? (h3 i s hs)) (h1 ▸ hn)

/-! ### Symbols -/

theorem lowered_eq (n : List Byte) : lowered n = n.map Spec.Obj.lower := by
  unfold lowered
  apply List.map_congr_left
  intro b _
  unfold Spec.Obj.lower
  have h1 : (0x41#8 ≤ b) = (0x41 ≤ b.toNat) := by rw [BitVec.le_def]; rfl
  have h2 : (b ≤ 0x5A#8) = (b.toNat ≤ 0x5A) := by rw [BitVec.le_def]; rfl
  simp only [h1, h2]

theorem Labels.set_same (l : Labels) (n : List Byte) (v : Int) : l.set n v (lowered n) = some v := by simp [Labels.set]
theorem Labels.set_other (l : Labels) {n x : List Byte} (h : x ≠ lowered n) (v : Int) : l.set n v x = l x := by simp [Labels.set, h]

/-- The value that a symbol gets; `a` is the address of the next variable. -/
def symValue (m : List (Int × Int)) (labels : Labels) (a : Int) (s : Sym) : Option Int :=
  match s.kind with
  | .internal | .function | .internalId => some (at0 m s.segment + s.offset)
  | .bss => some a
  | .external => (labels (lowered s.name)).map fun v => (BitVec.ofInt 32 v).toInt

/-- One symbol. -/
theorem symStep_spec {m : List (Int × Int)} {p q : Placed} {s : Sym} (h : symStep m p s = some q) :
    q.addr = bssEnd p.addr [s] ∧ (q.ok = true → p.ok = true ∧ ∃ v, symValue m p.labels p.addr s = some v ∧
      (q.syms = if Numbered s then p.syms ++ [(s.id, v)] else p.syms) ∧
      (s.kind ≠ .external → q.labels (lowered s.name) = some v)) ∧
    (∀ x, (s.kind = .external ∨ x ≠ lowered s.name) → q.labels x = p.labels x) ∧
    (s.kind = .external → p.labels (lowered s.name) = none → q.ok = false) ∧ (p.ok = false → q.ok = false) := by
  unfold symStep at h
  cases hk : s.kind with
  | internal =>
    simp only [hk, bind, Option.bind_eq_some_iff, Option.some.injEq] at h
    obtain ⟨v, hv, rfl⟩ := h
    have := chk_some hv
    subst this
    simp [bssEnd, hk, symValue, Numbered, Labels.set_same]
    intro x hx; exact Labels.set_other _ hx _
  | function =>
    simp only [hk, bind, Option.bind_eq_some_iff, Option.some.injEq] at h
    obtain ⟨v, hv, rfl⟩ := h
    have := chk_some hv
    subst this
    simp [bssEnd, hk, symValue, Numbered, Labels.set_same]
    intro x hx; exact Labels.set_other _ hx _
  | internalId =>
    simp only [hk, bind, Option.bind_eq_some_iff, Option.some.injEq] at h
    obtain ⟨v, hv, rfl⟩ := h
    have := chk_some hv
    subst this
    simp [bssEnd, hk, symValue, Numbered, Labels.set_same]
    intro x hx; exact Labels.set_other _ hx _
  | bss =>
    simp only [hk, bind, Option.bind_eq_some_iff, Option.some.injEq] at h
    obtain ⟨v, hv, w, hw, rfl⟩ := h
    have h1 := chk_some hv
    have h2 := chk_some hw
    subst h1
    rw [up4_eq] at h2
    subst h2
    simp [bssEnd, hk, symValue, Numbered, Labels.set_same]
    intro x hx; exact Labels.set_other _ hx _
  | external =>
    simp only [hk] at h
    split at h
    · rename_i hn; cases h; simp [bssEnd, hk]
    · rename_i v hv; cases h; simp [bssEnd, hk, symValue, hv, Numbered]

theorem placeSyms_ok {m : List (Int × Int)} {l : List Sym} : ∀ {p q : Placed}, placeSyms m p l = some q → q.ok = true → p.ok = true := by
  induction l with
  | nil => intro p q h; cases h; exact id
  | cons s l ih =>
    intro p q h hq
    simp only [placeSyms, bind, Option.bind_eq_some_iff] at h
    obtain ⟨p1, h1, h2⟩ := h
    have h3 := ih h2 hq
    exact ((symStep_spec h1).2.1 h3).1

/-- All symbols. -/
theorem placeSyms_spec {m : List (Int × Int)} {l : List Sym} : ∀ {p q : Placed}, placeSyms m p l = some q → q.ok = true →
    (l.map fun s => lowered s.name).Nodup →
    q.addr = bssEnd p.addr l ∧ q.syms.map (·.1) = p.syms.map (·.1) ++ (l.filter (fun s => Numbered s)).map (·.id) ∧
    (∀ x ∈ p.syms, x ∈ q.syms) ∧
    (∀ x, (∀ s ∈ l, s.kind ≠ .external → x ≠ lowered s.name) → q.labels x = p.labels x) ∧
    ∀ k s, l[k]? = some s → ∃ v, symValue m p.labels (bssEnd p.addr (l.take k)) s = some v ∧
      (Numbered s → (s.id, v) ∈ q.syms) ∧ (s.kind ≠ .external → q.labels (lowered s.name) = some v) := by
  induction l with
  | nil => intro p q h _ _; cases h; simp [bssEnd]
  | cons s l ih =>
    intro p q h hq hn
    simp only [placeSyms, bind, Option.bind_eq_some_iff] at h
    obtain ⟨p1, h1, h2⟩ := h
    rw [List.map_cons, List.nodup_cons] at hn
    obtain ⟨hsn, hn⟩ := hn
    obtain ⟨a1, a2, a3, _, _⟩ := symStep_spec h1
    have hok := placeSyms_ok h2 hq
    obtain ⟨_, v, hv, hsyms, hlab⟩ := a2 hok
    obtain ⟨b1, b2, b3, b4, b5⟩ := ih h2 hq hn
    have haddr : p1.addr = if s.kind = .bss then next4 (p.addr + s.size) else p.addr := a1
    refine ⟨?_, ?_, ?_, ?_, ?_⟩
    · rw [b1, haddr, bssEnd]
    · rw [b2, hsyms, List.filter_cons]
      by_cases hN : Numbered s <;> simp [hN]
    · intro x hx
      apply b3
      rw [hsyms]
      split
      · exact List.mem_append_left _ hx
      · exact hx
    · intro x hx
      rw [b4 x fun t ht => hx t (List.mem_cons_of_mem _ ht)]
      apply a3
      by_cases he : s.kind = .external
      · exact .inl he
      · exact .inr (hx s (List.mem_cons_self ..) he)
    · intro k t ht
      cases k with
      | zero =>
        simp only [List.getElem?_cons_zero, Option.some.injEq] at ht
        subst ht
        refine ⟨v, hv, fun hN => ?_, fun he => ?_⟩
        · apply b3; rw [hsyms, if_pos hN]; simp
        · rw [b4 (lowered s.name) fun t ht _ hc => hsn (hc ▸ List.mem_map_of_mem (f := fun s => lowered s.name) ht)]
          exact hlab he
      | succ k =>
        rw [List.getElem?_cons_succ] at ht
        obtain ⟨w, hw, c1, c2⟩ := b5 k t ht
        refine ⟨w, ?_, c1, c2⟩
        rw [List.take_succ_cons, bssEnd, ← haddr, ← hw]
        have hmem := List.mem_of_getElem? ht
        unfold symValue
        cases t.kind with
        | external =>
          simp only
          rw [a3 _ (.inr fun hc => hsn (hc ▸ List.mem_map_of_mem (f := fun s => lowered s.name) hmem))]
        | _ => rfl

/-- A label that is missing. -/
theorem placeSyms_missing {m : List (Int × Int)} {l : List Sym} : ∀ {p q : Placed} {s : Sym}, placeSyms m p l = some q →
    (l.map fun s => lowered s.name).Nodup → s ∈ l → s.kind = .external → p.labels (lowered s.name) = none → q.ok = false := by
  intro p q s h hn hs hk hl
  cases hq : q.ok with
  | false => rfl
  | true =>
    obtain ⟨k, hk'⟩ := List.mem_iff_getElem?.1 hs
    obtain ⟨_, _, _, _, h5⟩ := placeSyms_spec h hq hn
    obtain ⟨v, hv, _⟩ := h5 k s hk'
    rw [symValue, hk] at hv
    simp only [hl, Option.map_none] at hv
    cases hv

/-! ### Copying -/

theorem copyTo_spec {out d out' : List Byte} {p : Int} (h : copyTo out p d = some out') :
    0 ≤ p ∧ p + d.length ≤ out.length ∧ out'.length = out.length ∧ (∀ i < d.length, out'[p.toNat + i]? = d[i]?) ∧
    ∀ i : Nat, ((i : Int) < p ∨ p + d.length ≤ i) → out'[i]? = out[i]? := by
  unfold copyTo at h
  split at h
  · rename_i hp
    cases h
    refine ⟨hp.1, hp.2, by simp; omega, fun i hi => ?_, fun i hi => ?_⟩
    · rw [List.append_assoc, List.getElem?_append_right (by simp; omega), List.length_take,
        show p.toNat + i - min p.toNat out.length = i by omega, List.getElem?_append_left hi]
    · by_cases h1 : (i : Int) < p
      · rw [List.append_assoc, List.getElem?_append_left (by simp; omega), List.getElem?_take_of_lt (by omega)]
      · rw [List.getElem?_append_right (by simp; omega)]
        simp only [List.length_append, List.length_take, List.getElem?_drop]
        congr 1
        omega
  · cases h

theorem relocSegment_length {m syms : List (Int × Int)} {s : Segment} {d : List Byte} {ok : Bool} {es : List String}
    (h : relocSegment m syms s = some (d, ok, es)) : d.length = s.data.length := by
  simp only [relocSegment, bind, Option.bind_eq_some_iff, Option.some.injEq, Prod.mk.injEq] at h
  obtain ⟨o, _, x, _, rfl, _⟩ := h
  generalize o.actions ++ x.actions = as
  generalize s.data = d
  induction as generalizing d with
  | nil => rfl
  | cons a as ih => rw [List.foldl_cons, ih, Elf.putWord_length]

theorem loadSegments_spec {m syms : List (Int × Int)} {start : Int} {l : List Segment} : ∀ {out out' : List Byte} {ok : Bool} {es : List String},
    loadSegments m syms start out l = some (out', ok, es) → l.Pairwise (fun s t => at0 m s.id + s.data.length ≤ at0 m t.id) →
    out'.length = out.length ∧
    (∀ i : Nat, (∀ s ∈ l, (i : Int) + start < at0 m s.id ∨ at0 m s.id + s.data.length ≤ i + start) → out'[i]? = out[i]?) ∧
    (∀ s ∈ l, start ≤ at0 m s.id ∧ ∃ d ok' es', relocSegment m syms s = some (d, ok', es') ∧ (ok = true → ok' = true) ∧
      ∀ i < d.length, out'[(at0 m s.id - start).toNat + i]? = d[i]?) := by
  induction l with
  | nil => intro out out' ok es h _; cases h; simp
  | cons s l ih =>
    intro out out' ok es h hp
    simp only [loadSegments, bind, Option.bind_eq_some_iff, Option.some.injEq, Prod.mk.injEq, Prod.exists] at h
    obtain ⟨d, ok1, es1, h1, out1, h2, out2, ok2, es2, h3, rfl, rfl, rfl⟩ := h
    obtain ⟨hp1, hp2⟩ := List.pairwise_cons.1 hp
    obtain ⟨c1, c2, c3, c4, c5⟩ := copyTo_spec h2
    obtain ⟨i1, i2, i3⟩ := ih h3 hp2
    have hlen := relocSegment_length h1
    refine ⟨by rw [i1, c3], fun i hi => ?_, fun t ht => ?_⟩
    · rw [i2 i fun t ht => hi t (List.mem_cons_of_mem _ ht)]
      apply c5
      have := hi s (List.mem_cons_self ..)
      omega
    · rcases List.mem_cons.1 ht with rfl | ht
      · refine ⟨by omega, d, ok1, es1, h1, fun ho => by simp only [Bool.and_eq_true] at ho; exact ho.1, fun i hi => ?_⟩
        rw [i2, c4 i hi]
        intro u hu
        have := hp1 u hu
        omega
      · obtain ⟨j1, d', ok', es', j2, j3, j4⟩ := i3 t ht
        exact ⟨j1, d', ok', es', j2, fun ho => by simp only [Bool.and_eq_true] at ho; exact j3 ho.2, j4⟩

end Armips.Psx
