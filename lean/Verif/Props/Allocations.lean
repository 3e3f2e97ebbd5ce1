import Verif.Model.Allocations
import Verif.Spec.Regions
/-!
# C18: blocks placed by `.autoregion`
-/
namespace Armips.Props
open Armips Armips.Alloc Armips.Spec

/-- Calls made on the allocator. -/
inductive AllocCall
  | setArea (file pos space usage : Int) (usesFill shared : Bool)
  | forgetArea (file pos space : Int)
  | allocate (file position minRange maxRange size : Int)
  | clearSubAreas

/-- Execution of a call together with the blocks handed out that are still in force: a new pass (`clearSubAreas`)
discards all of them, forgetting a region those inside it. -/
def AllocCall.exec (st : Alloc × List Block) : AllocCall → Alloc × List Block
  | .setArea f p s u uf sh => (st.1.setArea f p s u uf sh, st.2)
  | .forgetArea f p s => (st.1.forgetArea f p s, st.2.filter fun b => ¬ (b.file = f ∧ b.region = p))
  | .allocate f p mn mx s =>
    match st.1.allocateLoop f p mn mx s st.1.areas with
    | some (q, sub, _) => ((st.1.allocateSubArea f p mn mx s).1, st.2 ++ [⟨sub.key.file, sub.key.pos, q, s⟩])
    | none => ((st.1.allocateSubArea f p mn mx s).1, st.2)
  | .clearSubAreas => (st.1.clearSubAreas, [])

/-- State after a history of calls. -/
def allocRun (calls : List AllocCall) : Alloc × List Block := calls.foldl AllocCall.exec ({}, [])

private theorem foldl_max_ge (k : AreaKey) (l : List SubArea) (m : Int) :
    m ≤ l.foldl (fun m s => if s.key = k then max (s.offset + s.size) m else m) m := by
  induction l generalizing m with
  | nil => simp
  | cons s l ih =>
    simp only [List.foldl_cons]
    refine Int.le_trans ?_ (ih _)
    split <;> omega

private theorem foldl_max_mem (k : AreaKey) (l : List SubArea) (m : Int) (s : SubArea) (hs : s ∈ l) (hk : s.key = k) :
    s.offset + s.size ≤ l.foldl (fun m s => if s.key = k then max (s.offset + s.size) m else m) m := by
  induction l generalizing m with
  | nil => simp at hs
  | cons t l ih =>
    simp only [List.foldl_cons]
    rcases List.mem_cons.1 hs with rfl | hs
    · rw [if_pos hk]
      exact Int.le_trans (by omega) (foldl_max_ge k l _)
    · exact ih _ hs

private theorem maxExtent_mem (a : Alloc) (k : AreaKey) (s : SubArea) (hs : s ∈ a.subs) (hk : s.key = k) :
    s.offset + s.size ≤ a.maxExtent k := foldl_max_mem k a.subs 0 s hs hk

private theorem subAreaUsage_nonneg (a : Alloc) (k : AreaKey) : 0 ≤ a.subAreaUsage k := by
  unfold subAreaUsage
  simp only
  split <;> split <;> omega

private theorem mapGet_mem {α} (k : AreaKey) (l : List (AreaKey × α)) (v : α) (h : mapGet k l = some v) : (k, v) ∈ l := by
  induction l with
  | nil => simp [mapGet] at h
  | cons e l ih =>
    obtain ⟨k', v'⟩ := e
    simp only [mapGet] at h
    split at h
    · next hk => simp at h; simp [hk, h]
    · exact List.mem_cons_of_mem _ (ih h)

private theorem loop_some (a : Alloc) (f p mn mx s : Int) (l : List (AreaKey × Usage)) (r : Int × SubArea × Bool)
    (h : a.allocateLoop f p mn mx s l = some r) :
    ∃ k u, (k, u) ∈ l ∧ a.tryArea f p mn mx s k u = some r := by
  induction l with
  | nil => simp [allocateLoop] at h
  | cons e l ih =>
    obtain ⟨k, u⟩ := e
    simp only [allocateLoop] at h
    split at h
    · next r' hr => cases h; exact ⟨k, u, by simp, hr⟩
    · obtain ⟨k', u', hm, ht⟩ := ih h
      exact ⟨k', u', by simp [hm], ht⟩

private theorem loop_none (a : Alloc) (f p mn mx s : Int) (l : List (AreaKey × Usage))
    (h : a.allocateLoop f p mn mx s l = none) (k u) (hm : (k, u) ∈ l) : a.tryArea f p mn mx s k u = none := by
  induction l with
  | nil => simp at hm
  | cons e l ih =>
    obtain ⟨k', u'⟩ := e
    simp only [allocateLoop] at h
    split at h
    · simp at h
    · next hn =>
      rcases List.mem_cons.1 hm with he | hm
      · cases he; exact hn
      · exact ih h hm

/-- Everything an iteration that succeeds guarantees. -/
private theorem tryArea_some (a : Alloc) (f p mn mx s : Int) (k : AreaKey) (u : Usage) (q : Int) (sub : SubArea) (kept : Bool)
    (h : a.tryArea f p mn mx s k u = some (q, sub, kept)) :
    k.file = f ∧ u.shared = true ∧ sub.key = k ∧ sub.offset = u.usage + a.subAreaUsage k ∧
    k.pos + (u.usage + a.subAreaUsage k) ≤ q ∧ q + s = k.pos + (sub.offset + sub.size) ∧ q + s ≤ k.pos + u.space ∧
    (mn ≠ -1 → mn ≤ q) ∧ (mx ≠ -1 → q ≤ mx ∨ (a.keepPositions = true ∧ q = p)) := by
  unfold tryArea at h
  split at h
  · simp at h
  next h1 =>
  split at h
  · simp at h
  split at h
  · simp at h
  simp only at h
  split at h
  · simp at h
  split at h
  · simp at h
  have h1' : k.file = f ∧ u.shared = true := by simpa using h1
  split at h
  · split at h
    · next hk _ =>
      simp only [Option.some.injEq, Prod.mk.injEq] at h
      obtain ⟨rfl, rfl, rfl⟩ := h
      refine ⟨h1'.1, h1'.2, rfl, rfl, by omega, by simp only; omega, by omega, by omega, fun _ => Or.inr ⟨hk.1, rfl⟩⟩
    · simp at h
  · split at h
    · simp only [Option.some.injEq, Prod.mk.injEq] at h
      obtain ⟨rfl, rfl, rfl⟩ := h
      refine ⟨h1'.1, h1'.2, rfl, rfl, by omega, by simp only; omega, by omega, by omega, fun _ => Or.inl (by omega)⟩
    · simp at h

private theorem exec_state (a : Alloc) (l : List Block) (f p mn mx s : Int) :
    (AllocCall.exec (a, l) (.allocate f p mn mx s)).1 = (a.allocateSubArea f p mn mx s).1 := by
  simp only [AllocCall.exec]
  split <;> rfl

/-- **C18.** A block that is handed out lies inside the space of one shared region of its file, behind the region's own
content. -/
theorem block_inside_region (a a' : Alloc) (file position minRange maxRange size q : Int)
    (h : a.allocateSubArea file position minRange maxRange size = (a', some q)) :
    ∃ region u, (AreaKey.mk file region, u) ∈ a.areas ∧ u.shared = true ∧
      region + u.usage ≤ q ∧ q + size ≤ region + u.space := by
  unfold allocateSubArea at h
  split at h
  · next p s kept hl =>
    simp only [Prod.mk.injEq, Option.some.injEq] at h
    obtain ⟨_, rfl⟩ := h
    obtain ⟨k, u, hm, ht⟩ := loop_some _ _ _ _ _ _ _ _ hl
    obtain ⟨h1, h2, _, _, h5, _, h7, _, _⟩ := tryArea_some _ _ _ _ _ _ _ _ _ _ _ ht
    have := subAreaUsage_nonneg a k
    refine ⟨k.pos, u, ?_, h2, by omega, h7⟩
    rw [← h1]; exact hm
  · simp at h

/-- The blocks in force are covered by the recorded sub areas. -/
private def Covered (st : Alloc × List Block) : Prop :=
  ∀ b ∈ st.2, ∃ s ∈ st.1.subs, s.key = ⟨b.file, b.region⟩ ∧ b.stop ≤ b.region + (s.offset + s.size)

private theorem covered_exec (st : Alloc × List Block) (h : Covered st) (c : AllocCall) : Covered (c.exec st) := by
  obtain ⟨a, l⟩ := st
  cases c with
  | setArea f p s u uf sh => exact h
  | forgetArea f p s =>
    intro b hb
    simp only [AllocCall.exec, List.mem_filter] at hb
    obtain ⟨s', hs', hk, hle⟩ := h b hb.1
    refine ⟨s', ?_, hk, hle⟩
    simp only [AllocCall.exec, forgetArea, List.mem_filter]
    refine ⟨hs', ?_⟩
    have := hb.2
    rw [hk]
    simpa using this
  | clearSubAreas => intro b hb; simp [AllocCall.exec] at hb
  | allocate f p mn mx s =>
    intro b hb
    simp only [AllocCall.exec] at hb ⊢
    split at hb
    · next q sub kept hl =>
      obtain ⟨k, u, hm, ht⟩ := loop_some _ _ _ _ _ _ _ _ hl
      obtain ⟨h1, h2, h3, h4, h5, h6, h7, _, _⟩ := tryArea_some _ _ _ _ _ _ _ _ _ _ _ ht
      simp only [allocateSubArea, hl]
      simp only [List.mem_append, List.mem_singleton] at hb ⊢
      rcases hb with hb | hb
      · obtain ⟨s', hs', r⟩ := h b hb
        exact ⟨s', Or.inl hs', r⟩
      · refine ⟨sub, Or.inr rfl, by rw [hb], ?_⟩
        rw [hb]
        simp only [Block.stop, h3]
        omega
    · next hl =>
      simp only [allocateSubArea, hl]
      exact h b hb

private theorem covered_run (calls : List AllocCall) : Covered (allocRun calls) := by
  have : ∀ st, Covered st → Covered (calls.foldl AllocCall.exec st) := by
    induction calls with
    | nil => exact fun _ h => h
    | cons c cs ih => exact fun st h => ih _ (covered_exec st h c)
  exact this _ (by intro b hb; simp at hb)

private theorem covered_extent {a : Alloc} {l : List Block} (h : Covered (a, l)) {b : Block} (hb : b ∈ l) :
    b.stop ≤ b.region + a.maxExtent ⟨b.file, b.region⟩ := by
  obtain ⟨s, hs, hk, hle⟩ := h b hb
  have := maxExtent_mem a _ s hs hk
  omega

private theorem usage_ge_extent (a : Alloc) (k : AreaKey) (u : Usage) (h : mapGet k a.areas = some u) :
    a.maxExtent k ≤ u.usage + a.subAreaUsage k := by
  unfold subAreaUsage
  simp only [h]
  split <;> omega

/-! Keys occur once in the list, so looking one up finds the usage of the iteration. -/

private theorem lt_irrefl (k : AreaKey) : k.lt k = false := by simp [AreaKey.lt]

private theorem lt_trans {a b c : AreaKey} (h1 : a.lt b = true) (h2 : b.lt c = true) : a.lt c = true := by
  simp only [AreaKey.lt, Bool.or_eq_true, decide_eq_true_eq, Bool.and_eq_true, beq_iff_eq] at *
  omega

private theorem lt_total {a b : AreaKey} (h : a ≠ b) (h1 : a.lt b ≠ true) : b.lt a = true := by
  simp only [AreaKey.lt, Bool.or_eq_true, decide_eq_true_eq, Bool.and_eq_true, beq_iff_eq] at *
  have : a.file ≠ b.file ∨ a.pos ≠ b.pos := by
    rcases a with ⟨af, ap⟩; rcases b with ⟨bf, bp⟩
    simp only [ne_eq, AreaKey.mk.injEq] at h ⊢
    omega
  rcases Int.lt_trichotomy a.file b.file with h2 | h2 | h2
  · exact absurd (by simp [h2]) h1
  · refine Or.inr ⟨h2.symm, ?_⟩
    have : ¬ a.pos < b.pos := fun h3 => h1 (by simp [h2, h3])
    omega
  · exact Or.inl h2

private def Sorted {α} (l : List (AreaKey × α)) : Prop := l.Pairwise fun x y => x.1.lt y.1 = true

private theorem mem_mapSet {α} (k : AreaKey) (v : α) (l : List (AreaKey × α)) (e) (h : e ∈ mapSet k v l) :
    e = (k, v) ∨ e ∈ l := by
  induction l with
  | nil => simpa [mapSet] using h
  | cons x l ih =>
    obtain ⟨k', v'⟩ := x
    simp only [mapSet] at h
    split at h
    · rcases List.mem_cons.1 h with h | h
      · exact Or.inl h
      · exact Or.inr (by simp [h])
    · split at h
      · rcases List.mem_cons.1 h with h | h
        · exact Or.inl h
        · exact Or.inr h
      · rcases List.mem_cons.1 h with h | h
        · exact Or.inr (by simp [h])
        · rcases ih h with h | h
          · exact Or.inl h
          · exact Or.inr (by simp [h])

private theorem sorted_mapSet {α} (k : AreaKey) (v : α) (l : List (AreaKey × α)) (h : Sorted l) : Sorted (mapSet k v l) := by
  induction l with
  | nil => simp [mapSet, Sorted]
  | cons x l ih =>
    obtain ⟨k', v'⟩ := x
    obtain ⟨hx, hl⟩ := List.pairwise_cons.1 h
    simp only [mapSet]
    split
    · next hk => subst hk; exact List.pairwise_cons.2 ⟨hx, hl⟩
    · next hk =>
      split
      · next hlt =>
        refine List.pairwise_cons.2 ⟨?_, h⟩
        intro y hy
        rcases List.mem_cons.1 hy with rfl | hy
        · exact hlt
        · exact lt_trans hlt (hx y hy)
      · next hlt =>
        refine List.pairwise_cons.2 ⟨?_, ih hl⟩
        intro y hy
        rcases mem_mapSet _ _ _ _ hy with rfl | hy
        · exact lt_total hk hlt
        · exact hx y hy

private theorem mapGet_of_mem {α} (k : AreaKey) (v : α) (l : List (AreaKey × α)) (h : Sorted l) (hm : (k, v) ∈ l) :
    mapGet k l = some v := by
  induction l with
  | nil => simp at hm
  | cons x l ih =>
    obtain ⟨k', v'⟩ := x
    obtain ⟨hx, hl⟩ := List.pairwise_cons.1 h
    simp only [mapGet]
    rcases List.mem_cons.1 hm with he | hm'
    · cases he; simp
    · split
      · next hk =>
        have := hx (k, v) hm'
        subst hk
        simp [lt_irrefl] at this
      · exact ih hl hm'

private theorem sorted_exec (st : Alloc × List Block) (h : Sorted st.1.areas) (c : AllocCall) :
    Sorted (c.exec st).1.areas := by
  obtain ⟨a, l⟩ := st
  cases c with
  | setArea f p s u uf sh => exact sorted_mapSet _ _ _ h
  | forgetArea f p s =>
    simp only [AllocCall.exec, forgetArea]
    split
    · split
      · exact List.Pairwise.filter _ h
      · exact h
    · exact h
  | clearSubAreas => exact h
  | allocate f p mn mx s =>
    rw [exec_state]
    unfold allocateSubArea
    split <;> exact h

private theorem sorted_run (calls : List AllocCall) : Sorted (allocRun calls).1.areas := by
  have : ∀ st : Alloc × List Block, Sorted st.1.areas → Sorted (calls.foldl AllocCall.exec st).1.areas := by
    induction calls with
    | nil => exact fun _ h => h
    | cons c cs ih => exact fun st h => ih _ (sorted_exec st h c)
  exact this _ (by simp [Sorted])

private def Ordered (l : List Block) : Prop := l.Pairwise fun x y => x.sameRegion y → x.stop ≤ y.position

private theorem ordered_exec (st : Alloc × List Block) (h : Ordered st.2) (hc : Covered st) (hs : Sorted st.1.areas)
    (c : AllocCall) : Ordered (c.exec st).2 := by
  obtain ⟨a, l⟩ := st
  cases c with
  | setArea f p s u uf sh => exact h
  | forgetArea f p s => exact List.Pairwise.filter _ h
  | clearSubAreas => simp [AllocCall.exec, Ordered]
  | allocate f p mn mx s =>
    simp only [AllocCall.exec]
    split
    · next q sub kept hl =>
      obtain ⟨k, u, hm, ht⟩ := loop_some _ _ _ _ _ _ _ _ hl
      obtain ⟨h1, h2, h3, h4, h5, h6, h7, _, _⟩ := tryArea_some _ _ _ _ _ _ _ _ _ _ _ ht
      simp only [Ordered]
      rw [List.pairwise_append]
      refine ⟨h, by simp, ?_⟩
      intro x hx y hy hsame
      simp only [List.mem_singleton] at hy
      subst hy
      have hxe := covered_extent hc hx
      have hkey : (⟨x.file, x.region⟩ : AreaKey) = k := by
        rw [hsame.1, hsame.2, h3]
      have hg := usage_ge_extent a k u (mapGet_of_mem _ _ _ hs hm)
      rw [hkey] at hxe
      have hr : x.region = k.pos := by rw [hsame.2, h3]
      simp only
      omega
    · exact h

/-- **C18.** After any history of calls, two blocks in force in the same region do not overlap: the one handed out
earlier ends before the other starts. -/
theorem blocks_ordered (calls : List AllocCall) :
    (allocRun calls).2.Pairwise fun x y => x.sameRegion y → x.stop ≤ y.position := by
  have : ∀ st : Alloc × List Block, Ordered st.2 → Covered st → Sorted st.1.areas →
      Ordered (calls.foldl AllocCall.exec st).2 := by
    induction calls with
    | nil => exact fun _ h _ _ => h
    | cons c cs ih =>
      exact fun st h hc hs => ih _ (ordered_exec st h hc hs c) (covered_exec st hc c) (sorted_exec st hs c)
  exact this _ (by simp [Ordered]) (by intro b hb; simp at hb) (by simp [Sorted])

/-- **C18.** Hence blocks in force in the same region share no address. -/
theorem blocks_disjoint (calls : List AllocCall) :
    (allocRun calls).2.Pairwise fun x y => x.sameRegion y → x.disjoint y := by
  refine (blocks_ordered calls).imp ?_
  intro x y h hs v hv
  have := h hs
  omega

/-- **C18.** The padding of a filled region, which starts behind `usage + getSubAreaUsage`, spares every block in force
in it. -/
theorem fill_spares_blocks (calls : List AllocCall) (b : Block) (hb : b ∈ (allocRun calls).2) (u : Usage)
    (hu : (AreaKey.mk b.file b.region, u) ∈ (allocRun calls).1.areas) :
    b.stop ≤ b.region + u.usage + (allocRun calls).1.subAreaUsage ⟨b.file, b.region⟩ := by
  have h1 := covered_extent (a := (allocRun calls).1) (l := (allocRun calls).2) (covered_run calls) hb
  have h2 := usage_ge_extent _ _ _ (mapGet_of_mem _ _ _ (sorted_run calls) hu)
  omega

/-- **C18.** The start of a block respects the lower bound; it respects the upper bound unless it is the address the
block already had in the previous pass. Missing for the full property: the upper bound in that case, see
`kept_block_out_of_range`. -/
theorem block_in_range_partial (a a' : Alloc) (file position minRange maxRange size q : Int)
    (h : a.allocateSubArea file position minRange maxRange size = (a', some q)) :
    bounded minRange (minRange ≤ q) ∧
    (bounded maxRange (q ≤ maxRange) ∨ (a.keepPositions = true ∧ q = position)) := by
  unfold allocateSubArea at h
  split at h
  · next p s kept hl =>
    simp only [Prod.mk.injEq, Option.some.injEq] at h
    obtain ⟨_, rfl⟩ := h
    obtain ⟨k, u, hm, ht⟩ := loop_some _ _ _ _ _ _ _ _ hl
    obtain ⟨_, _, _, _, _, _, _, h8, h9⟩ := tryArea_some _ _ _ _ _ _ _ _ _ _ _ ht
    unfold bounded
    refine ⟨?_, ?_⟩
    · by_cases e : minRange = -1
      · exact Or.inl e
      · exact Or.inr (h8 e)
    · by_cases e : maxRange = -1
      · exact Or.inl (Or.inl e)
      · rcases h9 e with h | h
        · exact Or.inl (Or.inr h)
        · exact Or.inr h
  · simp at h

/-- **C18.** The first pass with positions to keep comes after a pass without failure; in a pass that keeps nothing the
upper bound always holds. -/
theorem block_in_range_fresh (a a' : Alloc) (file position minRange maxRange size q : Int)
    (hk : a.keepPositions = false ∨ bounded maxRange (position ≤ maxRange))
    (h : a.allocateSubArea file position minRange maxRange size = (a', some q)) :
    bounded minRange (minRange ≤ q) ∧ bounded maxRange (q ≤ maxRange) := by
  obtain ⟨h1, h2 | ⟨h3, h4⟩⟩ := block_in_range_partial a a' _ _ _ _ _ _ h
  · exact ⟨h1, h2⟩
  · rcases hk with hk | hk
    · rw [hk] at h3; cases h3
    · subst h4; exact ⟨h1, hk⟩

/-- **C18 is violated**: a block that keeps its address may lie above the requested upper bound although there is room
below it. Pass one places 50 and 4 bytes; in pass two the first block shrinks and the second one is limited to
addresses up to 20, but stays at 50. -/
theorem kept_block_out_of_range : ∃ calls : List AllocCall, ∃ a',
    (allocRun calls).1.allocateSubArea 1 50 (-1) 20 4 = (a', some 50) := by
  refine ⟨[.setArea 1 0 100 0 false true, .allocate 1 (-1) (-1) (-1) 50, .allocate 1 (-1) (-1) (-1) 4, .clearSubAreas,
    .allocate 1 0 (-1) (-1) 10], _, by with_unfolding_all rfl⟩

/-- **C18.** An allocation only fails if no shared region of the file has room within the range. -/
theorem allocation_complete (a a' : Alloc) (file position minRange maxRange size : Int) (hsize : 0 ≤ size)
    (h : a.allocateSubArea file position minRange maxRange size = (a', none)) (region : Int) (u : Usage)
    (hu : (AreaKey.mk file region, u) ∈ a.areas) (hs : u.shared = true) (hus : 0 ≤ u.usage) :
    let start := region + u.usage + a.subAreaUsage ⟨file, region⟩
    ¬ (bounded minRange (minRange ≤ start) ∧ bounded maxRange (start ≤ maxRange) ∧ start + size ≤ region + u.space) := by
  intro start ⟨h1, h2, h3⟩
  unfold allocateSubArea at h
  split at h
  · simp at h
  · next hl =>
    have ht := loop_none _ _ _ _ _ _ _ hl _ _ hu
    have hn := subAreaUsage_nonneg a ⟨file, region⟩
    unfold bounded at h1 h2
    unfold tryArea at ht
    simp only [ne_eq, not_true_eq_false, hs, Bool.not_true, Bool.false_eq_true, or_self, if_false] at ht
    rw [if_neg (by omega), if_neg (by omega), if_neg (by omega), if_neg (by omega)] at ht
    split at ht
    · rw [if_pos (by omega)] at ht; cases ht
    · rw [if_pos (by omega)] at ht; cases ht

/-- **C17.** A failed allocation makes the next pass place every block afresh, without keeping old positions. -/
theorem failure_discards_positions (a a' : Alloc) (file position minRange maxRange size : Int)
    (h : a.allocateSubArea file position minRange maxRange size = (a', none)) :
    a'.clearSubAreas.keepPositions = false ∧ a'.subs = a.subs ∧ a'.areas = a.areas := by
  unfold allocateSubArea at h
  split at h
  · simp at h
  · simp only [Prod.mk.injEq, and_true] at h
    subst h
    exact ⟨rfl, rfl, rfl⟩

/-- The bytes an area has used: its own content and the blocks placed in it. -/
def used (a : Alloc) (e : AreaKey × Usage) : Int := e.2.usage + a.subAreaUsage e.1

private theorem overlapStep_warnings (a : Alloc) (acc) (e) :
    (a.overlapStep acc e).2.2.2 = [] → acc.2.2.2 = [] := by
  obtain ⟨lk, le, lu, w⟩ := acc
  obtain ⟨k, u⟩ := e
  unfold overlapStep
  simp only
  split
  · split <;> (simp only; split <;> (try split) <;> simp)
  · exact id

private theorem foldl_overlap_warnings (a : Alloc) (l : List (AreaKey × Usage)) (acc) :
    (l.foldl a.overlapStep acc).2.2.2 = [] → acc.2.2.2 = [] := by
  induction l generalizing acc with
  | nil => exact id
  | cons e l ih => exact fun h => overlapStep_warnings a acc e (ih _ h)

private theorem overlap_fold (a : Alloc) (l seen : List (AreaKey × Usage)) (lk : AreaKey) (le : Int) (lu : Usage)
    (hs : Sorted (seen ++ l)) (hfit : ∀ e ∈ seen ++ l, 0 ≤ used a e ∧ used a e ≤ e.2.space)
    (hlast : ∀ e ∈ seen, e.1.file = lk.file → e.1.pos + used a e ≤ lk.pos + lu.usage)
    (hend : lk.pos + lu.usage ≤ le)
    (hfile : ∀ e ∈ seen, e.1.file ≤ lk.file)
    (hlk : (∃ u, (lk, u) ∈ seen) ∨ (seen = [] ∧ ∀ e ∈ l, e.1.file ≠ lk.file))
    (hw : (l.foldl a.overlapStep (lk, le, lu, [])).2.2.2 = [])
    (hseen : ∀ x ∈ seen, ∀ y ∈ seen, x.1.file = y.1.file → x.1.pos < y.1.pos → x.1.pos + used a x ≤ y.1.pos) :
    ∀ x ∈ seen ++ l, ∀ y ∈ seen ++ l, x.1.file = y.1.file → x.1.pos < y.1.pos → x.1.pos + used a x ≤ y.1.pos := by
  induction l generalizing seen lk le lu with
  | nil => simpa using hseen
  | cons e l ih =>
    obtain ⟨k, u⟩ := e
    have hassoc : seen ++ (k, u) :: l = (seen ++ [(k, u)]) ++ l := by simp
    rw [List.foldl_cons] at hw
    have hw1 := foldl_overlap_warnings a l _ hw
    have hlt : ∀ x ∈ seen, x.1.lt k = true := by
      intro x hx
      exact (List.pairwise_append.1 hs).2.2 x hx (k, u) (by simp)
    have hfk := hfit (k, u) (by simp)
    unfold used at hfk
    simp only at hfk
    -- every earlier area of the file of `k` ends before `k`
    have hbefore : ∀ x ∈ seen, x.1.file = k.file → x.1.pos + used a x ≤ k.pos := by
      intro x hx hf
      have hxk := hlt x hx
      by_cases hlf : k.file = lk.file
      · have h2 := hlast x hx (by omega)
        have h1 : lk.pos < k.pos := by
          rcases hlk with ⟨lu', hm⟩ | ⟨rfl, _⟩
          · have h3 := hlt _ hm
            simp only [AreaKey.lt, Bool.or_eq_true, decide_eq_true_eq, Bool.and_eq_true, beq_iff_eq] at h3
            omega
          · simp at hx
        by_cases hin : k.pos < le
        · have hc : k.file = lk.file ∧ k.pos > lk.pos ∧ k.pos < le := ⟨hlf, by omega, hin⟩
          unfold overlapStep at hw1
          simp only [if_pos hc] at hw1
          by_cases hu : k.pos < lk.pos + lu.usage
          · exfalso
            simp only [if_pos hu] at hw1
            split at hw1 <;> simp at hw1
          · omega
        · omega
      · exfalso
        rcases hlk with ⟨lu', hm⟩ | ⟨rfl, _⟩
        · have h3 := hlt _ hm
          have h4 := hfile x hx
          simp only [AreaKey.lt, Bool.or_eq_true, decide_eq_true_eq, Bool.and_eq_true, beq_iff_eq] at h3
          omega
        · simp at hx
    have hseen' : ∀ x ∈ seen ++ [(k, u)], ∀ y ∈ seen ++ [(k, u)], x.1.file = y.1.file → x.1.pos < y.1.pos →
        x.1.pos + used a x ≤ y.1.pos := by
      intro x hx y hy hf hp
      simp only [List.mem_append, List.mem_singleton] at hx hy
      rcases hx with hx | rfl
      · rcases hy with hy | rfl
        · exact hseen x hx y hy hf hp
        · exact hbefore x hx hf
      · rcases hy with hy | rfl
        · have := hlt y hy
          simp only [AreaKey.lt, Bool.or_eq_true, decide_eq_true_eq, Bool.and_eq_true, beq_iff_eq] at this
          simp only at hf hp
          omega
        · simp at hp
    rw [hassoc] at hs hfit ⊢
    have hlkle : ∀ x ∈ seen, x.1.file ≤ k.file := by
      intro x hx
      have := hlt x hx
      simp only [AreaKey.lt, Bool.or_eq_true, decide_eq_true_eq, Bool.and_eq_true, beq_iff_eq] at this
      omega
    have fresh : (l.foldl a.overlapStep (k, k.pos + u.space, { u with usage := u.usage + a.subAreaUsage k }, [])).2.2.2 = [] →
        ∀ x ∈ (seen ++ [(k, u)]) ++ l, ∀ y ∈ (seen ++ [(k, u)]) ++ l, x.1.file = y.1.file → x.1.pos < y.1.pos →
          x.1.pos + used a x ≤ y.1.pos := by
      intro hw
      refine ih (seen ++ [(k, u)]) k _ _ hs hfit ?_ (by simp only; omega) ?_ (.inl ⟨u, by simp⟩) hw hseen'
      · intro x hx hf
        simp only [List.mem_append, List.mem_singleton] at hx
        rcases hx with hx | rfl
        · have h1 := hbefore x hx hf
          simp only
          omega
        · simp [used]
      · intro x hx
        simp only [List.mem_append, List.mem_singleton] at hx
        rcases hx with hx | rfl
        · exact hlkle x hx
        · exact Int.le_refl _
    unfold overlapStep at hw hw1
    simp only at hw hw1
    split at hw
    · next hc =>
      rw [if_pos hc] at hw1
      split at hw
      · next hin =>
        rw [if_pos hin] at hw1
        simp only at hw1
        rw [hw1] at hw
        refine ih (seen ++ [(k, u)]) lk _ _ hs hfit ?_ (by simp only; omega) ?_ ?_ hw hseen'
        · intro x hx hf
          simp only [List.mem_append, List.mem_singleton] at hx
          rcases hx with hx | rfl
          · have h1 := hbefore x hx (by omega)
            simp only
            omega
          · simp only [used]; omega
        · intro x hx
          simp only [List.mem_append, List.mem_singleton] at hx
          rcases hx with hx | rfl
          · exact hfile x hx
          · exact Int.le_of_eq hc.1
        · rcases hlk with ⟨lu', hm⟩ | ⟨rfl, h⟩
          · exact .inl ⟨lu', by simp [hm]⟩
          · exact absurd hc.1 (h (k, u) (by simp))
      · next hin =>
        rw [if_neg hin] at hw1
        simp only at hw1
        rw [hw1] at hw
        exact fresh hw
    · exact fresh hw

/-- **C17.** After a history of calls: if no overlap is reported, then no area reaches into one that starts later in the
same file, provided each area's contents fit into it (otherwise the area is reported as overflowing). -/
theorem no_overlap_reported (calls : List AllocCall) :
    let a := (allocRun calls).1
    a.overlaps = [] → (∀ e ∈ a.areas, 0 ≤ e.1.file ∧ 0 ≤ used a e ∧ used a e ≤ e.2.space) →
    ∀ x ∈ a.areas, ∀ y ∈ a.areas, x.1.file = y.1.file → x.1.pos < y.1.pos → x.1.pos + used a x ≤ y.1.pos := by
  intro a h hfit
  refine overlap_fold a a.areas [] ⟨-1, -1⟩ (-1) ⟨0, 0, false, false⟩ (sorted_run calls) (fun e he => (hfit e he).2) (by simp)
    (by decide) (by simp) (.inr ⟨rfl, fun e he => ?_⟩) h (by simp)
  have := (hfit e he).1
  simp only
  omega

-- an area of 32 bytes with 8 used, and one of 16 bytes starting behind the used part
example : let a := (allocRun [.setArea 1 0 32 8 true false, .setArea 1 8 16 16 false false]).1
    a.overlaps = [] ∧ ∀ e ∈ a.areas, 0 ≤ e.1.file ∧ 0 ≤ used a e ∧ used a e ≤ e.2.space := by decide +kernel
-- one byte more in the first area is reported
example : (allocRun [.setArea 1 0 32 9 true false, .setArea 1 8 16 16 false false]).1.overlaps = [(0, 8, false)] := by
  decide +kernel

-- two blocks in one region, with an own content of 16 bytes
example : (allocRun [.setArea 1 0x1000 0x100 16 true true, .allocate 1 (-1) (-1) (-1) 8,
    .allocate 1 (-1) 0x1010 0x1080 4]).2 = [⟨1, 0x1000, 0x1010, 8⟩, ⟨1, 0x1000, 0x1018, 4⟩] := by
  with_unfolding_all rfl
-- a region that is full
example : ((allocRun [.setArea 1 0 20 16 true true]).1.allocateSubArea 1 (-1) (-1) (-1) 8).2 = none := by
  with_unfolding_all rfl

end Armips.Props
