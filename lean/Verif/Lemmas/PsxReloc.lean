import Verif.Lemmas.PsxPlace
import Verif.Props.ElfMips
/-! The relocations of a segment are those of a section of an ELF file with made-up symbols. -/
namespace Armips.Psx
open Armips.Elf (getWord copyTo inInt offsetOf mips mipsStep RelocData Hi16 Outcome)
open Armips.Spec.Psx (Separate SameRef Distinct Numbered Refers SymbolAt SegmentAt ready segAddress segEnd bssEnd wordAt)

/-- The address that a relocation means, as the code computes it. -/
def target (m syms : List (Int × Int)) (r : Reloc) : Int :=
  match r.ref with
  | .symbol => at0 syms r.id + r.rel
  | .segment => at0 m r.id + r.pos + r.rel

theorem relocData_some {m syms : List (Int × Int)} {d : List Byte} {r : Reloc} {x : RelocData} (h : relocData m syms d r = some x) :
    0 ≤ r.offset ∧ x = ⟨r.offset, target m syms r, getWord .little d r.offset.toNat, 0, 0, 0⟩ ∧ -2 ^ 31 ≤ target m syms r := by
  unfold relocData at h
  split at h
  · cases h
  · rename_i ho
    refine ⟨by omega, ?_⟩
    unfold target
    cases hr : r.ref with
    | symbol =>
      simp only [hr, bind, Option.bind_eq_some_iff, Option.some.injEq] at h
      obtain ⟨b, hb, rfl⟩ := h
      have := chk_some hb
      subst this
      refine ⟨rfl, ?_⟩
      unfold chk inInt at hb
      split at hb
      · rename_i hi; rw [decide_eq_true_eq] at hi; exact hi.1
      · cases hb
    | segment =>
      simp only [hr, bind, Option.bind_eq_some_iff, Option.some.injEq] at h
      obtain ⟨b, hb, c, hc, rfl⟩ := h
      have := chk_some hb
      subst this
      have := chk_some hc
      subst this
      refine ⟨rfl, ?_⟩
      unfold chk inInt at hc
      split at hc
      · rename_i hi; rw [decide_eq_true_eq] at hi; exact hi.1
      · cases hc

/-- The relocation in an ELF file. -/
def toRel (m syms : List (Int × Int)) (r : Reloc) : Elf.Rel := ⟨r.offset.toNat, r.kind.mips, (target m syms r + 2 ^ 33).toNat + 1, 0⟩

/-- The ELF file: symbol `n` has the value `n - 1` in section 1. -/
def elfFile : Elf.File := ⟨.little, [], fun n => ⟨none, n - 1, 0, 0, 1⟩, []⟩

/-- The sections: this one at 0, section 1 far below. -/
def elfMap : List (Nat × Int) := [(1, -2 ^ 33)]

/-- No labels. -/
def noLabels (_ : String) : Option Elf.Ext := none

/-- The section. -/
def elfSection (m syms : List (Int × Int)) (s : Segment) : Elf.Section := ⟨0, 0, 1, false, s.data, s.relocs.map (toRel m syms)⟩

theorem offsetOf0 : offsetOf elfMap 0 = 0 := rfl
theorem offsetOf1 : offsetOf elfMap 1 = -2 ^ 33 := rfl

theorem relocData_elf {m syms : List (Int × Int)} {s : Segment} {r : Reloc} {x : RelocData} (h : relocData m syms s.data r = some x) :
    Elf.relocData mips elfFile noLabels elfMap (elfSection m syms s) (toRel m syms r) = .ok x := by
  obtain ⟨h1, rfl, h3⟩ := relocData_some h
  unfold Elf.relocData
  simp only [toRel, Nat.add_one_ne_zero, if_false, elfFile, elfSection, mips, offsetOf0, offsetOf1, Nat.one_ne_zero, Nat.add_sub_cancel,
    Except.ok.injEq, RelocData.mk.injEq, and_true]
  omega

theorem relocLoop_ok {M : Elf.Machine} {f : Elf.File} {ext : String → Option Elf.Ext} {n : List (Nat × Int)} {s : Elf.Section} {q : M.State}
    {r : Elf.Rel} {l : List Elf.Rel} {d : RelocData} {x : Elf.Step M.State} {o : Outcome M.State} (h1 : M.dummy r.type = false)
    (h2 : Elf.relocData M f ext n s r = .ok d) (h3 : M.step r.type d q = some x) (h4 : Elf.relocLoop M f ext n s x.state l = some o) :
    Elf.relocLoop M f ext n s q (r :: l) =
      some { o with ok := x.ok && o.ok, actions := x.actions ++ o.actions, errors := (if x.ok then [] else x.errors) ++ o.errors } := by
  rw [Elf.relocLoop, if_neg (by rw [h1]; decide), h2]
  simp only [h3, h4, bind, Option.bind_some]

theorem relocLoop_elf {m syms : List (Int × Int)} {s : Segment} {l : List Reloc} : ∀ {q : List Hi16} {o : Outcome (List Hi16)},
    relocLoop m syms s.data q l = some o →
    Elf.relocLoop mips elfFile noLabels elfMap (elfSection m syms s) q (l.map (toRel m syms)) = some o := by
  induction l with
  | nil => intro q o h; exact h
  | cons r l ih =>
    intro q o h
    simp only [relocLoop, bind, Option.bind_eq_some_iff, Option.some.injEq] at h
    obtain ⟨x, hx, st, hst, o', ho, rfl⟩ := h
    exact relocLoop_ok (M := mips) (q := q) (r := toRel m syms r) rfl (relocData_elf hx) hst (ih ho)

theorem relocSegment_elf {m syms : List (Int × Int)} {s : Segment} {d : List Byte} {ok : Bool} {es : List String}
    (h : relocSegment m syms s = some (d, ok, es)) :
    ∃ o, Elf.relocSection mips elfFile noLabels elfMap (elfSection m syms s) [] = some (d, o) ∧ o.ok = ok ∧ o.errors = es := by
  simp only [relocSegment, bind, Option.bind_eq_some_iff, Option.some.injEq, Prod.mk.injEq] at h
  obtain ⟨o, ho, x, hx, rfl, rfl, rfl⟩ := h
  refine ⟨⟨o.ok && x.ok, x.state, o.actions ++ x.actions, o.errors ++ (if x.ok then [] else x.errors), o.warnings⟩, ?_, rfl, rfl⟩
  have e1 : Elf.relocLoop mips elfFile noLabels elfMap (elfSection m syms s) ([] : List Hi16) (elfSection m syms s).rels = some o := relocLoop_elf ho
  have e2 : mips.finish o.state = some x := hx
  unfold Elf.relocSection
  rw [e1]
  show (mips.finish o.state).bind _ = _
  rw [e2]
  show some _ = some _
  congr 2
  show List.foldl (fun d (a : Elf.Action) => Elf.putWord elfFile.endian d (a.offset - 0) a.value) _ _ = _
  simp only [Int.sub_zero]
  rfl

theorem relocLoop_data {m syms : List (Int × Int)} {d : List Byte} {l : List Reloc} : ∀ {q : List Hi16} {o : Outcome (List Hi16)},
    relocLoop m syms d q l = some o → ∀ r ∈ l, ∃ x, relocData m syms d r = some x := by
  induction l with
  | nil => intro q o _ r hr; cases hr
  | cons r l ih =>
    intro q o h t ht
    simp only [relocLoop, bind, Option.bind_eq_some_iff, Option.some.injEq] at h
    obtain ⟨x, hx, st, hst, o', ho, rfl⟩ := h
    rcases List.mem_cons.1 ht with rfl | ht
    · exact ⟨x, hx⟩
    · exact ih ho t ht

/-- What is known about each relocation of a segment. -/
theorem relocSegment_data {m syms : List (Int × Int)} {s : Segment} {d : List Byte} {ok : Bool} {es : List String}
    (h : relocSegment m syms s = some (d, ok, es)) {r : Reloc} (hr : r ∈ s.relocs) :
    Elf.relocData mips elfFile noLabels elfMap (elfSection m syms s) (toRel m syms r) =
      .ok ⟨r.offset, target m syms r, getWord .little s.data r.offset.toNat, 0, 0, 0⟩ := by
  simp only [relocSegment, bind, Option.bind_eq_some_iff, Option.some.injEq, Prod.mk.injEq] at h
  obtain ⟨o, ho, _⟩ := h
  obtain ⟨x, hx⟩ := relocLoop_data ho r hr
  have := relocData_elf (s := s) hx
  obtain ⟨_, rfl, _⟩ := relocData_some hx
  exact this

theorem relocSegment_offset {m syms : List (Int × Int)} {s : Segment} {d : List Byte} {ok : Bool} {es : List String}
    (h : relocSegment m syms s = some (d, ok, es)) {r : Reloc} (hr : r ∈ s.relocs) : 0 ≤ r.offset := by
  simp only [relocSegment, bind, Option.bind_eq_some_iff, Option.some.injEq, Prod.mk.injEq] at h
  obtain ⟨o, ho, _⟩ := h
  obtain ⟨x, hx⟩ := relocLoop_data ho r hr
  exact (relocData_some hx).1

theorem separate_elf {m syms : List (Int × Int)} {s : Segment} (h : Separate s) : Spec.Elf.Separate (elfSection m syms s) := by
  refine ⟨fun r hr => ?_, ?_⟩
  · obtain ⟨t, ht, rfl⟩ := List.mem_map.1 hr
    have := h.1 t ht
    simp only [toRel, elfSection]; omega
  · have hp := h.2
    refine List.pairwise_map.2 (List.Pairwise.imp_of_mem (fun {a b} ha hb hab => ?_) hp)
    have := h.1 a ha
    have := h.1 b hb
    simp only [toRel]; omega

/-! ### Sorting -/

theorem le_trans (a b c : Reloc) (h1 : Reloc.le a b = true) (h2 : Reloc.le b c = true) : Reloc.le a c = true := by
  unfold Reloc.le at *
  rw [decide_eq_true_eq] at *
  omega

theorem le_total (a b : Reloc) : (Reloc.le a b || Reloc.le b a) = true := by
  unfold Reloc.le
  rw [Bool.or_eq_true, decide_eq_true_eq, decide_eq_true_eq]
  omega

theorem sorted_mem {s : Segment} {r : Reloc} : r ∈ s.sorted.relocs ↔ r ∈ s.relocs := List.mem_mergeSort

theorem sorted_separate {s : Segment} (h : Separate s) : Separate s.sorted := by
  have hp : s.sorted.relocs.Perm s.relocs := List.mergeSort_perm ..
  refine ⟨fun r hr => h.1 r (hp.mem_iff.1 hr), ?_⟩
  exact (hp.pairwise_iff (fun {a b} hab => hab.symm)).2 h.2

theorem separate_nodup {s : Segment} (h : Separate s) : s.relocs.Nodup := by
  refine h.2.imp ?_
  intro a b hab hc
  subst hc
  omega

/-- In a list without duplicates, what comes before an element comes before it. -/
theorem before_of_sublist {α : Type} {a b : α} {l1 l2 : List α} (h : [a, b].Sublist (l1 ++ b :: l2)) (hn : (l1 ++ b :: l2).Nodup) : a ∈ l1 := by
  induction l1 with
  | nil =>
    rw [List.nil_append, List.nodup_cons] at hn
    rw [List.nil_append] at h
    cases h with
    | cons _ h => exact absurd (h.subset (by simp)) hn.1
    | cons_cons _ h => exact absurd (h.subset (by simp)) hn.1
  | cons c l1 ih =>
    rw [List.cons_append] at h hn
    rw [List.nodup_cons] at hn
    cases h with
    | cons _ h => exact List.mem_cons_of_mem _ (ih h hn.2)
    | cons_cons _ h => exact List.mem_cons_self ..

theorem rank_lower {x : Reloc} (h1 : Kind.upper.rank ≤ x.kind.rank) (h2 : x.kind.rank ≤ Kind.lower.rank) : x.kind = .upper ∨ x.kind = .lower := by
  cases hk : x.kind <;> rw [hk] at h1 h2 <;> simp [Kind.rank] at h1 h2 ⊢

theorem rank_ref {a b : Ref} (h : a.rank = b.rank) : a = b := by cases a <;> cases b <;> simp [Ref.rank] at h ⊢

/-- A pair in the order in which relocations are applied: nothing between them is a lower half. -/
theorem sorted_pair {s : Segment} (hsep : Separate s) {h l : Reloc} {pre post : List Reloc} (hrel : s.relocs = pre ++ l :: post)
    (hh : h ∈ s.relocs) (hk : h.kind = .upper) (hl : l.kind = .lower) (href : SameRef h l)
    (hfirst : ∀ x ∈ pre, SameRef x l → x.kind ≠ .lower) :
    ∃ A B C, s.sorted.relocs = A ++ h :: (B ++ l :: C) ∧ ∀ x ∈ B, x.kind ≠ .lower := by
  have hsorted : s.sorted.relocs.Pairwise fun a b => Reloc.le a b = true := List.pairwise_mergeSort le_trans le_total _
  have hnodup : s.sorted.relocs.Nodup := separate_nodup (sorted_separate hsep)
  have hlm : l ∈ s.relocs := by rw [hrel]; simp
  obtain ⟨A, R, hA⟩ := List.append_of_mem (sorted_mem.2 hh)
  have hlR : l ∈ R := by
    have : l ∈ A ++ h :: R := hA ▸ sorted_mem.2 hlm
    rcases List.mem_append.1 this with hm | hm
    · have hle : Reloc.le l h = true := by
        rw [hA] at hsorted
        exact (List.pairwise_append.1 hsorted).2.2 l hm h (List.mem_cons_self ..)
      unfold Reloc.le at hle
      rw [decide_eq_true_eq, hk, hl, href.1, href.2.1, href.2.2] at hle
      simp only [Kind.rank] at hle
      omega
    · rcases List.mem_cons.1 hm with rfl | hm
      · rw [hk] at hl; cases hl
      · exact hm
  obtain ⟨B, C, hB⟩ := List.append_of_mem hlR
  refine ⟨A, B, C, by rw [hA, hB], fun x hx hxk => ?_⟩
  rw [hB] at hA
  have hs2 := hsorted
  rw [hA] at hs2
  obtain ⟨_, h2, _⟩ := List.pairwise_append.1 hs2
  obtain ⟨h3, h4⟩ := List.pairwise_cons.1 h2
  have hhx := h3 x (List.mem_append_left _ hx)
  have hxl := (List.pairwise_append.1 h4).2.2 x hx l (List.mem_cons_self ..)
  have hsame : SameRef x l := by
    unfold Reloc.le at hhx hxl
    rw [decide_eq_true_eq] at hhx hxl
    rw [href.1, href.2.1, href.2.2] at hhx
    exact ⟨rank_ref (by omega), by omega, by omega⟩
  have hlx : Reloc.le l x = true := by
    unfold Reloc.le
    rw [decide_eq_true_eq, hsame.1, hsame.2.1, hsame.2.2, hl, hxk]
    omega
  have hxm : x ∈ s.relocs := sorted_mem.1 (by rw [hA]; simp [hx])
  have hnl : x ≠ l := by
    intro hc
    subst hc
    rw [hA] at hnodup
    have h5 := (List.nodup_append.1 hnodup).2.1
    rw [List.nodup_cons] at h5
    exact (List.nodup_append.1 h5.2).2.2 x hx x (List.mem_cons_self ..) rfl
  rw [hrel] at hxm
  rcases List.mem_append.1 hxm with hp | hp
  · exact hfirst x hp hsame hxk
  · rcases List.mem_cons.1 hp with hp | hp
    · exact hnl hp
    · have hsub : [l, x].Sublist s.relocs := by
        rw [hrel]
        refine List.Sublist.trans ?_ (List.sublist_append_right ..)
        exact List.Sublist.cons_cons _ (List.singleton_sublist.2 hp)
      have hsub2 : [l, x].Sublist s.sorted.relocs :=
        List.sublist_mergeSort le_trans le_total (by simpa using hlx) hsub
      obtain ⟨B1, B2, hB12⟩ := List.append_of_mem hx
      have e : s.sorted.relocs = (A ++ h :: B1) ++ x :: (B2 ++ l :: C) := by rw [hA, hB12]; simp [List.append_assoc]
      rw [e] at hsub2 hnodup
      have h6 := before_of_sublist hsub2 hnodup
      exact (List.nodup_append.1 hnodup).2.2 l h6 l (by simp) rfl

theorem mipsStep_lower {d : RelocData} {q : List Hi16} {x : Elf.Step (List Hi16)} (h : mipsStep 6 d q = some x) :
    ∃ st : Elf.Step Unit, x = ⟨st.ok, [], st.actions ++ [⟨d.offset, (d.opcode &&& 0xffff0000#32) |||
      (((d.opcode &&& 0xffff#32) + BitVec.ofInt 32 d.base) &&& 0xffff#32)⟩], st.errors⟩ := by
  simp only [mipsStep, bind, Option.bind_eq_some_iff, Option.some.injEq] at h
  obtain ⟨st, hst, rfl⟩ := h
  exact ⟨st, rfl⟩

/-- The word at a lower half. -/
theorem mips_lower_at {f : Elf.File} {ext : String → Option Elf.Ext} {m : List (Nat × Int)} {s : Elf.Section} {pre post : List Elf.Rel} {r : Elf.Rel}
    (hrels : s.rels = pre ++ r :: post) (hsep : Spec.Elf.Separate s) {d : List Byte} {o : Outcome (List Hi16)}
    (h : Elf.relocSection mips f ext m s [] = some (d, o)) {x : RelocData}
    (he : Elf.relocData mips f ext m s r = .ok x) (ht : r.type = 6) :
    getWord f.endian d r.offset = (x.opcode &&& 0xffff0000#32) ||| (((x.opcode &&& 0xffff#32) + BitVec.ofInt 32 x.base) &&& 0xffff#32) := by
  obtain ⟨o1, y, h1, hy, rfl, rfl⟩ := Elf.relocSection_eq h
  rw [hrels] at h1
  obtain ⟨oa, ob, ha, hb, rfl⟩ := Elf.relocLoop_append h1
  obtain ⟨z, oc, hz, hc, rfl⟩ := Elf.relocLoop_cons rfl he hb
  change mipsStep r.type x oa.state = some z at hz
  rw [ht] at hz
  obtain ⟨st, rfl⟩ := mipsStep_lower hz
  let P : Int → Prop := fun p => (r.offset : Int) + offsetOf m s.index + 4 ≤ p ∨ p + 4 ≤ r.offset + offsetOf m s.index
  have hfar : ∀ r' ∈ pre ++ post, P (r'.offset + offsetOf m s.index) := by
    have hp := hsep.2
    rw [hrels] at hp
    obtain ⟨_, h2, h3⟩ := List.pairwise_append.1 hp
    intro r' hr
    simp only [P]
    rcases List.mem_append.1 hr with hr | hr
    · have := h3 r' hr r (List.mem_cons_self ..); omega
    · have := (List.pairwise_cons.1 h2).1 r' hr; omega
  have n2 := Elf.relocLoop_near (P := P) hc (fun y hy => by cases hy) (fun r hr => hfar r (List.mem_append_right _ hr))
  have n3 := Elf.mipsFinish_near hy n2.2
  have hin : r.offset + 4 ≤ s.data.length := hsep.1 r (by rw [hrels]; simp)
  generalize hw : (x.opcode &&& 0xffff0000#32) ||| (((x.opcode &&& 0xffff#32) + BitVec.ofInt 32 x.base) &&& 0xffff#32) = w
  have hc1 : (oa.actions ++ ((st.actions ++ [(⟨x.offset, w⟩ : Elf.Action)]) ++ oc.actions) ++ y.actions) =
    (oa.actions ++ st.actions) ++ (⟨r.offset + offsetOf m s.index, w⟩ : Elf.Action) :: (oc.actions ++ y.actions) := by
    rw [(Elf.relocData_offset he).1]; simp
  simp only [hw] at *
  rw [hc1]
  apply Elf.perform_last _ _ _ _ _ _ _ hin
  intro a ha
  rcases List.mem_append.1 ha with ha | ha
  · exact n2.1 a ha
  · exact n3 a ha

/-! ### A file -/

theorem segAddress_sorted (l : List Segment) : ∀ (a : Int) (i : Nat), segAddress a (l.map Segment.sorted) i = segAddress a l i := by
  induction l with
  | nil => intro a i; rfl
  | cons s l ih =>
    intro a i
    cases i with
    | zero => rfl
    | succ i => exact ih _ i

/-- What is known if relocating the file succeeds. -/
theorem relocateFile_core {labels : Labels} {start : Int} {f : File} {r : Result} (hd : Distinct f) (hr : relocateFile labels start (ready f) = some r)
    (hok : r.ok = true) :
    ∃ m syms, (∀ i s, f.segments[i]? = some s → at0 m s.id = segAddress start f.segments i) ∧
      r.stop = bssEnd (segEnd start f.segments) f.symbols ∧ start ≤ r.stop ∧ r.out.length = (r.stop - start).toNat ∧
      (∀ x, (∀ s ∈ f.symbols, s.kind ≠ .external → x ≠ lowered s.name) → r.labels x = labels x) ∧
      (∀ k s, f.symbols[k]? = some s → ∃ v, symValue m labels (bssEnd (segEnd start f.segments) (f.symbols.take k)) s = some v ∧
        (Numbered s → at0 syms s.id = v) ∧ (s.kind ≠ .external → r.labels (lowered s.name) = some v)) ∧
      (∀ j : Nat, j < r.out.length → (∀ (i : Nat) (s : Segment), f.segments[i]? = some s → (j : Int) + start < segAddress start f.segments i ∨
        segAddress start f.segments i + s.data.length ≤ j + start) → r.out[j]? = some 0#8) ∧
      ∀ i s, f.segments[i]? = some s → ∃ d es, relocSegment m syms (Segment.sorted s) = some (d, true, es) ∧
        d.length = s.data.length ∧ ∀ j < d.length, r.out[(segAddress start f.segments i - start).toNat + j]? = d[j]? := by
  simp only [relocateFile, bind, Option.bind_eq_some_iff, Prod.exists] at hr
  obtain ⟨m, stop, hl, p, hp, hr⟩ := hr
  split at hr
  · cases hr; cases hok
  · rename_i hpok
    have hpok : p.ok = true := by simpa using hpok
    split at hr
    · cases hr
    · rename_i hlt
      simp only [Option.bind_eq_some_iff, Prod.exists, Option.some.injEq] at hr
      obtain ⟨out, ok, es, hload, rfl⟩ := hr
      have hseg : (ready f).segments = f.segments.map Segment.sorted := rfl
      have hids : ((ready f).segments.map (·.id)) = f.segments.map (·.id) := by rw [hseg, List.map_map]; rfl
      have hget : ∀ (i : Nat) (s : Segment), f.segments[i]? = some s → (ready f).segments[i]? = some s.sorted := fun i s h => by
        rw [hseg, List.getElem?_map, h]; rfl
      have hat : ∀ i s, f.segments[i]? = some s → at0 m s.id = segAddress start f.segments i := fun i s h => by
        have := at0_segment hl (hids ▸ hd.segments) (hget i s h)
        rw [hseg, segAddress_sorted] at this
        exact this
      have hstop : stop = segEnd start f.segments := by
        have := (layout_spec hl).2.1
        rw [this, segEnd, segEnd, hseg, segAddress_sorted, List.length_map]
      have hnames : ((ready f).symbols.map fun s => lowered s.name).Nodup := by
        have := hd.names
        simp only [← lowered_eq] at this
        exact this
      obtain ⟨s1, s2, _, s4, s5⟩ := placeSyms_spec hp hpok hnames
      have hpw : (ready f).segments.Pairwise (fun s t => at0 m s.id + s.data.length ≤ at0 m t.id) := by
        rw [hseg, List.pairwise_map]
        rw [List.pairwise_iff_getElem]
        intro i j hi hj hij
        show at0 m f.segments[i].id + f.segments[i].data.length ≤ at0 m f.segments[j].id
        rw [hat i _ (List.getElem?_eq_getElem hi), hat j _ (List.getElem?_eq_getElem hj)]
        exact segAddress_mono (List.getElem?_eq_getElem hi) hij (by omega)
      obtain ⟨o1, o2, o3⟩ := loadSegments_spec hload hpw
      refine ⟨m, p.syms, hat, by rw [← hstop]; exact s1, by show start ≤ p.addr; omega, by rw [o1, List.length_replicate], s4, ?_, ?_, ?_⟩
      · intro k s hk
        obtain ⟨v, v1, v2, v3⟩ := s5 k s hk
        refine ⟨v, by rw [← hstop]; exact v1, fun hn => at0_mem (v2 hn) ?_, v3⟩
        rw [s2]
        exact hd.numbers
      · intro j hj hout
        rw [o2 j]
        · rw [o1] at hj
          rw [List.getElem?_eq_getElem hj, List.getElem_replicate]
        · intro s hs
          rw [hseg] at hs
          obtain ⟨t, ht, rfl⟩ := List.mem_map.1 hs
          obtain ⟨i, hi⟩ := List.mem_iff_getElem?.1 ht
          have := hout i t hi
          rw [← hat i t hi] at this
          exact this
      · intro i s hi
        obtain ⟨_, d, ok', es', h1, h2, h3⟩ := o3 s.sorted (List.mem_of_getElem? (hget i s hi))
        refine ⟨d, es', by rw [h1, h2 hok], (by have := relocSegment_length h1; exact this), fun j hj => ?_⟩
        rw [← hat i s hi]
        exact h3 j hj

/-- The address that the code computes for a relocation is the one that is meant. -/
theorem target_refers {labels : Labels} {start : Int} {f : File} {m syms : List (Int × Int)} (hd : Distinct f)
    (hat : ∀ i s, f.segments[i]? = some s → at0 m s.id = segAddress start f.segments i)
    (hsym : ∀ k s, f.symbols[k]? = some s → ∃ v, symValue m labels (bssEnd (segEnd start f.segments) (f.symbols.take k)) s = some v ∧
        (Numbered s → at0 syms s.id = v)) {r : Reloc} {a : Int} (h : Refers labels start f r a) : (target m syms r - a) % 2 ^ 32 = 0 := by
  unfold Refers at h
  unfold target
  cases hr : r.ref with
  | segment =>
    rw [hr] at h
    obtain ⟨b, ⟨i, s, hi, hid, hb⟩, rfl⟩ := h
    simp only
    rw [← hid, hat i s hi, ← hb]
    omega
  | symbol =>
    rw [hr] at h
    obtain ⟨k, s, b, hk, hn, hid, ⟨s', hk', hb⟩, rfl⟩ := h
    rw [hk] at hk'
    cases hk'
    obtain ⟨v, hv, hv'⟩ := hsym k s hk
    simp only
    rw [← hid, hv' hn]
    have : (v - b) % 2 ^ 32 = 0 := by
      unfold symValue at hv
      cases hs : s.kind with
      | bss => rw [hs] at hv hb; simp only [Option.some.injEq] at hv hb; omega
      | external =>
        rw [hs] at hv hb
        simp only at hv hb
        rw [lowered_eq, hb] at hv
        simp only [Option.map_some, Option.some.injEq] at hv
        rw [BitVec.toInt_ofInt, Int.bmod_def] at hv
        split at hv <;> omega
      | _ =>
        rw [hs] at hv hb
        simp only [Option.some.injEq] at hv hb
        obtain ⟨c, ⟨i, t, hi, ht, hc⟩, rfl⟩ := hb
        rw [← ht, hat i t hi, ← hc] at hv
        omega
    omega

theorem wordAt_copy {out d : List Byte} {p n : Int} (hp : 0 ≤ p) (hn : 0 ≤ n) (h : ∀ j < d.length, out[p.toNat + j]? = d[j]?)
    (hl : n + 4 ≤ d.length) : wordAt out (p + n) = getWord .little d n.toNat := by
  unfold getWord wordAt
  rw [if_pos (by omega)]
  have : (out.drop (p + n).toNat).take 4 = (d.drop n.toNat).take 4 := by
    apply List.ext_getElem?
    intro i
    rw [List.getElem?_take, List.getElem?_take]
    split
    · rw [List.getElem?_drop, List.getElem?_drop, ← h _ (by omega)]
      congr 1
      omega
    · rfl
  rw [this]
  rfl

theorem wordAt_data {d : List Byte} {n : Int} (hn : 0 ≤ n) (hl : n + 4 ≤ d.length) : wordAt d n = getWord .little d n.toNat := by
  have := wordAt_copy (out := d) (d := d) (p := 0) (n := n) (by omega) hn (fun j _ => by simp) hl
  simpa using this

end Armips.Psx
