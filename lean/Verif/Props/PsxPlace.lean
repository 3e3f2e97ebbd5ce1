import Verif.Lemmas.PsxReloc
import Verif.Props.Psx
/-!
# C76: PlayStation objects are placed and relocated as their records say

`Placed labels start f r` says that importing the object `f` at `start`, where labels are those of the program, succeeds with the result `r`.
Addresses are those of the processor: equations are modulo 2^32.
-/
namespace Armips.Props
open Armips Armips.Psx Armips.Spec Armips.Spec.Psx
open Armips.Elf (getWord mips)
open Armips.Spec.Elf (pairValue lowHalf highHalf)

/-- Segments follow each other at multiples of 4 behind the first one, variables follow these. The output reaches to the end of the last one;
what belongs to no segment is zero. -/
theorem psx_layout {labels : Labels} {start : Int} {f : File} {r : Result} (h : Spec.Psx.Placed labels start f r) (hd : Distinct f) :
    r.stop = bssEnd (segEnd start f.segments) f.symbols ∧ start + r.out.length = r.stop ∧
    ∀ j : Nat, j < r.out.length →
      (∀ i s, f.segments[i]? = some s → (j : Int) + start < segAddress start f.segments i ∨ segAddress start f.segments i + s.data.length ≤ j + start) →
      r.out[j]? = some 0#8 := by
  obtain ⟨m, syms, _, h2, h3, h4, _, _, h7, _⟩ := relocateFile_core hd h.1 h.2
  exact ⟨h2, by omega, h7⟩

/-- A segment is at its address, with its contents outside of the words that are relocated. -/
theorem psx_contents {labels : Labels} {start : Int} {f : File} {r : Result} (h : Spec.Psx.Placed labels start f r) (hd : Distinct f)
    {i : Nat} {s : Segment} (hi : f.segments[i]? = some s) {j : Nat} (hj : j < s.data.length)
    (hout : ∀ x ∈ s.relocs, (j : Int) < x.offset ∨ x.offset + 4 ≤ j) :
    r.out[(segAddress start f.segments i - start).toNat + j]? = s.data[j]? := by
  obtain ⟨m, syms, _, _, _, _, _, _, _, h8⟩ := relocateFile_core hd h.1 h.2
  obtain ⟨d, es, h1, h2, h3⟩ := h8 i s hi
  rw [h3 j (by omega)]
  obtain ⟨o, ho, hok, _⟩ := relocSegment_elf h1
  refine mips_other_bytes (s := elfSection m syms s.sorted) ⟨o, ho, hok⟩ (i := j) ?_
  intro x hx
  obtain ⟨t, ht, rfl⟩ := List.mem_map.1 hx
  have := hout t (sorted_mem.1 ht)
  have := relocSegment_offset h1 ht
  simp only [toRel]
  omega

/-- Symbols that the object defines become labels with their addresses; no other label changes. -/
theorem psx_labels {labels : Labels} {start : Int} {f : File} {r : Result} (h : Spec.Psx.Placed labels start f r) (hd : Distinct f) :
    (∀ k s a, f.symbols[k]? = some s → s.kind ≠ .external → SymbolAt labels start f k a → r.labels (s.name.map Obj.lower) = some a) ∧
    ∀ x, (∀ s ∈ f.symbols, s.kind ≠ .external → x ≠ s.name.map Obj.lower) → r.labels x = labels x := by
  obtain ⟨m, syms, h1, _, _, _, h5, h6, _, _⟩ := relocateFile_core hd h.1 h.2
  refine ⟨fun k s a hk hs ha => ?_, fun x hx => h5 x fun s hs hk => by rw [lowered_eq]; exact hx s hs hk⟩
  obtain ⟨v, v1, _, v3⟩ := h6 k s hk
  rw [← lowered_eq, v3 hs]
  obtain ⟨s', hs', ha⟩ := ha
  rw [hk] at hs'
  cases hs'
  unfold symValue at v1
  cases hkd : s.kind with
  | external => exact absurd hkd hs
  | bss => rw [hkd] at v1 ha; simp only [Option.some.injEq] at v1 ha; rw [← v1, ha]
  | _ =>
    rw [hkd] at v1 ha
    simp only [Option.some.injEq] at v1 ha
    obtain ⟨b, ⟨i, t, hi, ht, hb⟩, rfl⟩ := ha
    rw [← v1, ← ht, h1 i t hi, hb]

/-- A symbol that is nowhere defined makes the import fail. -/
theorem psx_undefined {labels : Labels} {start : Int} {f : File} {r : Result} (h : relocateFile labels start (ready f) = some r) (hd : Distinct f)
    {s : Sym} (hs : s ∈ f.symbols) (hk : s.kind = .external) (hl : labels (s.name.map Obj.lower) = none) :
    r.ok = false ∧ r.errors ≠ [] := by
  simp only [relocateFile, bind, Option.bind_eq_some_iff, Prod.exists] at h
  obtain ⟨m, stop, _, p, hp, h⟩ := h
  have := placeSyms_missing hp (by have := hd.names; simp only [← lowered_eq] at this; exact this) hs hk (by rw [lowered_eq]; exact hl)
  rw [this] at h
  cases h
  exact ⟨rfl, by simp⟩

private theorem at_segment {labels : Labels} {start : Int} {f : File} {r : Result} (h : Spec.Psx.Placed labels start f r) (hd : Distinct f)
    {i : Nat} {s : Segment} (hi : f.segments[i]? = some s) (hsep : Spec.Psx.Separate s) :
    ∃ m syms d o, Elf.relocSection mips elfFile noLabels elfMap (elfSection m syms s.sorted) [] = some (d, o) ∧ o.ok = true ∧
      Spec.Elf.Separate (elfSection m syms s.sorted) ∧
      (∀ x ∈ s.relocs, 0 ≤ x.offset ∧ ((toRel m syms x).offset : Int) = x.offset ∧
        wordAt r.out (segAddress start f.segments i - start + x.offset) = getWord .little d (toRel m syms x).offset ∧
        wordAt s.data x.offset = getWord .little s.data (toRel m syms x).offset ∧
        Elf.relocData mips elfFile noLabels elfMap (elfSection m syms s.sorted) (toRel m syms x) =
          .ok ⟨x.offset, target m syms x, getWord .little s.data x.offset.toNat, 0, 0, 0⟩ ∧
        ∀ a, Refers labels start f x a → (target m syms x - a) % 2 ^ 32 = 0) := by
  obtain ⟨m, syms, h1, _, _, _, _, h6, _, h8⟩ := relocateFile_core hd h.1 h.2
  obtain ⟨d, es, h2, h3, h4⟩ := h8 i s hi
  obtain ⟨o, ho, hok, _⟩ := relocSegment_elf h2
  refine ⟨m, syms, d, o, ho, hok, separate_elf (sorted_separate hsep), fun x hx => ?_⟩
  have hin := hsep.1 x hx
  refine ⟨hin.1, by simp only [toRel]; omega, ?_, wordAt_data hin.1 hin.2, relocSegment_data h2 (sorted_mem.2 hx), fun a ha => ?_⟩
  · exact wordAt_copy (by have := segAddress_ge (l := f.segments) (a := start) (i := i); omega) hin.1 h4 (by omega)
  · exact target_refers hd h1 (fun k t hk => by obtain ⟨v, v1, v2, _⟩ := h6 k t hk; exact ⟨v, v1, v2⟩) ha

private theorem in_sorted {s : Segment} {x : Reloc} (hx : x ∈ s.relocs) (m syms : List (Int × Int)) :
    ∃ A C, (elfSection m syms s.sorted).rels = A ++ toRel m syms x :: C :=
  List.append_of_mem (List.mem_map_of_mem (sorted_mem.2 hx))

/-- The address is added to a word. -/
theorem psx_word {labels : Labels} {start : Int} {f : File} {r : Result} (h : Spec.Psx.Placed labels start f r) (hd : Distinct f)
    {i : Nat} {s : Segment} (hi : f.segments[i]? = some s) (hsep : Spec.Psx.Separate s) {x : Reloc} (hx : x ∈ s.relocs) (hk : x.kind = .word)
    {a : Int} (ha : Refers labels start f x a) :
    ((wordAt r.out (segAddress start f.segments i - start + x.offset)).toNat : Int) = ((wordAt s.data x.offset).toNat + a) % 2 ^ 32 := by
  obtain ⟨m, syms, d, o, h1, h2, h3, h4⟩ := at_segment h hd hi hsep
  obtain ⟨_, _, e1, e2, e3, e4⟩ := h4 x hx
  obtain ⟨A, C, hAC⟩ := in_sorted hx m syms
  have := (mips_word_reloc hAC h3 ⟨o, h1, h2⟩ e3).1 (by simp [toRel, hk, Kind.mips])
  have he := e4 a ha
  rw [e1, e2]
  simp only [elfFile, elfSection, Segment.sorted] at this
  omega

/-- The address is added to the target of a jump, of which an instruction holds bits 2 to 27. -/
theorem psx_call {labels : Labels} {start : Int} {f : File} {r : Result} (h : Spec.Psx.Placed labels start f r) (hd : Distinct f)
    {i : Nat} {s : Segment} (hi : f.segments[i]? = some s) (hsep : Spec.Psx.Separate s) {x : Reloc} (hx : x ∈ s.relocs) (hk : x.kind = .call)
    {a : Int} (ha : Refers labels start f x a) :
    (field (wordAt r.out (segAddress start f.segments i - start + x.offset)) 0 26 : Int) = (field (wordAt s.data x.offset) 0 26 + a / 4) % 2 ^ 26 ∧
    field (wordAt r.out (segAddress start f.segments i - start + x.offset)) 26 6 = field (wordAt s.data x.offset) 26 6 := by
  obtain ⟨m, syms, d, o, h1, h2, h3, h4⟩ := at_segment h hd hi hsep
  obtain ⟨_, _, e1, e2, e3, e4⟩ := h4 x hx
  obtain ⟨A, C, hAC⟩ := in_sorted hx m syms
  have := (mips_word_reloc hAC h3 ⟨o, h1, h2⟩ e3).2 (by simp [toRel, hk, Kind.mips])
  have he := e4 a ha
  rw [e1, e2]
  simp only [elfFile, elfSection, Segment.sorted] at this
  refine ⟨?_, this.2⟩
  rw [this.1]
  omega

/-- The lower half of the address is added to the lower half of the instruction. -/
theorem psx_lower {labels : Labels} {start : Int} {f : File} {r : Result} (h : Spec.Psx.Placed labels start f r) (hd : Distinct f)
    {i : Nat} {s : Segment} (hi : f.segments[i]? = some s) (hsep : Spec.Psx.Separate s) {x : Reloc} (hx : x ∈ s.relocs) (hk : x.kind = .lower)
    {a : Int} (ha : Refers labels start f x a) :
    (lowHalf (wordAt r.out (segAddress start f.segments i - start + x.offset)) : Int) = (lowHalf (wordAt s.data x.offset) + a) % 2 ^ 16 ∧
    highHalf (wordAt r.out (segAddress start f.segments i - start + x.offset)) = highHalf (wordAt s.data x.offset) := by
  obtain ⟨m, syms, d, o, h1, h2, h3, h4⟩ := at_segment h hd hi hsep
  obtain ⟨_, _, e1, e2, e3, e4⟩ := h4 x hx
  obtain ⟨A, C, hAC⟩ := in_sorted hx m syms
  have := mips_lower_at hAC h3 h1 e3 (by simp [toRel, hk, Kind.mips])
  have he := e4 a ha
  have e5 : getWord .little s.data x.offset.toNat = getWord .little s.data (toRel m syms x).offset := rfl
  rw [e1, e2]
  simp only [elfFile] at this
  rw [this, Elf.merge_lower, Elf.merge_upper, Elf.lower_add, Elf.lower_and, e5]
  have := Elf.lower_ofInt (target m syms x)
  refine ⟨?_, rfl⟩
  omega

private theorem pair_core {labels : Labels} {start : Int} {f : File} {r : Result} (h : Spec.Psx.Placed labels start f r) (hd : Distinct f)
    {i : Nat} {s : Segment} (hi : f.segments[i]? = some s) (hsep : Spec.Psx.Separate s) {hi16 lo16 : Reloc} {pre post : List Reloc}
    (hrel : s.relocs = pre ++ lo16 :: post) (hh : hi16 ∈ s.relocs) (hk : hi16.kind = .upper) (hl : lo16.kind = .lower)
    (href : SameRef hi16 lo16) (hfirst : ∀ x ∈ pre, SameRef x lo16 → x.kind ≠ .lower) :
    hi16.rel = lo16.rel ∧ ∃ t, (∀ a, Refers labels start f hi16 a → (t - a) % 2 ^ 32 = 0) ∧
    (pairValue (wordAt r.out (segAddress start f.segments i - start + hi16.offset)) (wordAt r.out (segAddress start f.segments i - start + lo16.offset)) -
      (pairValue (wordAt s.data hi16.offset) (wordAt s.data lo16.offset) + t)) % 2 ^ 32 = 0 ∧
    highHalf (wordAt r.out (segAddress start f.segments i - start + hi16.offset)) = highHalf (wordAt s.data hi16.offset) := by
  obtain ⟨m, syms, d, o, h1, h2, h3, h4⟩ := at_segment h hd hi hsep
  obtain ⟨_, _, e1, e2, e3, e4⟩ := h4 hi16 hh
  obtain ⟨_, _, g1, g2, g3, g4⟩ := h4 lo16 (by rw [hrel]; simp)
  obtain ⟨A, B, C, hABC, hB⟩ := sorted_pair hsep hrel hh hk hl href hfirst
  have hrels : (elfSection m syms s.sorted).rels = A.map (toRel m syms) ++ toRel m syms hi16 :: (B.map (toRel m syms) ++ toRel m syms lo16 :: C.map (toRel m syms)) := by
    show s.sorted.relocs.map (toRel m syms) = _
    rw [hABC]; simp
  have hmid : ∀ x ∈ B.map (toRel m syms), x.type ≠ 6 := by
    intro x hx
    obtain ⟨t, ht, rfl⟩ := List.mem_map.1 hx
    have := hB t ht
    simp only [toRel]
    cases hkt : t.kind <;> simp [Kind.mips, hkt] at this ⊢
  obtain ⟨p1, p2, p3, _⟩ := mips_hi_lo hrels (by simp [toRel, hk, Kind.mips]) (by simp [toRel, hl, Kind.mips]) hmid h3 ⟨o, h1, h2⟩ e3 g3
  simp only [elfFile, elfSection, Segment.sorted] at p2 p3
  rw [e1, e2, g1, g2]
  refine ⟨?_, target m syms hi16, e4, p2, p3⟩
  simp only at p1
  unfold target at p1
  rw [href.1, href.2.1, href.2.2] at p1
  cases hr : lo16.ref <;> rw [hr] at p1 <;> simp only at p1 <;> omega

/-- An instruction with the upper half and the first one with the lower half of the same reference add the same number to it. -/
theorem psx_pair_number {labels : Labels} {start : Int} {f : File} {r : Result} (h : Spec.Psx.Placed labels start f r) (hd : Distinct f)
    {i : Nat} {s : Segment} (hi : f.segments[i]? = some s) (hsep : Spec.Psx.Separate s) {hi16 lo16 : Reloc} {pre post : List Reloc}
    (hrel : s.relocs = pre ++ lo16 :: post) (hh : hi16 ∈ s.relocs) (hk : hi16.kind = .upper) (hl : lo16.kind = .lower)
    (href : SameRef hi16 lo16) (hfirst : ∀ x ∈ pre, SameRef x lo16 → x.kind ≠ .lower) : hi16.rel = lo16.rel :=
  (pair_core h hd hi hsep hrel hh hk hl href hfirst).1

/-- They together compute the old value plus the address. -/
theorem psx_pair {labels : Labels} {start : Int} {f : File} {r : Result} (h : Spec.Psx.Placed labels start f r) (hd : Distinct f)
    {i : Nat} {s : Segment} (hi : f.segments[i]? = some s) (hsep : Spec.Psx.Separate s) {hi16 lo16 : Reloc} {pre post : List Reloc}
    (hrel : s.relocs = pre ++ lo16 :: post) (hh : hi16 ∈ s.relocs) (hk : hi16.kind = .upper) (hl : lo16.kind = .lower)
    (href : SameRef hi16 lo16) (hfirst : ∀ x ∈ pre, SameRef x lo16 → x.kind ≠ .lower) {a : Int} (ha : Refers labels start f hi16 a) :
    (pairValue (wordAt r.out (segAddress start f.segments i - start + hi16.offset)) (wordAt r.out (segAddress start f.segments i - start + lo16.offset)) -
      (pairValue (wordAt s.data hi16.offset) (wordAt s.data lo16.offset) + a)) % 2 ^ 32 = 0 ∧
    highHalf (wordAt r.out (segAddress start f.segments i - start + hi16.offset)) = highHalf (wordAt s.data hi16.offset) := by
  obtain ⟨_, t, ht, h1, h2⟩ := pair_core h hd hi hsep hrel hh hk hl href hfirst
  have := ht a ha
  exact ⟨by omega, h2⟩

/-- All further ones with the lower half of the same reference agree with it if they and the first one are alike. -/
theorem psx_pair_further {labels : Labels} {start : Int} {f : File} {r : Result} (h : Spec.Psx.Placed labels start f r) (hd : Distinct f)
    {i : Nat} {s : Segment} (hi : f.segments[i]? = some s) (hsep : Spec.Psx.Separate s) {hi16 lo16 x : Reloc} {pre post : List Reloc}
    (hrel : s.relocs = pre ++ lo16 :: post) (hh : hi16 ∈ s.relocs) (hk : hi16.kind = .upper) (hl : lo16.kind = .lower)
    (href : SameRef hi16 lo16) (hfirst : ∀ x ∈ pre, SameRef x lo16 → x.kind ≠ .lower) {a : Int} (ha : Refers labels start f hi16 a)
    (hx : x ∈ s.relocs) (hxk : x.kind = .lower) (hxr : SameRef hi16 x) (hrx : x.rel = lo16.rel)
    (hxw : lowHalf (wordAt s.data x.offset) = lowHalf (wordAt s.data lo16.offset)) :
    (pairValue (wordAt r.out (segAddress start f.segments i - start + hi16.offset)) (wordAt r.out (segAddress start f.segments i - start + x.offset)) -
      (pairValue (wordAt s.data hi16.offset) (wordAt s.data x.offset) + a)) % 2 ^ 32 = 0 := by
  have p1 := psx_pair_number h hd hi hsep hrel hh hk hl href hfirst
  obtain ⟨p2, _⟩ := psx_pair h hd hi hsep hrel hh hk hl href hfirst ha
  have same : ∀ y : Reloc, SameRef hi16 y → y.rel = hi16.rel → Refers labels start f y a := by
    intro y hy hry
    unfold Refers at ha ⊢
    rw [← hy.1, ← hy.2.1, ← hy.2.2, hry]
    exact ha
  have q1 := (psx_lower h hd hi hsep hx hxk (same x hxr (by rw [hrx, p1]))).1
  have q2 := (psx_lower h hd hi hsep (by rw [hrel]; simp) hl (same lo16 href p1.symm)).1
  unfold pairValue at p2 ⊢
  rw [hxw] at q1 ⊢
  rw [show lowHalf (wordAt r.out (segAddress start f.segments i - start + x.offset)) =
    lowHalf (wordAt r.out (segAddress start f.segments i - start + lo16.offset)) by omega]
  exact p2

/-! ### Several objects -/

/-- The objects of a library follow each other. Each one is imported with the labels that the ones before have defined. -/
theorem psx_files {f : File} {post : List File} : ∀ {pre : List File} {labels : Labels} {start : Int} {r : Result},
    relocateFiles labels start (pre ++ f :: post) = some r → r.ok = true →
    ∃ p x q, relocateFiles labels start pre = some p ∧ relocateFile p.labels p.stop f = some x ∧ relocateFiles x.labels x.stop post = some q ∧
      p.ok = true ∧ x.ok = true ∧ q.ok = true ∧ r.out = p.out ++ x.out ++ q.out ∧ r.stop = q.stop ∧ r.labels = q.labels := by
  intro pre
  induction pre with
  | nil =>
    intro labels start r h hok
    simp only [List.nil_append, relocateFiles, bind, Option.bind_eq_some_iff, Option.some.injEq] at h
    obtain ⟨x, hx, y, hy, rfl⟩ := h
    simp only [Bool.and_eq_true] at hok
    exact ⟨_, x, y, rfl, hx, hy, rfl, hok.1, hok.2, by simp, rfl, rfl⟩
  | cons g pre ih =>
    intro labels start r h hok
    simp only [List.cons_append, relocateFiles, bind, Option.bind_eq_some_iff, Option.some.injEq] at h
    obtain ⟨x, hx, y, hy, rfl⟩ := h
    simp only [Bool.and_eq_true] at hok
    obtain ⟨p, x', q, h1, h2, h3, h4, h5, h6, h7, h8, h9⟩ := ih hy hok.2
    refine ⟨⟨x.out ++ p.out, p.stop, p.labels, x.ok && p.ok, x.errors ++ p.errors⟩, x', q, ?_, h2, h3, by simp [hok.1, h4], h5, h6, ?_, h8, h9⟩
    · simp only [relocateFiles, bind, Option.bind_eq_some_iff, Option.some.injEq]
      exact ⟨x, hx, p, h1, rfl⟩
    · simp only [h7, List.append_assoc]

/-- The output reaches to the address behind the last one. -/
theorem psx_files_length : ∀ {fs : List File} {labels : Labels} {start : Int} {r : Result},
    relocateFiles labels start (fs.map ready) = some r → r.ok = true → (∀ f ∈ fs, Distinct f) → start + r.out.length = r.stop := by
  intro fs
  induction fs with
  | nil => intro labels start r h _ _; cases h; simp
  | cons f fs ih =>
    intro labels start r h hok hd
    simp only [List.map_cons, relocateFiles, bind, Option.bind_eq_some_iff, Option.some.injEq] at h
    obtain ⟨x, hx, y, hy, rfl⟩ := h
    simp only [Bool.and_eq_true] at hok
    have h1 := (psx_layout ⟨hx, hok.1⟩ (hd f (List.mem_cons_self ..))).2.1
    have h2 := ih hy hok.2 fun g hg => hd g (List.mem_cons_of_mem _ hg)
    simp only [List.length_append]
    omega

/-- An import takes as much memory as it writes, and calls for another pass if what it writes has changed, as far as the checksum tells. -/
theorem psx_validate {labels : Labels} {a : Int} {old : List Byte} {fs : List File} {r : Result} {n : Int} {again : Bool}
    (h : Psx.validate labels a old (fs.map ready) = some (r, n, again)) (hok : r.ok = true) (hd : ∀ f ∈ fs, Distinct f) :
    n = r.out.length ∧ (again = true ↔ Crc.getCrc32 old ≠ Crc.getCrc32 r.out) := by
  simp only [Psx.validate, bind, Option.bind_eq_some_iff, Option.some.injEq, Prod.mk.injEq] at h
  obtain ⟨x, hx, rfl, rfl, rfl⟩ := h
  have := psx_files_length hx hok hd
  exact ⟨by omega, by simp⟩

/-- All of a library: the bytes of each object stand behind those of the objects before, at the address where it is placed. -/
theorem psx_import_placed {labels : Labels} {a : Int} {old : List Byte} {pre post : List File} {f : File} {r : Result} {n : Int} {again : Bool}
    (h : Psx.validate labels a old ((pre ++ f :: post).map ready) = some (r, n, again)) (hok : r.ok = true) (hd : ∀ g ∈ pre ++ f :: post, Distinct g) :
    ∃ start p x q, (start - a) % 2 ^ 32 = 0 ∧ relocateFiles labels start (pre.map ready) = some p ∧ p.ok = true ∧
      Spec.Psx.Placed p.labels (start + p.out.length) f x ∧ r.out = p.out ++ x.out ++ q := by
  simp only [Psx.validate, bind, Option.bind_eq_some_iff, Option.some.injEq, Prod.mk.injEq] at h
  obtain ⟨y, hy, rfl, _, _⟩ := h
  rw [List.map_append, List.map_cons] at hy
  obtain ⟨p, x, q, h1, h2, _, h4, h5, _, h7, _, _⟩ := psx_files hy hok
  have h8 := psx_files_length h1 h4 fun g hg => hd g (List.mem_append_left _ hg)
  refine ⟨_, p, x, q.out, ?_, h1, h4, ⟨by rw [h8]; exact h2, h5⟩, h7⟩
  rw [BitVec.toInt_ofInt, Int.bmod_def]
  split <;> omega

/-! ### An object -/

/-- The object of `psxSample` with sorted relocations. -/
def psxSampleReady : File :=
  ⟨[⟨1, psxName ".text", toLE 4 0x3C040000 ++ toLE 4 0x8C850000 ++ toLE 4 0x0C000000 ++ toLE 4 0,
        [⟨.upper, .symbol, 0, 3, 0, 8⟩, ⟨.lower, .symbol, 4, 3, 0, 8⟩, ⟨.call, .symbol, 8, 4, 0, 0⟩, ⟨.word, .segment, 12, 2, 4, 0⟩]⟩,
      ⟨2, psxName ".data", toLE 4 5 ++ [0, 0, 0, 0], []⟩],
     [⟨.external, psxName "X", 0, 0, 3, 0⟩, ⟨.internalId, psxName "f", 1, 8, 4, 0⟩, ⟨.bss, psxName "b", 2, 0, 5, 6⟩]⟩

private theorem psxSample_ready : ready (meaning psxSample) = psxSampleReady := by
  have h : meaning psxSample = ⟨[⟨1, psxName ".text", toLE 4 0x3C040000 ++ toLE 4 0x8C850000 ++ toLE 4 0x0C000000 ++ toLE 4 0,
        [⟨.lower, .symbol, 4, 3, 0, 8⟩, ⟨.upper, .symbol, 0, 3, 0, 8⟩, ⟨.call, .symbol, 8, 4, 0, 0⟩, ⟨.word, .segment, 12, 2, 4, 0⟩]⟩,
      ⟨2, psxName ".data", toLE 4 5 ++ [0, 0, 0, 0], []⟩],
     [⟨.external, psxName "X", 0, 0, 3, 0⟩, ⟨.internalId, psxName "f", 1, 8, 4, 0⟩, ⟨.bss, psxName "b", 2, 0, 5, 6⟩]⟩ := rfl
  rw [h]
  simp [ready, Segment.sorted, psxSampleReady, List.mergeSort, Reloc.le, Kind.rank, Ref.rank, List.MergeSort.Internal.splitInTwo]

/-- `x` is at 0x12348. -/
def psxLabels : Labels := fun n => if n = psxName "x" then some 0x12348 else none

/-- The object of `psxSample`, at 0x10000: `f` is at 0x10008, `.data` at 0x10010, `b` at 0x10018. -/
theorem psxSample_placed : ∃ r, Spec.Psx.Placed psxLabels 0x10000 (meaning psxSample) r ∧ r.stop = 0x10020 ∧
    r.out = toLE 4 0x3C040001 ++ toLE 4 0x8C852350 ++ toLE 4 0x0C004002 ++ toLE 4 0x10014 ++ toLE 4 5 ++ List.replicate 12 0 ∧
    r.labels (psxName "f") = some 0x10008 ∧ r.labels (psxName "b") = some 0x10018 := by
  have h : ((relocateFile psxLabels 0x10000 (ready (meaning psxSample))).map fun r => (r.stop, r.out, r.ok, r.labels (psxName "f"), r.labels (psxName "b"))) =
    some (0x10020, toLE 4 0x3C040001 ++ toLE 4 0x8C852350 ++ toLE 4 0x0C004002 ++ toLE 4 0x10014 ++ toLE 4 5 ++ List.replicate 12 0, true,
      some 0x10008, some 0x10018) := by rw [psxSample_ready]; decide +kernel
  rw [Option.map_eq_some_iff] at h
  obtain ⟨r, hr, he⟩ := h
  simp only [Prod.mk.injEq] at he
  exact ⟨r, ⟨hr, he.2.2.1⟩, he.1, he.2.1, he.2.2.2.1, he.2.2.2.2⟩

example : Distinct (meaning psxSample) := ⟨by decide +kernel, by decide +kernel, by decide +kernel⟩
example : ∀ s ∈ (meaning psxSample).segments, Spec.Psx.Separate s := by unfold Spec.Psx.Separate; decide +kernel
example : ∃ s, (meaning psxSample).segments[0]? = some s ∧ (⟨.upper, .symbol, 0, 3, 0, 8⟩ : Reloc) ∈ s.relocs ∧
    SameRef (⟨.upper, .symbol, 0, 3, 0, 8⟩ : Reloc) ⟨.lower, .symbol, 4, 3, 0, 8⟩ := ⟨_, rfl, by decide +kernel, by decide⟩
example : Refers psxLabels 0x10000 (meaning psxSample) ⟨.upper, .symbol, 0, 3, 0, 8⟩ 0x12350 :=
  ⟨0, ⟨.external, psxName "X", 0, 0, 3, 0⟩, 0x12348, by decide +kernel, by decide, rfl, ⟨⟨.external, psxName "X", 0, 0, 3, 0⟩, by decide +kernel, by decide +kernel⟩, rfl⟩
example : Refers psxLabels 0x10000 (meaning psxSample) ⟨.word, .segment, 12, 2, 4, 0⟩ 0x10014 :=
  ⟨0x10010, ⟨1, ⟨2, psxName ".data", toLE 4 5 ++ [0, 0, 0, 0], []⟩, by decide +kernel, rfl, by decide +kernel⟩, by decide⟩

/-! ### What goes wrong -/

/-- Two references to the same symbol that add different numbers cannot be imported, although each has its own two instructions: the instructions
are taken in the order of the symbols, upper halves first. -/
theorem psx_two_numbers_wrong {labels : Labels} {start : Int} {f : File} (hd : Distinct f)
    {i : Nat} {s : Segment} (hi : f.segments[i]? = some s) (hsep : Spec.Psx.Separate s) {h1 h2 l : Reloc} {pre post : List Reloc}
    (hrel : s.relocs = pre ++ l :: post) (hh1 : h1 ∈ s.relocs) (hh2 : h2 ∈ s.relocs) (hk1 : h1.kind = .upper) (hk2 : h2.kind = .upper) (hl : l.kind = .lower)
    (hr1 : SameRef h1 l) (hr2 : SameRef h2 l) (hfirst : ∀ x ∈ pre, SameRef x l → x.kind ≠ .lower) (hne : h1.rel ≠ h2.rel) (r : Result) :
    ¬ Spec.Psx.Placed labels start f r := by
  intro h
  have p1 := psx_pair_number h hd hi hsep hrel hh1 hk1 hl hr1 hfirst
  have p2 := psx_pair_number h hd hi hsep hrel hh2 hk2 hl hr2 hfirst
  exact hne (by rw [p1, p2])

/-- `lui r4,hi(x)`, `lw r5,lo(x)(r4)`, `lui r6,hi(x+8)`, `lw r7,lo(x+8)(r6)`. -/
def psxTwoNumbers : List Record :=
  [.segment 1 (psxName ".text"), .external 3 (psxName "X"), .select 1,
   .data (toLE 4 0x3C040000 ++ toLE 4 0x8C850000 ++ toLE 4 0x3C060000 ++ toLE 4 0x8CC70000),
   .reloc .upper 0 .none (.symbol 3), .reloc .lower 4 .none (.symbol 3), .reloc .upper 8 (.plus 8) (.symbol 3), .reloc .lower 12 (.plus 8) (.symbol 3)]

example : Valid psxTwoNumbers ∧ ∀ start r, ¬ Spec.Psx.Placed psxLabels start (meaning psxTwoNumbers) r := by
  refine ⟨⟨?_, by simp [psxTwoNumbers, Ordered]⟩, fun start r => ?_⟩
  · intro r hr
    simp only [psxTwoNumbers, List.mem_cons, List.not_mem_nil, or_false] at hr
    rcases hr with rfl | rfl | rfl | rfl | rfl | rfl | rfl | rfl <;> simp [Record.Fits, Place.Fits, Shift.Fits, psxName]
  · exact psx_two_numbers_wrong (f := meaning psxTwoNumbers) (i := 0) (h1 := ⟨.upper, .symbol, 0, 3, 0, 0⟩) (h2 := ⟨.upper, .symbol, 8, 3, 0, 8⟩)
      (l := ⟨.lower, .symbol, 4, 3, 0, 0⟩) (pre := [⟨.upper, .symbol, 0, 3, 0, 0⟩]) (post := [⟨.upper, .symbol, 8, 3, 0, 8⟩, ⟨.lower, .symbol, 12, 3, 0, 8⟩])
      ⟨by decide +kernel, by decide +kernel, by decide +kernel⟩ rfl (by unfold Spec.Psx.Separate; decide +kernel) rfl (by decide +kernel) (by decide +kernel)
      rfl rfl rfl (by decide) (by decide) (by decide) (by decide) r

/-- A relocation that refers to a symbol that the object does not have counts as address 0, without an error. -/
theorem psx_unknown_symbol_wrong :
    (relocateFile psxLabels 0x10000 (ready (meaning [.segment 1 (psxName ".text"), .select 1, .data (toLE 4 0), .reloc .word 0 (.plus 8) (.symbol 7)]))).map
      (fun r => (r.ok, r.out, r.errors)) = some (true, toLE 4 8, []) := by decide +kernel

/-- So does one that refers to an unknown segment. -/
theorem psx_unknown_segment_wrong :
    (relocateFile psxLabels 0x10000 (ready (meaning [.segment 1 (psxName ".text"), .select 1, .data (toLE 4 0), .reloc .word 0 .none (.segment 7 8)]))).map
      (fun r => (r.ok, r.out, r.errors)) = some (true, toLE 4 8, []) := by decide +kernel

/-- Where programs of the PlayStation are, from 0x80000000 on, labels get negative values. -/
theorem psx_negative_labels_wrong :
    (Psx.validate psxLabels 0x80010000 [] [ready (meaning psxSample)]).map (fun x => (x.1.ok, x.1.labels (psxName "f"))) =
      some (true, some (0x80010008 - 2 ^ 32)) := by rw [psxSample_ready]; decide +kernel

end Armips.Props
