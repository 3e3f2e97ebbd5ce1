import Verif.Lemmas.ElfLayout
/-!
# C57: where the sections of an object file go

`offsetOf x.sections n` is the address of section number `n` in the result `x` of an import at the address `start`.
-/
namespace Armips.Props
open Armips Armips.Elf Spec Spec.Elf

variable {M : Machine} {ext : String → Option Ext} {start : Int} {f : File} {q : M.State} {x : Imported M.State}

private theorem file_eq (h : relocateFile M ext start f q = some x) :
    ∃ stop out syms, layout start f.sections = some (x.sections, stop) ∧
      loadSections M f ext x.sections start q (List.replicate (stop - start).toNat 0) f.sections = some (out, x.result) ∧
      placeSymbols x.sections stop f.exported = some (syms, x.stop) ∧ x.out = out ++ List.replicate (x.stop - stop).toNat 0 ∧ x.symbols = syms := by
  simp only [relocateFile, bind, Option.bind_eq_some_iff, Option.some.injEq, Prod.exists] at h
  obtain ⟨m, stop, h1, out, o, h2, syms, stop', h3, rfl⟩ := h
  exact ⟨stop, out, syms, h1, h2, h3, rfl, rfl⟩

/-- Every section is at a multiple of its alignment, inside of the imported range. -/
theorem elf_sections_aligned (hf : WellFormed f) (h : relocateFile M ext start f q = some x) :
    ∀ s ∈ f.sections, (s.align : Int) ∣ offsetOf x.sections s.index ∧ start ≤ offsetOf x.sections s.index ∧
      offsetOf x.sections s.index + s.size ≤ x.stop := by
  obtain ⟨stop, out, syms, h1, h2, h3, _, _⟩ := file_eq h
  intro s hs
  obtain ⟨a, b, c⟩ := (layout_props h1 hf.1).2.1 s hs
  have := (placeSymbols_props h3).1
  exact ⟨a, b, by omega⟩

/-- The sections follow each other without overlapping, and between two of them is less than the alignment of the second one. -/
theorem elf_sections_in_order (hf : WellFormed f) (h : relocateFile M ext start f q = some x) :
    f.sections.Pairwise (fun s s' => offsetOf x.sections s.index + s.size ≤ offsetOf x.sections s'.index) ∧
    (∀ s l, f.sections = s :: l → offsetOf x.sections s.index < start + s.align) ∧
    ∀ l1 s s' l2, f.sections = l1 ++ s :: s' :: l2 →
      offsetOf x.sections s'.index < offsetOf x.sections s.index + s.size + s'.align := by
  obtain ⟨stop, out, syms, h1, h2, h3, _, _⟩ := file_eq h
  obtain ⟨_, _, a, b, c⟩ := layout_props h1 hf.1
  exact ⟨a, b, c⟩

private theorem content_core (hM : Resets M) (hf : WellFormed f) (h : relocateFile M ext start f M.init = some x) :
    (x.out.length : Int) = x.stop - start ∧ x.result.state = M.init ∧
    (∀ s ∈ f.sections, s.nobits = false → ∃ d o, relocSection M f ext x.sections s M.init = some (d, o) ∧ (x.result.ok = true → o.ok = true) ∧
      (o.ok = false → x.result.ok = false) ∧ (∀ t ∈ o.errors, t ∈ x.result.errors) ∧
      ∀ j, j < s.size → x.out[(offsetOf x.sections s.index - start).toNat + j]? = d[j]?) ∧
    ∀ i, i < x.out.length → (∀ s ∈ f.sections, s.nobits = false →
      start + i < offsetOf x.sections s.index ∨ offsetOf x.sections s.index + s.size ≤ start + i) → x.out[i]? = some 0 := by
  obtain ⟨stop, out, syms, h1, h2, h3, hout, _⟩ := file_eq h
  obtain ⟨l0, l1, l2, _, _⟩ := layout_props h1 hf.1
  obtain ⟨c1, c2, c3, c4⟩ := loadSections_props hM h2 (by
    refine List.Pairwise.imp_of_mem ?_ l2
    intro s s' hs hs' hle hn hn'
    rw [hf.2 s hs hn]; exact hle)
  have hp := (placeSymbols_props h3).1
  rw [List.length_replicate] at c1
  refine ⟨?_, c2, ?_, ?_⟩
  · rw [hout, List.length_append, List.length_replicate, c1]; omega
  · intro s hs hn
    obtain ⟨k0, d, o, k1, k2, k3, k4, k5⟩ := c3 s hs hn
    refine ⟨d, o, k1, k2, k3, k4, fun j hj => ?_⟩
    have hlen := relocSection_length k1
    rw [hf.2 s hs hn] at hlen
    have := (l1 s hs).2.2
    rw [hout, List.getElem?_append_left (by omega)]
    exact k5 j (by omega)
  · intro i hi hfree
    rw [hout]
    by_cases hlt : i < out.length
    · rw [List.getElem?_append_left hlt, c4 i]
      · rw [List.getElem?_replicate, if_pos (by omega)]
      · intro s hs hn
        rw [hf.2 s hs hn]
        have := hfree s hs hn
        omega
    · rw [hout, List.length_append, List.length_replicate] at hi
      rw [List.getElem?_append_right (by omega), List.getElem?_replicate, if_pos (by omega)]

/-- The output is as long as the range, and after a successful import it holds at each section's address the section's relocated contents. -/
theorem elf_sections_contents (hM : Resets M) (hf : WellFormed f) (h : relocateFile M ext start f M.init = some x) :
    (x.out.length : Int) = x.stop - start ∧
    (x.result.ok = true → ∀ s ∈ f.sections, s.nobits = false →
      ∃ d, Relocated M f ext x.sections s d ∧ (x.out.drop (offsetOf x.sections s.index - start).toNat).take s.size = d) := by
  obtain ⟨h1, _, h2, _⟩ := content_core hM hf h
  refine ⟨h1, fun hok s hs hn => ?_⟩
  obtain ⟨d, o, k1, k2, k3, k4, k5⟩ := h2 s hs hn
  refine ⟨d, ⟨o, k1, k2 hok⟩, ?_⟩
  have hlen := relocSection_length k1
  rw [hf.2 s hs hn] at hlen
  apply List.ext_getElem?
  intro j
  rw [List.getElem?_take]
  split
  · rename_i hj
    rw [List.getElem?_drop]
    exact k5 j hj
  · rw [List.getElem?_eq_none (by omega)]

/-- Everything else is zero: gaps, NOBITS sections and common symbols. -/
theorem elf_rest_zero (hM : Resets M) (hf : WellFormed f) (h : relocateFile M ext start f M.init = some x) {i : Nat} (hi : i < x.out.length)
    (hfree : ∀ s ∈ f.sections, s.nobits = false → start + i < offsetOf x.sections s.index ∨ offsetOf x.sections s.index + s.size ≤ start + i) :
    x.out[i]? = some 0 :=
  (content_core hM hf h).2.2.2 i hi hfree

/-- If a section cannot be relocated, the import fails, with the errors of that section. -/
theorem elf_failure_reported (hM : Resets M) (hf : WellFormed f) (h : relocateFile M ext start f M.init = some x) {s : Section} (hs : s ∈ f.sections)
    (hn : s.nobits = false) (hfail : RelocFails M f ext x.sections s) : x.result.ok = false ∧ x.result.errors ≠ [] := by
  obtain ⟨d', o', h1, h2, h3⟩ := hfail
  obtain ⟨_, _, hc, _⟩ := content_core hM hf h
  obtain ⟨d, o, k1, k2, k3, k4, k5⟩ := hc s hs hn
  rw [k1] at h1
  cases h1
  refine ⟨k3 h2, fun he => ?_⟩
  cases ho : o'.errors with
  | nil => exact h3 ho
  | cons t l =>
    have := k4 t (by rw [ho]; exact List.mem_cons_self ..)
    rw [he] at this
    cases this

/-- Exported symbols: absolute ones keep their value, those of a section move with it, common ones get aligned places of their own behind the
sections. -/
theorem elf_symbols_placed (hf : WellFormed f) (h : relocateFile M ext start f q = some x) :
    x.symbols.length = f.exported.length ∧
    (∀ (i : Nat) (s : Sym) (v : Int), f.exported[i]? = some s → x.symbols[i]? = some v →
      (s.shndx = 0xFFF1 → v = s.value) ∧
      (s.shndx ≠ 0xFFF1 → s.shndx ≠ 0xFFF2 → v = offsetOf x.sections s.shndx + s.value) ∧
      (s.shndx = 0xFFF2 → (s.value : Int) ∣ v ∧ v + s.size ≤ x.stop ∧
        ∀ t ∈ f.sections, offsetOf x.sections t.index + t.size ≤ v)) ∧
    ∀ (i j : Nat) (s t : Sym) (v u : Int), i < j → f.exported[i]? = some s → f.exported[j]? = some t → x.symbols[i]? = some v → x.symbols[j]? = some u →
      s.shndx = 0xFFF2 → t.shndx = 0xFFF2 → v + s.size ≤ u := by
  obtain ⟨stop, out, syms, h1, h2, h3, _, hs⟩ := file_eq h
  obtain ⟨p1, p2, p3, p4⟩ := placeSymbols_props h3
  rw [hs]
  refine ⟨p2, fun i s v hi hv => ?_, p4⟩
  obtain ⟨a, b, c⟩ := p3 i s v hi hv
  refine ⟨a, c, fun h => ?_⟩
  obtain ⟨b1, b2, b3⟩ := b h
  refine ⟨b1, b3, fun t ht => ?_⟩
  have := ((layout_props h1 hf.1).2.1 t ht).2.2
  omega

/-! ### Several files -/

/-- The files of an archive follow each other: each is imported where the previous one ended, by itself, and the output is theirs in a row. -/
theorem elf_files_in_a_row (hM : Resets M) {l : List File} (hl : ∀ f ∈ l, WellFormed f) :
    ∀ {start : Int} {out : List Byte} {r : List (Imported M.State)}, relocate M ext start M.init l = some (out, r) →
      r.length = l.length ∧ out = (r.map (·.out)).flatten ∧
      ∀ (i : Nat) (f : File) (y : Imported M.State), l[i]? = some f → r[i]? = some y →
        relocateFile M ext (start + ((r.take i).map (·.out.length)).sum) f M.init = some y := by
  induction l with
  | nil => intro start out r h; cases h; exact ⟨rfl, rfl, fun i f y h => (by simp at h)⟩
  | cons f l ih =>
    intro start out r h
    simp only [relocate, bind, Option.bind_eq_some_iff, Option.some.injEq, Prod.mk.injEq, Prod.exists] at h
    obtain ⟨y, hy, out', r', hr, rfl, rfl⟩ := h
    obtain ⟨c1, c2, _, _⟩ := content_core hM (hl f (List.mem_cons_self ..)) hy
    rw [c2] at hr
    obtain ⟨i1, i2, i3⟩ := ih (fun g hg => hl g (List.mem_cons_of_mem _ hg)) hr
    refine ⟨by simp [i1], by simp [i2], ?_⟩
    intro i g z hg hz
    cases i with
    | zero =>
      simp only [List.getElem?_cons_zero, Option.some.injEq] at hg hz
      subst hg; subst hz
      simpa using hy
    | succ i =>
      simp only [List.getElem?_cons_succ] at hg hz
      have := i3 i g z hg hz
      rw [show y.stop = start + y.out.length by omega] at this
      simp only [List.take_succ_cons, List.map_cons, List.sum_cons, Int.natCast_add]
      rw [← Int.add_assoc]
      exact this

/-- The relocators leave nothing behind. -/
theorem elf_machines : Resets mips ∧ (∀ arm9, Resets (arm arm9)) ∧ Resets sh := ⟨mips_resets, arm_resets, sh_resets⟩

/-! ### A file that is imported -/

/-- Two sections with contents, one without, and a common symbol. -/
def layoutSample : File :=
  ⟨.little, [⟨1, 6, 4, false, [1, 2, 3, 4, 5, 6], []⟩, ⟨3, 3, 2, true, [], []⟩, ⟨4, 4, 8, false, toBytes .little 4 7, [⟨0, 2, 1, 0⟩]⟩],
    fun _ => ⟨some "x", 2, 0, 1, 1⟩, [⟨some "x", 2, 0, 1, 1⟩, ⟨some "c", 4, 6, 1, 0xFFF2⟩]⟩

example : WellFormed layoutSample := ⟨by decide, by decide⟩

example : (relocateFile mips (fun _ => none) 0x1002 layoutSample []).map (fun x => (x.out, x.stop, x.sections, x.symbols, x.result.ok)) =
    some ([0, 0, 1, 2, 3, 4, 5, 6, 0, 0, 0, 0, 0, 0] ++ toBytes .little 4 0x100D ++ [0, 0, 0, 0, 0, 0], 0x101A, [(1, 0x1004), (3, 0x100A), (4, 0x1010)],
      [0x1006, 0x1014], true) := rfl

example : (relocate mips (fun _ => none) 0x1002 [] [layoutSample, layoutSample]).map (fun x => x.2.map (·.sections)) =
    some [[(1, 0x1004), (3, 0x100A), (4, 0x1010)], [(1, 0x101C), (3, 0x1022), (4, 0x1028)]] := rfl

/-! ### What goes wrong -/

/-- A section with alignment 0, which the ELF format allows, makes the program divide by zero. -/
theorem elf_alignment_zero_undefined (M : Machine) (ext : String → Option Ext) (start : Int) (f : File) (q : M.State) (l1 l2 : List Section) (s : Section)
    (hs : f.sections = l1 ++ s :: l2) (h0 : s.align = 0) : relocateFile M ext start f q = none := by
  have key : ∀ (l1 : List Section) (a : Int), layout a (l1 ++ s :: l2) = none := by
    intro l1
    induction l1 with
    | nil => intro a; simp [layout, alignUp, h0]
    | cons t l1 ih =>
      intro a
      simp only [List.cons_append, layout, bind, Option.bind_eq_none_iff]
      intro p _
      rw [ih]
      simp
  unfold relocateFile
  rw [hs, key]
  rfl

/-- A relocation against a common symbol of the same file does not use the place that the symbol gets. -/
theorem elf_common_symbol_wrong :
    ∃ (f : File) (x : Imported (List Hi16)) (d : RelocData), WellFormed f ∧ relocateFile mips (fun _ => none) 0x1000 f [] = some x ∧ x.result.ok = true ∧
      (∃ s ∈ f.sections, ∃ r ∈ s.rels, f.exported = [f.syms r.sym] ∧ relocData mips f (fun _ => none) x.sections s r = .ok d) ∧ x.symbols ≠ [d.base] := by
  refine ⟨⟨.little, [⟨1, 4, 4, false, toBytes .little 4 0, [⟨0, 2, 1, 0⟩]⟩], fun _ => ⟨some "c", 4, 6, 1, 0xFFF2⟩, [⟨some "c", 4, 6, 1, 0xFFF2⟩]⟩, _, _,
    ⟨by decide, by decide⟩, rfl, rfl, ⟨_, List.mem_cons_self .., _, List.mem_cons_self .., rfl, rfl⟩, by decide⟩

/-- A relocation without a symbol is skipped with a warning; the import fails without an error. -/
theorem elf_no_symbol_wrong :
    ∃ (f : File) (x : Imported (List Hi16)), WellFormed f ∧ relocateFile mips (fun _ => none) 0x1000 f [] = some x ∧ x.result.ok = false ∧
      x.result.errors = [] ∧ x.result.warnings ≠ [] := by
  refine ⟨⟨.little, [⟨1, 4, 4, false, toBytes .little 4 0, [⟨0, 2, 0, 0⟩]⟩], fun _ => ⟨none, 0, 0, 0, 0⟩, []⟩, _, ⟨by decide, by decide⟩, rfl, rfl, rfl,
    by decide⟩

end Armips.Props
