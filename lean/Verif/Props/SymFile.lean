import Verif.Lemmas.SymFile
import Verif.Props.TextFile
/-!
# C54: the symbol file
-/
namespace Armips.Props
open Armips SymFile Spec.Sym

/-- Numbers in the file: at least the asked number of upper-case hexadecimal digits, no leading zeros beyond that, and the right value. -/
theorem symfile_numbers : IsNum hex hexValue :=
  fun _ _ hw hn => ⟨SymFile.hex_value hn, hex_length hw, hex_digits, hex_first⟩

example : hex 8 0xBEEF = [48, 48, 48, 48, 66, 69, 69, 70] ∧ hex 4 0x12345 = [49, 50, 51, 52, 53] := by decide

theorem hex_no_zero (w n : Nat) : 0 ∉ hex w n := fun h => by
  have := hex_digits 0 h
  omega

theorem dataText_no_zero (d : Nat × DataType) : 0 ∉ dataText hex d := by
  rw [← dataText_eq]
  intro h
  rcases List.mem_append.1 h with h | h
  · obtain ⟨n, t⟩ := d
    cases t <;> simp [dataPrefix] at h
  · exact hex_no_zero _ _ h

theorem labelText_no_zero {v : View} (version : Nat) {l : Option Nat × Int × List Nat} (h : 0 ∉ l.2.2) : 0 ∉ v.labelText hex version l := by
  unfold View.labelText
  split
  · intro h0
    obtain ⟨c, hc, h1⟩ := List.mem_map.1 h0
    unfold lower at h1
    split at h1
    · omega
    · exact h (h1 ▸ hc)
  · split
    · exact h
    · simp only [List.mem_append, List.mem_singleton, not_or]
      exact ⟨⟨h, by decide⟩, hex_no_zero _ _⟩

theorem takeWhile_all {l : List Nat} (h : 0 ∉ l) : l.takeWhile (· ≠ 0) = l := by
  have := List.takeWhile_append_of_pos (p := fun x : Nat => decide (x ≠ 0)) (l₁ := l) (l₂ := []) (by
    intro x hx
    simp only [ne_eq, decide_eq_true_eq]
    exact fun e => h (e ▸ hx))
  simpa using this

/-- The symbol file after any calls (in which no module begins within a function): the heading, one line for each entry, the mark of the end. The
entries are in order. There is exactly one for each label and each data run that was registered while recording was on, a repeated
registration in the same module counting once; a label is followed by the size of the function that begins there. -/
theorem symfile_exact_partial {ops : List Op} (hc : Calm ops) (version : Nat) (hn : ∀ l ∈ (view ops).labels, 0 ∉ l.2.2) :
    ∃ (s : State) (entries : List (Int × List Nat)) (labels : List (Option Nat × Int × List Nat)) (data : List (Option Nat × Int × Nat × DataType)),
      run State.start ops = some s ∧
      output version s = "00000000 0\n".toList.map Char.toNat ++
        entries.flatMap (fun e => hex 8 (e.1 % 2 ^ 64).toNat ++ [32] ++ e.2 ++ [10]) ++ [0x1A] ∧
      entries.Pairwise Before ∧
      entries.Perm (labels.map (fun l => (l.2.1, (view ops).labelText hex version l)) ++ data.map fun d => (d.2.1, dataText hex d.2.2)) ∧
      labels.Nodup ∧ (∀ l, l ∈ labels ↔ l ∈ (view ops).labels) ∧
      data.Nodup ∧ (∀ d, d ∈ data ↔ d ∈ (view ops).data) := by
  obtain ⟨s, h1, h2⟩ := inv_run ops inv_start hc
  refine ⟨s, sorted version s, allLabels s, allData s, h1, ?_, sorted_pairwise version s, sorted_perm h2 version,
    nodup_tagged _ _ h2.files fun m hm => (h2.holds m hm).symbols, allLabels_mem h2,
    nodup_tagged _ _ h2.files fun m hm => (h2.holds m hm).data, allData_mem h2⟩
  have hz : ∀ e ∈ sorted version s, 0 ∉ e.2 := by
    intro e he
    rcases List.mem_append.1 ((sorted_perm h2 version).mem_iff.1 he) with he | he
    · obtain ⟨l, hl, rfl⟩ := List.mem_map.1 he
      exact labelText_no_zero version (hn l ((allLabels_mem h2 l).1 hl))
    · obtain ⟨d, _, rfl⟩ := List.mem_map.1 he
      exact dataText_no_zero _
  have ho := (text_output true (Put.line [48, 48, 48, 48, 48, 48, 48, 48, 32, 48] ::
    ((sorted version s).map (fun e => Put.text (line e)) ++ [Put.text [0x1A]]))).1
  rw [List.foldl_cons, List.foldl_append, List.foldl_map, List.flatMap_cons, List.flatMap_append, List.flatMap_map] at ho
  have : output version s = _ := ho
  rw [this]
  simp only [if_true, List.nil_append]
  rw [← List.append_assoc]
  congr 1
  congr 1
  rw [List.flatMap_def, List.flatMap_def]
  congr 1
  apply List.map_congr_left
  intro e he
  show (line e).takeWhile _ = _
  rw [takeWhile_all]
  · simp [line]
  · unfold line
    simp only [List.mem_append, List.mem_cons, not_or]
    exact ⟨⟨hex_no_zero _ _, by decide, hz e he⟩, by decide, by simp⟩

/-- A history with a repeated label, a function with a size, data, and recording switched off for a while. -/
def symExample : List Op :=
  [.startFunction 0x100, .label 0x100 [70, 110], .label 0x100 [70, 110], .data 0x80 3 .data16, .endFunction 0x120, .enable false, .label 5 [90],
    .enable true, .startModule 7, .label 0x90 [98], .endModule 7]

theorem symExample_calm : Calm symExample := by
  intro a f b h
  rcases a with _ | ⟨_, _ | ⟨_, _ | ⟨_, _ | ⟨_, _ | ⟨_, _ | ⟨_, _ | ⟨_, _ | ⟨_, _ | ⟨_, _ | ⟨_, _ | ⟨_, a⟩⟩⟩⟩⟩⟩⟩⟩⟩⟩⟩ <;>
    simp [symExample] at h
  obtain ⟨rfl, rfl, rfl, rfl, rfl, rfl, rfl, rfl, _⟩ := h
  rfl

example : ((run State.start symExample).map fun s => output 2 s) =
    some ("00000000 0\n00000080 .wrd:0003\n00000090 b\n00000100 Fn,00000020\n".toList.map Char.toNat ++ [0x1A]) := by decide +kernel

example : (view symExample).labels = [(none, 0x100, [70, 110]), (none, 0x100, [70, 110]), (some 7, 0x90, [98])] ∧
    (view symExample).sizeAt none 0x100 = 0x20 := by decide +kernel

/-- Labels of a history without modules are outside of all modules. -/
theorem view_no_module : ∀ (ops : List Op) (v : View), (∀ f, .startModule f ∉ ops) → v.cur = none → (∀ l ∈ v.labels, l.1 = none) → (∀ d ∈ v.data, d.1 = none) →
    (∀ l ∈ (ops.foldl View.next v).labels, l.1 = none) ∧ ∀ d ∈ (ops.foldl View.next v).data, d.1 = none
  | [], _, _, _, hl, hd => ⟨hl, hd⟩
  | o :: ops, v, h, hc, hl, hd => by
    have h' : ∀ f, .startModule f ∉ ops := fun f hf => h f (List.mem_cons_of_mem _ hf)
    rw [List.foldl_cons]
    cases o with
    | enable b => exact view_no_module ops _ h' hc hl hd
    | label a n =>
      refine view_no_module ops _ h' ?_ ?_ ?_ <;> simp only [View.next] <;> split
      · exact hc
      · exact hc
      · intro l h
        rcases List.mem_append.1 h with h | h
        · exact hl l h
        · rw [List.mem_singleton] at h; subst h; exact hc
      · exact hl
      · exact hd
      · exact hd
    | data a n t =>
      refine view_no_module ops _ h' ?_ ?_ ?_ <;> simp only [View.next] <;> split
      · exact hc
      · exact hc
      · exact hl
      · exact hl
      · intro l h
        rcases List.mem_append.1 h with h | h
        · exact hd l h
        · rw [List.mem_singleton] at h; subst h; exact hc
      · exact hd
    | startModule f => exact absurd (by simp) (h f)
    | endModule f =>
      have : v.next (.endModule f) = v := by simp [View.next, hc]
      rw [this]
      exact view_no_module ops _ h' hc hl hd
    | startFunction a => exact view_no_module ops _ h' hc hl hd
    | endFunction a => exact view_no_module ops _ h' hc hl hd

/-- Without modules (that is, unless an ELF file is loaded with `.loadelf`) every distinct pair of address and name is listed exactly once, and so
is every distinct data run. -/
theorem symfile_once {ops : List Op} (hm : ∀ f, .startModule f ∉ ops) (version : Nat) (hn : ∀ l ∈ (view ops).labels, 0 ∉ l.2.2) :
    ∃ (s : State) (entries : List (Int × List Nat)) (labels : List (Int × List Nat)) (data : List (Int × Nat × DataType)),
      run State.start ops = some s ∧
      output version s = "00000000 0\n".toList.map Char.toNat ++
        entries.flatMap (fun e => hex 8 (e.1 % 2 ^ 64).toNat ++ [32] ++ e.2 ++ [10]) ++ [0x1A] ∧
      entries.Pairwise Before ∧
      entries.Perm (labels.map (fun l => (l.1, (view ops).labelText hex version (none, l))) ++ data.map fun d => (d.1, dataText hex d.2)) ∧
      labels.Nodup ∧ (∀ l, l ∈ labels ↔ l ∈ (view ops).labels.map (·.2)) ∧
      data.Nodup ∧ (∀ d, d ∈ data ↔ d ∈ (view ops).data.map (·.2)) := by
  have hc : Calm ops := by
    intro a f b h
    exact absurd (by rw [h]; simp) (hm f)
  obtain ⟨s, es, L, D, h1, h2, h3, h4, h5, h6, h7, h8⟩ := symfile_exact_partial hc version hn
  obtain ⟨hl, hd⟩ := view_no_module ops {} hm rfl (by simp) (by simp)
  have hl' : ∀ l ∈ L, l.1 = none := fun l h => hl l ((h6 l).1 h)
  have hd' : ∀ d ∈ D, d.1 = none := fun d h => hd d ((h8 d).1 h)
  refine ⟨s, es, L.map (·.2), D.map (·.2), h1, h2, h3, ?_, ?_, ?_, ?_, ?_⟩
  · rw [List.map_map, List.map_map]
    have e : L.map ((fun l => (l.1, (view ops).labelText hex version (none, l))) ∘ (·.2)) =
        L.map fun l => (l.2.1, (view ops).labelText hex version l) := by
      apply List.map_congr_left
      intro l h
      obtain ⟨f, l⟩ := l
      have := hl' _ h
      simp only at this
      subst this
      rfl
    rw [e]
    exact h4
  · unfold List.Nodup
    rw [List.pairwise_map]
    refine List.Pairwise.imp_of_mem ?_ h5
    intro x y hx hy hne e
    exact hne (Prod.ext ((hl' x hx).trans (hl' y hy).symm) e)
  · intro l
    simp only [List.mem_map, h6]
  · unfold List.Nodup
    rw [List.pairwise_map]
    refine List.Pairwise.imp_of_mem ?_ h7
    intro x y hx hy hne e
    exact hne (Prod.ext ((hd' x hx).trans (hd' y hy).symm) e)
  · intro l
    simp only [List.mem_map, h8]

example : (∀ f, Op.startModule f ∉ symExample.take 8) ∧ (view (symExample.take 8)).labels.length = 2 := by
  refine ⟨fun f => ?_, by decide⟩
  simp [symExample]

/-- The same label in two ELF files is listed twice. -/
theorem symfile_twice_wrong : ((run State.start [.startModule 1, .label 16 [97], .endModule 1, .startModule 2, .label 16 [97], .endModule 2]).map fun s => output 2 s) =
    some ("00000000 0\n00000010 a\n00000010 a\n".toList.map Char.toNat ++ [0x1A]) := by decide +kernel

/-- A function that has no label at its address is not listed. -/
theorem symfile_unnamed_function : ((run State.start [.startFunction 16, .endFunction 32]).map fun s => output 2 s) =
    some ("00000000 0\n".toList.map Char.toNat ++ [0x1A]) := by decide +kernel

/-- When an ELF file is loaded within a function, the end of the function is looked up in the wrong module: an access out of range. -/
theorem symfile_function_across_wrong : run State.start [.startFunction 16, .startModule 1, .endFunction 32] = none := by decide +kernel

/-- A second end of a function is reported and changes nothing else. -/
theorem symfile_double_end (s : State) (h : s.func = none) (b : Int) : step s (.endFunction b) = some { s with errs := s.errs + 1 } := by
  simp only [step, SymFile.endFunction, h]

end Armips.Props
