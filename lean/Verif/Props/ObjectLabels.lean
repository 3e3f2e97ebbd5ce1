import Verif.Lemmas.ObjectLabels
/-!
# C79: symbols of imported object files become labels
-/
namespace Armips.Props
open Armips.ObjLabels Armips.Spec.ObjLabels Armips.Spec.Sym Armips.Elf
open Armips.SymTab (isValidSymbolName run_wf wf_empty key_eq_iff)

variable {M : Machine} {ops : List SymTab.Op} {hint : Nat → Bool × Int} {objs : List Obj} {L : Labels} {os : List (Obj × List (Option Nat))}

/-- C79. An import is accepted exactly if the names of all exported symbols, of all its files together, can be defined: they are valid
label names, no two of them are equal up to case, none is an equation, and none is a label that is already defined. -/
theorem import_accepted (ops : List SymTab.Op) (hint : Nat → Bool × Int) (objs : List Obj) (h0 : ∀ s ∈ symbolsOf objs, 0#8 ∉ s.name) :
    (exportFiles M ⟨SymTab.run {} ops, hint⟩ objs).2.2 = true ↔ Free ⟨SymTab.run {} ops, hint⟩ (symbolsOf objs) := by
  rw [(exportFiles_flat M _ objs).2, exportSymbols_ok M _ (run_wf wf_empty ops).1]
  constructor
  · intro ⟨a, b, c, d⟩
    exact ⟨fun s hs => (valid_name _ (h0 s hs)).1 (a s hs), b, c, d⟩
  · intro ⟨a, b, c, d⟩
    exact ⟨fun s hs => (valid_name _ (h0 s hs)).2 (a s hs), b, c, d⟩

/-- C79. An accepted import defines a label for each exported symbol, under its name in any case, with its marks (data or function, Thumb or
not). What any other name denotes does not change. -/
theorem import_defines (h : exportFiles M ⟨SymTab.run {} ops, hint⟩ objs = (L, os, true)) :
    (∀ s ∈ symbolsOf objs, ∀ n f c, SameSymbol s.name (-1) (-1) n f c → find L n f c = some (says M s 0)) ∧
    ∀ n f c, ¬ Taken objs n f c → find L n f c = find ⟨SymTab.run {} ops, hint⟩ n f c := by
  have hw := (run_wf wf_empty ops).1
  have hok : (exportSymbols M ⟨SymTab.run {} ops, hint⟩ (symbolsOf objs)).2.2 = true := by
    rw [← (exportFiles_flat M _ objs).2, h]
  obtain ⟨is, _, a⟩ := exportSymbols_all M _ hw _ hok
  rw [← (exportFiles_flat M _ objs).1, h] at a
  refine ⟨fun s hs n f c hn => ?_, fun n f c hn => a.others n f c fun s hs hk => hn ⟨s, hs, (key_eq_iff _ _ _ _ _ _).1 hk.symm⟩⟩
  obtain ⟨j, hj⟩ := List.getElem?_of_mem hs
  have hlt : j < is.length := by rw [a.len]; exact (List.getElem?_eq_some_iff.1 hj).1
  obtain ⟨b, lk⟩ := a.bound j s _ hj (List.getElem?_eq_getElem hlt)
  have hk := (key_eq_iff _ _ _ _ _ _).2 hn
  rw [find_eq L a.wf, ← valid_of_key hk, b.valid, ← hk, b.sym, if_pos rfl]
  exact lk

private theorem lit_label (x : Str) : lit (Spec.Obj.label x) = x.map lower := by
  unfold lit Spec.Obj.label
  rw [String.toList_ofList, List.map_map]
  apply List.map_congr_left
  have : ∀ b : Byte, BitVec.ofNat 8 (Char.ofNat (Spec.Obj.lower b).toNat).toNat = lower b := by decide +kernel
  exact fun b _ => this b

private theorem same_label {a b : Str} (h : SameText a b) : SameSymbol a (-1) (-1) (lit (Spec.Obj.label b)) (-1) (-1) := by
  rw [← key_eq_iff, lit_label, key_lower]
  exact (key_global_iff a b).2 h

private theorem find_other {L L' : Labels} {os : List (Obj × List Nat)} (w : Own M L os) (hs : Same L L' (labelsOf os)) {n : Str} {f c : Int}
    (hn : ¬ Taken (os.map (·.1)) n f c) : find L' n f c = find L n f c := by
  rw [find_eq _ (hs.wf w.wf), find_eq _ w.wf, hs.symbols]
  cases hv : isValidSymbolName n with
  | false => rfl
  | true =>
    cases hx : L.tab.symbols (SymTab.key n f c) with
    | none => rfl
    | some x =>
      cases x with
      | equation => rfl
      | label i =>
        have hi : i ∉ labelsOf os := by
          intro hi
          simp only [labelsOf, List.mem_flatten, List.mem_map] at hi
          obtain ⟨_, ⟨p, hp, rfl⟩, hi⟩ := hi
          obtain ⟨j, hj⟩ := List.getElem?_of_mem hi
          have hjl : j < p.1.symbols.length := by rw [← w.len p hp]; exact (List.getElem?_eq_some_iff.1 hj).1
          have b := w.bound p hp j _ i (List.getElem?_eq_getElem hjl) hj
          exact hn ⟨_, List.mem_flatten.2 ⟨_, List.mem_map.2 ⟨p.1, List.mem_map.2 ⟨p, hp, rfl⟩, rfl⟩, List.getElem_mem hjl⟩,
            (key_eq_iff _ _ _ _ _ _).1 (w.wf.inj _ _ _ b.sym hx)⟩
        exact look_congr (hs.others i hi) (by rw [hs.hint])

private theorem exported_own (h : exportFiles M ⟨SymTab.run {} ops, hint⟩ objs = (L, os, true)) :
    ∃ ls, os = link ls ∧ ls.map (·.1) = objs ∧ Own M L ls := by
  obtain ⟨ls, h1, h2, h3, _⟩ := exportFiles_all M _ (run_wf wf_empty ops).1 objs (by rw [h])
  rw [h] at h1 h3
  exact ⟨ls, h1, h2, h3⟩

/-- C79. After any history of passes over the import and of other uses of the symbol table, a pass gives the labels of all exported symbols
their addresses of this pass, seen by the assembler and by the object files, and does not touch what other names denote. -/
theorem import_pass (h : exportFiles M ⟨SymTab.run {} ops, hint⟩ objs = (L, os, true)) {R R' R'' : Memory} {L' L'' : Labels}
    {evs : List Event} (hf : ∀ e ∈ evs, Foreign (pointers os) e) (he : events M os (L, R) evs = some (L', R')) {a : Int} {changed : Bool}
    (hp : pass M os a L' R' = some (L'', R'', changed)) :
    R''.addresses.length = objs.length ∧
    (∀ (k : Nat) o vs, objs[k]? = some o → R''.addresses[k]? = some vs → vs.length = o.symbols.length ∧
      ∀ (j : Nat) s v, o.symbols[j]? = some s → vs[j]? = some v →
        (∀ n f c, SameSymbol s.name (-1) (-1) n f c → find L'' n f c = some (says M s v)) ∧
        ∀ n, SameText s.name n → ext L'' (Spec.Obj.label n) = some (says M s v)) ∧
    ∀ n f c, ¬ Taken objs n f c → find L'' n f c = find L' n f c := by
  obtain ⟨ls, rfl, rfl, w⟩ := exported_own h
  rw [pointers_link] at hf
  obtain ⟨w', _⟩ := events_own (x := (L, R)) w hf he
  obtain ⟨out, r, hr, rfl, _⟩ := pass_eq hp
  obtain ⟨a1, a2, a3, a4⟩ := passFiles_spec w' hr
  have w2 := w'.same a2
  refine ⟨by simp [a1], fun k o vs hk hv => ?_, fun n f c hn => find_other w' a2 hn⟩
  rw [List.getElem?_map, Option.map_eq_some_iff] at hk
  obtain ⟨p, hk, rfl⟩ := hk
  have hv' := hv
  rw [List.getElem?_map, Option.map_eq_some_iff] at hv'
  obtain ⟨x, hx, rfl⟩ := hv'
  have hpm := List.mem_of_getElem? hk
  refine ⟨a4 k p x hk hx, fun j s v hs hj => ?_⟩
  have hlt : j < p.2.length := by rw [w'.len p hpm]; exact (List.getElem?_eq_some_iff.1 hs).1
  have hi := List.getElem?_eq_getElem hlt
  obtain ⟨l, hl, hlv⟩ := a3 k p _ hk hv j _ v hi hj
  have hfind : ∀ n f c, SameSymbol s.name (-1) (-1) n f c → find L'' n f c = some (says M s v) := fun n f c hn => by
    rw [(w2.bound p hpm j s _ hs hi).find w2.wf hl hn, hlv]
  exact ⟨hfind, fun n hn => hfind _ _ _ (same_label hn)⟩

/-- C79. Once a pass, which is not the first one, reports no change, everything is consistent: the labels and the data have not changed, and the data is
what relocating the files (C35, C36 and C57) gives with these labels. By `import_pass` they are the final addresses, so that references between the object
files, and from the assembler to them, reach their targets. -/
theorem import_settled (h : exportFiles M ⟨SymTab.run {} ops, hint⟩ objs = (L, os, true)) {R R' R'' : Memory} {L' L'' : Labels}
    {evs : List Event} (hf : ∀ e ∈ evs, Foreign (pointers os) e) (hpass : HasPass evs) (he : events M os (L, R) evs = some (L', R'))
    {a : Int} (hp : pass M os a L' R' = some (L'', R'', false)) :
    L'' = L' ∧ R'' = R' ∧
    ∃ r, relocate M (ext L'') a M.init (objs.map fun o => o.file M) = some (R''.data, r) ∧ R''.addresses = r.map (·.symbols) := by
  obtain ⟨ls, rfl, rfl, w⟩ := exported_own h
  rw [pointers_link] at hf
  obtain ⟨w', hh⟩ := events_own (x := (L, R)) w hf he
  obtain ⟨out, r, hr, rfl, hc⟩ := pass_eq hp
  have hc := of_decide_eq_false hc.symm
  have h1 : r.map (·.symbols) = R'.addresses := Classical.byContradiction fun hn => hc (.inl hn)
  have h2 : out = R'.data := Classical.byContradiction fun hn => hc (.inr hn)
  have hold := hh (.inr hpass)
  simp only at hold
  rw [← h1] at hold
  obtain ⟨b1, b2⟩ := passFiles_stable hold hr
  refine ⟨b1, ?_, r, ?_, rfl⟩
  · cases R'; simp_all
  · rw [b1, List.map_map]; exact b2

/-- C79. A pass that is not the first one reports a change exactly if the data, or the address of an exported symbol, is not the same as
in the pass before. -/
theorem import_change {R R' : Memory} {L' : Labels} {a : Int} {changed : Bool} (hp : pass M os a L R = some (L', R', changed)) :
    changed = true ↔ R' ≠ R := by
  obtain ⟨out, r, hr, rfl, hc⟩ := pass_eq hp
  cases R with
  | mk adr data =>
    rw [hc]
    simp only [decide_eq_true_eq, ne_eq, Memory.mk.injEq]
    by_cases h1 : r.map (·.symbols) = adr <;> by_cases h2 : out = data <;> simp [h1, h2]

/-- C79. The exported symbols of an object file are those of C70, with the names in the file. -/
theorem import_symbols (f : ElfFile.File) (n : Nat) : Object.objSymbols M f n = (rawSymbols f n).map (List.map (prepare M)) := by
  induction n with
  | zero => rfl
  | succ n ih =>
    rw [Object.objSymbols, rawSymbols, ih]
    cases hl : rawSymbols f n with
    | none => rfl
    | some l =>
      have : Object.objSymbol M f n = (rawSymbol f n).map (Option.map (prepare M)) := by
        unfold Object.objSymbol rawSymbol
        cases hy : ElfFile.getSymbol f n with
        | none => rfl
        | some y =>
          simp only [Option.bind_eq_bind, Option.bind_some]
          split
          · cases ElfFile.strTableString f y.name.toNat <;> rfl
          · rfl
      rw [this]
      cases hx : rawSymbol f n with
      | none => rfl
      | some x => cases x <;> simp [hx]

/-! ### Not what one expects -/

/-- Two files that define the same symbol, or symbols that differ in case only, are refused: object files distinguish upper and lower
case, and may define a weak symbol many times. -/
theorem import_twice_refused (ops : List SymTab.Op) (hint : Nat → Bool × Int) {a b : List Symb} {s t : Symb} (hs : s ∈ a) (ht : t ∈ b)
    (h : SameText s.name t.name) (ha : symbolsOf objs = a ++ b) : (exportFiles M ⟨SymTab.run {} ops, hint⟩ objs).2.2 = false := by
  cases hok : (exportFiles M ⟨SymTab.run {} ops, hint⟩ objs).2.2 with
  | false => rfl
  | true =>
    rw [(exportFiles_flat M _ objs).2, exportSymbols_ok M _ (run_wf wf_empty ops).1, ha] at hok
    exact ((List.pairwise_append.1 hok.2.1).2.2 s hs t ht h).elim

/-- The first pass can report no change although labels got their addresses: the addresses are compared with memory that was not
initialised. -/
theorem import_first_pass_wrong : ∃ (objs : List Obj) (R : Memory) (L : Labels) (os : List (Obj × List (Option Nat))) (L' : Labels) (R' : Memory),
    exportFiles mips ⟨SymTab.run {} [], fun _ => (false, 0)⟩ objs = (L, os, true) ∧ R.data = [] ∧
    pass mips os 0 L R = some (L', R', false) ∧ find L' (lit "x") (-1) (-1) ≠ find L (lit "x") (-1) (-1) := by
  refine ⟨[⟨.little, [], fun _ => ⟨none, 0, 0, 0, 0⟩, [⟨lit "x", 5, 0, 0, 0xFFF1⟩]⟩], ⟨[[5]], []⟩, _, _, _, _, rfl, rfl, rfl, ?_⟩
  intro h
  have h1 := congrArg (Option.map (·.value)) h
  revert h1
  decide +kernel

/-! ### An example -/

/-- A file with the function `Main`, which calls `other`; a second file defines `Other`. -/
def twoFiles : List Obj :=
  [⟨.little, [⟨1, 8, 4, false, [0, 0, 0, 0x0C, 0, 0, 0, 0], [⟨0, 4, 2, 0⟩]⟩], fun i => if i = 2 then ⟨some "other", 0, 0, 0, 0⟩ else ⟨none, 0, 0, 0, 0⟩,
      [⟨lit "Main", 0, 8, 2, 1⟩]⟩,
    ⟨.little, [⟨1, 8, 16, false, [8, 0, 0xE0, 3, 0, 0, 0, 0], []⟩], fun _ => ⟨none, 0, 0, 0, 0⟩, [⟨lit "Other", 4, 4, 2, 1⟩]⟩]

/-- Two passes; then a third one finds nothing to change. `other` is at 0x114. -/
example : (exportFiles mips ⟨SymTab.run {} [.getLabel (lit "other") 0 0], fun _ => (false, 0)⟩ twoFiles).2.2 = true ∧
    (let (L, os, _) := exportFiles mips ⟨SymTab.run {} [.getLabel (lit "other") 0 0], fun _ => (false, 0)⟩ twoFiles
    ((events mips os (L, ⟨[], []⟩) [.pass 0x100, .other (.getLabel (lit "zzz") 0 0), .pass 0x100]).bind fun y =>
      (pass mips os 0x100 y.1 y.2).map fun z => (z.2.1, z.2.2, (find z.1 (lit "OTHER") 3 4).map (·.value))) =
      some (⟨[[0x100], [0x114]], [0x45, 0, 0, 0x0C, 0, 0, 0, 0, 0, 0, 0, 0, 0, 0, 0, 0, 8, 0, 0xE0, 3, 0, 0, 0, 0]⟩, false, some 0x114)) := by
  decide +kernel

example : Foreign [0, 1] (.other (.getLabel (lit "zzz") 0 0)) ∧ HasPass [.pass 0x100, .other (.getLabel (lit "zzz") 0 0)] :=
  ⟨trivial, 0x100, List.mem_cons_self ..⟩

example : ∃ a b, symbolsOf twoFiles = a ++ b ∧ a ≠ [] ∧ b ≠ [] ∧ SameText (lit "Main") (lit "mAIN") :=
  ⟨[⟨lit "Main", 0, 8, 2, 1⟩], [⟨lit "Other", 4, 4, 2, 1⟩], rfl, by simp, by simp, (SymTab.map_lower_eq_iff _ _).1 (by decide +kernel)⟩

end Armips.Props
