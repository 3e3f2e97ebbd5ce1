import Verif.Lemmas.ElfFile4
/-! # Helper lemmas: writing into an ELF file -/
namespace Armips.ElfFile
open Armips.Spec

theorem firstWith_some {α : Type} {p : α → Bool} : ∀ {l : List α} {i x}, firstWith p l = some (i, x) →
    l[i]? = some x ∧ p x = true ∧ ∀ k < i, ∀ y, l[k]? = some y → p y = false := by
  intro l
  induction l with
  | nil => intro i x h; cases h
  | cons a l ih =>
    intro i x h
    rw [firstWith] at h
    split at h
    · next hp =>
      simp only [Option.some.injEq, Prod.mk.injEq] at h
      obtain ⟨rfl, rfl⟩ := h
      exact ⟨rfl, hp, by omega⟩
    · next hp =>
      obtain ⟨⟨i0, x0⟩, h0, h1⟩ := Option.map_eq_some_iff.1 h
      simp only [Prod.mk.injEq] at h1
      obtain ⟨rfl, rfl⟩ := h1
      obtain ⟨k1, k2, k3⟩ := ih h0
      refine ⟨by rw [List.getElem?_cons_succ]; exact k1, k2, ?_⟩
      intro k hk y hy
      cases k with
      | zero =>
        simp only [List.getElem?_cons_zero, Option.some.injEq] at hy
        subst hy; simpa using hp
      | succ k => rw [List.getElem?_cons_succ] at hy; exact k3 k (by omega) y hy

theorem firstWith_none {α : Type} {p : α → Bool} : ∀ {l : List α}, firstWith p l = none → ∀ x ∈ l, p x = false := by
  intro l
  induction l with
  | nil => intro _ x hx; cases hx
  | cons a l ih =>
    intro h x hx
    rw [firstWith] at h
    split at h
    · cases h
    · next hp =>
      rcases List.mem_cons.1 hx with rfl | hx
      · simpa using hp
      · exact ih (Option.map_eq_none_iff.1 h) x hx

/-- The output of the assembler and the image of the specification. -/
structure Rel (d : List Byte) (m : Elf32.Image) (o : Output) : Prop where
  holds : Holds d m.contents o.elf
  errors : o.errors = m.errors
  place : match m.place with
    | .nowhere => o.segment = none ∧ o.section_ = none
    | .free => o.segment = none ∧ ∃ l, o.section_ = some l
    | .segment i p => ∃ g l j x, o.segment = some i ∧ o.elf.segs[i]? = some g ∧ o.section_ = some l ∧ g.sections[l]? = some j ∧
        o.sectionOffset = some x ∧ ((o.elf.secs j).hdr.offset.toNat : Int) + x = p ∧ p ≤ (m.contents i).length ∧
        (o.elf.secs j).hdr.offset.toNat < (m.contents i).length ∧ 0 ≤ x

/-- Looking for a segment. -/
theorem find_seg {d C f} (h : Holds d C f) (st : Elf32.PField) (a : Int) (q : Seg → Bool)
    (hq : ∀ g, q g = decide (((g.hdr.get st).toNat : Int) ≤ a ∧ a < (g.hdr.get st).toNat + g.hdr.filesz.toNat)) :
    (∀ i g, firstWith q f.segs = some (i, g) → f.segs[i]? = some g ∧ Elf32.SegAt d st a i) ∧
    (firstWith q f.segs = none → ¬ ∃ i, Elf32.SegAt d st a i) := by
  have hcov : ∀ i g, f.segs[i]? = some g → (q g = true ↔ Elf32.Covers d st a i) := by
    intro i g hg
    obtain ⟨h1, _⟩ := h.segs i g hg
    have hz : g.hdr.filesz.toNat = Elf32.seg d i .filesz := h1 .filesz
    rw [hq, h1 st, hz, decide_eq_true_iff]
    exact Iff.rfl
  refine ⟨fun i g hf => ?_, fun hf ⟨i, hi⟩ => ?_⟩
  · obtain ⟨h1, h2, h3⟩ := firstWith_some hf
    have hi : i < Elf32.phnum d := by rw [← h.len]; exact (List.getElem?_eq_some_iff.1 h1).1
    refine ⟨h1, hi, (hcov i g h1).1 h2, fun k hk hc => ?_⟩
    have hkl : k < f.segs.length := by rw [h.len]; omega
    have hg := List.getElem?_eq_getElem hkl
    have := h3 k hk _ hg
    rw [(hcov k _ hg).2 hc] at this
    cases this
  · have hl : i < f.segs.length := by rw [h.len]; exact hi.1
    have hg := List.getElem?_eq_getElem hl
    have := firstWith_none hf _ (List.getElem_mem hl)
    rw [(hcov i _ hg).2 hi.2.1] at this
    cases this

/-- Looking for a section of a segment. -/
theorem find_sec {d C f} (h : Holds d C f) {st : Elf32.PField} {a : Int} {i : Nat} {g : Seg} (hg : f.segs[i]? = some g) :
    (∀ l s, sectionAt f.secs (g.hdr.get st).toNat a g.sections = some (l, s) →
      Elf32.SecAt d st a i ∧ ∃ j, g.sections[l]? = some j ∧ s = (g.hdr.get st).toNat + (f.secs j).hdr.offset.toNat ∧ s ≤ a) ∧
    (sectionAt f.secs (g.hdr.get st).toNat a g.sections = none → ¬ Elf32.SecAt d st a i) := by
  obtain ⟨h1, _, _, h4⟩ := h.segs i g hg
  have hcov : ∀ j, j ∈ g.sections → (((g.hdr.get st).toNat : Int) + (f.secs j).hdr.offset.toNat ≤ a ∧
      a < (g.hdr.get st).toNat + (f.secs j).hdr.offset.toNat + (f.secs j).hdr.size.toNat ↔
      Elf32.seg d i st + ((Elf32.sec d j .offset - Elf32.seg d i .offset : Nat) : Int) ≤ a ∧
      a < Elf32.seg d i st + (Elf32.sec d j .offset - Elf32.seg d i .offset : Nat) + Elf32.sec d j .size) := by
    intro j hj
    obtain ⟨k1, k2⟩ := (h4 j).1 hj
    have hs := h.secs j k1
    have hz : (f.secs j).hdr.size.toNat = Elf32.sec d j .size := hs.fields .size (by intro hc; cases hc)
    rw [hs.owned i k2, hz, h1 st]
  unfold sectionAt
  refine ⟨fun l s hf => ?_, fun hf ⟨j, hj, ho, hc⟩ => ?_⟩
  · obtain ⟨⟨l0, j⟩, hf', he⟩ := Option.map_eq_some_iff.1 hf
    simp only [Prod.mk.injEq] at he
    obtain ⟨rfl, rfl⟩ := he
    obtain ⟨k1, k2, _⟩ := firstWith_some hf'
    have hm := List.mem_of_getElem? k1
    have k2 := decide_eq_true_iff.1 k2
    obtain ⟨m1, m2⟩ := (h4 j).1 hm
    exact ⟨⟨j, m1, m2, (hcov j hm).1 k2⟩, j, k1, rfl, k2.1⟩
  · have hm := (h4 j).2 ⟨hj, ho⟩
    have := firstWith_none (Option.map_eq_none_iff.1 hf) j hm
    exact absurd ((hcov j hm).2 hc) (by simpa using this)

theorem find_free {d C f} (h : Holds d C f) {a : Int} :
    (∀ l s, sectionAt f.secs 0 a f.less = some (l, s) → Elf32.FreeAt d a) ∧
    (sectionAt f.secs 0 a f.less = none → ¬ Elf32.FreeAt d a) := by
  have hcov : ∀ j, j ∈ f.less → ((0 : Int) + (f.secs j).hdr.offset.toNat ≤ a ∧
      a < 0 + (f.secs j).hdr.offset.toNat + (f.secs j).hdr.size.toNat ↔
      (Elf32.sec d j .offset : Int) ≤ a ∧ a < Elf32.sec d j .offset + Elf32.sec d j .size) := by
    intro j hj
    obtain ⟨k1, k2⟩ := (h.less.2 j).1 hj
    have hs := h.secs j k1
    have hz : (f.secs j).hdr.size.toNat = Elf32.sec d j .size := hs.fields .size (by intro hc; cases hc)
    rw [(hs.free k2).1, hz, Int.zero_add]
  unfold sectionAt
  refine ⟨fun l s hf => ?_, fun hf ⟨j, hj, ho, hc⟩ => ?_⟩
  · obtain ⟨⟨l0, j⟩, hf, _⟩ := Option.map_eq_some_iff.1 hf
    obtain ⟨k1, k2, _⟩ := firstWith_some hf
    have hm := List.mem_of_getElem? k1
    have k2 := decide_eq_true_iff.1 k2
    obtain ⟨m1, m2⟩ := (h.less.2 j).1 hm
    exact ⟨j, m1, m2, (hcov j hm).1 k2⟩
  · have hm := (h.less.2 j).2 ⟨hj, ho⟩
    have := firstWith_none (Option.map_eq_none_iff.1 hf) j hm
    exact absurd ((hcov j hm).2 hc) (by simpa using this)

/-- A found place. -/
theorem rel_place {d m o} (h : Rel d m o) {st : Elf32.PField} {a : Int} {i : Nat} {g : Seg} {l : Nat} {s : Int}
    (hg : o.elf.segs[i]? = some g) (hs : Elf32.SegAt d st a i)
    (hl : sectionAt o.elf.secs (g.hdr.get st).toNat a g.sections = some (l, s)) :
    Rel d { m with place := .segment i (a - Elf32.seg d i st).toNat }
      { o with segment := some i, section_ := some l, sectionOffset := some (a - s) } := by
  obtain ⟨_, j, k1, k2, k3⟩ := (find_sec h.holds hg).1 l s hl
  have hv : (g.hdr.get st).toNat = Elf32.seg d i st := (h.holds.segs i g hg).1 st
  have hz := h.holds.sizes i hs.1
  obtain ⟨c1, c2⟩ := hs.2.1
  rw [hv] at k2
  refine ⟨h.holds, h.errors, g, l, j, a - s, rfl, hg, rfl, k1, rfl, ?_, ?_, ?_, ?_⟩ <;> (try simp only) <;> omega

theorem rel_step {d m o o'} (h : Rel d m o) (op : Elf32.Op) (hcall : call o op = some o') :
    ∃ m', Elf32.Step d m op m' ∧ Rel d m' o' := by
  cases op with
  | org a =>
    simp only [call, Option.some.injEq] at hcall
    subst hcall
    obtain ⟨f1, f2⟩ := find_seg h.holds .vaddr a
      (fun g : Seg => decide ((g.hdr.vaddr.toNat : Int) ≤ a ∧ a < g.hdr.vaddr.toNat + g.hdr.filesz.toNat)) (fun _ => rfl)
    unfold seekVirtual
    split
    · next hn =>
      exact ⟨_, .orgError (fun ⟨i, hi⟩ => f2 hn ⟨i, hi.1⟩), ⟨h.holds, congrArg (· + 1) h.errors, h.place⟩⟩
    · next i g hs =>
      obtain ⟨hg, hat⟩ := f1 i g hs
      split
      · next hn =>
        refine ⟨_, .orgError ?_, ⟨h.holds, congrArg (· + 1) h.errors, h.place⟩⟩
        intro ⟨k, hk⟩
        have : k = i := by
          rcases Nat.lt_trichotomy k i with hlt | rfl | hlt
          · exact absurd hk.1.2.1 (hat.2.2 k hlt)
          · rfl
          · exact absurd hat.2.1 (hk.1.2.2 i hlt)
        subst this
        exact (find_sec h.holds (st := .vaddr) hg).2 hn hk.2
      · next l s hl =>
        exact ⟨_, .org hat ((find_sec h.holds (st := .vaddr) hg).1 l s hl).1, rel_place h hg hat hl⟩
  | orga a =>
    simp only [call, Option.some.injEq] at hcall
    subst hcall
    obtain ⟨f1, f2⟩ := find_seg h.holds .offset a
      (fun g : Seg => decide ((g.hdr.offset.toNat : Int) ≤ a ∧ a < g.hdr.offset.toNat + g.hdr.filesz.toNat)) (fun _ => rfl)
    unfold seekPhysical
    split
    · next i g hs =>
      obtain ⟨hg, hat⟩ := f1 i g hs
      split
      · next hn =>
        exact ⟨_, .orgaHole hat ((find_sec h.holds (st := .offset) hg).2 hn), ⟨h.holds, congrArg (· + 1) h.errors, h.place⟩⟩
      · next l s hl =>
        exact ⟨_, .orga hat ((find_sec h.holds (st := .offset) hg).1 l s hl).1, rel_place h hg hat hl⟩
    · next hn =>
      split
      · next l s hl => exact ⟨_, .orgaFree (f2 hn) ((find_free h.holds).1 l s hl), ⟨h.holds, h.errors, rfl, l, rfl⟩⟩
      · next hl => exact ⟨_, .orgaError (f2 hn) ((find_free h.holds).2 hl), ⟨h.holds, congrArg (· + 1) h.errors, rfl, rfl⟩⟩
  | emit bs =>
    obtain ⟨C, pl, n⟩ := m
    obtain ⟨⟨o1, b⟩, hw, rfl⟩ := Option.map_eq_some_iff.1 hcall
    unfold write at hw
    cases pl with
    | nowhere =>
      obtain ⟨p1, p2⟩ := h.place
      rw [p1, p2] at hw
      simp only [Option.some.injEq, Prod.mk.injEq] at hw
      obtain ⟨rfl, _⟩ := hw
      exact ⟨_, .emitNowhere, ⟨h.holds, congrArg (· + 1) h.errors, rfl, rfl⟩⟩
    | free =>
      obtain ⟨p1, l, p2⟩ := h.place
      rw [p1, p2] at hw
      simp only [Option.some.injEq, Prod.mk.injEq] at hw
      obtain ⟨rfl, _⟩ := hw
      exact ⟨_, .emitFree, ⟨h.holds, h.errors, p1, l, p2⟩⟩
    | segment i p =>
      obtain ⟨g, l, j, x, q1, q2, q3, q4, q5, q6, q7, q8, q9⟩ := h.place
      have hcur : current o i = some (g, o.elf.secs j) := by
        unfold current; rw [q2, q3]; simp [q4]
      rw [q1] at hw
      simp only [hcur, q5, Option.bind_eq_bind, Option.bind_some] at hw
      obtain ⟨g', hg', hw⟩ := Option.bind_eq_some_iff.1 hw
      simp only [Option.some.injEq, Prod.mk.injEq] at hw
      obtain ⟨rfl, _⟩ := hw
      obtain ⟨s1, s2, s3, s4⟩ := h.holds.segs i g q2
      have hiseg : i < o.elf.segs.length := (List.getElem?_eq_some_iff.1 q2).1
      have hi : i < Elf32.phnum d := by rw [← h.holds.len]; exact hiseg
      simp only at q6 q7 q8 s2
      have key : p + bs.length ≤ (C i).length ∧ g' = { g with data := Elf32.overwrite (C i) p bs } := by
        unfold writeToData at hg'
        split at hg'
        · next hb =>
          subst hb
          obtain rfl := Option.some.inj hg'
          refine ⟨q7, ?_⟩
          have : Elf32.overwrite (C i) p [] = g.data := by rw [s2]; simp [Elf32.overwrite]
          rw [this]
        · split at hg'
          · next hr =>
            obtain rfl := Option.some.inj hg'
            rw [q6] at hr ⊢
            rw [s2] at hr ⊢
            exact ⟨by omega, rfl⟩
          · cases hg'
      obtain ⟨hfit, rfl⟩ := key
      have hlen : (Elf32.overwrite (C i) p bs).length = (C i).length := by
        simp [Elf32.overwrite]; omega
      refine ⟨_, .emit hfit, ⟨?_, h.errors, ?_⟩⟩
      · exact {
          hdr := h.holds.hdr, nsecs := h.holds.nsecs, less := h.holds.less, secs := h.holds.secs, parts := h.holds.parts
          len := by rw [List.length_set]; exact h.holds.len
          segs := by
            intro k gk hk
            rw [List.getElem?_set] at hk
            by_cases hik : i = k
            · subst hik
              rw [if_pos rfl, if_pos hiseg] at hk
              obtain rfl := Option.some.inj hk
              exact ⟨s1, by simp, s3, s4⟩
            · rw [if_neg hik] at hk
              have := h.holds.segs k gk hk
              simp only [if_neg (fun hc : k = i => hik hc.symm)]
              exact this
          sizes := by
            intro k hk
            simp only
            split
            · next hki => subst hki; rw [hlen]; exact h.holds.sizes k hk
            · exact h.holds.sizes k hk }
      · refine ⟨{ g with data := Elf32.overwrite (C i) p bs }, l, j, x + bs.length, rfl, ?_, q3, q4, rfl, ?_, ?_, ?_, ?_⟩
        · rw [List.getElem?_set, if_pos rfl, if_pos hiseg]
        · show (_ : Int) + (x + _) = _; push_cast; omega
        · simp only [if_true, hlen]; omega
        · simp only [if_true, hlen]; omega
        · omega

theorem rel_steps {d} : ∀ (ops : List Elf32.Op) {m o o'}, Rel d m o → calls o ops = some o' →
    ∃ m', Elf32.Steps d m ops m' ∧ Rel d m' o' := by
  intro ops
  induction ops with
  | nil => intro m o o' h hc; obtain rfl := Option.some.inj hc; exact ⟨m, .nil, h⟩
  | cons op ops ih =>
    intro m o o' h hc
    rw [calls] at hc
    obtain ⟨o1, h1, hc⟩ := Option.bind_eq_some_iff.1 hc
    obtain ⟨m1, k1, k2⟩ := rel_step h op h1
    obtain ⟨m2, k3, k4⟩ := ih k2 hc
    exact ⟨m2, .cons k1 k3, k4⟩

/-- The reported address. -/
theorem rel_address {d C n i p o} (h : Rel d ⟨C, .segment i p, n⟩ o) (hv : Elf32.seg d i .vaddr + Elf32.seg d i .filesz ≤ 2 ^ 32) :
    getVirtualAddress o = some (o, ((Elf32.seg d i .vaddr + p : Nat) : Int)) := by
  obtain ⟨g, l, j, x, q1, q2, q3, q4, q5, q6, q7, q8, q9⟩ := h.place
  obtain ⟨s1, s2, s3, s4⟩ := h.holds.segs i g q2
  have hi : i < Elf32.phnum d := by rw [← h.holds.len]; exact (List.getElem?_eq_some_iff.1 q2).1
  have hz := h.holds.sizes i hi
  have hva : g.hdr.vaddr.toNat = Elf32.seg d i .vaddr := s1 .vaddr
  have hcur : current o i = some (g, o.elf.secs j) := by
    unfold current; rw [q2, q3]; simp [q4]
  unfold getVirtualAddress
  rw [q1]
  simp only [hcur, q5, Option.bind_eq_bind, Option.bind_some]
  have : (g.hdr.vaddr + (o.elf.secs j).hdr.offset).toNat = Elf32.seg d i .vaddr + (o.elf.secs j).hdr.offset.toNat := by
    simp only at q8 hz
    rw [BitVec.toNat_add, hva, Nat.mod_eq_of_lt (by omega)]
  rw [this]
  refine congrArg some (Prod.ext rfl ?_)
  show ((Elf32.seg d i .vaddr + (o.elf.secs j).hdr.offset.toNat : Nat) : Int) + x = _
  omega

theorem rel_open {S : Sorts} (hS : S.Lawful) {d o} (hw : Elf32.WellFormed d) (ho : openFile S d = some (some o)) :
    ∃ n m, Elf32.Steps d ⟨Elf32.segBytes d, .nowhere, n⟩
      (if Elf32.phnum d = 0 then [] else [.org (Elf32.seg d 0 .vaddr)]) m ∧ Rel d m o := by
  unfold openFile at ho
  split at ho
  · cases ho
  · obtain ⟨⟨f, n⟩, hl, ho⟩ := Option.bind_eq_some_iff.1 ho
    have hL := load_spec hS hw hl
    have hR : Rel d ⟨Elf32.segBytes d, .nowhere, n⟩ { elf := f, errors := n } := ⟨hL.holds hw, rfl, rfl, rfl⟩
    simp only at ho
    split at ho
    · cases ho
    · split at ho
      · next hs =>
        simp only [Option.some.injEq] at ho
        subst ho
        have : Elf32.phnum d = 0 := by rw [← hL.len, hs]; rfl
        rw [if_pos this]
        exact ⟨n, _, .nil, hR⟩
      · next g l hs =>
        simp only [Option.some.injEq] at ho
        have hn : Elf32.phnum d ≠ 0 := by rw [← hL.len, hs]; simp
        have hg : f.segs[0]? = some g := by rw [hs]; rfl
        have hv : g.hdr.vaddr.toNat = Elf32.seg d 0 .vaddr := (hL.segs 0 g hg).1.1 .vaddr
        rw [hv] at ho
        obtain ⟨m', k1, k2⟩ := rel_step (o' := o) hR (.org (Elf32.seg d 0 .vaddr)) (by rw [← ho]; rfl)
        rw [if_neg hn]
        exact ⟨n, m', .cons k1 .nil, k2⟩

end Armips.ElfFile
