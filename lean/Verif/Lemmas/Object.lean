import Verif.Lemmas.ObjectAr
import Verif.Lemmas.ElfFile3
/-! # Helper lemmas: object files -/
namespace Armips.Object
open Armips.Elf (Machine Section Rel Sym getWord)
open Armips.ElfFile
open Armips.Spec

/-! ### Loading a file without segments -/

/-- What is known after `n` sections. -/
structure Inv (d : List Byte) (n : Nat) (st : Loading) : Prop where
  segs : st.segs = []
  less : st.less = List.range n
  hdr : ∀ j < n, IsShdr d j (st.secs j).hdr
  data : ∀ j < n, Elf32.sec d j .type ≠ Elf32.null → (st.secs j).data = Elf32.secBytes d j
  sym1 : ∀ j, st.symTab = some j → j < n ∧ Elf32.sec d j .type = 2
  sym2 : ∀ j < n, Elf32.sec d j .type = 2 → st.symTab ≠ none
  str1 : ∀ j, st.strTab = some j → j < n ∧ Elf32.sec d j .type = 3
  str2 : ∀ u < n, Elf32.sec d u .type = 3 → (∀ k < n, Elf32.sec d k .type = 3 → k = u ∨ k = Obj.shstrndx d) → st.strTab = some u ∨
    (u = Obj.shstrndx d ∧ st.strTab ≠ none)

theorem type_iff {d j s} (hs : IsShdr d j s) (n : Nat) (hn : n < 2 ^ 32) : s.type = BitVec.ofNat 32 n ↔ Elf32.sec d j .type = n := by
  rw [← hs .type, ← BitVec.toNat_inj, BitVec.toNat_ofNat, Nat.mod_eq_of_lt hn]
  rfl

theorem loadSection_plain {d h n st} (hw : Elf32.WellFormed d) (hh : IsEhdr d h) (hn : n < Elf32.shnum d) (hi : Inv d n st) :
    ∃ st', loadSection d h n st = some st' ∧ Inv d (n + 1) st' := by
  have hent : 40 ≤ Elf32.shentsize d := hw.shentry.resolve_left (by omega)
  have hmul : (n + 1) * Elf32.shentsize d ≤ Elf32.shnum d * Elf32.shentsize d := Nat.mul_le_mul_right _ hn
  rw [Nat.add_mul, Nat.one_mul] at hmul
  have hp := hw.shtable
  have hsm := hw.small
  unfold loadSection
  rw [hh.shentsize, hh.shoff, hh.order, if_neg (by omega), Nat.mod_eq_of_lt (by omega)]
  have hs : IsShdr d n (readShdr (Elf32.order d) d (Elf32.shoff d + n * Elf32.shentsize d)) := readShdr_get (by omega)
  generalize readShdr (Elf32.order d) d (Elf32.shoff d + n * Elf32.shentsize d) = s at hs
  rw [hi.segs]
  simp only [findOwner]
  have hmid : (if s.type = 8#32 ∨ s.type = 0#32 then some [] else mid d s.offset.toNat s.size.toNat) =
      some (if s.type = 8#32 ∨ s.type = 0#32 then [] else Elf32.secBytes d n) := by
    split
    · rfl
    · next ht =>
      have h1 : s.offset.toNat = Elf32.sec d n .offset := hs .offset
      have h2 : s.size.toNat = Elf32.fileSize d n := by
        unfold Elf32.fileSize
        rw [if_neg (fun hc => ht (.inl ((type_nobits hs).2 hc)))]
        exact hs .size
      rw [h1, h2, mid_spec (hw.sections n hn)]
      rfl
  rw [hmid]
  refine ⟨_, rfl, ?_⟩
  have t2 : s.type = 2#32 ↔ Elf32.sec d n .type = 2 := type_iff hs 2 (by omega)
  have t3 : s.type = 3#32 ↔ Elf32.sec d n .type = 3 := type_iff hs 3 (by omega)
  have hx : h.shstrndx.toNat = Obj.shstrndx d := hh.shstrndx
  exact {
    segs := rfl
    less := by show st.less ++ [n] = _; rw [hi.less, List.range_succ]
    hdr := by
      intro j hj
      by_cases hjn : j = n
      · subst hjn; simp only [setSec, if_true]; exact hs
      · simp only [setSec, if_neg hjn]; exact hi.hdr j (by omega)
    data := by
      intro j hj hnull
      by_cases hjn : j = n
      · subst hjn
        simp only [setSec, if_true]
        by_cases h8 : s.type = 8#32
        · rw [if_pos (.inl h8)]
          unfold Elf32.secBytes Elf32.fileSize
          rw [if_pos ((type_nobits hs).1 h8)]
          simp [Elf32.bytes]
        · rw [if_neg (by rw [type_null hs]; simp [h8, hnull])]
      · simp only [setSec, if_neg hjn]; exact hi.data j (by omega) hnull
    sym1 := by
      intro j hj
      simp only at hj
      split at hj
      · next h2 => obtain rfl := Option.some.inj hj; exact ⟨by omega, t2.1 h2⟩
      · obtain ⟨a, b⟩ := hi.sym1 j hj; exact ⟨by omega, b⟩
    sym2 := by
      intro j hj h2
      simp only
      split
      · simp
      · next hc =>
        refine hi.sym2 j ?_ h2
        rcases Nat.lt_succ_iff_lt_or_eq.1 hj with h | rfl
        · exact h
        · exact absurd (t2.2 h2) hc
    str1 := by
      intro j hj
      simp only at hj
      split at hj
      · next h2 => obtain rfl := Option.some.inj hj; exact ⟨by omega, t3.1 h2.1⟩
      · obtain ⟨a, b⟩ := hi.str1 j hj; exact ⟨by omega, b⟩
    str2 := by
      intro u hu h3 hall
      simp only [hx]
      rcases Nat.lt_succ_iff_lt_or_eq.1 hu with hlt | rfl
      · have hprev := hi.str2 u hlt h3 (fun k hk => hall k (by omega))
        have hne : st.strTab ≠ none := by
          rcases hprev with h | h
          · rw [h]; simp
          · exact h.2
        split
        · next hc =>
          have hns : n ≠ Obj.shstrndx d := hc.2.resolve_left hne
          rcases hall n (by omega) (t3.1 hc.1) with h | h
          · omega
          · exact absurd h hns
        · exact hprev
      · by_cases hus : u = Obj.shstrndx d
        · right
          refine ⟨hus, ?_⟩
          split
          · simp
          · next hc =>
            intro hnone
            exact hc ⟨t3.2 h3, .inl hnone⟩
        · left
          rw [if_pos ⟨t3.2 h3, .inr hus⟩] }

theorem loadSections_plain {d h st} (hw : Elf32.WellFormed d) (hh : IsEhdr d h) (h0 : Inv d 0 st) :
    ∀ n, n ≤ Elf32.shnum d → ∃ st', loadSections d h n st = some st' ∧ Inv d n st' := by
  intro n
  induction n with
  | zero => intro _; exact ⟨st, rfl, h0⟩
  | succ n ih =>
    intro hn
    obtain ⟨st1, h1, i1⟩ := ih (by omega)
    obtain ⟨st2, h2, i2⟩ := loadSection_plain hw hh (by omega) i1
    exact ⟨st2, by rw [loadSections, h1]; exact h2, i2⟩

/-- A file without segments as loaded. -/
structure Plain (d : List Byte) (f : File) : Prop where
  ehdr : IsEhdr d f.hdr
  segs : f.segs = []
  less : f.less = List.range (Elf32.shnum d)
  hdr : ∀ j < Elf32.shnum d, IsShdr d j (f.secs j).hdr
  data : ∀ j < Elf32.shnum d, Elf32.sec d j .type ≠ Elf32.null → (f.secs j).data = Elf32.secBytes d j
  sym : ∀ t, Obj.SymTab d t → f.symTab = some t
  str : ∀ t u, Obj.StrTab d t u → f.strTab = some u

theorem readEhdr_some {d : List Byte} (hd : 52 ≤ d.length) : ∃ h, readEhdr d = some h := by
  unfold readEhdr
  rw [if_neg (by omega)]
  exact ⟨_, rfl⟩

theorem load_plain {S : Sorts} {d : List Byte} (hw : Elf32.WellFormed d) (hp : Elf32.phnum d = 0) :
    ∃ h st, readEhdr d = some h ∧ IsEhdr d h ∧ Inv d (Elf32.shnum d) st ∧
      (∀ f n, load S false d = some (f, n) → loadNames d h (Elf32.shnum d) st.secs = some f.secs ∧ Plain d f) ∧
      (∀ secs, loadNames d h (Elf32.shnum d) st.secs = some secs → ∃ f n, load S false d = some (f, n)) := by
  obtain ⟨h, hh⟩ := readEhdr_some hw.header
  have he := readEhdr_spec hw.header hh
  obtain ⟨st, hst, hi⟩ := loadSections_plain (st := { segs := [], secs := fun _ => ⟨⟨0, 0, 0, 0, 0, 0, 0, 0, 0, 0⟩, [], []⟩ }) hw he
    ⟨rfl, rfl, fun j hj => absurd hj (Nat.not_lt_zero j), fun j hj => absurd hj (Nat.not_lt_zero j), fun j hj => (by cases hj),
      fun j hj => absurd hj (Nat.not_lt_zero j), fun j hj => (by cases hj), fun j hj => absurd hj (Nat.not_lt_zero j)⟩ _ (Nat.le_refl _)
  have hseg : loadSegs d h h.phnum.toNat = some [] := by rw [he.phnum, hp]; rfl
  refine ⟨h, st, hh, he, hi, ?_, ?_⟩
  · intro f n hl
    unfold load at hl
    rw [hh] at hl
    simp only [Option.bind_eq_bind, Option.bind_some, hseg, he.shnum, hst, Option.bind_eq_some_iff] at hl
    obtain ⟨secs, hn, hl⟩ := hl
    injection hl with hl
    obtain rfl := congrArg Prod.fst hl
    have hnm := loadNames_spec hn
    refine ⟨hn, ?_⟩
    exact {
      ehdr := he
      segs := hi.segs
      less := hi.less
      hdr := fun j hj => by
        show IsShdr d j (secs j).hdr
        rw [(hnm j).1]; exact hi.hdr j hj
      data := fun j hj hnull => by
        show (secs j).data = _
        rw [(hnm j).2]; exact hi.data j hj hnull
      sym := by
        intro t ht
        show st.symTab = some t
        cases hs : st.symTab with
        | none => exact absurd hs (hi.sym2 t ht.1 ht.2.1)
        | some k =>
          obtain ⟨a, b⟩ := hi.sym1 k hs
          rw [ht.2.2 k a b]
      str := by
        intro t u hu
        show st.strTab = some u
        obtain ⟨u1, u2, u3, u4⟩ := hu
        rcases hi.str2 u u1 u3 u4 with h1 | ⟨h1, h2⟩
        · exact h1
        · cases hs : st.strTab with
          | none => exact absurd hs h2
          | some k =>
            obtain ⟨a, b⟩ := hi.str1 k hs
            rcases u4 k a b with rfl | rfl
            · rfl
            · rw [h1] }
  · intro secs hn
    unfold load
    rw [hh]
    simp only [Option.bind_eq_bind, Option.bind_some, hseg, he.shnum, hst, hn]
    exact ⟨_, _, rfl⟩

/-! ### Names of sections -/

theorem cString_some {d : List Byte} {p : Nat} (h : 0#8 ∈ d.drop p) : ∃ x, cString d (p : Int) = some x := by
  unfold cString
  rw [if_neg (by omega), Int.toNat_natCast, if_pos h]
  exact ⟨_, rfl⟩

theorem nameLoop_some {d : List Byte} {t : BitVec 32} {n : Nat} {secs : Nat → Sec}
    (h : ∀ j < n, (secs j).hdr.type ≠ 0#32 → ∃ x, cString d (t + (secs j).hdr.name).toInt = some x) :
    ∃ secs', nameLoop d t n secs = some secs' := by
  induction n with
  | zero => exact ⟨secs, rfl⟩
  | succ n ih =>
    obtain ⟨s1, h1⟩ := ih (fun j hj => h j (by omega))
    have h2 := nameLoop_spec n secs s1 h1 n
    rw [nameLoop, h1]
    simp only [Option.bind_eq_bind, Option.bind_some]
    split
    · exact ⟨_, rfl⟩
    · next hc =>
      rw [h2.1] at hc ⊢
      obtain ⟨x, hx⟩ := h n (by omega) hc
      rw [hx]
      exact ⟨_, rfl⟩

theorem loadNames_some {d h st t u} (hc : Obj.Complete d t u) (hh : IsEhdr d h) (hi : Inv d (Elf32.shnum d) st) :
    ∃ secs, loadNames d h (Elf32.shnum d) st.secs = some secs := by
  have hw := hc.readable.wellFormed
  have hx : h.shstrndx.toNat = Obj.shstrndx d := hh.shstrndx
  unfold loadNames
  split
  · exact ⟨_, rfl⟩
  · next h0 =>
    have h0 : Obj.shstrndx d ≠ 0 := by
      rw [← hx]; intro hc; exact h0 (BitVec.eq_of_toNat_eq (by rw [hc]; rfl))
    obtain ⟨n1, n2, n3, n4⟩ := hc.sectionNames h0
    rw [hx, if_neg (by omega)]
    have hs := hi.hdr _ n1
    have ho : (st.secs (Obj.shstrndx d)).hdr.offset.toNat = Elf32.sec d (Obj.shstrndx d) .offset := hs .offset
    have hz : (st.secs (Obj.shstrndx d)).hdr.size.toNat = Elf32.sec d (Obj.shstrndx d) .size := hs .size
    have hb := hw.sections _ n1
    have hsm := hw.small
    unfold Elf32.fileSize at hb
    rw [if_neg (by rw [n2]; decide)] at hb
    simp only
    split
    · exact ⟨_, rfl⟩
    · rw [if_neg (by rw [ho, hz]; omega)]
      refine nameLoop_some (fun j hj hty => ?_)
      have hjs := hi.hdr j hj
      have hjn : (st.secs j).hdr.name.toNat = Elf32.sec d j .name := hjs .name
      have hlt := n4 j hj (fun hnull => hty ((type_null hjs).2 hnull))
      have hsum : ((st.secs (Obj.shstrndx d)).hdr.offset + (st.secs j).hdr.name).toNat =
          Elf32.sec d (Obj.shstrndx d) .offset + Elf32.sec d j .name := by
        rw [BitVec.toNat_add, ho, hjn, Nat.mod_eq_of_lt (by omega)]
      rw [toInt_small (by omega), hsum]
      refine cString_some ?_
      refine List.mem_iff_getElem?.2 ⟨Elf32.sec d (Obj.shstrndx d) .size - 1 - Elf32.sec d j .name, ?_⟩
      rw [List.getElem?_drop, ← n3.2]
      congr 1
      omega

/-! ### Words of a section -/

theorem secBytes_length {d j} (hw : Elf32.WellFormed d) (hj : j < Elf32.shnum d) :
    (Elf32.secBytes d j).length = Elf32.fileSize d j := by
  have := hw.sections j hj
  unfold Elf32.secBytes Elf32.bytes
  rw [List.length_take, List.length_drop]
  omega

theorem bytes_in {d : List Byte} {o n p k : Nat} (h : p + k ≤ n) : Elf32.bytes (Elf32.bytes d o n) p k = Elf32.bytes d (o + p) k :=
  slice_slice h

theorem word_in {d j p} (hw : Elf32.WellFormed d) (hj : j < Elf32.shnum d) (h : p + 4 ≤ Elf32.fileSize d j) :
    (getWord (Elf32.order d) (Elf32.secBytes d j) p).toNat = Elf32.word d (Elf32.sec d j .offset + p) := by
  rw [getWord_slice (by rw [secBytes_length hw hj]; exact h)]
  exact congrArg _ (bytes_in h)

theorem half_in {d j p} (hw : Elf32.WellFormed d) (hj : j < Elf32.shnum d) (h : p + 2 ≤ Elf32.fileSize d j) :
    (getHalf (Elf32.order d) (Elf32.secBytes d j) p).toNat = Elf32.half d (Elf32.sec d j .offset + p) := by
  rw [getHalf_slice (by rw [secBytes_length hw hj]; exact h)]
  exact congrArg _ (bytes_in h)

theorem fromBytes_one (e : Endianness) (b : Byte) : fromBytes e [b] = b.toNat := by
  cases e <;> simp [fromBytes, fromBE, fromLE]

theorem byte_in {d j p} (hw : Elf32.WellFormed d) (hj : j < Elf32.shnum d) (h : p < Elf32.fileSize d j) :
    ∃ b, (Elf32.secBytes d j)[p]? = some b ∧ b.toNat = fromBytes (Elf32.order d) (Elf32.bytes d (Elf32.sec d j .offset + p) 1) := by
  have hl : p < (Elf32.secBytes d j).length := by rw [secBytes_length hw hj]; exact h
  refine ⟨(Elf32.secBytes d j)[p], List.getElem?_eq_getElem hl, ?_⟩
  rw [← bytes_in (n := Elf32.fileSize d j) (by omega)]
  show _ = fromBytes _ (((Elf32.secBytes d j).drop p).take 1)
  rw [List.drop_eq_getElem_cons hl, List.take_succ_cons, List.take_zero, fromBytes_one]

end Armips.Object
