import Verif.Lemmas.ElfFile2
/-! # Helper lemmas: the loaded ELF file -/
namespace Armips.ElfFile
open Armips.Elf (getWord putWord)
open Armips.Spec

theorem word_get {d p} (h : p + 4 ≤ d.length) : (getWord (Elf32.order d) d p).toNat = Elf32.word d p := getWord_slice h
theorem half_get {d p} (h : p + 2 ≤ d.length) : (getHalf (Elf32.order d) d p).toNat = Elf32.half d p := getHalf_slice h

/-- The header as read. -/
structure IsEhdr (d : List Byte) (h : Ehdr) : Prop where
  ident : h.ident = d.take 16
  order : endian h = Elf32.order d
  type : h.type.toNat = Elf32.half d 16
  machine : h.machine.toNat = Elf32.half d 18
  version : h.version.toNat = Elf32.word d 20
  entry : h.entry.toNat = Elf32.word d 24
  phoff : h.phoff.toNat = Elf32.phoff d
  shoff : h.shoff.toNat = Elf32.shoff d
  flags : h.flags.toNat = Elf32.word d 36
  ehsize : h.ehsize.toNat = Elf32.half d 40
  phentsize : h.phentsize.toNat = Elf32.phentsize d
  phnum : h.phnum.toNat = Elf32.phnum d
  shentsize : h.shentsize.toNat = Elf32.shentsize d
  shnum : h.shnum.toNat = Elf32.shnum d
  shstrndx : h.shstrndx.toNat = Elf32.half d 50

theorem readEhdr_spec {d h} (hd : 52 ≤ d.length) (hr : readEhdr d = some h) : IsEhdr d h := by
  unfold readEhdr at hr
  rw [if_neg (by omega)] at hr
  obtain rfl := Option.some.inj hr
  exact {
    ident := rfl
    order := by
      show (if (d.take 16)[5]? = some 2#8 then Endianness.big else .little) = _
      simp [List.getElem?_take, Elf32.order]
    type := half_get (by omega), machine := half_get (by omega)
    version := word_get (by omega), entry := word_get (by omega), phoff := word_get (by omega), shoff := word_get (by omega)
    flags := word_get (by omega), ehsize := half_get (by omega), phentsize := half_get (by omega), phnum := half_get (by omega)
    shentsize := half_get (by omega), shnum := half_get (by omega), shstrndx := half_get (by omega) }

theorem readPhdr_get {d p} (h : p + 32 ≤ d.length) (f : Elf32.PField) :
    ((readPhdr (Elf32.order d) d p).get f).toNat = Elf32.word d (p + f.place) := by
  cases f <;> exact word_get (by omega)

theorem readShdr_get {d p} (h : p + 40 ≤ d.length) (f : Elf32.SField) :
    ((readShdr (Elf32.order d) d p).get f).toNat = Elf32.word d (p + f.place) := by
  cases f <;> exact word_get (by omega)

theorem mid_spec {d : List Byte} {p n} (h : p + n ≤ d.length) : mid d p n = some (Elf32.bytes d p n) := by
  unfold mid
  split
  · have : n = 0 := by omega
    subst this
    simp [Elf32.bytes]
  · simp only [Elf32.bytes, if_pos h]

/-- A segment as read: header and contents. -/
def IsSeg (d : List Byte) (i : Nat) (g : Seg) : Prop :=
  (∀ f, (g.hdr.get f).toNat = Elf32.seg d i f) ∧ g.data = Elf32.segBytes d i

theorem loadSegs_spec {d h} (hw : Elf32.WellFormed d) (hh : IsEhdr d h) : ∀ n, n ≤ Elf32.phnum d → ∀ l, loadSegs d h n = some l →
    l.length = n ∧ ∀ i g, l[i]? = some g → IsSeg d i g ∧ g.sections = [] := by
  intro n
  induction n with
  | zero => intro _ l hl; obtain rfl := Option.some.inj hl; simp
  | succ n ih =>
    intro hn l hl
    rw [loadSegs] at hl
    obtain ⟨l0, h0, hl⟩ := Option.bind_eq_some_iff.1 hl
    obtain ⟨x, hx, hl⟩ := Option.bind_eq_some_iff.1 hl
    obtain rfl := Option.some.inj hl
    obtain ⟨h1, h2⟩ := ih (by omega) l0 h0
    refine ⟨by simp [h1], ?_⟩
    intro i g hg
    by_cases hi : i < l0.length
    · rw [List.getElem?_append_left hi] at hg
      exact h2 i g hg
    · rw [List.getElem?_append_right (by omega)] at hg
      have hi0 : i - l0.length = 0 := by
        have := (List.getElem?_eq_some_iff.1 hg).1
        simpa using this
      rw [hi0] at hg
      simp only [List.getElem?_cons_zero, Option.some.injEq] at hg
      subst hg
      have hin : i = n := by omega
      subst hin
      have hent : 32 ≤ Elf32.phentsize d := hw.phentry.resolve_left (by omega)
      have hmul : (i + 1) * Elf32.phentsize d ≤ Elf32.phnum d * Elf32.phentsize d := Nat.mul_le_mul_right _ hn
      rw [Nat.add_mul, Nat.one_mul] at hmul
      have hp := hw.phtable
      rw [hh.order, hh.phoff, hh.phentsize] at hx ⊢
      have hf := readPhdr_get (d := d) (p := Elf32.phoff d + i * Elf32.phentsize d) (by omega)
      refine ⟨⟨hf, ?_⟩, rfl⟩
      have ho : (readPhdr (Elf32.order d) d (Elf32.phoff d + i * Elf32.phentsize d)).offset.toNat = Elf32.seg d i .offset := hf .offset
      have hz : (readPhdr (Elf32.order d) d (Elf32.phoff d + i * Elf32.phentsize d)).filesz.toNat = Elf32.seg d i .filesz := hf .filesz
      rw [ho, hz, mid_spec (hw.segments i (by omega))] at hx
      exact (Option.some.inj hx).symm

theorem toInt_small {x : BitVec 32} (h : x.toNat < 2 ^ 31) : x.toInt = x.toNat := by
  rw [BitVec.toInt_eq_toNat_cond, if_pos (by omega)]

/-- A section header as read. -/
def IsShdr (d : List Byte) (j : Nat) (s : Shdr) : Prop := ∀ f, (s.get f).toNat = Elf32.sec d j f

theorem type_nobits {d j s} (hs : IsShdr d j s) : s.type = 8#32 ↔ Elf32.sec d j .type = Elf32.nobits := by
  rw [← hs .type]
  show _ ↔ s.type.toNat = 8
  rw [← BitVec.toNat_inj]; rfl

theorem type_null {d j s} (hs : IsShdr d j s) : s.type = 0#32 ↔ Elf32.sec d j .type = Elf32.null := by
  rw [← hs .type]
  show _ ↔ s.type.toNat = 0
  rw [← BitVec.toNat_inj]; rfl

theorem partOf_spec {d i j} {p : Phdr} {s : Shdr} (hw : Elf32.WellFormed d) (hi : i < Elf32.phnum d) (hj : j < Elf32.shnum d)
    (hp : ∀ f, (p.get f).toNat = Elf32.seg d i f) (hs : IsShdr d j s) :
    ∃ b, partOf p s = some (decide (Elf32.Inside d i j), b) := by
  have w1 := hw.small
  have w2 := hw.segments i hi
  have w3 := hw.sections j hj
  have e1 : s.offset.toInt = Elf32.sec d j .offset := by
    have : s.offset.toNat = Elf32.sec d j .offset := hs .offset
    rw [toInt_small (by omega), this]
  have e2 : (if s.type = 8#32 then 0 else s.size.toInt) = (Elf32.fileSize d j : Int) := by
    unfold Elf32.fileSize at w3 ⊢
    by_cases ht : Elf32.sec d j .type = Elf32.nobits
    · rw [if_pos ht, if_pos ((type_nobits hs).2 ht)]; rfl
    · rw [if_neg ht] at w3 ⊢
      rw [if_neg (fun hc => ht ((type_nobits hs).1 hc))]
      have : s.size.toNat = Elf32.sec d j .size := hs .size
      rw [toInt_small (by omega), this]
  have e3 : p.offset.toInt = Elf32.seg d i .offset := by
    have : p.offset.toNat = Elf32.seg d i .offset := hp .offset
    rw [toInt_small (by omega), this]
  have e4 : (p.offset + p.filesz).toInt = (Elf32.seg d i .offset + Elf32.seg d i .filesz : Int) := by
    have h1 : p.offset.toNat = Elf32.seg d i .offset := hp .offset
    have h2 : p.filesz.toNat = Elf32.seg d i .filesz := hp .filesz
    have h3 : (p.offset + p.filesz).toNat = Elf32.seg d i .offset + Elf32.seg d i .filesz := by
      rw [BitVec.toNat_add, h1, h2]; omega
    rw [toInt_small (by omega), h3]; simp
  unfold partOf
  simp only
  rw [e1, e2, e3, e4, if_neg (by omega)]
  unfold Elf32.Inside
  split
  · exact ⟨false, congrArg some (Prod.ext (decide_eq_false (by omega)).symm rfl)⟩
  · split
    · exact ⟨false, congrArg some (Prod.ext (decide_eq_decide.2 (by omega)) rfl)⟩
    · split
      · exact ⟨true, congrArg some (Prod.ext (decide_eq_false (by omega)).symm rfl)⟩
      · exact ⟨false, congrArg some (Prod.ext (decide_eq_true (by omega)).symm rfl)⟩

theorem findOwner_spec {d j} {s : Shdr} (hw : Elf32.WellFormed d) (hj : j < Elf32.shnum d) (hs : IsShdr d j s) :
    ∀ (l : List Seg) (a : Nat), a + l.length ≤ Elf32.phnum d → (∀ k g, l[k]? = some g → IsSeg d (a + k) g) →
    ∃ r n, findOwner s l = some (r, n) ∧
      (∀ k, r = some k → k < l.length ∧ Elf32.Inside d (a + k) j ∧ ∀ m < k, ¬ Elf32.Inside d (a + m) j) ∧
      (r = none → ∀ m < l.length, ¬ Elf32.Inside d (a + m) j) := by
  intro l
  induction l with
  | nil => intro a _ _; exact ⟨none, 0, rfl, by simp, by simp⟩
  | cons g l ih =>
    intro a ha hl
    rw [List.length_cons] at ha
    have hg := hl 0 g rfl
    obtain ⟨b, hb⟩ := partOf_spec hw (by omega) hj hg.1 hs
    by_cases hin : Elf32.Inside d a j
    · refine ⟨some 0, 0, ?_, ?_, by simp⟩
      · rw [findOwner, hb, Nat.add_zero]
        simp [hin]
      · intro k hk
        obtain rfl := Option.some.inj hk
        exact ⟨by simp, hin, by omega⟩
    · obtain ⟨r, n, h1, h2, h3⟩ := ih (a + 1) (by omega) (fun k g' hg' => by
        have := hl (k + 1) g' (by rw [List.getElem?_cons_succ]; exact hg')
        rwa [show a + (k + 1) = a + 1 + k by omega] at this)
      refine ⟨r.map (· + 1), (if b then 1 else 0) + n, ?_, ?_, ?_⟩
      · rw [findOwner, hb, Nat.add_zero]
        simp only [hin, decide_false, Option.bind_eq_bind, Option.bind_some, h1]
        rfl
      · intro k hk
        cases r with
        | none => cases hk
        | some k0 =>
          obtain rfl := Option.some.inj hk
          obtain ⟨m1, m2, m3⟩ := h2 k0 rfl
          show k0 + 1 < _ ∧ Elf32.Inside d (a + (k0 + 1)) j ∧ ∀ m < k0 + 1, _
          refine ⟨by simp; omega, by rwa [show a + (k0 + 1) = a + 1 + k0 by omega], ?_⟩
          intro m hm
          cases m with
          | zero => exact hin
          | succ m => rw [show a + (m + 1) = a + 1 + m by omega]; exact m3 m (by omega)
      · intro hk m hm
        cases r with
        | some k0 => cases hk
        | none =>
          cases m with
          | zero => exact hin
          | succ m => rw [show a + (m + 1) = a + 1 + m by omega]; exact h3 rfl m (by simpa using hm)

instance (d i j) : Decidable (Elf32.Owner d i j) := inferInstanceAs (Decidable (_ ∧ _ ∧ ∀ k < i, _))

/-- The section lies in no segment. -/
def Free (d : List Byte) (j : Nat) : Prop := ∀ i < Elf32.phnum d, ¬ Elf32.Inside d i j
instance (d j) : Decidable (Free d j) := inferInstanceAs (Decidable (∀ i < _, _))

/-- A section as loaded. -/
structure IsSec (d : List Byte) (j : Nat) (s : Sec) : Prop where
  fields : ∀ f ≠ Elf32.SField.offset, (s.hdr.get f).toNat = Elf32.sec d j f
  owned : ∀ i, Elf32.Owner d i j → s.hdr.offset.toNat = Elf32.sec d j .offset - Elf32.seg d i .offset
  free : Free d j → s.hdr.offset.toNat = Elf32.sec d j .offset ∧
    (Elf32.sec d j .type ≠ Elf32.null → s.data = Elf32.secBytes d j)

/-- What is known after `n` sections. -/
structure Inv (d : List Byte) (n : Nat) (st : Loading) : Prop where
  len : st.segs.length = Elf32.phnum d
  segs : ∀ i g, st.segs[i]? = some g → IsSeg d i g ∧ g.sections = (List.range n).filter (fun j => decide (Elf32.Owner d i j))
  less : st.less = (List.range n).filter (fun j => decide (Free d j))
  secs : ∀ j < n, IsSec d j (st.secs j)

theorem Owner.unique {d i k j} (h : Elf32.Owner d i j) (h' : Elf32.Owner d k j) : i = k := by
  rcases Nat.lt_trichotomy i k with hlt | rfl | hlt
  · exact absurd h.2.1 (h'.2.2 i hlt)
  · rfl
  · exact absurd h'.2.1 (h.2.2 k hlt)

theorem filter_range_succ (p : Nat → Bool) (n : Nat) :
    (List.range (n + 1)).filter p = (List.range n).filter p ++ if p n then [n] else [] := by
  rw [List.range_succ, List.filter_append]
  cases hp : p n <;> simp [hp]

theorem rebase_offset {d i j} {s : Shdr} {g : Seg} (hs : IsShdr d j s) (hg : IsSeg d i g)
    (hin : Elf32.Inside d i j) : (rebase s g).offset.toNat = Elf32.sec d j .offset - Elf32.seg d i .offset := by
  have h1 : s.offset.toNat = Elf32.sec d j .offset := hs .offset
  have h2 : g.hdr.offset.toNat = Elf32.seg d i .offset := hg.1 .offset
  have := hin.1
  have l1 := s.offset.isLt
  have l2 := g.hdr.offset.isLt
  show (s.offset - g.hdr.offset).toNat = _
  rw [BitVec.toNat_sub]
  omega

theorem loadSection_spec {d h n st st'} (hw : Elf32.WellFormed d) (hh : IsEhdr d h) (hn : n < Elf32.shnum d) (hi : Inv d n st)
    (hl : loadSection d h n st = some st') : Inv d (n + 1) st' := by
  have hent : 40 ≤ Elf32.shentsize d := hw.shentry.resolve_left (by omega)
  have hmul : (n + 1) * Elf32.shentsize d ≤ Elf32.shnum d * Elf32.shentsize d := Nat.mul_le_mul_right _ hn
  rw [Nat.add_mul, Nat.one_mul] at hmul
  have hp := hw.shtable
  have hsm := hw.small
  unfold loadSection at hl
  rw [hh.shentsize, hh.shoff, hh.order, if_neg (by omega), Nat.mod_eq_of_lt (by omega)] at hl
  simp only at hl
  have hs : IsShdr d n (readShdr (Elf32.order d) d (Elf32.shoff d + n * Elf32.shentsize d)) := readShdr_get (by omega)
  generalize readShdr (Elf32.order d) d (Elf32.shoff d + n * Elf32.shentsize d) = s at hl hs
  obtain ⟨r, k, hf, hr1, hr2⟩ := findOwner_spec hw hn hs st.segs 0 (by rw [hi.len]; omega)
    (fun k g hg => by rw [Nat.zero_add]; exact (hi.segs k g hg).1)
  simp only [Nat.zero_add] at hr1 hr2
  rw [hf] at hl
  cases r with
  | some i =>
    simp only [Option.some.injEq] at hl
    subst hl
    obtain ⟨k1, k2, k3⟩ := hr1 i rfl
    have hown : Elf32.Owner d i n := ⟨by rw [← hi.len]; exact k1, k2, k3⟩
    have hnf : ¬ Free d n := fun hc => hc i hown.1 k2
    exact {
      len := by rw [List.length_modify]; exact hi.len
      segs := by
        intro a g hg
        rw [List.getElem?_modify] at hg
        obtain ⟨g0, hg0, rfl⟩ := Option.map_eq_some_iff.1 hg
        obtain ⟨m1, m2⟩ := hi.segs a g0 hg0
        rw [filter_range_succ]
        by_cases ha : i = a
        · subst ha
          simp only [if_pos rfl, if_true]
          exact ⟨m1, by rw [if_pos (decide_eq_true hown)]; show g0.sections ++ [n] = _; rw [m2]⟩
        · simp only [if_neg ha]
          have : ¬ Elf32.Owner d a n := fun hc => ha (Owner.unique hown hc)
          exact ⟨m1, by rw [if_neg (by simpa using this), List.append_nil]; exact m2⟩
      less := by
        rw [filter_range_succ, if_neg (by simpa using hnf), List.append_nil]
        exact hi.less
      secs := by
        intro j hj
        by_cases hjn : j = n
        · subst hjn
          simp only [setSec, if_true]
          rw [List.getElem?_eq_getElem k1]
          have hg := (hi.segs i _ (List.getElem?_eq_getElem k1)).1
          refine ⟨?_, ?_, fun hc => absurd hc hnf⟩
          · intro f hf
            have := hs f
            cases f <;> first | exact absurd rfl hf | exact this
          · intro a ha
            obtain rfl := Owner.unique hown ha
            exact rebase_offset hs hg k2
        · simp only [setSec, if_neg hjn]
          exact hi.secs j (by omega) }
  | none =>
    have hfree : Free d n := fun a ha => hr2 rfl a (by rw [hi.len]; exact ha)
    simp only at hl
    have hmid : (if s.type = 8#32 ∨ s.type = 0#32 then some [] else mid d s.offset.toNat s.size.toNat) =
        some (if s.type = 8#32 ∨ s.type = 0#32 then [] else Elf32.secBytes d n) := by
      split
      · rfl
      · next ht =>
        have h1 : s.offset.toNat = Elf32.sec d n .offset := hs .offset
        have h2 : s.size.toNat = Elf32.fileSize d n := by
          unfold Elf32.fileSize
          rw [if_neg (fun hc => ht (.inl ((type_nobits hs).2 hc)))]
          exact hs .size
        rw [h1, h2, mid_spec (hw.sections n hn)]
        rfl
    rw [hmid] at hl
    simp only [Option.some.injEq] at hl
    subst hl
    exact {
      len := hi.len
      segs := by
        intro a g hg
        obtain ⟨m1, m2⟩ := hi.segs a g hg
        have : ¬ Elf32.Owner d a n := fun hc => hfree a hc.1 hc.2.1
        exact ⟨m1, by rw [filter_range_succ, if_neg (by simpa using this), List.append_nil]; exact m2⟩
      less := by
        show st.less ++ [n] = _
        rw [filter_range_succ, hi.less]
        simp [hfree]
      secs := by
        intro j hj
        by_cases hjn : j = n
        · subst hjn
          simp only [setSec, if_true]
          refine ⟨fun f _ => hs f, fun i hc => absurd hc.2.1 (hfree i hc.1), fun _ => ⟨hs .offset, fun ht => ?_⟩⟩
          show (if s.type = 8#32 ∨ s.type = 0#32 then [] else Elf32.secBytes d j) = _
          by_cases h8 : s.type = 8#32
          · rw [if_pos (.inl h8)]
            unfold Elf32.secBytes Elf32.fileSize
            rw [if_pos ((type_nobits hs).1 h8)]
            simp [Elf32.bytes]
          · rw [if_neg (by rw [type_null hs]; simp [h8, ht])]
        · simp only [setSec, if_neg hjn]
          exact hi.secs j (by omega) }

theorem loadSections_spec {d h st} (hw : Elf32.WellFormed d) (hh : IsEhdr d h) (h0 : Inv d 0 st) :
    ∀ n, n ≤ Elf32.shnum d → ∀ st', loadSections d h n st = some st' → Inv d n st' := by
  intro n
  induction n with
  | zero => intro _ st' hl; obtain rfl := Option.some.inj hl; exact h0
  | succ n ih =>
    intro hn st' hl
    rw [loadSections] at hl
    obtain ⟨st1, h1, hl⟩ := Option.bind_eq_some_iff.1 hl
    exact loadSection_spec hw hh (by omega) (ih (by omega) st1 h1) hl

/-! ### Names -/

theorem nameLoop_spec {d t} : ∀ n secs secs', nameLoop d t n secs = some secs' →
    ∀ j, (secs' j).hdr = (secs j).hdr ∧ (secs' j).data = (secs j).data := by
  intro n
  induction n with
  | zero => intro secs secs' h j; obtain rfl := Option.some.inj h; exact ⟨rfl, rfl⟩
  | succ n ih =>
    intro secs secs' h j
    rw [nameLoop] at h
    obtain ⟨s1, h1, h⟩ := Option.bind_eq_some_iff.1 h
    have h2 := ih secs s1 h1 j
    simp only at h
    split at h
    · obtain rfl := Option.some.inj h; exact h2
    · obtain ⟨x, _, h⟩ := Option.bind_eq_some_iff.1 h
      obtain rfl := Option.some.inj h
      unfold setSec
      split
      · next hj => subst hj; exact h2
      · exact h2

theorem loadNames_spec {d h n secs secs'} (hl : loadNames d h n secs = some secs') :
    ∀ j, (secs' j).hdr = (secs j).hdr ∧ (secs' j).data = (secs j).data := by
  unfold loadNames at hl
  split at hl
  · obtain rfl := Option.some.inj hl; exact fun _ => ⟨rfl, rfl⟩
  · split at hl
    · cases hl
    · simp only at hl
      split at hl
      · obtain rfl := Option.some.inj hl; exact fun _ => ⟨rfl, rfl⟩
      · split at hl
        · cases hl
        · exact nameLoop_spec _ _ _ hl

theorem IsSec.congr {d j} {s s' : Sec} (h : IsSec d j s) (hh : s'.hdr = s.hdr) (hd : s'.data = s.data) : IsSec d j s' :=
  ⟨by rw [hh]; exact h.fields, by rw [hh]; exact h.owned, by rw [hh, hd]; exact h.free⟩

/-! ### The loaded file -/

/-- What is loaded. -/
structure Loaded (d : List Byte) (f : File) : Prop where
  hdr : IsEhdr d f.hdr
  nsecs : f.nsecs = Elf32.shnum d
  len : f.segs.length = Elf32.phnum d
  segs : ∀ i g, f.segs[i]? = some g → IsSeg d i g ∧ g.sections.Nodup ∧ ∀ j, j ∈ g.sections ↔ j < Elf32.shnum d ∧ Elf32.Owner d i j
  less : f.less.Nodup ∧ ∀ j, j ∈ f.less ↔ j < Elf32.shnum d ∧ Free d j
  secs : ∀ j < Elf32.shnum d, IsSec d j (f.secs j)
  parts : f.order.Nodup ∧ ∀ p, p ∈ f.order

theorem partOrder_spec {S : Sorts} (hS : S.Lawful) (d h segs secs less) :
    (partOrder S d h segs secs less).Nodup ∧ ∀ p, p ∈ partOrder S d h segs secs less := by
  unfold partOrder
  simp only
  have := (hS.parts_perm [(h.phoff.toNat, Part.segmentTable), (h.shoff.toNat, .sectionTable),
    (least d.length (segs.map fun g => g.hdr.offset.toNat), .segments),
    (least d.length ((less.filter fun j =>
      decide ((secs j).hdr.type ≠ 0#32) && !(decide ((secs j).hdr.offset = 0#32 ∧ (secs j).hdr.size = 0#32))).map
        fun j => (secs j).hdr.offset.toNat), .segmentless)]).map (·.2)
  refine ⟨this.nodup_iff.2 (by simp), fun p => this.mem_iff.2 (by cases p <;> simp)⟩

theorem load_spec {S : Sorts} (hS : S.Lawful) {sort d f n} (hw : Elf32.WellFormed d) (hl : load S sort d = some (f, n)) :
    Loaded d f := by
  unfold load at hl
  obtain ⟨h, hh, hl⟩ := Option.bind_eq_some_iff.1 hl
  obtain ⟨segs, hg, hl⟩ := Option.bind_eq_some_iff.1 hl
  obtain ⟨st, hst, hl⟩ := Option.bind_eq_some_iff.1 hl
  obtain ⟨secs, hn, hl⟩ := Option.bind_eq_some_iff.1 hl
  have he := readEhdr_spec hw.header hh
  obtain ⟨g1, g2⟩ := loadSegs_spec hw he _ (by rw [he.phnum]; exact Nat.le_refl _) segs hg
  rw [he.phnum] at g1
  have hinv := loadSections_spec hw he (st := { segs := segs, secs := fun _ => ⟨⟨0, 0, 0, 0, 0, 0, 0, 0, 0, 0⟩, [], []⟩ })
    ⟨g1, fun i g hg => ⟨(g2 i g hg).1, (g2 i g hg).2⟩, rfl, fun j hj => absurd hj (Nat.not_lt_zero j)⟩ _
    (by rw [he.shnum]; exact Nat.le_refl _) st hst
  have hnm := loadNames_spec hn
  rw [he.shnum] at hinv
  have hord := partOrder_spec hS d h segs st.secs st.less
  injection hl with hl
  obtain rfl := congrArg Prod.fst hl
  have hrange : (List.range (Elf32.shnum d)).Nodup := List.nodup_range
  exact {
    hdr := he
    nsecs := he.shnum
    len := by
      show (if sort = true then _ else _ : List Seg).length = _
      split
      · rw [List.length_map]; exact hinv.len
      · exact hinv.len
    segs := by
      intro i g hg
      have hg : (if sort = true then st.segs.map _ else st.segs)[i]? = some g := hg
      split at hg
      · rw [List.getElem?_map] at hg
        obtain ⟨g0, hg0, rfl⟩ := Option.map_eq_some_iff.1 hg
        obtain ⟨m1, m2⟩ := hinv.segs i g0 hg0
        have hp := hS.secs_perm (fun j => (secs j).hdr.offset.toNat) g0.sections
        refine ⟨m1, hp.nodup_iff.2 (by rw [m2]; exact hrange.filter _), fun j => ?_⟩
        rw [show (j ∈ (_ : Seg).sections ↔ _) ↔ _ from Iff.rfl]
        refine hp.mem_iff.trans ?_
        rw [m2]; simp
      · obtain ⟨m1, m2⟩ := hinv.segs i g hg
        exact ⟨m1, by rw [m2]; exact hrange.filter _, fun j => by rw [m2]; simp⟩
    less := by
      show (if sort = true then _ else _ : List Nat).Nodup ∧ ∀ j, j ∈ (if sort = true then _ else _ : List Nat) ↔ _
      split
      · have hp := hS.secs_perm (fun j => (secs j).hdr.offset.toNat) st.less
        refine ⟨hp.nodup_iff.2 (by rw [hinv.less]; exact hrange.filter _), fun j => hp.mem_iff.trans ?_⟩
        rw [hinv.less]; simp
      · exact ⟨by rw [hinv.less]; exact hrange.filter _, fun j => by rw [hinv.less]; simp⟩
    secs := fun j hj => (hinv.secs j hj).congr (hnm j).1 (hnm j).2
    parts := hord }

end Armips.ElfFile
