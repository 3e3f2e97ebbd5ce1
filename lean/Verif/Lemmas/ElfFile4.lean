import Verif.Lemmas.ElfFile3
/-! # Helper lemmas: what a reader finds in the saved ELF file -/
namespace Armips.ElfFile
open Armips.Elf (getWord putWord)
open Armips.Spec

/-- A file that was loaded from `d`, with the contents `C` of its segments. -/
structure Holds (d : List Byte) (C : Nat → List Byte) (f : File) : Prop where
  hdr : IsEhdr d f.hdr
  nsecs : f.nsecs = Elf32.shnum d
  len : f.segs.length = Elf32.phnum d
  segs : ∀ i g, f.segs[i]? = some g → (∀ fl, (g.hdr.get fl).toNat = Elf32.seg d i fl) ∧ g.data = C i ∧ g.sections.Nodup ∧
    ∀ j, j ∈ g.sections ↔ j < Elf32.shnum d ∧ Elf32.Owner d i j
  less : f.less.Nodup ∧ ∀ j, j ∈ f.less ↔ j < Elf32.shnum d ∧ Free d j
  secs : ∀ j < Elf32.shnum d, IsSec d j (f.secs j)
  parts : f.order.Nodup ∧ ∀ p, p ∈ f.order
  sizes : ∀ i < Elf32.phnum d, (C i).length = Elf32.seg d i .filesz

theorem bytes_length {d : List Byte} {p n} (h : p + n ≤ d.length) : (Elf32.bytes d p n).length = n := slice_length h

theorem Loaded.holds {d f} (hw : Elf32.WellFormed d) (h : Loaded d f) : Holds d (Elf32.segBytes d) f :=
  { hdr := h.hdr, nsecs := h.nsecs, len := h.len, less := h.less, secs := h.secs, parts := h.parts
    segs := fun i g hg => let ⟨a, b, c⟩ := h.segs i g hg; ⟨a.1, a.2, b, c⟩
    sizes := fun i hi => bytes_length (hw.segments i hi) }

theorem owner_exists {d j} (hf : ¬ Free d j) : ∃ i, Elf32.Owner d i j := by
  have hex : ∃ i, i < Elf32.phnum d ∧ Elf32.Inside d i j :=
    Classical.byContradiction fun hc => hf fun i hi hin => hc ⟨i, hi, hin⟩
  have key : ∀ n i, i < n → i < Elf32.phnum d → Elf32.Inside d i j → ∃ i, Elf32.Owner d i j := by
    intro n
    induction n with
    | zero => intro i hi; omega
    | succ n ih =>
      intro i hin hi hIn
      by_cases hlow : ∃ k, k < i ∧ Elf32.Inside d k j
      · obtain ⟨k, hk, hkI⟩ := hlow
        exact ih k (by omega) (by omega) hkI
      · exact ⟨i, hi, hIn, fun k hk hkI => hlow ⟨k, hk, hkI⟩⟩
  obtain ⟨i, hi, hIn⟩ := hex
  exact key (i + 1) i (by omega) hi hIn

theorem Holds.split {d C f} (h : Holds d C f) : f.Split := by
  refine ⟨?_, h.less.1, ?_, ?_⟩
  · have key : ∀ (l : List Seg) (a : Nat), (∀ i g, l[i]? = some g → g.sections.Nodup ∧ ∀ j ∈ g.sections, Elf32.Owner d (a + i) j) →
        (l.flatMap (·.sections)).Nodup := by
      intro l
      induction l with
      | nil => intro a _; simp
      | cons g l ih =>
        intro a hl
        rw [List.flatMap_cons, List.nodup_append]
        refine ⟨(hl 0 g rfl).1, ih (a + 1) (fun i g' hg' => ?_), ?_⟩
        · have := hl (i + 1) g' (by rw [List.getElem?_cons_succ]; exact hg')
          rwa [show a + (i + 1) = a + 1 + i by omega] at this
        · intro x hx y hy hxy
          subst hxy
          obtain ⟨g', hg', hx'⟩ := List.mem_flatMap.1 hy
          obtain ⟨i, hi⟩ := List.getElem?_of_mem hg'
          have h1 := (hl 0 g rfl).2 x hx
          have h2 := (hl (i + 1) g' (by rw [List.getElem?_cons_succ]; exact hi)).2 x hx'
          have := Owner.unique h1 h2
          omega
    refine key f.segs 0 (fun i g hg => ?_)
    obtain ⟨_, _, h2, h3⟩ := h.segs i g hg
    exact ⟨h2, fun j hj => by rw [Nat.zero_add]; exact ((h3 j).1 hj).2⟩
  · intro g hg j hj hc
    obtain ⟨i, hi⟩ := List.getElem?_of_mem hg
    have h1 := ((h.segs i g hi).2.2.2 j).1 hj
    have h2 := (h.less.2 j).1 hc
    exact h2.2 i h1.2.1 h1.2.2.1
  · intro j hj
    rw [h.nsecs] at hj
    by_cases hf : Free d j
    · exact .inr ((h.less.2 j).2 ⟨hj, hf⟩)
    · left
      obtain ⟨i, hi⟩ := owner_exists hf
      have hlt : i < f.segs.length := by rw [h.len]; exact hi.1
      exact ⟨f.segs[i], List.getElem_mem _, ((h.segs i _ (List.getElem?_eq_getElem hlt)).2.2.2 j).2 ⟨hj, hi⟩⟩

/-! ### The header -/

theorem Ehdr.half1 {e} {h : Ehdr} (hi : h.ident.length = 16) (k : Nat) (w) (hk : [h.type, h.machine][k]? = some w) :
    slice (h.bytes e) (16 + 2 * k) 2 = toBytes e 2 w.toNat := by
  have hlt : k < 2 := (List.getElem?_eq_some_iff.1 hk).1
  unfold Ehdr.bytes
  rw [slice_append_left (by simp [hi, halfBytes_length, wordBytes_length]; omega),
    slice_append_left (by simp [hi, halfBytes_length]; omega), show 16 + 2 * k = h.ident.length + 2 * k by rw [hi],
    slice_append_right]
  exact slice_halfBytes e _ k w hk

theorem Ehdr.words1 {e} {h : Ehdr} (hi : h.ident.length = 16) (k : Nat) (w)
    (hk : [h.version, h.entry, h.phoff, h.shoff, h.flags][k]? = some w) :
    slice (h.bytes e) (20 + 4 * k) 4 = toBytes e 4 w.toNat := by
  have hlt : k < 5 := (List.getElem?_eq_some_iff.1 hk).1
  have hl : (h.ident ++ halfBytes e [h.type, h.machine]).length = 20 := by simp [hi, halfBytes_length]
  unfold Ehdr.bytes
  rw [slice_append_left (by rw [List.length_append, hl, wordBytes_length]; simp; omega), ← hl, slice_append_right]
  exact slice_wordBytes e _ k w hk

theorem Ehdr.half2 {e} {h : Ehdr} (hi : h.ident.length = 16) (k : Nat) (w)
    (hk : [h.ehsize, h.phentsize, h.phnum, h.shentsize, h.shnum, h.shstrndx][k]? = some w) :
    slice (h.bytes e) (40 + 2 * k) 2 = toBytes e 2 w.toNat := by
  have hl : (h.ident ++ halfBytes e [h.type, h.machine] ++ wordBytes e [h.version, h.entry, h.phoff, h.shoff, h.flags]).length = 40 := by
    rw [List.length_append, List.length_append, hi, halfBytes_length, wordBytes_length]; rfl
  unfold Ehdr.bytes
  rw [← hl, slice_append_right]
  exact slice_halfBytes e _ k w hk

theorem head_half {d'} {h : Ehdr} {e} (ho : Elf32.order d' = e) (hs : slice d' 0 52 = h.bytes e) {p : Nat} {w : BitVec 16} (hp : p + 2 ≤ 52)
    (hb : slice (h.bytes e) p 2 = toBytes e 2 w.toNat) : Elf32.half d' p = w.toNat := by
  rw [← hs, slice_slice (by omega), Nat.zero_add] at hb
  unfold Elf32.half
  rw [ho]
  exact (congrArg (fromBytes e) hb).trans (fromBytes_half e w)

theorem head_word {d'} {h : Ehdr} {e} (ho : Elf32.order d' = e) (hs : slice d' 0 52 = h.bytes e) {p : Nat} {w : BitVec 32} (hp : p + 4 ≤ 52)
    (hb : slice (h.bytes e) p 4 = toBytes e 4 w.toNat) : Elf32.word d' p = w.toNat := by
  rw [← hs, slice_slice (by omega), Nat.zero_add] at hb
  unfold Elf32.word
  rw [ho]
  exact (congrArg (fromBytes e) hb).trans (fromBytes_word e w)

/-- What a reader finds in the header. -/
structure Header (d' : List Byte) (h : Ehdr) : Prop where
  order : Elf32.order d' = endian h
  ident : Elf32.bytes d' 0 16 = h.ident
  type : Elf32.half d' 16 = h.type.toNat
  machine : Elf32.half d' 18 = h.machine.toNat
  version : Elf32.word d' 20 = h.version.toNat
  entry : Elf32.word d' 24 = h.entry.toNat
  phoff : Elf32.phoff d' = h.phoff.toNat
  shoff : Elf32.shoff d' = h.shoff.toNat
  flags : Elf32.word d' 36 = h.flags.toNat
  ehsize : Elf32.half d' 40 = h.ehsize.toNat
  phentsize : Elf32.phentsize d' = h.phentsize.toNat
  phnum : Elf32.phnum d' = h.phnum.toNat
  shentsize : Elf32.shentsize d' = h.shentsize.toNat
  shnum : Elf32.shnum d' = h.shnum.toNat
  shstrndx : Elf32.half d' 50 = h.shstrndx.toNat

theorem header_read {d'} {h : Ehdr} (hi : h.ident.length = 16) (hs : slice d' 0 52 = h.bytes (endian h)) : Header d' h := by
  have hident : Elf32.bytes d' 0 16 = h.ident := by
    have : slice (slice d' 0 52) 0 16 = slice d' (0 + 0) 16 := slice_slice (by omega)
    show slice d' 0 16 = _
    rw [hs] at this
    rw [← this]
    unfold Ehdr.bytes
    rw [slice_append_left (by simp [hi]), slice_append_left (by simp [hi]), slice_append_left (by omega)]
    simp [slice, hi, List.take_of_length_le]
  have ho : Elf32.order d' = endian h := by
    unfold Elf32.order endian
    rw [← hident]
    simp [Elf32.bytes, List.getElem?_take]
  exact {
    order := ho, ident := hident
    type := head_half ho hs (by omega) (Ehdr.half1 hi 0 _ rfl)
    machine := head_half ho hs (by omega) (Ehdr.half1 hi 1 _ rfl)
    version := head_word ho hs (by omega) (Ehdr.words1 hi 0 _ rfl)
    entry := head_word ho hs (by omega) (Ehdr.words1 hi 1 _ rfl)
    phoff := head_word ho hs (by omega) (Ehdr.words1 hi 2 _ rfl)
    shoff := head_word ho hs (by omega) (Ehdr.words1 hi 3 _ rfl)
    flags := head_word ho hs (by omega) (Ehdr.words1 hi 4 _ rfl)
    ehsize := head_half ho hs (by omega) (Ehdr.half2 hi 0 _ rfl)
    phentsize := head_half ho hs (by omega) (Ehdr.half2 hi 1 _ rfl)
    phnum := head_half ho hs (by omega) (Ehdr.half2 hi 2 _ rfl)
    shentsize := head_half ho hs (by omega) (Ehdr.half2 hi 3 _ rfl)
    shnum := head_half ho hs (by omega) (Ehdr.half2 hi 4 _ rfl)
    shstrndx := head_half ho hs (by omega) (Ehdr.half2 hi 5 _ rfl) }

/-! ### The tables -/

theorem table_word {d' p n} {l : List (BitVec 32)} {e} (ho : Elf32.order d' = e) (hs : slice d' p n = wordBytes e l)
    (hn : n = 4 * l.length) {k w} (hk : l[k]? = some w) : Elf32.word d' (p + 4 * k) = w.toNat := by
  have hlt : k < l.length := (List.getElem?_eq_some_iff.1 hk).1
  have hb := slice_wordBytes e l k w hk
  rw [← hs, slice_slice (by omega)] at hb
  unfold Elf32.word
  rw [ho]
  exact (congrArg (fromBytes e) hb).trans (fromBytes_word e w)

/-- What a reader finds in the saved file. -/
structure Kept (d : List Byte) (C : Nat → List Byte) (d' : List Byte) : Prop where
  header : 52 ≤ d'.length
  order : Elf32.order d' = Elf32.order d
  ident : Elf32.bytes d' 0 16 = Elf32.bytes d 0 16
  halves : ∀ p ∈ [16, 18, 40, 42, 44, 46, 48, 50], Elf32.half d' p = Elf32.half d p
  words : ∀ p ∈ [20, 24, 36], Elf32.word d' p = Elf32.word d p
  phtable : Elf32.phoff d' + Elf32.phnum d' * Elf32.phentsize d' ≤ d'.length
  shtable : Elf32.shoff d' + Elf32.shnum d' * Elf32.shentsize d' ≤ d'.length
  segs : ∀ i < Elf32.phnum d, ∀ fl, fl ≠ .offset → fl ≠ .paddr → Elf32.seg d' i fl = Elf32.seg d i fl
  secs : ∀ j < Elf32.shnum d, ∀ fl, fl ≠ .offset → Elf32.sec d' j fl = Elf32.sec d j fl
  contents : ∀ i j, j < Elf32.shnum d → Elf32.Owner d i j →
    Elf32.seg d' i .offset + Elf32.seg d' i .filesz ≤ d'.length ∧ Elf32.segBytes d' i = C i ∧
    Elf32.sec d' j .offset = Elf32.seg d' i .offset + (Elf32.sec d j .offset - Elf32.seg d i .offset)
  null : ∀ j < Elf32.shnum d, Free d j → Elf32.sec d j .type = Elf32.null → Elf32.sec d' j .offset = Elf32.sec d j .offset
  free : ∀ j < Elf32.shnum d, Free d j → Elf32.sec d j .type ≠ Elf32.null →
    Elf32.sec d' j .offset + Elf32.fileSize d' j ≤ d'.length ∧
    Elf32.secBytes d' j = Elf32.secBytes d j ∧
    (Elf32.sec d j .align ≠ 2 ^ 32 - 1 → Elf32.sec d j .align ≠ 0 → Elf32.sec d' j .offset % Elf32.sec d j .align = 0)

theorem sameS_get {h h' : Shdr} (hs : SameS h h') (fl : Elf32.SField) (hf : fl ≠ .offset) : h'.get fl = h.get fl := by
  obtain ⟨o, rfl⟩ := hs
  cases fl <;> first | exact absurd rfl hf | rfl

theorem sameP_get {h h' : Phdr} (hs : SameP h h') (fl : Elf32.PField) (hf : fl ≠ .offset) (hp : fl ≠ .paddr) : h'.get fl = h.get fl := by
  obtain ⟨h1, h2, h3, h4, h5, h6⟩ := hs
  cases fl
  · exact h1
  · exact absurd rfl hf
  · exact h2
  · exact absurd rfl hp
  · exact h3
  · exact h4
  · exact h5
  · exact h6

theorem save_kept {d C f} (hw : Elf32.WellFormed d) (h : Holds d C f) (hlen : (save f).1.length < 2 ^ 32) : Kept d C (save f).1 := by
  have hid : f.hdr.ident.length = 16 := by rw [h.hdr.ident, List.length_take]; have := hw.header; omega
  have hpe : f.segs = [] ∨ 32 ≤ f.hdr.phentsize.toNat := by
    rw [h.hdr.phentsize]
    exact hw.phentry.imp (fun hz => List.eq_nil_of_length_eq_zero (by rw [h.len, hz])) id
  have hse : f.nsecs = 0 ∨ 40 ≤ f.hdr.shentsize.toNat := by rw [h.hdr.shentsize, h.nsecs]; exact hw.shentry
  have hS := save_spec h.split h.parts.1 h.parts.2 hid hpe hse hlen
  generalize (save f).1 = d' at hS hlen ⊢
  generalize (save f).2 = f' at hS
  have hid' : f'.hdr.ident.length = 16 := by rw [hS.hdr]; exact hid
  have hH := header_read hid' hS.head
  have hh := h.hdr
  have eo : endian f'.hdr = endian f.hdr := by rw [hS.hdr]; rfl
  have ho : Elf32.order d' = endian f.hdr := by rw [hH.order, eo]
  have ephe : Elf32.phentsize d' = Elf32.phentsize d := by rw [hH.phentsize, hS.hdr]; exact hh.phentsize
  have eshe : Elf32.shentsize d' = Elf32.shentsize d := by rw [hH.shentsize, hS.hdr]; exact hh.shentsize
  have ephn : Elf32.phnum d' = Elf32.phnum d := by rw [hH.phnum, hS.hdr]; exact hh.phnum
  have eshn : Elf32.shnum d' = Elf32.shnum d := by rw [hH.shnum, hS.hdr]; exact hh.shnum
  -- fields of the tables
  have hseg : ∀ i g, f.segs[i]? = some g → ∃ g' : Seg, SameP g.hdr g'.hdr ∧ (∀ fl, Elf32.seg d' i fl = (g'.hdr.get fl).toNat) ∧
      (g.sections ≠ [] → g'.hdr.offset.toNat + g.data.length ≤ d'.length ∧ slice d' g'.hdr.offset.toNat g.data.length = g.data) ∧
      ∀ j ∈ g.sections, f'.secs j = addBase g'.hdr.offset (f.secs j) := by
    intro i g hg
    obtain ⟨g', _, k1, _, k2, k3, k4⟩ := hS.seg i g hg
    refine ⟨g', k1, ?_, k3, k4⟩
    intro fl
    obtain ⟨k, hk1, hk2⟩ := g'.hdr.words_get fl
    unfold Elf32.seg
    rw [hk1, hH.phoff, ephe, ← hh.phentsize]
    exact table_word ho k2 rfl hk2
  have hsec : ∀ j < Elf32.shnum d, ∀ fl, Elf32.sec d' j fl = ((f'.secs j).hdr.get fl).toNat := by
    intro j hj fl
    obtain ⟨k, hk1, hk2⟩ := (f'.secs j).hdr.words_get fl
    unfold Elf32.sec
    rw [hk1, hH.shoff, eshe, ← hh.shentsize]
    exact table_word ho (hS.sec j (by rw [h.nsecs]; exact hj)) rfl hk2
  have hgi : ∀ i < Elf32.phnum d, ∃ g, f.segs[i]? = some g := by
    intro i hi
    exact ⟨f.segs[i]'(by rw [h.len]; exact hi), List.getElem?_eq_getElem _⟩
  have hsecs : ∀ j < Elf32.shnum d, ∀ fl, fl ≠ .offset → Elf32.sec d' j fl = Elf32.sec d j fl := by
    intro j hj fl hf
    rw [hsec j hj fl, ← (h.secs j hj).fields fl hf]
    by_cases hfr : Free d j
    · rw [sameS_get (hS.less j ((h.less.2 j).2 ⟨hj, hfr⟩)).1.1 fl hf]
    · obtain ⟨i, hi⟩ := owner_exists hfr
      obtain ⟨g, hg⟩ := hgi i hi.1
      obtain ⟨g', _, _, _, k4⟩ := hseg i g hg
      rw [k4 j (((h.segs i g hg).2.2.2 j).2 ⟨hj, hi⟩)]
      exact congrArg BitVec.toNat (sameS_get (h := (f.secs j).hdr) ⟨_, rfl⟩ fl hf)
  have hsegs : ∀ i < Elf32.phnum d, ∀ fl, fl ≠ .offset → fl ≠ .paddr → Elf32.seg d' i fl = Elf32.seg d i fl := by
    intro i hi fl hf hp
    obtain ⟨g, hg⟩ := hgi i hi
    obtain ⟨g', k1, k2, _, _⟩ := hseg i g hg
    rw [k2 fl, sameP_get k1 fl hf hp]
    exact (h.segs i g hg).1 fl
  have hfile : ∀ j < Elf32.shnum d, Elf32.fileSize d' j = Elf32.fileSize d j := by
    intro j hj
    unfold Elf32.fileSize
    rw [hsecs j hj .type (by intro hc; cases hc), hsecs j hj .size (by intro hc; cases hc)]
  exact {
    header := hS.len
    order := by rw [ho, hh.order]
    ident := by rw [hH.ident, hS.hdr]; exact hh.ident
    halves := by
      intro p hp
      simp only [List.mem_cons, List.not_mem_nil, or_false] at hp
      rcases hp with rfl | rfl | rfl | rfl | rfl | rfl | rfl | rfl
      · rw [hH.type, hS.hdr]; exact hh.type
      · rw [hH.machine, hS.hdr]; exact hh.machine
      · rw [hH.ehsize, hS.hdr]; exact hh.ehsize
      · exact ephe
      · exact ephn
      · exact eshe
      · exact eshn
      · rw [hH.shstrndx, hS.hdr]; exact hh.shstrndx
    words := by
      intro p hp
      simp only [List.mem_cons, List.not_mem_nil, or_false] at hp
      rcases hp with rfl | rfl | rfl
      · rw [hH.version, hS.hdr]; exact hh.version
      · rw [hH.entry, hS.hdr]; exact hh.entry
      · rw [hH.flags, hS.hdr]; exact hh.flags
    phtable := by
      have := hS.phfits
      rw [h.len, hh.phentsize] at this
      rw [hH.phoff, ephn, ephe]; exact this
    shtable := by
      have := hS.shfits
      rw [h.nsecs, hh.shentsize] at this
      rw [hH.shoff, eshn, eshe]; exact this
    segs := hsegs
    secs := hsecs
    contents := by
      intro i j hj hi
      obtain ⟨g, hg⟩ := hgi i hi.1
      obtain ⟨g', k1, k2, k3, k4⟩ := hseg i g hg
      obtain ⟨m1, m2, m3, m4⟩ := h.segs i g hg
      have hmem := (m4 j).2 ⟨hj, hi⟩
      obtain ⟨n1, n2⟩ := k3 (by intro hc; rw [hc] at hmem; cases hmem)
      have hz : Elf32.seg d' i .filesz = (C i).length := by
        rw [hsegs i hi.1 .filesz (by intro hc; cases hc) (by intro hc; cases hc), h.sizes i hi.1]
      have hoff : Elf32.seg d' i .offset = g'.hdr.offset.toNat := k2 .offset
      rw [m2] at n1 n2
      refine ⟨by rw [hoff, hz]; exact n1, ?_, ?_⟩
      · unfold Elf32.segBytes
        rw [hoff, hz]; exact n2
      · rw [hsec j hj .offset, k4 j hmem, hoff]
        show ((f.secs j).hdr.offset + g'.hdr.offset).toNat = _
        have hso := (h.secs j hj).owned i hi
        have hin := hi.2.1
        have hsz := h.sizes i hi.1
        unfold Elf32.Inside at hin
        rw [BitVec.toNat_add, hso, Nat.mod_eq_of_lt (by omega)]
        omega
    null := by
      intro j hj hfr ht
      have hty : (f.secs j).hdr.type.toNat = Elf32.sec d j .type := (h.secs j hj).fields .type (by intro hc; cases hc)
      have := (hS.less j ((h.less.2 j).2 ⟨hj, hfr⟩)).1.2 (BitVec.toNat_inj.1 (by rw [hty, ht]; rfl))
      rw [hsec j hj .offset, this]
      exact ((h.secs j hj).free hfr).1
    free := by
      intro j hj hfr ht
      obtain ⟨k1, k2⟩ := hS.less j ((h.less.2 j).2 ⟨hj, hfr⟩)
      have hty : (f.secs j).hdr.type.toNat = Elf32.sec d j .type := (h.secs j hj).fields .type (by intro hc; cases hc)
      obtain ⟨n1, n2, n3⟩ := k2 (fun hc => ht (by rw [← hty, hc]; rfl))
      have hdat := ((h.secs j hj).free hfr).2 ht
      have hoff : Elf32.sec d' j .offset = (f'.secs j).hdr.offset.toNat := hsec j hj .offset
      have hl : (f.secs j).data.length = Elf32.fileSize d j := by rw [hdat]; exact bytes_length (hw.sections j hj)
      rw [hl] at n1 n2
      refine ⟨by rw [hoff, hfile j hj]; exact n1, ?_, ?_⟩
      · rw [← hdat]
        unfold Elf32.secBytes
        rw [hoff, hfile j hj]; exact n2
      · have hal : (f.secs j).hdr.align.toNat = Elf32.sec d j .align := (h.secs j hj).fields .align (by intro hc; cases hc)
        rw [hal] at n3
        intro ha hz
        rw [hoff]
        exact n3 (fun hc => ha (by rw [← hal, hc]; rfl)) hz }

end Armips.ElfFile
