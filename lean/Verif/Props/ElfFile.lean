import Verif.Lemmas.ElfFile5
/-!
# ELF files as input and output (C67, C68)

`Spec/ElfFile.lean` says how a reader of an ELF file finds headers, segments and sections, and what `.org`, `.orga` and emitted
bytes mean in such a file. The theorems hold for every sorting function that `std::sort` may be (`Sorts.Lawful`).
-/
namespace Armips.Props.ElfFile
open Armips.ElfFile Armips.Spec Armips.Spec.Elf32

/-! ### C67: opening and saving keeps the program -/

/-- The saved file, when nothing was written. -/
theorem opened_kept {S : Sorts} (hS : S.Lawful) {sort d f n} (hw : WellFormed d) (hl : load S sort d = some (f, n))
    (hlen : (save f).1.length < 2 ^ 32) : Kept d (segBytes d) (save f).1 :=
  save_kept hw ((load_spec hS hw hl).holds hw) hlen

/-- The file header stays the same, but for the positions of the two tables (28 and 32). -/
theorem elf_save_header {S : Sorts} (hS : S.Lawful) {sort d f n} (hw : WellFormed d) (hl : load S sort d = some (f, n))
    (hlen : (save f).1.length < 2 ^ 32) :
    bytes (save f).1 0 16 = bytes d 0 16 ∧ (∀ p ∈ [16, 18, 40, 42, 44, 46, 48, 50], half (save f).1 p = half d p) ∧
      ∀ p ∈ [20, 24, 36], word (save f).1 p = word d p :=
  have k := opened_kept hS hw hl hlen
  ⟨k.ident, k.halves, k.words⟩

/-- Program headers stay the same, but for file position and physical address; section headers but for the file position. -/
theorem elf_save_tables {S : Sorts} (hS : S.Lawful) {sort d f n} (hw : WellFormed d) (hl : load S sort d = some (f, n))
    (hlen : (save f).1.length < 2 ^ 32) :
    (∀ i < phnum d, ∀ fl, fl ≠ .offset → fl ≠ .paddr → seg (save f).1 i fl = seg d i fl) ∧
      ∀ j < shnum d, ∀ fl, fl ≠ .offset → sec (save f).1 j fl = sec d j fl :=
  have k := opened_kept hS hw hl hlen
  ⟨k.segs, k.secs⟩

/-- Segments with a section keep their bytes, and their sections keep their place in them. -/
theorem elf_save_segments {S : Sorts} (hS : S.Lawful) {sort d f n} (hw : WellFormed d) (hl : load S sort d = some (f, n))
    (hlen : (save f).1.length < 2 ^ 32) {i j} (hj : j < shnum d) (ho : Owner d i j) :
    segBytes (save f).1 i = segBytes d i ∧ seg (save f).1 i .offset + seg (save f).1 i .filesz ≤ (save f).1.length ∧
      sec (save f).1 j .offset = seg (save f).1 i .offset + (sec d j .offset - seg d i .offset) :=
  have k := (opened_kept hS hw hl hlen).contents i j hj ho
  ⟨k.2.1, k.1, k.2.2⟩

theorem sub_bytes {d d' : List Byte} {p p' n k m} (h : bytes d' p' n = bytes d p n) (hk : k + m ≤ n) :
    bytes d' (p' + k) m = bytes d (p + k) m := by
  have : slice (bytes d' p' n) k m = slice (bytes d p n) k m := by rw [h]
  rw [show bytes d' p' n = slice d' p' n from rfl, show bytes d p n = slice d p n from rfl, slice_slice hk, slice_slice hk] at this
  exact this

/-- All sections keep their bytes, whether they lie in a segment or not. -/
theorem elf_save_sections {S : Sorts} (hS : S.Lawful) {sort d f n} (hw : WellFormed d) (hl : load S sort d = some (f, n))
    (hlen : (save f).1.length < 2 ^ 32) {j} (hj : j < shnum d) (ht : sec d j .type ≠ null) :
    secBytes (save f).1 j = secBytes d j := by
  have k := opened_kept hS hw hl hlen
  by_cases hfr : Free d j
  · exact (k.free j hj hfr ht).2.1
  · obtain ⟨i, hi⟩ := owner_exists hfr
    obtain ⟨_, k2, k3⟩ := k.contents i j hj hi
    have hf : fileSize (save f).1 j = fileSize d j := by
      unfold fileSize
      rw [k.secs j hj .type (by intro hc; cases hc), k.secs j hj .size (by intro hc; cases hc)]
    have hz := k.segs i hi.1 .filesz (by intro hc; cases hc) (by intro hc; cases hc)
    have hin := hi.2.1
    unfold Inside at hin
    unfold secBytes
    rw [k3, hf]
    unfold segBytes at k2
    rw [hz] at k2
    have := sub_bytes k2 (k := sec d j .offset - seg d i .offset) (m := fileSize d j) (by omega)
    rw [this, show seg d i .offset + (sec d j .offset - seg d i .offset) = sec d j .offset by omega]

/-- Sections outside of the segments are aligned in the saved file. -/
theorem elf_save_aligned {S : Sorts} (hS : S.Lawful) {sort d f n} (hw : WellFormed d) (hl : load S sort d = some (f, n))
    (hlen : (save f).1.length < 2 ^ 32) {j} (hj : j < shnum d) (ht : sec d j .type ≠ null) (hfr : ∀ i < phnum d, ¬ Inside d i j)
    (ha : sec d j .align ≠ 0) (ha' : sec d j .align ≠ 2 ^ 32 - 1) : sec (save f).1 j .offset % sec d j .align = 0 :=
  ((opened_kept hS hw hl hlen).free j hj hfr ht).2.2 ha' ha

/-- The saved file is well-formed again, if all segments have a section. -/
theorem elf_save_wellformed {S : Sorts} (hS : S.Lawful) {sort d f n} (hw : WellFormed d) (hl : load S sort d = some (f, n))
    (hlen : (save f).1.length < 2 ^ 31) (hown : ∀ i < phnum d, ∃ j < shnum d, Owner d i j)
    (hnull : ∀ j < shnum d, sec d j .type = null → sec d j .offset + sec d j .size ≤ 52) : WellFormed (save f).1 := by
  have k := opened_kept hS hw hl (by omega)
  have e1 : phnum (save f).1 = phnum d := k.halves 44 (by simp)
  have e2 : shnum (save f).1 = shnum d := k.halves 48 (by simp)
  have e3 : phentsize (save f).1 = phentsize d := k.halves 42 (by simp)
  have e4 : shentsize (save f).1 = shentsize d := k.halves 46 (by simp)
  refine ⟨k.header, hlen, ?_, ?_, k.phtable, k.shtable, ?_, ?_⟩
  · rw [e1, e3]; exact hw.phentry
  · rw [e2, e4]; exact hw.shentry
  · intro i hi
    rw [e1] at hi
    obtain ⟨j, hj, ho⟩ := hown i hi
    exact (k.contents i j hj ho).1
  · intro j hj
    rw [e2] at hj
    have hf : fileSize (save f).1 j = fileSize d j := by
      unfold fileSize
      rw [k.secs j hj .type (by intro hc; cases hc), k.secs j hj .size (by intro hc; cases hc)]
    by_cases hfr : Free d j
    · by_cases ht : sec d j .type = null
      · have h1 := k.null j hj hfr ht
        have h2 := hnull j hj ht
        have h3 := k.header
        have h4 : fileSize d j ≤ sec d j .size := by unfold fileSize; split <;> omega
        rw [hf, h1]; omega
      · exact (k.free j hj hfr ht).1
    · obtain ⟨i, hi⟩ := owner_exists hfr
      obtain ⟨k1, _, k3⟩ := k.contents i j hj hi
      have hz := k.segs i hi.1 .filesz (by intro hc; cases hc) (by intro hc; cases hc)
      have hin := hi.2.1
      unfold Inside at hin
      rw [hf, k3]
      omega

/-! ### C68: working in an ELF file -/

/-- Everything a sequence of directives does is what the specification says: the same places, the same errors, and the saved
file has the contents of the image. -/
theorem elf_session {S : Sorts} (hS : S.Lawful) {d o o' ops} (hw : WellFormed d) (ho : openFile S d = some (some o))
    (hc : calls o ops = some o') (hlen : (save o'.elf).1.length < 2 ^ 32) :
    ∃ n m m', Steps d ⟨segBytes d, .nowhere, n⟩ (if phnum d = 0 then [] else [.org (seg d 0 .vaddr)]) m ∧ Steps d m ops m' ∧
      o.errors = m.errors ∧ o'.errors = m'.errors ∧
      (∀ i j, j < shnum d → Owner d i j → segBytes (save o'.elf).1 i = m'.contents i) ∧
      ∀ j < shnum d, sec d j .type ≠ null → (∀ i < phnum d, ¬ Inside d i j) → secBytes (save o'.elf).1 j = secBytes d j := by
  obtain ⟨n, m, h1, h2⟩ := rel_open hS hw ho
  obtain ⟨m', h3, h4⟩ := rel_steps ops h2 hc
  have k := save_kept hw h4.holds hlen
  exact ⟨n, m, m', h1, h3, h2.errors, h4.errors, fun i j hj ho => (k.contents i j hj ho).2.1,
    fun j hj ht hfr => (k.free j hj hfr ht).2.1⟩

/-- Headers of the saved file, after any directives. -/
theorem elf_session_headers {S : Sorts} (hS : S.Lawful) {d o o' ops} (hw : WellFormed d) (ho : openFile S d = some (some o))
    (hc : calls o ops = some o') (hlen : (save o'.elf).1.length < 2 ^ 32) :
    bytes (save o'.elf).1 0 16 = bytes d 0 16 ∧ (∀ p ∈ [16, 18, 40, 42, 44, 46, 48, 50], half (save o'.elf).1 p = half d p) ∧
      (∀ p ∈ [20, 24, 36], word (save o'.elf).1 p = word d p) ∧
      (∀ i < phnum d, ∀ fl, fl ≠ .offset → fl ≠ .paddr → seg (save o'.elf).1 i fl = seg d i fl) ∧
      (∀ j < shnum d, ∀ fl, fl ≠ .offset → sec (save o'.elf).1 j fl = sec d j fl) ∧
      ∀ i j, j < shnum d → Owner d i j →
        sec (save o'.elf).1 j .offset = seg (save o'.elf).1 i .offset + (sec d j .offset - seg d i .offset) := by
  obtain ⟨n, m, h1, h2⟩ := rel_open hS hw ho
  obtain ⟨m', h3, h4⟩ := rel_steps ops h2 hc
  have k := save_kept hw h4.holds hlen
  exact ⟨k.ident, k.halves, k.words, k.segs, k.secs, fun i j hj ho => (k.contents i j hj ho).2.2⟩

theorem segAt_unique {d st a i k} (h : SegAt d st a i) (h' : SegAt d st a k) : i = k := by
  rcases Nat.lt_trichotomy i k with hlt | rfl | hlt
  · exact absurd h.2.1 (h'.2.2 i hlt)
  · rfl
  · exact absurd h'.2.1 (h.2.2 k hlt)

/-- The specification determines what happens. -/
theorem step_unique {d m op a b} (h1 : Step d m op a) (h2 : Step d m op b) : a = b := by
  cases h1 with
  | org p q =>
    cases h2 with
    | org p' q' => obtain rfl := segAt_unique p p'; rfl
    | orgError n => exact absurd ⟨_, p, q⟩ n
  | orgError n =>
    cases h2 with
    | org p q => exact absurd ⟨_, p, q⟩ n
    | orgError _ => rfl
  | orga p q =>
    cases h2 with
    | orga p' q' => obtain rfl := segAt_unique p p'; rfl
    | orgaHole p' n => obtain rfl := segAt_unique p p'; exact absurd q n
    | orgaFree n _ => exact absurd ⟨_, p⟩ n
    | orgaError n _ => exact absurd ⟨_, p⟩ n
  | orgaHole p n =>
    cases h2 with
    | orga p' q' => obtain rfl := segAt_unique p p'; exact absurd q' n
    | orgaHole p' n => rfl
    | orgaFree n _ => exact absurd ⟨_, p⟩ n
    | orgaError n _ => exact absurd ⟨_, p⟩ n
  | orgaFree n q =>
    cases h2 with
    | orga p' q' => exact absurd ⟨_, p'⟩ n
    | orgaHole p' _ => exact absurd ⟨_, p'⟩ n
    | orgaFree _ _ => rfl
    | orgaError _ q' => exact absurd q q'
  | orgaError n q =>
    cases h2 with
    | orga p' q' => exact absurd ⟨_, p'⟩ n
    | orgaHole p' _ => exact absurd ⟨_, p'⟩ n
    | orgaFree _ q' => exact absurd q' q
    | orgaError _ _ => rfl
  | emit _ => cases h2 with | emit _ => rfl
  | emitFree => cases h2 with | emitFree => rfl
  | emitNowhere => cases h2 with | emitNowhere => rfl

/-- `.org a` followed by some bytes: the bytes of that address range change, no other byte of any segment does. -/
theorem elf_patch {S : Sorts} (hS : S.Lawful) {d o o' a i bs} (hw : WellFormed d) (ho : openFile S d = some (some o))
    (hseg : SegAt d .vaddr a i) (hsec : SecAt d .vaddr a i) (hc : calls o [.org a, .emit bs] = some o')
    (hlen : (save o'.elf).1.length < 2 ^ 32) :
    o'.errors = o.errors ∧ segBytes (save o'.elf).1 i = overwrite (segBytes d i) (a - seg d i .vaddr).toNat bs ∧
      ∀ k j, k ≠ i → j < shnum d → Owner d k j → segBytes (save o'.elf).1 k = segBytes d k := by
  obtain ⟨n, m, m', h1, h2, h3, h4, h5, _⟩ := elf_session hS hw ho hc hlen
  have hm : m.contents = segBytes d := by
    split at h1
    · cases h1; rfl
    · cases h1 with
      | cons s t =>
        cases t
        cases s <;> rfl
  cases h2 with
  | cons s1 t1 =>
    obtain rfl := step_unique s1 (.org hseg hsec)
    cases t1 with
    | cons s2 t2 =>
      cases t2
      cases s2 with
      | emit hfit =>
        simp only [hm] at h3 h4 h5
        obtain ⟨j, hj, hjo, _⟩ := hsec
        refine ⟨by rw [h4, h3], by have := h5 i j hj hjo; simpa using this, fun k j' hk hj' ho' => ?_⟩
        have := h5 k j' hj' ho'
        simpa [hk] using this

/-- After `.org a` the address is `a`, and every emitted byte advances it by one. -/
theorem elf_org_address {S : Sorts} (hS : S.Lawful) {d o o' o'' a i ops} {bss : List (List Byte)} (hw : WellFormed d) (ho : openFile S d = some (some o))
    (hc : calls o ops = some o') (hseg : SegAt d .vaddr a i) (hsec : SecAt d .vaddr a i)
    (hv : seg d i .vaddr + seg d i .filesz ≤ 2 ^ 32)
    (hc' : calls o' (.org a :: bss.map Op.emit) = some o'') :
    getVirtualAddress o'' = some (o'', a + ((bss.map List.length).sum : Nat)) := by
  obtain ⟨n, m, h1, h2⟩ := rel_open hS hw ho
  obtain ⟨m', h3, h4⟩ := rel_steps ops h2 hc
  obtain ⟨m'', h5, h6⟩ := rel_steps _ h4 hc'
  cases h5 with
  | cons s1 t1 =>
    obtain rfl := step_unique s1 (.org hseg hsec)
    have key : ∀ (bss : List (List Byte)) (C : Nat → List Byte) (p n : Nat) (m'' : Image),
        Steps d ⟨C, .segment i p, n⟩ (bss.map Op.emit) m'' → m''.place = .segment i (p + (bss.map List.length).sum) := by
      intro bss
      induction bss with
      | nil => intro C p n m'' h; cases h; rfl
      | cons b bss ih =>
        intro C p n m'' h
        cases h with
        | cons s t =>
          cases s with
          | emit hf =>
            have := ih _ _ _ _ t
            rw [this, List.map_cons, List.sum_cons, Nat.add_assoc]
    have hp := key _ _ _ _ _ t1
    obtain ⟨C, pl, k⟩ := m''
    simp only at hp
    subst hp
    rw [rel_address h6 hv]
    have := hseg.2.1.1
    refine congrArg some (Prod.ext rfl ?_)
    simp only
    omega

/-! ### A file -/

/-- Insertion sort is such a function. -/
def insert {α : Type} (f : α → Nat) (x : α) : List α → List α
  | [] => [x]
  | y :: l => if f x ≤ f y then x :: y :: l else y :: insert f x l

def isort {α : Type} (f : α → Nat) (l : List α) : List α := l.foldr (insert f) []

theorem insert_perm {α : Type} (f : α → Nat) (x : α) (l : List α) : (insert f x l).Perm (x :: l) := by
  induction l with
  | nil => exact .refl _
  | cons y l ih =>
    rw [insert]
    split
    · exact .refl _
    · exact (ih.cons y).trans (.swap x y l)

theorem isort_perm {α : Type} (f : α → Nat) (l : List α) : (isort f l).Perm l := by
  induction l with
  | nil => exact .refl _
  | cons y l ih => exact (insert_perm f y _).trans (ih.cons y)

theorem insert_sorted {α : Type} (f : α → Nat) (x : α) (l : List α) (h : l.Pairwise fun a b => f a ≤ f b) :
    (insert f x l).Pairwise fun a b => f a ≤ f b := by
  induction l with
  | nil => simp [insert]
  | cons y l ih =>
    rw [List.pairwise_cons] at h
    rw [insert]
    split
    · next hxy =>
      rw [List.pairwise_cons]
      refine ⟨?_, List.pairwise_cons.2 h⟩
      intro b hb
      rcases List.mem_cons.1 hb with rfl | hb
      · exact hxy
      · exact Nat.le_trans hxy (h.1 b hb)
    · next hxy =>
      rw [List.pairwise_cons]
      refine ⟨?_, ih h.2⟩
      intro b hb
      rcases List.mem_cons.1 ((insert_perm f x l).mem_iff.1 hb) with rfl | hb
      · omega
      · exact h.1 b hb

theorem isort_sorted {α : Type} (f : α → Nat) (l : List α) : (isort f l).Pairwise fun a b => f a ≤ f b := by
  induction l with
  | nil => exact .nil
  | cons y l ih => exact insert_sorted f y _ ih

def sorts : Sorts := ⟨isort (·.1), fun f => isort f⟩

theorem sorts_lawful : sorts.Lawful :=
  ⟨fun l => isort_perm _ l, fun l => isort_sorted _ l, fun f l => isort_perm f l, fun f l => isort_sorted f l⟩

def h (n : Nat) : List Byte := toBytes .little 2 n
def w (n : Nat) : List Byte := toBytes .little 4 n
def ident : List Byte := [0x7F, 0x45, 0x4C, 0x46, 1, 1, 1, 0, 0, 0, 0, 0, 0, 0, 0, 0]

/-- An executable with a segment of eight bytes at 0x1000, section `.text` in it and section `.str` outside. -/
def sample : List Byte :=
  ident ++ h 2 ++ h 8 ++ w 1 ++ w 0x1000 ++ w 52 ++ w 148 ++ w 0 ++ h 52 ++ h 32 ++ h 1 ++ h 40 ++ h 3 ++ h 2 ++
  (w 1 ++ w 128 ++ w 0x1000 ++ w 0x1000 ++ w 8 ++ w 8 ++ w 5 ++ w 64) ++ List.replicate 44 0 ++
  [1, 2, 3, 4, 5, 6, 7, 8] ++ [0, 0x2E, 0x74, 0x65, 0x78, 0x74, 0, 0x2E, 0x73, 0x74, 0x72, 0] ++
  (w 0 ++ w 0 ++ w 0 ++ w 0 ++ w 0 ++ w 0 ++ w 0 ++ w 0 ++ w 0 ++ w 0) ++
  (w 1 ++ w 1 ++ w 6 ++ w 0x1000 ++ w 128 ++ w 8 ++ w 0 ++ w 0 ++ w 4 ++ w 0) ++
  (w 7 ++ w 3 ++ w 0 ++ w 0 ++ w 136 ++ w 12 ++ w 0 ++ w 0 ++ w 1 ++ w 0)

theorem sample_wellFormed : WellFormed sample :=
  ⟨by decide +kernel, by decide +kernel, by decide +kernel, by decide +kernel, by decide +kernel, by decide +kernel,
    by decide +kernel, by decide +kernel⟩

/-- What is loaded from a file; for examples. -/
def loaded (d : List Byte) : File := ((load sorts true d).map (·.1)).getD ⟨⟨[], 0, 0, 0, 0, 0, 0, 0, 0, 0, 0, 0, 0, 0⟩, [], 0,
  fun _ => ⟨⟨0, 0, 0, 0, 0, 0, 0, 0, 0, 0⟩, [], []⟩, [], [], none, none⟩

theorem loaded_eq {d} (hs : (load sorts true d).isSome = true) : load sorts true d = some (loaded d, ((load sorts true d).map (·.2)).getD 0) := by
  unfold loaded
  cases hl : load sorts true d with
  | none => rw [hl] at hs; cases hs
  | some x => rfl

/-- The opened file; for examples. -/
def opened (d : List Byte) : Output := ((openFile sorts d).join).getD ⟨loaded d, none, none, none, 0⟩

theorem opened_eq {d} (hs : ((openFile sorts d).join).isSome = true) : openFile sorts d = some (some (opened d)) := by
  unfold opened
  cases hl : openFile sorts d with
  | none => rw [hl] at hs; cases hs
  | some x =>
    cases x with
    | none => rw [hl] at hs; cases hs
    | some o => rfl

/-- The hypotheses of the theorems about saving hold of the sample. The segment moves from 128 to 96 and keeps its bytes. -/
example : ∃ f n, load sorts true sample = some (f, n) ∧ WellFormed sample ∧ (save f).1.length < 2 ^ 31 ∧
    (∀ i < phnum sample, ∃ j < shnum sample, Owner sample i j) ∧
    (∀ j < shnum sample, sec sample j .type = null → sec sample j .offset + sec sample j .size ≤ 52) ∧
    Owner sample 0 1 ∧ (∀ i < phnum sample, ¬ Inside sample i 2) ∧
    seg sample 0 .offset = 128 ∧ seg (save f).1 0 .offset = 96 ∧ segBytes (save f).1 0 = [1, 2, 3, 4, 5, 6, 7, 8] :=
  ⟨_, _, loaded_eq (by decide +kernel), sample_wellFormed, by decide +kernel, by decide +kernel, by decide +kernel,
    by decide +kernel, by decide +kernel, by decide +kernel, by decide +kernel, by decide +kernel⟩

/-- `.org 0x1002` and three bytes. -/
def patch3 : List Op := [.org 0x1002, .emit [0xAA, 0xBB, 0xCC]]

def patched : Output := (calls (opened sample) patch3).getD (opened sample)

theorem patched_eq : calls (opened sample) patch3 = some patched := by
  unfold patched
  have hs : (calls (opened sample) patch3).isSome = true := by decide +kernel
  cases hc : calls (opened sample) patch3 with
  | none => rw [hc] at hs; cases hs
  | some x => rfl

example : openFile sorts sample = some (some (opened sample)) ∧ SegAt sample .vaddr 0x1002 0 ∧ SecAt sample .vaddr 0x1002 0 ∧
    calls (opened sample) patch3 = some patched ∧ (save patched.elf).1.length < 2 ^ 32 ∧
    segBytes (save patched.elf).1 0 = [1, 2, 0xAA, 0xBB, 0xCC, 6, 7, 8] ∧
    seg sample 0 .vaddr + seg sample 0 .filesz ≤ 2 ^ 32 ∧ (getVirtualAddress patched).map (·.2) = some 0x1005 :=
  ⟨opened_eq (by decide +kernel), by unfold SegAt Covers; decide +kernel,
    ⟨1, by decide +kernel, by decide +kernel, by decide +kernel⟩, patched_eq, by decide +kernel, by decide +kernel,
    by decide +kernel, by decide +kernel⟩

/-! ### Where it goes wrong -/

/-- An executable with a segment of four bytes, and without sections. -/
def stripped : List Byte :=
  ident ++ h 2 ++ h 8 ++ w 1 ++ w 0x1000 ++ w 52 ++ w 0 ++ w 0 ++ h 52 ++ h 32 ++ h 1 ++ h 40 ++ h 0 ++ h 0 ++
  (w 1 ++ w 84 ++ w 0x1000 ++ w 0x1000 ++ w 4 ++ w 4 ++ w 5 ++ w 4) ++ [1, 2, 3, 4]

/-- A segment without sections loses its contents: nothing but its header is saved. -/
theorem elf_stripped_wrong : ∃ f n, WellFormed stripped ∧ load sorts true stripped = some (f, n) ∧
    segBytes stripped 0 = [1, 2, 3, 4] ∧ seg (save f).1 0 .filesz = 4 ∧ segBytes (save f).1 0 = [] :=
  ⟨_, _, ⟨by decide +kernel, by decide +kernel, by decide +kernel, by decide +kernel, by decide +kernel, by decide +kernel,
    by decide +kernel, by decide +kernel⟩, loaded_eq (by decide +kernel), by decide +kernel, by decide +kernel, by decide +kernel⟩

/-- The alignment of a segment is not kept: its position in the file and its address no longer agree modulo `p_align`. -/
theorem elf_segment_alignment_wrong : ∃ f n, WellFormed sample ∧ load sorts true sample = some (f, n) ∧
    seg sample 0 .offset % seg sample 0 .align = seg sample 0 .vaddr % seg sample 0 .align ∧
    seg (save f).1 0 .offset % seg (save f).1 0 .align ≠ seg (save f).1 0 .vaddr % seg (save f).1 0 .align :=
  ⟨_, _, sample_wellFormed, loaded_eq (by decide +kernel), by decide +kernel, by decide +kernel⟩

/-- `orga()` is the start of the section, not the current position. -/
theorem elf_orga_function_wrong : openFile sorts sample = some (some (opened sample)) ∧
    (seekPhysical (opened sample) 132).2 = true ∧
    (getPhysicalAddress (seekPhysical (opened sample) 132).1).map (·.2) = some 128 :=
  ⟨opened_eq (by decide +kernel), by decide +kernel, by decide +kernel⟩

/-- Assembling up to the last byte of the last section is an error: the address behind it lies in no section
(`FileManager.cpp:365-372` seeks it after every command). -/
theorem elf_last_byte_wrong : openFile sorts sample = some (some (opened sample)) ∧
    (seekVirtual (opened sample) 0x1007).2 = true ∧ (seekVirtual (opened sample) 0x1008).2 = false ∧
    (seekVirtual (opened sample) 0x1008).1.errors = (opened sample).errors + 1 :=
  ⟨opened_eq (by decide +kernel), by decide +kernel, by decide +kernel, by decide +kernel⟩

/-- Bytes for a section outside of the segments are dropped, and no error is reported. -/
theorem elf_free_section_wrong : openFile sorts sample = some (some (opened sample)) ∧
    (seekPhysical (opened sample) 137).2 = true ∧
    (write (seekPhysical (opened sample) 137).1 [0xAA]).map (fun x => (x.1.errors, secBytes (save x.1.elf).1 2)) =
      some ((opened sample).errors, secBytes sample 2) :=
  ⟨opened_eq (by decide +kernel), by decide +kernel, by decide +kernel⟩

/-- Bytes behind the end of a segment are written outside of its memory. -/
theorem elf_write_outside_wrong : openFile sorts sample = some (some (opened sample)) ∧
    (calls (opened sample) [.org 0x1006, .emit [1, 2, 3]]).isNone = true :=
  ⟨opened_eq (by decide +kernel), by decide +kernel⟩

end Armips.Props.ElfFile
