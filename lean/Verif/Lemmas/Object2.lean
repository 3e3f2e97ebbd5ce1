import Verif.Lemmas.Object
/-! # Helper lemmas: relocations, sections and symbols of object files -/
namespace Armips.Object
open Armips.Elf (Machine Section Rel Sym getWord)
open Armips.ElfFile
open Armips.Spec

theorem low_byte (x : BitVec 32) : (x &&& 0xFF#32).toNat = x.toNat % 256 := by
  rw [BitVec.toNat_and]
  exact Nat.and_two_pow_sub_one_eq_mod x.toNat 8

theorem high_bytes (x : BitVec 32) : (x >>> 8).toNat = x.toNat / 256 := by
  rw [BitVec.toNat_ushiftRight, Nat.shiftRight_eq_div_pow]

theorem low_nibble (x : Byte) : (x &&& 0xF#8).toNat = x.toNat % 16 := by
  rw [BitVec.toNat_and]
  exact Nat.and_two_pow_sub_one_eq_mod x.toNat 4

theorem high_nibble (x : Byte) : (x >>> 4).toNat = x.toNat / 16 := by
  rw [BitVec.toNat_ushiftRight, Nat.shiftRight_eq_div_pow]

theorem toInt_signed (x : BitVec 32) : x.toInt = Obj.signed32 x.toNat := by
  rw [BitVec.toInt_eq_toNat_cond]
  unfold Obj.signed32
  split <;> split <;> omega

/-- The relocation as the standard describes it. -/
def relAt (d : List Byte) (k i : Nat) : Rel := ⟨Obj.relOffset d k i, Obj.relType d k i, Obj.relSym d k i, Obj.relAddend d k i⟩

/-- A table of relocations. -/
def IsRel (d : List Byte) (k : Nat) : Prop := Elf32.sec d k .type = 9 ∨ Elf32.sec d k .type = 4

theorem fileSize_rel {d k} (h : IsRel d k) : Elf32.fileSize d k = Elf32.sec d k .size := by
  unfold Elf32.fileSize
  rw [if_neg (by rcases h with h | h <;> rw [h] <;> decide)]

theorem relSize_eq (d k) : Obj.relSize d k = if (decide (Elf32.sec d k .type = 4)) then 12 else 8 := by
  unfold Obj.relSize
  simp

theorem readRel_eq {d k i} (hw : Elf32.WellFormed d) (hk : k < Elf32.shnum d) (hr : IsRel d k)
    (hi : i * Obj.relSize d k + Obj.relSize d k ≤ Elf32.sec d k .size) :
    readRel (Elf32.order d) (decide (Elf32.sec d k .type = 4)) (Elf32.secBytes d k) (i * Obj.relSize d k) =
      if Obj.relOffset d k i ≥ 2 ^ 31 then none else some (relAt d k i) := by
  have hf := fileSize_rel hr
  have hsz : 8 ≤ Obj.relSize d k := by unfold Obj.relSize; split <;> omega
  have e1 := word_in (p := i * Obj.relSize d k) hw hk (by omega)
  have e2 := word_in (p := i * Obj.relSize d k + 4) hw hk (by omega)
  unfold readRel
  simp only [e1, low_byte, high_bytes, e2, toInt_signed]
  show (if Obj.relOffset d k i ≥ 2 ^ 31 then none else _) = _
  split
  · rfl
  · congr 1
    unfold relAt
    congr 1
    unfold Obj.relAddend
    by_cases h4 : Elf32.sec d k .type = 4
    · have h12 : Obj.relSize d k = 12 := by unfold Obj.relSize; rw [if_pos h4]
      have e3 := word_in (p := i * Obj.relSize d k + 8) hw hk (by omega)
      rw [if_pos (decide_eq_true h4), if_pos h4, e3, Nat.add_assoc]
    · rw [if_neg (by simpa using h4), if_neg h4]

theorem readRels_sound {d k} (hw : Elf32.WellFormed d) (hk : k < Elf32.shnum d) (hr : IsRel d k) :
    ∀ (n i : Nat) (l : List Rel), (i + n) * Obj.relSize d k ≤ Elf32.sec d k .size →
      readRels (Elf32.order d) (decide (Elf32.sec d k .type = 4)) (Elf32.secBytes d k) n (i * Obj.relSize d k) = some l →
      l = (List.range' i n).map (relAt d k) := by
  intro n
  induction n with
  | zero => intro i l _ h; obtain rfl := Option.some.inj h; rfl
  | succ n ih =>
    intro i l hi h
    have hi' : i * Obj.relSize d k + Obj.relSize d k ≤ Elf32.sec d k .size := by
      have : (i + 1) * Obj.relSize d k ≤ (i + (n + 1)) * Obj.relSize d k := Nat.mul_le_mul_right _ (by omega)
      rw [Nat.add_mul, Nat.one_mul] at this
      omega
    rw [readRels, ← relSize_eq, readRel_eq hw hk hr hi'] at h
    split at h
    · cases h
    · simp only [Option.bind_eq_bind, Option.bind_some, Option.bind_eq_some_iff] at h
      obtain ⟨r, h, hl⟩ := h
      obtain rfl := Option.some.inj hl
      rw [show i * Obj.relSize d k + Obj.relSize d k = (i + 1) * Obj.relSize d k by rw [Nat.add_mul, Nat.one_mul]] at h
      rw [ih (i + 1) r (by rw [show i + 1 + n = i + (n + 1) by omega]; exact hi) h, List.range'_succ, List.map_cons]

theorem readRels_some {d k} (hw : Elf32.WellFormed d) (hk : k < Elf32.shnum d) (hr : IsRel d k) :
    ∀ (n i : Nat), (i + n) * Obj.relSize d k ≤ Elf32.sec d k .size → (∀ m < n, Obj.relOffset d k (i + m) < 2 ^ 31) →
      ∃ l, readRels (Elf32.order d) (decide (Elf32.sec d k .type = 4)) (Elf32.secBytes d k) n (i * Obj.relSize d k) = some l := by
  intro n
  induction n with
  | zero => intro i _ _; exact ⟨_, rfl⟩
  | succ n ih =>
    intro i hi ho
    have hi' : i * Obj.relSize d k + Obj.relSize d k ≤ Elf32.sec d k .size := by
      have : (i + 1) * Obj.relSize d k ≤ (i + (n + 1)) * Obj.relSize d k := Nat.mul_le_mul_right _ (by omega)
      rw [Nat.add_mul, Nat.one_mul] at this
      omega
    have h0 := ho 0 (by omega)
    rw [Nat.add_zero] at h0
    rw [readRels, ← relSize_eq, readRel_eq hw hk hr hi', if_neg (by omega),
      show i * Obj.relSize d k + Obj.relSize d k = (i + 1) * Obj.relSize d k by rw [Nat.add_mul, Nat.one_mul]]
    obtain ⟨l, hl⟩ := ih (i + 1) (by rw [show i + 1 + n = i + (n + 1) by omega]; exact hi)
      (fun m hm => by rw [show i + 1 + m = i + (m + 1) by omega]; exact ho (m + 1) (by omega))
    simp only [Option.bind_eq_bind, Option.bind_some, hl]
    exact ⟨_, rfl⟩

/-! ### Sections -/

section
variable {d : List Byte} {f : ElfFile.File}

theorem sec_type (hf : Plain d f) {j n : Nat} (hj : j < Elf32.shnum d) (hn : n < 2 ^ 32) :
    (f.secs j).hdr.type = BitVec.ofNat 32 n ↔ Elf32.sec d j .type = n := type_iff (hf.hdr j hj) n hn

theorem shnum_lt (d) : Elf32.shnum d < 2 ^ 16 := by
  have := fromBytes_lt (Elf32.order d) (Elf32.bytes d 48 2)
  have hl : (Elf32.bytes d 48 2).length ≤ 2 := by unfold Elf32.bytes; rw [List.length_take]; omega
  have : (256 : Nat) ^ (Elf32.bytes d 48 2).length ≤ 256 ^ 2 := Nat.pow_le_pow_right (by omega) hl
  show fromBytes (Elf32.order d) (Elf32.bytes d 48 2) < _
  omega

theorem findRels_pred (hr : Obj.Readable d) (hf : Plain d f) {k s : Nat} (hk : k < Elf32.shnum d) :
    (((f.secs k).hdr.type = 9#32 || (f.secs k).hdr.type = 4#32) && ((f.secs k).hdr.info.setWidth 16).toNat = s : Bool) =
      decide (Obj.Relocates d k s) := by
  rw [Bool.eq_iff_iff]
  simp only [Bool.and_eq_true, Bool.or_eq_true, decide_eq_true_eq]
  rw [sec_type hf hk (n := 9) (by omega), sec_type hf hk (n := 4) (by omega)]
  unfold Obj.Relocates
  refine and_congr_right fun ht => ?_
  have hi : (f.secs k).hdr.info.toNat = Elf32.sec d k .info := hf.hdr k hk .info
  have hlt := (hr.relocations k hk ht).1
  have := shnum_lt d
  rw [BitVec.toNat_setWidth, hi, Nat.mod_eq_of_lt (by omega)]

theorem findRels_some (hr : Obj.Readable d) (hf : Plain d f) {k s : Nat} (h : Obj.RelTable d k s) : findRels f s = some k := by
  unfold findRels
  rw [hf.less, List.find?_range_eq_some]
  refine ⟨?_, List.mem_range.2 h.1, fun j hj => ?_⟩
  · rw [findRels_pred hr hf h.1]; exact decide_eq_true h.2.1
  · rw [findRels_pred hr hf (by have := h.1; omega)]
    simpa using h.2.2 j hj

theorem findRels_none (hr : Obj.Readable d) (hf : Plain d f) {s : Nat} (h : ∀ k < Elf32.shnum d, ¬ Obj.Relocates d k s) :
    findRels f s = none := by
  unfold findRels
  rw [hf.less, List.find?_eq_none]
  intro k hk
  have hk := List.mem_range.1 hk
  rw [findRels_pred hr hf hk]
  simpa using h k hk

theorem relTable_or (d : List Byte) (s : Nat) : (∃ k, Obj.RelTable d k s) ∨ ∀ k < Elf32.shnum d, ¬ Obj.Relocates d k s := by
  cases h : (List.range (Elf32.shnum d)).find? fun k => decide (Obj.Relocates d k s) with
  | none =>
    right
    intro k hk
    have := List.find?_eq_none.1 h k (List.mem_range.2 hk)
    simpa using this
  | some k =>
    left
    rw [List.find?_range_eq_some] at h
    obtain ⟨h1, h2, h3⟩ := h
    exact ⟨k, List.mem_range.1 h2, by simpa using h1, fun k' hk' => by simpa using h3 k' hk'⟩

theorem count_eq {n sz : Nat} (h : 0 < sz) (hd : sz ∣ n) : (n + (sz - 1)) / sz = n / sz := by
  obtain ⟨m, rfl⟩ := hd
  rw [Nat.mul_add_div h, Nat.div_eq_of_lt (by omega), Nat.mul_div_cancel_left _ h, Nat.add_zero]

theorem relsOf_table (hr : Obj.Readable d) (hf : Plain d f) {k s : Nat} (h : Obj.RelTable d k s) :
    relsOf f s = readRels (Elf32.order d) (decide (Elf32.sec d k .type = 4)) (Elf32.secBytes d k) (Obj.relCount d k) (0 * Obj.relSize d k) := by
  have hk := h.1
  have hrel : IsRel d k := h.2.1.1
  unfold relsOf
  rw [findRels_some hr hf h]
  simp only
  have ht : decide ((f.secs k).hdr.type = 4#32) = decide (Elf32.sec d k .type = 4) :=
    decide_eq_decide.2 (sec_type hf hk (n := 4) (by omega))
  have hz : (f.secs k).hdr.size.toNat = Elf32.sec d k .size := hf.hdr k hk .size
  rw [ht, ← relSize_eq, hf.ehdr.order, hf.data k hk (by rcases hrel with h | h <;> rw [h] <;> decide), hz,
    count_eq (by unfold Obj.relSize; split <;> omega) (hr.relocations k hk hrel).2, Nat.zero_mul]
  rfl

theorem relsOf_sound (hr : Obj.Readable d) (hf : Plain d f) {s : Nat} {l : List Rel} (h : relsOf f s = some l) :
    (∀ k, Obj.RelTable d k s → l = (List.range (Obj.relCount d k)).map (relAt d k)) ∧
    ((∀ k < Elf32.shnum d, ¬ Obj.Relocates d k s) → l = []) := by
  refine ⟨fun k hk => ?_, fun hn => ?_⟩
  · rw [relsOf_table hr hf hk] at h
    rw [List.range_eq_range']
    exact readRels_sound hr.wellFormed hk.1 hk.2.1.1 _ 0 l (by rw [Nat.zero_add]; exact Nat.div_mul_le_self _ _) h
  · unfold relsOf at h
    rw [findRels_none hr hf hn] at h
    exact (Option.some.inj h).symm

/-- A section of the object file as the standard describes it, with these relocations. -/
structure IsSection (d : List Byte) (j : Nat) (s : Section) : Prop where
  index : s.index = j
  size : s.size = Elf32.sec d j .size
  align : s.align = Elf32.sec d j .align
  nobits : s.nobits = true ↔ Elf32.sec d j .type = Elf32.nobits
  data : s.data = Elf32.secBytes d j
  rels : s.nobits = false → (∀ k, Obj.RelTable d k j → s.rels = (List.range (Obj.relCount d k)).map (relAt d k)) ∧
    ((∀ k < Elf32.shnum d, ¬ Obj.Relocates d k j) → s.rels = [])
  none : s.nobits = true → s.rels = []

theorem and_two (x : BitVec 32) : x &&& 2#32 = 0#32 ↔ ¬ x.toNat / 2 % 2 = 1 := by
  rw [← BitVec.toNat_inj, BitVec.toNat_and]
  have h : x.toNat &&& 2 = 2 * (x.toNat / 2 % 2) := by
    apply Nat.eq_of_testBit_eq
    intro i
    rcases i with _ | _ | i
    · simp [Nat.testBit_zero]
    · rw [Nat.testBit_and]
      rcases Nat.mod_two_eq_zero_or_one (x.toNat / 2) with h | h <;> simp [h, Nat.testBit_succ, Nat.testBit_zero]
    · have h2 : (2 : Nat).testBit (i + 1 + 1) = false := by simp [Nat.testBit_succ]
      have h3 : (2 * (x.toNat / 2 % 2)).testBit (i + 1 + 1) = false := by
        rcases Nat.mod_two_eq_zero_or_one (x.toNat / 2) with h | h <;> simp [h, Nat.testBit_succ]
      rw [Nat.testBit_and, h2, h3, Bool.and_false]
  show x.toNat &&& 2 = 0 ↔ _
  rw [h]
  omega

theorem objSection_sound (hr : Obj.Readable d) (hf : Plain d f) {j : Nat} {o : Option Section} (hj : j < Elf32.shnum d)
    (h : objSection f j j = some o) : (Obj.Loadable d j → ∃ s, o = some s ∧ IsSection d j s) ∧ (¬ Obj.Loadable d j → o = none) := by
  have hs := hf.hdr j hj
  have hfl : (f.secs j).hdr.flags.toNat = Elf32.sec d j .flags := hs .flags
  unfold objSection at h
  simp only at h
  have h2 := and_two (f.secs j).hdr.flags
  rw [hfl] at h2
  have ht : ((f.secs j).hdr.type = 1#32 ∨ (f.secs j).hdr.type = 8#32 ∨ (f.secs j).hdr.type = 14#32) ↔
      (Elf32.sec d j .type = 1 ∨ Elf32.sec d j .type = 8 ∨ Elf32.sec d j .type = 14) := by
    rw [sec_type hf hj (n := 1) (by omega), sec_type hf hj (n := 8) (by omega), sec_type hf hj (n := 14) (by omega)]
  split at h
  · next hc => obtain rfl := Option.some.inj h; exact ⟨fun hl => absurd hl.1 (h2.1 hc), fun _ => rfl⟩
  · next hc =>
    have hc : ¬ ¬ Elf32.sec d j .flags / 2 % 2 = 1 := fun hn => hc (h2.2 hn)
    split at h
    · next hc2 => obtain rfl := Option.some.inj h; exact ⟨fun hl => absurd (ht.2 hl.2) hc2, fun _ => rfl⟩
    · next hc2 =>
      have hc2 := ht.1 (Decidable.not_not.1 hc2)
      split at h
      · cases h
      · simp only [Option.bind_eq_bind, Option.bind_eq_some_iff] at h
        obtain ⟨rels, h1, h3⟩ := h
        obtain rfl := Option.some.inj h3
        have hload : Obj.Loadable d j := ⟨Decidable.not_not.1 hc, hc2⟩
        have h8 : (f.secs j).hdr.type = 8#32 ↔ Elf32.sec d j .type = Elf32.nobits := sec_type hf hj (n := 8) (by omega)
        refine ⟨fun _ => ⟨_, rfl, ?_⟩, fun hl => absurd hload hl⟩
        exact {
          index := rfl
          size := hs .size
          align := hs .align
          nobits := by simp only [decide_eq_true_eq]; exact h8
          data := hf.data j hj (by
            have : Elf32.null = 0 := rfl
            rcases hc2 with h | h | h <;> rw [h] <;> decide)
          rels := fun hn => by
            simp only at hn
            rw [hn, if_neg (by simp)] at h1
            exact relsOf_sound hr hf h1
          none := fun hn => by
            simp only at hn
            rw [hn, if_pos rfl] at h1
            exact (Option.some.inj h1).symm }

theorem objSections_sound (hr : Obj.Readable d) (hf : Plain d f) : ∀ (n i : Nat) (l : List Section), i + n ≤ Elf32.shnum d →
    objSections f i (List.range' i n) = some l →
    l.map (·.index) = (List.range' i n).filter (fun j => decide (Obj.Loadable d j)) ∧ ∀ s ∈ l, IsSection d s.index s := by
  intro n
  induction n with
  | zero => intro i l _ h; obtain rfl := Option.some.inj h; exact ⟨rfl, by simp⟩
  | succ n ih =>
    intro i l hi h
    rw [List.range'_succ, objSections] at h
    simp only [Option.bind_eq_bind, Option.bind_eq_some_iff] at h
    obtain ⟨o, h1, r, h2, h3⟩ := h
    obtain rfl := Option.some.inj h3
    obtain ⟨a, b⟩ := ih (i + 1) r (by omega) h2
    obtain ⟨c1, c2⟩ := objSection_sound hr hf (by omega) h1
    rw [List.range'_succ, List.filter_cons]
    by_cases hl : Obj.Loadable d i
    · obtain ⟨s, rfl, hs⟩ := c1 hl
      rw [if_pos (decide_eq_true hl)]
      refine ⟨?_, ?_⟩
      · rw [Option.toList_some, List.singleton_append, List.map_cons, a, hs.index]
      · intro x hx
        rw [Option.toList_some, List.singleton_append, List.mem_cons] at hx
        rcases hx with rfl | hx
        · rw [hs.index]; exact hs
        · exact b x hx
    · rw [if_neg (by simpa using hl), c2 hl, Option.toList_none, List.nil_append]
      exact ⟨a, b⟩

theorem objSection_some (hr : Obj.Readable d) (hf : Plain d f) {j : Nat} (hj : j < Elf32.shnum d)
    (hsz : Obj.Loadable d j → Elf32.sec d j .size < 2 ^ 31)
    (hrel : Obj.Loadable d j → ∀ k, Obj.RelTable d k j → ∀ i < Obj.relCount d k, Obj.relOffset d k i < 2 ^ 31) :
    ∃ o, objSection f j j = some o := by
  have hs := hf.hdr j hj
  have hfl : (f.secs j).hdr.flags.toNat = Elf32.sec d j .flags := hs .flags
  have hz : (f.secs j).hdr.size.toNat = Elf32.sec d j .size := hs .size
  unfold objSection
  simp only
  have h2 := and_two (f.secs j).hdr.flags
  rw [hfl] at h2
  split
  · exact ⟨_, rfl⟩
  · next hc =>
    have hc : ¬ ¬ Elf32.sec d j .flags / 2 % 2 = 1 := fun hn => hc (h2.2 hn)
    split
    · exact ⟨_, rfl⟩
    · next hc2 =>
      rw [sec_type hf hj (n := 1) (by omega), sec_type hf hj (n := 8) (by omega), sec_type hf hj (n := 14) (by omega)] at hc2
      have hl : Obj.Loadable d j := ⟨Decidable.not_not.1 hc, Decidable.not_not.1 hc2⟩
      rw [if_neg (by rw [hz]; have := hsz hl; omega)]
      simp only [Option.bind_eq_bind]
      split
      · exact ⟨_, rfl⟩
      · have : ∃ l, relsOf f j = some l := by
          rcases relTable_or d j with ⟨k, hk⟩ | hn
          · rw [relsOf_table hr hf hk]
            exact readRels_some hr.wellFormed hk.1 hk.2.1.1 _ 0 (by rw [Nat.zero_add]; exact Nat.div_mul_le_self _ _)
              (fun m hm => by rw [Nat.zero_add]; exact hrel hl k hk m hm)
          · unfold relsOf; rw [findRels_none hr hf hn]; exact ⟨_, rfl⟩
        obtain ⟨l, hl⟩ := this
        rw [hl]
        exact ⟨_, rfl⟩

theorem objSections_some {f : ElfFile.File} : ∀ (n i : Nat), (∀ j, i ≤ j → j < i + n → ∃ o, objSection f j j = some o) →
    ∃ l, objSections f i (List.range' i n) = some l := by
  intro n
  induction n with
  | zero => intro i _; exact ⟨_, rfl⟩
  | succ n ih =>
    intro i h
    obtain ⟨o, ho⟩ := h i (by omega) (by omega)
    obtain ⟨l, hl⟩ := ih (i + 1) (fun j h1 h2 => h j (by omega) (by omega))
    rw [List.range'_succ, objSections, ho]
    simp only [Option.bind_eq_bind, Option.bind_some, hl]
    exact ⟨_, rfl⟩

end

end Armips.Object
