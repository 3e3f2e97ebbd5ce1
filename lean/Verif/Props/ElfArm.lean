import Verif.Lemmas.ElfArm
/-!
# C36: relocation of ARM and SuperH code

`x.offset` is the address of the word that is relocated, `x.base` the address of the symbol. The compiler leaves an addend in the
instruction: it branches to the symbol's address plus what it would branch to if it were at address 0.
-/
namespace Armips.Props
open Armips Armips.Elf Spec Spec.Elf

private theorem thumb_iff (x : RelocData) : (decide (x.symbolType = sttFunc) && decide (x.symbolInfo ≠ 0)) = true ↔ Thumb x := by
  rw [Bool.and_eq_true, decide_eq_true_eq, decide_eq_true_eq]; exact Iff.rfl

private theorem thumb_eq (x : RelocData) : (decide (x.symbolType = sttFunc) && decide (x.symbolInfo ≠ 0)) = decide (Thumb x) := by
  by_cases h : Thumb x
  · rw [decide_eq_true h]; exact (thumb_iff x).2 h
  · rw [decide_eq_false h]
    cases hh : decide (x.symbolType = sttFunc) && decide (x.symbolInfo ≠ 0)
    · rfl
    · exact absurd ((thumb_iff x).1 hh) h

variable {f : File} {ext : String → Option Ext} {m : List (Nat × Int)} {s : Section} {pre post : List Rel} {r : Rel} {arm9 : Bool}

private theorem arm_call_core (hrels : s.rels = pre ++ r :: post) (ht : r.type = 28 ∨ r.type = 29) {x : RelocData}
    (he : relocData (arm arm9) f ext m s r = .ok x) {q : Unit} {d : List Byte} {o : Outcome Unit}
    (h : relocSection (arm arm9) f ext m s q = some (d, o)) :
    ∃ v, SameAddress v (x.base + 4 * signed 24 (field x.opcode 0 24) - x.offset) ∧
      (-2 ^ 31 ≤ x.base ∧ x.base < 2 ^ 31 → -2 ^ 31 ≤ x.offset ∧ x.offset < 2 ^ 31 → v = x.base + 4 * signed 24 (field x.opcode 0 24) - x.offset) ∧
      ∃ ok : Bool, (o.ok = true → ok = true) ∧ (ok = false → o.ok = false ∧ o.errors ≠ []) ∧
      (ok = true ↔ (Thumb x → x.base % 2 = 0 ∧ r.type = 28 ∧ arm9 = true ∧ field x.opcode 28 4 = 14) ∧
        (¬ Thumb x → x.base % 4 = 0) ∧ v.natAbs < 0x2000000) ∧
      (ok = true → Separate s → getWord f.endian d r.offset = branchWord (decide (Thumb x)) x.opcode v) := by
  have hdum : (arm arm9).dummy r.type = false := by rcases ht with ht | ht <;> rw [ht] <;> rfl
  obtain ⟨q', y, h1, h2, h3, h4⟩ := stateless_at (arm_stateless arm9) hrels hdum he h
  have h5 : armCall arm9 (decide (Thumb x)) (decide (r.type = 29)) x = some y := by
    change armStep arm9 r.type x q' = some y at h1
    rw [← thumb_eq]
    rcases ht with ht | ht <;> rw [ht] at h1 ⊢ <;> exact h1
  obtain ⟨v, hv, hok, herr, hact, _⟩ := armCall_cases h5
  have hd := distance_some hv
  rw [arm_addend] at hd
  refine ⟨v, ?_, ?_, y.ok, h2, fun hy => h3 hy (herr hy), ?_, fun hy hsep => h4 _ (hact hy) hsep⟩
  · have := toInt_ofInt_mod x.base
    have := toInt_ofInt_mod x.offset
    unfold SameAddress
    omega
  · intro hb hp
    have e1 := BitVec.toInt_ofInt_eq_self (w := 32) (by decide) hb.1 hb.2
    have e2 := BitVec.toInt_ofInt_eq_self (w := 32) (by decide) hp.1 hp.2
    rw [hd, e1, e2]
  · rw [hok, arm_cond]
    simp only [decide_eq_true_eq, decide_eq_false_iff_not]
    have : (¬ r.type = 29) ↔ r.type = 28 := by omega
    rw [this]

/-- An ARM `b` or `bl` (word `w` before, `w'` after) at a word address: if the section is relocated successfully, it branches to the symbol plus
its addend. If that is ARM code, condition and operation stay the same. If it is Thumb code, the instruction was an unconditional call, the CPU
is an ARM9, and the call is now a `blx`. -/
theorem arm_call_reloc (hrels : s.rels = pre ++ r :: post) (ht : r.type = 28 ∨ r.type = 29) (hsep : Separate s) {x : RelocData}
    (he : relocData (arm arm9) f ext m s r = .ok x) (hp : x.offset % 4 = 0) {d : List Byte} (h : Relocated (arm arm9) f ext m s d)
    {w w' : BitVec 32} (hw : w = getWord f.endian s.data r.offset) (hw' : w' = getWord f.endian d r.offset) :
    (¬ Thumb x → SameAddress (Arm.branchTarget w' x.offset) (x.base + Arm.branchTarget w 0) ∧ field w' 24 8 = field w 24 8) ∧
    (Thumb x → SameAddress (Arm.blxTarget w' x.offset) (x.base + Arm.branchTarget w 0) ∧ field w' 25 7 = 0x7D ∧
      r.type = 28 ∧ arm9 = true ∧ field w 28 4 = 14) := by
  obtain ⟨o, h, hok⟩ := h
  obtain ⟨v, hv, _, ok, h1, h2, h3, h4⟩ := arm_call_core hrels ht he h
  have hy := h1 hok
  obtain ⟨c1, c2, c3⟩ := h3.1 hy
  have hx := (relocData_offset he).2
  rw [← hw'] at h4
  rw [← hw] at hx
  rw [hx] at hv c1 h4
  have hlow := branchWord_low (decide (Thumb x)) w v c3
  have hhigh := branchWord_high (decide (Thumb x)) w v
  rw [← h4 hy hsep] at hlow hhigh
  unfold SameAddress at hv ⊢
  unfold Arm.blxTarget Arm.branchTarget
  refine ⟨fun hT => ?_, fun hT => ?_⟩
  · rw [decide_eq_false hT] at hhigh
    refine ⟨?_, hhigh⟩
    have := c2 hT
    omega
  · rw [decide_eq_true hT] at hhigh
    obtain ⟨b1, b2, b3, b4⟩ := c1 hT
    refine ⟨?_, ?_, b2, b3, b4⟩
    · have hh : field w' 24 1 = field w' 24 8 % 2 := by simp only [field]; omega
      rw [hh, hhigh]
      simp only [if_true]
      split <;> omega
    · have hh : field w' 25 7 = field w' 24 8 / 2 := by simp only [field]; omega
      rw [hh, hhigh]
      simp only [if_true]
      split <;> rfl

/-- What cannot be done is reported: a misaligned target, a jump or conditional call to Thumb code, such a call without ARM9, and a distance that
does not fit. Addresses below 2^31. -/
theorem arm_call_reported (hrels : s.rels = pre ++ r :: post) (ht : r.type = 28 ∨ r.type = 29) {x : RelocData}
    (he : relocData (arm arm9) f ext m s r = .ok x) (hb : 0 ≤ x.base ∧ x.base < 2 ^ 31) (hp : 0 ≤ x.offset ∧ x.offset < 2 ^ 31) {w : BitVec 32}
    (hw : w = getWord f.endian s.data r.offset) {d : List Byte} {o : Outcome Unit} (h : relocSection (arm arm9) f ext m s () = some (d, o))
    (hbad : (Thumb x ∧ (x.base % 2 ≠ 0 ∨ r.type = 29 ∨ arm9 = false ∨ field w 28 4 ≠ 14)) ∨ (¬ Thumb x ∧ x.base % 4 ≠ 0) ∨
      0x2000000 ≤ (x.base + Arm.branchTarget w 0 - (x.offset + 8)).natAbs) : o.ok = false ∧ o.errors ≠ [] := by
  obtain ⟨v, _, hv, ok, h1, h2, h3, h4⟩ := arm_call_core hrels ht he h
  have hv := hv ⟨by omega, by omega⟩ ⟨by omega, by omega⟩
  apply h2
  cases hok : ok
  · rfl
  · obtain ⟨c1, c2, c3⟩ := h3.1 hok
    have hx := (relocData_offset he).2
    rw [← hw] at hx
    rw [hx] at hv c1
    rcases hbad with ⟨hT, hb⟩ | ⟨hT, hb⟩ | hb
    · obtain ⟨b1, b2, b3, b4⟩ := c1 hT
      rcases hb with hb | hb | hb | hb
      · exact absurd b1 hb
      · omega
      · rw [b3] at hb; cases hb
      · exact absurd b4 hb
    · exact absurd (c2 hT) hb
    · unfold Arm.branchTarget at hb; omega

private theorem thumb_call_core (hrels : s.rels = pre ++ r :: post) (ht : r.type = 10) {x : RelocData}
    (he : relocData (arm arm9) f ext m s r = .ok x) {q : Unit} {d : List Byte} {o : Outcome Unit}
    (h : relocSection (arm arm9) f ext m s q = some (d, o)) :
    ∃ v, SameAddress v (x.base + (4096 * signed 11 (field x.opcode 0 11) + 2 * field x.opcode 16 11) - x.offset) ∧
      (-2 ^ 31 ≤ x.base ∧ x.base < 2 ^ 31 → -2 ^ 31 ≤ x.offset ∧ x.offset < 2 ^ 31 →
        v = x.base + (4096 * signed 11 (field x.opcode 0 11) + 2 * field x.opcode 16 11) - x.offset) ∧
      ∃ ok : Bool, (o.ok = true → ok = true) ∧ (ok = false → o.ok = false ∧ o.errors ≠ []) ∧
      (ok = true ↔ (Thumb x → x.base % 2 = 0) ∧ (¬ Thumb x → arm9 = true ∧ x.base % 4 = 0) ∧ v.natAbs < 0x400000) ∧
      (ok = true → Separate s → getWord f.endian d r.offset = callWord (decide (Thumb x)) x.opcode v) := by
  have hdum : (arm arm9).dummy r.type = false := by rw [ht]; rfl
  obtain ⟨q', y, h1, h2, h3, h4⟩ := stateless_at (arm_stateless arm9) hrels hdum he h
  have h5 : thmCall arm9 (decide (Thumb x)) x = some y := by
    change armStep arm9 r.type x q' = some y at h1
    rw [← thumb_eq]
    rw [ht] at h1
    exact h1
  obtain ⟨v, hv, hok, herr, hact, _⟩ := thmCall_cases h5
  have hd := distance_some hv
  rw [thumb_addend] at hd
  refine ⟨v, ?_, ?_, y.ok, h2, fun hy => h3 hy (herr hy), ?_, fun hy hsep => h4 _ (hact hy) hsep⟩
  · have := toInt_ofInt_mod x.base
    have := toInt_ofInt_mod x.offset
    unfold SameAddress
    omega
  · intro hb hp
    have e1 := BitVec.toInt_ofInt_eq_self (w := 32) (by decide) hb.1 hb.2
    have e2 := BitVec.toInt_ofInt_eq_self (w := 32) (by decide) hp.1 hp.2
    rw [hd, e1, e2]
  · rw [hok]
    simp only [decide_eq_true_eq, decide_eq_false_iff_not]

private theorem half_fields (w : BitVec 32) : field (firstHalf w) 0 11 = field w 0 11 ∧ field (secondHalf w) 0 11 = field w 16 11 ∧
    field (firstHalf w) 11 5 = field w 11 5 ∧ field (secondHalf w) 11 5 = field w 27 5 := by
  have := w.isLt
  simp only [field, firstHalf, secondHalf, BitVec.extractLsb'_toNat, Nat.shiftRight_eq_div_pow]
  omega

/-- A Thumb call at a halfword address: it calls the symbol plus its addend. For Thumb code its operation stays the same; for ARM code it is a
`blx` now, on an ARM9. -/
theorem thumb_call_reloc (hrels : s.rels = pre ++ r :: post) (ht : r.type = 10) (hsep : Separate s) {x : RelocData}
    (he : relocData (arm arm9) f ext m s r = .ok x) (hp : x.offset % 2 = 0) {d : List Byte} (h : Relocated (arm arm9) f ext m s d)
    {w w' : BitVec 32} (hw : w = getWord f.endian s.data r.offset) (hw' : w' = getWord f.endian d r.offset) :
    SameAddress (Thumb.linkTarget (firstHalf w') (secondHalf w') x.offset) (x.base + Thumb.linkTarget (firstHalf w) (secondHalf w) 0) ∧
    field (firstHalf w') 11 5 = field (firstHalf w) 11 5 ∧
    (Thumb x → field (secondHalf w') 11 5 = field (secondHalf w) 11 5) ∧
    (¬ Thumb x → field (secondHalf w') 11 5 = 29 ∧ arm9 = true ∧
      (Thumb.linkTarget (firstHalf w) (secondHalf w) 0 % 4 = 0 →
        SameAddress (Thumb.exchangeTarget (firstHalf w') (secondHalf w') x.offset) (x.base + Thumb.linkTarget (firstHalf w) (secondHalf w) 0))) := by
  obtain ⟨o, h, hok⟩ := h
  obtain ⟨v, hv, _, ok, h1, h2, h3, h4⟩ := thumb_call_core hrels ht he h
  have hy := h1 hok
  obtain ⟨c1, c2, c3⟩ := h3.1 hy
  have hx := (relocData_offset he).2
  rw [← hw'] at h4
  rw [← hw] at hx
  rw [hx] at hv h4
  obtain ⟨b1, b2, b3⟩ := callWord_bits (decide (Thumb x)) w v c3
  rw [← h4 hy hsep] at b1 b2 b3
  obtain ⟨f1, f2, f3, f4⟩ := half_fields w
  obtain ⟨g1, g2, g3, g4⟩ := half_fields w'
  have heven : x.base % 2 = 0 := by
    by_cases hT : Thumb x
    · exact c1 hT
    · have := (c2 hT).2; omega
  have hlink : SameAddress (Thumb.linkTarget (firstHalf w') (secondHalf w') x.offset) (x.base + Thumb.linkTarget (firstHalf w) (secondHalf w) 0) := by
    unfold SameAddress at hv ⊢
    unfold Thumb.linkTarget
    rw [f1, f2, g1, g2]
    omega
  refine ⟨hlink, by rw [f3, g3, b2], fun hT => ?_, fun hT => ⟨?_, (c2 hT).1, fun h4 => ?_⟩⟩
  · rw [f4, g4, b3, decide_eq_true hT, if_pos rfl]
  · rw [g4, b3, decide_eq_false hT]; rfl
  · have := (c2 hT).2
    unfold SameAddress at hlink ⊢
    unfold Thumb.exchangeTarget
    omega

/-- What cannot be done is reported. -/
theorem thumb_call_reported (hrels : s.rels = pre ++ r :: post) (ht : r.type = 10) {x : RelocData}
    (he : relocData (arm arm9) f ext m s r = .ok x) (hb : 0 ≤ x.base ∧ x.base < 2 ^ 31) (hp : 0 ≤ x.offset ∧ x.offset < 2 ^ 31) {w : BitVec 32}
    (hw : w = getWord f.endian s.data r.offset) {d : List Byte} {o : Outcome Unit} (h : relocSection (arm arm9) f ext m s () = some (d, o))
    (hbad : (Thumb x ∧ x.base % 2 ≠ 0) ∨ (¬ Thumb x ∧ (arm9 = false ∨ x.base % 4 ≠ 0)) ∨
      0x400000 ≤ (x.base + Thumb.linkTarget (firstHalf w) (secondHalf w) 0 - (x.offset + 4)).natAbs) : o.ok = false ∧ o.errors ≠ [] := by
  obtain ⟨v, _, hv, ok, h1, h2, h3, h4⟩ := thumb_call_core hrels ht he h
  have hv := hv ⟨by omega, by omega⟩ ⟨by omega, by omega⟩
  apply h2
  cases hok : ok
  · rfl
  · obtain ⟨c1, c2, c3⟩ := h3.1 hok
    have hx := (relocData_offset he).2
    rw [← hw] at hx
    rw [hx] at hv
    rcases hbad with ⟨hT, hb⟩ | ⟨hT, hb⟩ | hb
    · exact absurd (c1 hT) hb
    · rcases hb with hb | hb
      · rw [(c2 hT).1] at hb; cases hb
      · exact absurd (c2 hT).2 hb
    · obtain ⟨f1, f2, _, _⟩ := half_fields w
      unfold Thumb.linkTarget at hb; rw [f1, f2] at hb; omega

/-- Data words (`R_ARM_ABS32`, `R_ARM_TARGET1`): the symbol's address is added; for a Thumb function, the lowest bit is set. -/
theorem arm_word_reloc (hrels : s.rels = pre ++ r :: post) (ht : r.type = 2 ∨ r.type = 38) (hsep : Separate s) {x : RelocData}
    (he : relocData (arm arm9) f ext m s r = .ok x) {d : List Byte} (h : Relocated (arm arm9) f ext m s d) :
    ∃ v : Nat, (v : Int) = ((getWord f.endian s.data r.offset).toNat + x.base) % 2 ^ 32 ∧
      (getWord f.endian d r.offset).toNat = if Thumb x then v - v % 2 + 1 else v := by
  obtain ⟨o, h, hok⟩ := h
  have hdum : (arm arm9).dummy r.type = false := by rcases ht with ht | ht <;> rw [ht] <;> rfl
  obtain ⟨q', y, h1, h2, h3, h4⟩ := stateless_at (arm_stateless arm9) hrels hdum he h
  have hx := (relocData_offset he).2
  have h5 : some (⟨true, (), [⟨x.offset, (x.opcode + BitVec.ofInt 32 x.base) ||| (if decide (Thumb x) then 1#32 else 0#32)⟩], []⟩ : Step Unit) =
      some y := by
    rw [← thumb_eq]
    rcases ht with ht | ht <;> rw [ht] at h1 <;> exact h1
  cases h5
  rw [h4 _ rfl hsep]
  refine ⟨(x.opcode + BitVec.ofInt 32 x.base).toNat, ?_, ?_⟩
  · rw [BitVec.toNat_add, BitVec.toNat_ofInt, hx]; omega
  · by_cases hT : Thumb x
    · rw [decide_eq_true hT, if_pos rfl, if_pos hT, BitVec.toNat_or]
      rw [show (1#32).toNat = 1 from rfl]
      have h6 := Nat.or_mod_two_pow (a := (x.opcode + BitVec.ofInt 32 x.base).toNat) (b := 1) (n := 1)
      have h7 := Nat.or_div_two (a := (x.opcode + BitVec.ofInt 32 x.base).toNat) (b := 1)
      generalize (x.opcode + BitVec.ofInt 32 x.base).toNat = n at h6 h7 ⊢
      have h8 : (n % 2 ||| 1) = 1 := by
        rcases Nat.mod_two_eq_zero_or_one n with h | h <;> rw [h] <;> rfl
      simp only [Nat.pow_one, Nat.mod_succ] at h6
      rw [h8] at h6
      simp only [Nat.reduceDiv, Nat.or_zero] at h7
      omega
    · rw [decide_eq_false hT, if_neg (by decide), if_neg hT]; simp

/-- Any other type of relocation except `R_ARM_V4BX`, which is skipped, is an error. -/
theorem arm_unknown_type (hrels : s.rels = pre ++ r :: post) {x : RelocData} (he : relocData (arm arm9) f ext m s r = .ok x)
    (ht : r.type ∉ [2, 38, 10, 28, 29, 40]) {d : List Byte} {o : Outcome Unit}
    (h : relocSection (arm arm9) f ext m s () = some (d, o)) : o.ok = false ∧ o.errors ≠ [] := by
  simp only [List.mem_cons, List.not_mem_nil, or_false, not_or] at ht
  have hdum : (arm arm9).dummy r.type = false := by
    show (r.type == 40) = false
    simp [ht]
  obtain ⟨q', y, h1, h2, h3, h4⟩ := stateless_at (arm_stateless arm9) hrels hdum he h
  change armStep arm9 r.type x q' = some y at h1
  unfold armStep at h1
  split at h1 <;> first | omega | skip
  obtain ⟨a, b, _⟩ := armFail_none _ h1
  exact h3 a b

/-- Bytes outside of the words that are relocated stay as they are. -/
theorem arm_other_bytes {d : List Byte} (h : Relocated (arm arm9) f ext m s d) {i : Nat} (hi : ∀ r ∈ s.rels, i < r.offset ∨ r.offset + 4 ≤ i) :
    d[i]? = s.data[i]? := by
  obtain ⟨o, h, _⟩ := h
  exact stateless_other (arm_stateless arm9) h hi

/-- A function of the file whose value is odd is a Thumb function; its address is the even one below. -/
theorem arm_symbol_here {r : Rel} (h : r.sym ≠ 0) (hs : (f.syms r.sym).shndx ≠ 0) (hf : (f.syms r.sym).type = 2) :
    ∃ d, relocData (arm arm9) f ext m s r = .ok d ∧
      d.base = offsetOf m (f.syms r.sym).shndx + ((f.syms r.sym).value - (f.syms r.sym).value % 2) ∧ (Thumb d ↔ (f.syms r.sym).value % 2 = 1) := by
  simp only [relocData, h, if_false, hs, arm, hf, sttFunc, if_true]
  refine ⟨_, rfl, rfl, ?_⟩
  simp only [Thumb, true_and]
  omega

/-! ### SuperH -/

/-- SuperH data words: the address (`R_SH_DIR32`) or the distance to it (`R_SH_REL32`) is added, and the addend of the entry. -/
theorem sh_word_reloc (hrels : s.rels = pre ++ r :: post) (hsep : Separate s) {x : RelocData} (he : relocData sh f ext m s r = .ok x)
    {d : List Byte} (h : Relocated sh f ext m s d) :
    (r.type = 1 ∨ r.type = 2) ∧ ((getWord f.endian d r.offset).toNat : Int) =
      ((getWord f.endian s.data r.offset).toNat + x.addend + (if r.type = 1 then x.base else x.base - x.offset)) % 2 ^ 32 := by
  obtain ⟨o, h, hok⟩ := h
  obtain ⟨q', y, h1, h2, h3, h4⟩ := stateless_at sh_stateless hrels rfl he h
  have hx := (relocData_offset he).2
  have hy := h2 hok
  change shStep r.type x q' = some y at h1
  unfold shStep at h1
  split at h1
  · rename_i ht
    cases h1
    refine ⟨.inl ht, ?_⟩
    rw [h4 _ rfl hsep, if_pos ht, BitVec.toNat_add, BitVec.toNat_ofInt, hx]
    omega
  · rename_i ht
    cases h1
    refine ⟨.inr ht, ?_⟩
    rw [h4 _ rfl hsep, if_neg (by omega), BitVec.toNat_add, BitVec.toNat_ofInt, hx]
    omega
  · cases h1; cases hy

/-! ### A section that is relocated -/

/-- ARM `bl` to a Thumb function, ARM `bne` to an ARM function, a word; the addends are those of a compiler. -/
def armText : Section :=
  ⟨1, 12, 4, false, toBytes .little 4 0xEBFFFFFE ++ toBytes .little 4 0x1AFFFFFE ++ toBytes .little 4 0,
    [⟨0, 28, 1, 0⟩, ⟨4, 29, 2, 0⟩, ⟨8, 2, 1, 0⟩]⟩

/-- Thumb `bl` to a Thumb function and to an ARM function. -/
def thumbText : Section :=
  ⟨2, 8, 4, false, toBytes .little 4 0xFFFEF7FF ++ toBytes .little 4 0xFFFEF7FF, [⟨0, 10, 1, 0⟩, ⟨4, 10, 2, 0⟩]⟩

/-- The file around them. -/
def armSample : File :=
  ⟨.little, [armText, thumbText], fun n => if n = 1 then ⟨some "t", 0x103, 0, 2, 3⟩ else ⟨some "a", 0x100, 0, 2, 3⟩, []⟩

/-- Addresses of its sections. -/
def armMap : List (Nat × Int) := [(1, 0x2000000), (2, 0x2001000), (3, 0x2002000)]

example : Relocated (arm true) armSample (fun _ => none) armMap armText
    (toBytes .little 4 0xFB00083E ++ toBytes .little 4 0x1A00083D ++ toBytes .little 4 0x2002103) := ⟨_, rfl, rfl⟩

example : Relocated (arm true) armSample (fun _ => none) armMap thumbText (toBytes .little 4 0xF87FF001 ++ toBytes .little 4 0xE87CF001) := ⟨_, rfl, rfl⟩

example : Separate armText ∧ Separate thumbText := ⟨⟨by decide, by decide⟩, ⟨by decide, by decide⟩⟩

example : RelocFails (arm false) armSample (fun _ => none) armMap armText := ⟨_, _, rfl, rfl, by decide⟩

example : ∃ x, relocData (arm true) armSample (fun _ => none) armMap armText ⟨0, 28, 1, 0⟩ = .ok x ∧ Thumb x ∧ x.offset % 4 = 0 :=
  ⟨_, rfl, by decide, by decide⟩

example : Relocated sh ⟨.big, [], fun _ => ⟨some "a", 0x10, 0, 1, 3⟩, []⟩ (fun _ => none) [(1, 0x100), (3, 0x200)]
    ⟨1, 8, 4, false, toBytes .big 4 1 ++ toBytes .big 4 2, [⟨0, 1, 1, 4⟩, ⟨4, 2, 1, 0⟩]⟩
    (toBytes .big 4 0x215 ++ toBytes .big 4 0x10E) := ⟨_, rfl, rfl⟩

/-! ### What goes wrong -/

/-- A Thumb call of ARM code from an address that is not a multiple of 4: the second halfword of the `blx` gets its lowest bit set, which is not
an instruction. -/
theorem thumb_blx_bit_wrong :
    ∃ d, Relocated (arm true) armSample (fun _ => none) [(1, 0x2001002), (3, 0x2002000)]
      ⟨1, 4, 2, false, toBytes .little 4 0xFFFEF7FF, [⟨0, 10, 2, 0⟩]⟩ d ∧
      field (secondHalf (getWord .little d 0)) 11 5 = 29 ∧ field (secondHalf (getWord .little d 0)) 0 1 = 1 :=
  ⟨_, ⟨_, rfl, rfl⟩, by decide, by decide⟩

/-- A `blx` that the compiler emitted stays a `blx` although the target is ARM code. -/
theorem arm_blx_kept_wrong :
    ∃ d x, Relocated (arm true) armSample (fun _ => none) [(1, 0x2000000), (3, 0x2002000)]
      ⟨1, 4, 4, false, toBytes .little 4 0xFAFFFFFE, [⟨0, 28, 2, 0⟩]⟩ d ∧
      relocData (arm true) armSample (fun _ => none) [(1, 0x2000000), (3, 0x2002000)]
        ⟨1, 4, 4, false, toBytes .little 4 0xFAFFFFFE, [⟨0, 28, 2, 0⟩]⟩ ⟨0, 28, 2, 0⟩ = .ok x ∧ ¬ Thumb x ∧
      field (getWord .little d 0) 25 7 = 0x7D :=
  ⟨_, _, ⟨_, rfl, rfl⟩, rfl, by decide, by decide⟩

/-- The same from Thumb to Thumb code. -/
theorem thumb_blx_kept_wrong :
    ∃ d x, Relocated (arm true) armSample (fun _ => none) [(1, 0x2000000), (3, 0x2002000)]
      ⟨1, 4, 4, false, toBytes .little 4 0xEFFEF7FF, [⟨0, 10, 1, 0⟩]⟩ d ∧
      relocData (arm true) armSample (fun _ => none) [(1, 0x2000000), (3, 0x2002000)]
        ⟨1, 4, 4, false, toBytes .little 4 0xEFFEF7FF, [⟨0, 10, 1, 0⟩]⟩ ⟨0, 10, 1, 0⟩ = .ok x ∧ Thumb x ∧
      field (secondHalf (getWord .little d 0)) 11 5 = 29 :=
  ⟨_, _, ⟨_, rfl, rfl⟩, rfl, by decide, by decide⟩

/-- Two addresses far apart overflow an `int`, which is undefined in C++, instead of being reported. -/
theorem arm_call_undefined :
    relocSection (arm true) armSample (fun _ => none) [(1, 0x80000000), (3, 0x2002000)]
      ⟨1, 4, 4, false, toBytes .little 4 0xEBFFFFFE, [⟨0, 28, 2, 0⟩]⟩ () = none := rfl

end Armips.Props
