import Verif.Lemmas.MipsUnaligned
import Verif.Props.MipsRotate
/-!
# Unaligned loads and stores (C33)

`ulh`, `ulhu`, `ulw`, `ush` and `usw` with an offset from a register, on a little-endian machine, for every address.
-/
namespace Armips.Props
open Spec Spec.Instr Spec.Macro Spec.Isa MacroProof Sample
open Armips.Mips (ParseEnv Tok Kind Parsed Config Version Access)

/-- The operands `rd,e(rs)`. -/
def unalignedToks (rd : Nat) (e : Expr) (rs : Nat) : List Tok := [.reg rd, .comma, .imm e, .lpar, .reg rs, .rpar]

set_option maxRecDepth 4000 in
theorem find_ulh (rd rs : Nat) (e : Expr) :
    Mips.findMacro "ulh" (unalignedToks rd e rs) = some (.loadUnaligned .hw, { grd := some rd, grs := some rs, prim := some e }) := rfl
set_option maxRecDepth 4000 in
theorem find_ulhu (rd rs : Nat) (e : Expr) :
    Mips.findMacro "ulhu" (unalignedToks rd e rs) = some (.loadUnaligned .hwu, { grd := some rd, grs := some rs, prim := some e }) := rfl
set_option maxRecDepth 4000 in
theorem find_ulw (rd rs : Nat) (e : Expr) :
    Mips.findMacro "ulw" (unalignedToks rd e rs) = some (.loadUnaligned .w, { grd := some rd, grs := some rs, prim := some e }) := rfl
set_option maxRecDepth 4000 in
theorem find_ush (rd rs : Nat) (e : Expr) :
    Mips.findMacro "ush" (unalignedToks rd e rs) = some (.storeUnaligned .hw, { grd := some rd, grs := some rs, prim := some e }) := rfl
set_option maxRecDepth 4000 in
theorem find_usw (rd rs : Nat) (e : Expr) :
    Mips.findMacro "usw" (unalignedToks rd e rs) = some (.storeUnaligned .w, { grd := some rd, grs := some rs, prim := some e }) := rfl

/-- The two bytes at an address, the first one being the least significant. -/
def half (m : Machine) (a : BitVec 32) : BitVec 16 := m.mem (a + 1#32) ++ m.mem a

/-- The four bytes at an address, the first one being the least significant. -/
def word (m : Machine) (a : BitVec 32) : BitVec 32 := m.mem (a + 3#32) ++ m.mem (a + 2#32) ++ m.mem (a + 1#32) ++ m.mem a

theorem half_unsigned (hi lo : BitVec 8) : lo.zeroExtend 32 ||| hi.zeroExtend 32 <<< 8 = ((hi ++ lo : BitVec 16)).zeroExtend 32 := by
  apply BitVec.eq_of_getLsbD_eq
  intro i hi'
  simp only [BitVec.getLsbD_or, BitVec.getLsbD_shiftLeft, BitVec.getLsbD_setWidth, BitVec.getLsbD_append, hi']
  by_cases h : i < 8
  · simp [h]
  · simp only [h, if_false, decide_true, decide_false, Bool.true_and, Bool.not_false]
    rw [BitVec.getLsbD_of_ge lo i (by omega)]
    have : i - 8 < 32 := by omega
    simp [this]

theorem half_signed (hi lo : BitVec 8) (h : lo.toNat < 0x80) :
    lo.signExtend 32 ||| hi.signExtend 32 <<< 8 = ((hi ++ lo : BitVec 16)).signExtend 32 := by
  have hm : lo.msb = false := by rw [BitVec.msb_eq_false_iff_two_mul_lt]; omega
  have hm2 : (hi ++ lo : BitVec 16).msb = hi.msb := by rw [BitVec.msb_append]; simp
  apply BitVec.eq_of_getLsbD_eq
  intro i hi'
  simp only [BitVec.getLsbD_or, BitVec.getLsbD_shiftLeft, BitVec.getLsbD_signExtend, BitVec.getLsbD_append, hi', hm, hm2, decide_true,
    Bool.true_and]
  have : i - 8 < 32 := by omega
  by_cases h1 : i < 8
  · have h2 : i < 16 := by omega
    simp [h1, h2]
  · by_cases h2 : i < 16
    · have h3 : i - 8 < 8 := by omega
      simp [h1, h2, h3, this]
    · have h3 : ¬ i - 8 < 8 := by omega
      simp [h1, h2, h3, this]

section
variable {P : ParseEnv} {k : Nat} {rd rs : Nat} {e : Expr} {v : Int} {st st' : St} {ws : List (BitVec 32)}

theorem load_half_does {hu : Bool} (ho : Ordinary P k st [e]) (hd : rd < 32) (hs : rs < 32) (h1 : rd ≠ 1 ∧ rs ≠ 1)
    (hv : HasValue P st e v) (hr : -0x8000 ≤ v ∧ v < 0x8000)
    {d : Nat} {t : Mips.Text} {st1 : St} (hm : st.arch = .mips)
    (htx : Kind.text P (P.labels k) (.loadUnaligned (if hu then .hwu else .hw)) { grd := some rd, grs := some rs, prim := some e } = some t)
    (hn : Entry P k st st1) : TGood P d (k + 1) t st1 fun ws _ => Gives rd (fun m =>
      let a := m.get rs + BitVec.ofInt 32 v
      if hu then (m.mem a).zeroExtend 32 ||| (m.mem (a + 1#32)).zeroExtend 32 <<< 8
      else (m.mem a).signExtend 32 ||| (m.mem (a + 1#32)).signExtend 32 <<< 8) ws := by
  obtain ⟨hp, htx⟩ := load_unaligned_kind htx
  exact tgood_load_half hu hd hs h1.1 h1.2 (hn.mips hm) (reads_dotted hn ho.labels hp (ho.usual _ (by simp)) hv) hr htx

/-- **C33**, unsigned halfwords: the value is that of the two bytes, whether or not the address is even. Partial: register 1 is
no operand, the offset is below 2^15, and this is a little-endian machine. -/
theorem mips_ulhu_partial (ho : Ordinary P k st [e]) (hd : rd < 32) (hs : rs < 32) (hd0 : rd ≠ 0) (h1 : rd ≠ 1 ∧ rs ≠ 1)
    (hv : HasValue P st e v) (hr : -0x8000 ≤ v ∧ v < 0x8000)
    (hA : Assembles P k "ulhu" (unalignedToks rd e rs) st st' ws) (m : Machine) :
    ∃ m', exec false ws m = some m' ∧ SameBut [1, rd] m m' ∧ m'.get rd = (half m (m.get rs + BitVec.ofInt 32 v)).zeroExtend 32 := by
  have h := (macro_does hA (find_ulhu rd rs e) (fun _ _ _ _ _ _ _ h => h) fun d t htx st1 hn =>
    load_half_does (hu := true) ho hd hs h1 hv hr hA.mips htx hn).1
  obtain ⟨m', a, b, c⟩ := Gives.spec h hd0 false m
  exact ⟨m', a, b, c.trans (half_unsigned _ _)⟩

/-- **C33**, signed halfwords. Partial: the low byte must be below 0x80, as it is sign-extended too (`mips_ulh_wrong`). -/
theorem mips_ulh_partial (ho : Ordinary P k st [e]) (hd : rd < 32) (hs : rs < 32) (hd0 : rd ≠ 0) (h1 : rd ≠ 1 ∧ rs ≠ 1)
    (hv : HasValue P st e v) (hr : -0x8000 ≤ v ∧ v < 0x8000)
    (hA : Assembles P k "ulh" (unalignedToks rd e rs) st st' ws) (m : Machine)
    (hlow : (m.mem (m.get rs + BitVec.ofInt 32 v)).toNat < 0x80) :
    ∃ m', exec false ws m = some m' ∧ SameBut [1, rd] m m' ∧ m'.get rd = (half m (m.get rs + BitVec.ofInt 32 v)).signExtend 32 := by
  have h := (macro_does hA (find_ulh rd rs e) (fun _ _ _ _ _ _ _ h => h) fun d t htx st1 hn =>
    load_half_does (hu := false) ho hd hs h1 hv hr hA.mips htx hn).1
  obtain ⟨m', a, b, c⟩ := Gives.spec h hd0 false m
  exact ⟨m', a, b, c.trans (half_signed _ _ hlow)⟩

theorem load_word_does (ho : Ordinary P k st [e]) (hd : rd < 32) (hs : rs < 32)
    (hv : HasValue P st e v) (hr : -0x8000 ≤ v ∧ v < 0x8000)
    {d : Nat} {t : Mips.Text} {st1 : St} (hm : st.arch = .mips)
    (htx : Kind.text P (P.labels k) (.loadUnaligned .w) { grd := some rd, grs := some rs, prim := some e } = some t)
    (hn : Entry P k st st1) : TGood P d (k + 1) t st1 fun ws _ => ∀ be m, exec be ws m =
      some (m.set rd (let a := m.get rs + BitVec.ofInt 32 v
        loadRight be m a (if rd = 0 then 0#32 else loadLeft be m (a + 3#32) (m.get rd)))) := by
  obtain ⟨hp, htx⟩ := load_unaligned_kind htx
  exact tgood_load_word hd hs (hn.mips hm) (reads_dotted hn ho.labels hp (ho.usual _ (by simp)) hv) hr htx

/-- **C33**, words: the value is that of the four bytes, whatever the address. Nothing else changes. Partial: the offset is below
2^15, and this is a little-endian machine. -/
theorem mips_ulw_partial (ho : Ordinary P k st [e]) (hd : rd < 32) (hs : rs < 32) (hd0 : rd ≠ 0)
    (hv : HasValue P st e v) (hr : -0x8000 ≤ v ∧ v < 0x8000)
    (hA : Assembles P k "ulw" (unalignedToks rd e rs) st st' ws) (m : Machine) :
    ∃ m', exec false ws m = some m' ∧ SameBut [rd] m m' ∧ m'.get rd = word m (m.get rs + BitVec.ofInt 32 v) := by
  have h := (macro_does hA (find_ulw rd rs e) (fun _ _ _ _ _ _ _ h => h) fun d t htx st1 hn =>
    load_word_does ho hd hs hv hr hA.mips htx hn).1 false m
  simp only [hd0, if_false, unaligned_word] at h
  refine ⟨_, h, ⟨mem_set .., fun x hx => ?_⟩, ?_⟩
  · rw [get_set, if_neg (fun h => hx (by simp [h.1]))]
  · rw [get_set, if_pos ⟨rfl, hd0⟩]
    simp [ofBytes, word]

theorem store_half_does (ho : Ordinary P k st [e]) (hd : rd < 32) (hs : rs < 32) (hs1 : rs ≠ 1)
    (hv : HasValue P st e v) (hr : -0x8000 ≤ v ∧ v < 0x8000)
    {d : Nat} {t : Mips.Text} {st1 : St} (hm : st.arch = .mips)
    (htx : Kind.text P (P.labels k) (.storeUnaligned .hw) { grd := some rd, grs := some rs, prim := some e } = some t)
    (hn : Entry P k st st1) : TGood P d (k + 1) t st1 fun ws _ => ∀ be m, ∃ x, exec be ws m =
      some ((m.store (fun i => m.get rs + BitVec.ofInt 32 v + BitVec.ofNat 32 i) (fun i => byte (m.get rd) i) 2).set 1 x) := by
  obtain ⟨hp, htx⟩ := store_unaligned_kind htx
  exact tgood_store_half hd hs hs1 (hn.mips hm) (reads_dotted hn ho.labels hp (ho.usual _ (by simp)) hv) hr htx

theorem store_get (m : Machine) (p : Nat → BitVec 32) (b : Nat → BitVec 8) (n r : Nat) : (m.store p b n).get r = m.get r := by
  induction n with
  | zero => rfl
  | succ n ih => exact ih

theorem store_keeps (m : Machine) (p : Nat → BitVec 32) (b : Nat → BitVec 8) (n : Nat) {x : BitVec 32} (h : ∀ i < n, x ≠ p i) :
    (m.store p b n).mem x = m.mem x := by
  induction n with
  | zero => rfl
  | succ n ih =>
    simp only [Machine.store]
    rw [if_neg (h n (by omega)), ih (fun i hi => h i (by omega))]

theorem byte_half (v : BitVec 32) : byte v 1 ++ byte v 0 = v.setWidth 16 := by
  apply BitVec.eq_of_getLsbD_eq
  intro i hi
  simp only [byte, BitVec.getLsbD_append, BitVec.getLsbD_extractLsb', BitVec.getLsbD_setWidth]
  by_cases h : i < 8
  · simp [h, hi]
  · have h2 : i - 8 < 8 := by omega
    have h3 : 8 + (i - 8) = i := by omega
    simp [h, h2, h3, hi]

theorem byte_word (v : BitVec 32) : byte v 3 ++ byte v 2 ++ byte v 1 ++ byte v 0 = v := by
  apply BitVec.eq_of_getLsbD_eq
  intro i hi
  simp only [byte, BitVec.getLsbD_append, BitVec.getLsbD_extractLsb']
  by_cases h : i < 8
  · simp [h]
  · by_cases h2 : i < 16
    · have h3 : i - 8 < 8 := by omega
      have h4 : 8 + (i - 8) = i := by omega
      simp [h, h3, h4]
    · by_cases h5 : i < 24
      · have h3 : ¬ i - 8 < 8 := by omega
        have h4 : i - 8 - 8 < 8 := by omega
        have h6 : 16 + (i - 8 - 8) = i := by omega
        simp [h, h3, h4, h6]
      · have h3 : ¬ i - 8 < 8 := by omega
        have h4 : ¬ i - 8 - 8 < 8 := by omega
        have h6 : 24 + (i - 8 - 8 - 8) = i := by omega
        have h7 : i - 8 - 8 - 8 < 8 := by omega
        simp [h, h3, h4, h6, h7]

/-- **C33**, storing halfwords: the two bytes at the address then hold the low half of the register, and no other byte changes.
Partial: register 1 is not the base, the offset is below 2^15, and this is a little-endian machine. -/
theorem mips_ush_partial (ho : Ordinary P k st [e]) (hd : rd < 32) (hs : rs < 32) (hs1 : rs ≠ 1)
    (hv : HasValue P st e v) (hr : -0x8000 ≤ v ∧ v < 0x8000)
    (hA : Assembles P k "ush" (unalignedToks rd e rs) st st' ws) (m : Machine) :
    ∃ m', exec false ws m = some m' ∧ (∀ r, r ≠ 1 → m'.get r = m.get r) ∧
      half m' (m.get rs + BitVec.ofInt 32 v) = (m.get rd).setWidth 16 ∧
      ∀ x, (∀ i < 2, x ≠ m.get rs + BitVec.ofInt 32 v + BitVec.ofNat 32 i) → m'.mem x = m.mem x := by
  obtain ⟨x, h⟩ := (macro_does hA (find_ush rd rs e) (fun _ _ _ _ _ _ _ h => h) fun d t htx st1 hn =>
    store_half_does ho hd hs hs1 hv hr hA.mips htx hn).1 false m
  refine ⟨_, h, fun r hr => ?_, ?_, fun y hy => ?_⟩
  · rw [get_set, if_neg (fun h => hr h.1), store_get]
  · unfold half
    rw [mem_set, ← byte_half]
    generalize m.get rs + BitVec.ofInt 32 v = a
    have : a ≠ a + 1#32 := by
      intro h
      have := congrArg BitVec.toNat h
      have := a.isLt
      simp only [BitVec.toNat_add, BitVec.toNat_ofNat] at *
      omega
    simp [Machine.store, this]
  · rw [mem_set, store_keeps _ _ _ _ hy]

theorem store_word_does (ho : Ordinary P k st [e]) (hd : rd < 32) (hs : rs < 32)
    (hv : HasValue P st e v) (hr : -0x8000 ≤ v ∧ v < 0x8000)
    {d : Nat} {t : Mips.Text} {st1 : St} (hm : st.arch = .mips)
    (htx : Kind.text P (P.labels k) (.storeUnaligned .w) { grd := some rd, grs := some rs, prim := some e } = some t)
    (hn : Entry P k st st1) : TGood P d (k + 1) t st1 fun ws _ => ∀ be m, exec be ws m = some (let a := m.get rs + BitVec.ofInt 32 v
      storeRight be (storeLeft be m (a + 3#32) (m.get rd)) a (m.get rd)) := by
  obtain ⟨hp, htx⟩ := store_unaligned_kind htx
  exact tgood_store_word hd hs (hn.mips hm) (reads_dotted hn ho.labels hp (ho.usual _ (by simp)) hv) hr htx

theorem add_ne {a : BitVec 32} {i j : Nat} (hi : i < 4) (hj : j < 4) (h : i ≠ j) : a + BitVec.ofNat 32 i ≠ a + BitVec.ofNat 32 j := by
  intro h'
  have := congrArg BitVec.toNat h'
  have := a.isLt
  simp only [BitVec.toNat_add, BitVec.toNat_ofNat] at *
  omega

/-- **C33**, storing words. No register changes. Partial: the offset is below 2^15, and this is a little-endian machine. -/
theorem mips_usw_partial (ho : Ordinary P k st [e]) (hd : rd < 32) (hs : rs < 32)
    (hv : HasValue P st e v) (hr : -0x8000 ≤ v ∧ v < 0x8000)
    (hA : Assembles P k "usw" (unalignedToks rd e rs) st st' ws) (m : Machine) :
    ∃ m', exec false ws m = some m' ∧ (∀ r, m'.get r = m.get r) ∧
      word m' (m.get rs + BitVec.ofInt 32 v) = m.get rd ∧
      ∀ x, (∀ i < 4, x ≠ m.get rs + BitVec.ofInt 32 v + BitVec.ofNat 32 i) → m'.mem x = m.mem x := by
  have h := (macro_does hA (find_usw rd rs e) (fun _ _ _ _ _ _ _ h => h) fun d t htx st1 hn =>
    store_word_does ho hd hs hv hr hA.mips htx hn).1 false m
  simp only [unaligned_store] at h
  refine ⟨_, h, fun r => store_get .., ?_, fun y hy => store_keeps _ _ _ _ hy⟩
  generalize m.get rs + BitVec.ofInt 32 v = a
  have e0 : a = a + BitVec.ofNat 32 0 := by simp
  unfold word
  conv => rhs; rw [← byte_word (m.get rd)]
  have n01 := add_ne (a := a) (i := 0) (j := 1) (by decide) (by decide) (by decide)
  have n02 := add_ne (a := a) (i := 0) (j := 2) (by decide) (by decide) (by decide)
  have n03 := add_ne (a := a) (i := 0) (j := 3) (by decide) (by decide) (by decide)
  have n12 := add_ne (a := a) (i := 1) (j := 2) (by decide) (by decide) (by decide)
  have n13 := add_ne (a := a) (i := 1) (j := 3) (by decide) (by decide) (by decide)
  have n23 := add_ne (a := a) (i := 2) (j := 3) (by decide) (by decide) (by decide)
  rw [← e0] at n01 n02 n03
  simp only [Machine.store, ← e0, if_true, if_neg n01, if_neg n02, if_neg n03, if_neg n12, if_neg n13, if_neg n23]

/-- Sign extension of the low byte: whatever the high byte, a low byte from 0x80 on makes the result of `ulh` negative with the high
byte lost. -/
theorem mips_ulh_wrong (ho : Ordinary P k st [e]) (hd : rd < 32) (hs : rs < 32) (hd0 : rd ≠ 0) (h1 : rd ≠ 1 ∧ rs ≠ 1)
    (hv : HasValue P st e v) (hr : -0x8000 ≤ v ∧ v < 0x8000)
    (hA : Assembles P k "ulh" (unalignedToks rd e rs) st st' ws) (be : Bool) (m : Machine)
    (hlow : (m.mem (m.get rs + BitVec.ofInt 32 v)).msb = true) :
    ∃ m', exec be ws m = some m' ∧ m'.get rd = (m.mem (m.get rs + BitVec.ofInt 32 v)).signExtend 32 := by
  have h := (macro_does hA (find_ulh rd rs e) (fun _ _ _ _ _ _ _ h => h) fun d t htx st1 hn =>
    load_half_does (hu := false) ho hd hs h1 hv hr hA.mips htx hn).1
  obtain ⟨m', a, b, c⟩ := Gives.spec h hd0 be m
  refine ⟨m', a, c.trans ?_⟩
  apply BitVec.eq_of_getLsbD_eq
  intro i hi
  simp only [Bool.false_eq_true, if_false, BitVec.getLsbD_or, BitVec.getLsbD_shiftLeft, BitVec.getLsbD_signExtend, hlow, hi, decide_true, Bool.true_and]
  by_cases h8 : i < 8
  · simp [h8]
  · simp [h8]

/-- On a big-endian machine, `ulw` from an aligned address keeps the two middle bytes of the register. -/
theorem mips_ulw_big_endian_wrong (ho : Ordinary P k st [e]) (hd : rd < 32) (hs : rs < 32) (hd0 : rd ≠ 0)
    (hv : HasValue P st e v) (hr : -0x8000 ≤ v ∧ v < 0x8000)
    (hA : Assembles P k "ulw" (unalignedToks rd e rs) st st' ws) (m : Machine)
    (ha : lane (m.get rs + BitVec.ofInt 32 v) = 0) :
    ∃ m', exec true ws m = some m' ∧ byte (m'.get rd) 1 = byte (m.get rd) 1 ∧ byte (m'.get rd) 2 = byte (m.get rd) 2 := by
  have h := (macro_does hA (find_ulw rd rs e) (fun _ _ _ _ _ _ _ h => h) fun d t htx st1 hn =>
    load_word_does ho hd hs hv hr hA.mips htx hn).1 true m
  simp only [hd0, if_false] at h
  refine ⟨_, h, ?_, ?_⟩ <;> rw [get_set, if_pos ⟨rfl, hd0⟩, loadRight, byte_ofBytes _ (by decide)] <;> simp only [if_true, ha] <;>
    rw [if_neg (by decide), loadLeft, byte_ofBytes _ (by decide)] <;> simp only [if_true, lane_last, ha] <;> rw [if_neg (by decide)]
end

/-- A load or store of a word whose base is also its data register is refused, even for stores, where it would be right. -/
theorem mips_usw_same_refused {P : ParseEnv} {k r : Nat} {e : Expr} {st st' : St} {ws : List (BitVec 32)} :
    ¬ Assembles P k "usw" (unalignedToks r e r) st st' ws := by
  intro hA
  obtain ⟨depth, c, k', h1, -⟩ := hA.accepted
  obtain ⟨d, t, content, -, ht, -, rfl⟩ := line_macro (find_usw r r e) h1
  obtain ⟨-, ht⟩ := store_unaligned_kind ht
  simp [Mips.storeUnalignedText] at ht

section
variable {rd rs : Nat} {v : Int}

theorem sample_mem : Ordinary (mparse psx) 0 mst [.int v] := (sample_ordinary (v := v) (w := 0)).sub (by simp)

-- `ulhu a0,5(a1)`, `ulh a0,5(a1)`, `ulw a0,5(a1)`, `ush a0,5(a1)` and `usw a0,5(a1)`
example : (∃ st' ws, Assembles (mparse psx) 0 "ulhu" (unalignedToks 4 (.int 5) 5) mst st' ws) ∧ Ordinary (mparse psx) 0 mst [.int 5] ∧
    HasValue (mparse psx) mst (.int 5) 5 :=
  ⟨macro_exists rfl (find_ulhu 4 5 _) (by decide +kernel) fun _ _ htx _ hn =>
    (load_half_does (hu := true) sample_mem (by decide) (by decide) (by decide) (sample_value (by omega)) (by decide) rfl htx hn).mono
      fun _ _ _ _ _ => trivial, sample_mem, sample_value (by omega)⟩
example : ∃ st' ws, Assembles (mparse psx) 0 "ulh" (unalignedToks 4 (.int 5) 5) mst st' ws :=
  macro_exists rfl (find_ulh 4 5 _) (by decide +kernel) fun _ _ htx _ hn =>
    (load_half_does (hu := false) sample_mem (by decide) (by decide) (by decide) (sample_value (by omega)) (by decide) rfl htx hn).mono
      fun _ _ _ _ _ => trivial
example : ∃ st' ws, Assembles (mparse psx) 0 "ulw" (unalignedToks 4 (.int 5) 5) mst st' ws :=
  macro_exists rfl (find_ulw 4 5 _) (by decide +kernel) fun _ _ htx _ hn =>
    (load_word_does sample_mem (by decide) (by decide) (sample_value (by omega)) (by decide) rfl htx hn).mono fun _ _ _ _ _ => trivial
example : ∃ st' ws, Assembles (mparse psx) 0 "ush" (unalignedToks 4 (.int 5) 5) mst st' ws :=
  macro_exists rfl (find_ush 4 5 _) (by decide +kernel) fun _ _ htx _ hn =>
    (store_half_does sample_mem (by decide) (by decide) (by decide) (sample_value (by omega)) (by decide) rfl htx hn).mono
      fun _ _ _ _ _ => trivial
example : ∃ st' ws, Assembles (mparse psx) 0 "usw" (unalignedToks 4 (.int 5) 5) mst st' ws :=
  macro_exists rfl (find_usw 4 5 _) (by decide +kernel) fun _ _ htx _ hn =>
    (store_word_does sample_mem (by decide) (by decide) (sample_value (by omega)) (by decide) rfl htx hn).mono fun _ _ _ _ _ => trivial
end

end Armips.Props
