import Verif.Lemmas.ElfMips
/-!
# C35: relocation of MIPS code

A section is relocated as a whole; the statements are about the words of the result. The addresses (`base`) come from the symbols.
-/
namespace Armips.Props
open Armips Armips.Elf Spec Spec.Elf

private theorem far_pre {l1 l2 : List Rel} {r : Rel} {R : Rel → Rel → Prop} (h : (l1 ++ r :: l2).Pairwise R) : ∀ x ∈ l2, R r x :=
  fun x hx => (List.pairwise_cons.1 (List.pairwise_append.1 h).2.1).1 x hx

private theorem mipsStep_lo {d : RelocData} {q : List Hi16} {x : Step (List Hi16)} (h : mipsStep 6 d q = some x) :
    ∃ st, processHi16 d.opcode d.base q = some st ∧ x = ⟨st.ok, [], st.actions ++ [⟨d.offset, (d.opcode &&& 0xffff0000#32) |||
      (((d.opcode &&& 0xffff#32) + BitVec.ofInt 32 d.base) &&& 0xffff#32)⟩], st.errors⟩ := by
  simp only [mipsStep, bind, Option.bind_eq_some_iff, Option.some.injEq] at h
  obtain ⟨st, hst, rfl⟩ := h
  exact ⟨st, hst, rfl⟩

/-- Everything about a pair that is relocated. -/
private theorem pair_core {f : File} {ext : String → Option Ext} {m : List (Nat × Int)} {s : Section} {pre mid post : List Rel} {hi lo : Rel}
    (hrels : s.rels = pre ++ hi :: (mid ++ lo :: post)) (hh : hi.type = 5) (hl : lo.type = 6) (hmid : ∀ r ∈ mid, r.type ≠ 6)
    {d : List Byte} {o : Outcome (List Hi16)} (h : relocSection mips f ext m s [] = some (d, o))
    {dh dl : RelocData} (heh : relocData mips f ext m s hi = .ok dh) (hel : relocData mips f ext m s lo = .ok dl) :
    ∃ q1 q2 st A1 A2 A3 e1 e2, (∀ y ∈ q2, ∃ r ∈ mid, y.offset = r.offset + offsetOf m s.index) ∧
      processHi16 dl.opcode dl.base (q1 ++ ⟨dh.offset, dh.base, dh.opcode⟩ :: q2) = some st ∧
      (o.ok = true → st.ok = true) ∧ (st.ok = false → o.ok = false ∧ o.errors = e1 ++ st.errors ++ e2) ∧
      d = perform f.endian (offsetOf m s.index) (A1 ++ st.actions ++
        ⟨dl.offset, (dl.opcode &&& 0xffff0000#32) ||| (((dl.opcode &&& 0xffff#32) + BitVec.ofInt 32 dl.base) &&& 0xffff#32)⟩ :: (A2 ++ A3)) s.data ∧
      ∀ P : Int → Prop, (∀ r ∈ post, P (r.offset + offsetOf m s.index)) → Near P A2 ∧ Near P A3 := by
  obtain ⟨o1, x, h1, hx, rfl, rfl⟩ := relocSection_eq h
  rw [hrels] at h1
  obtain ⟨oa, ob, ha, hb, rfl⟩ := relocLoop_append h1
  obtain ⟨xh, oc, hs1, hb2, rfl⟩ := relocLoop_cons rfl heh hb
  rw [hh] at hs1
  cases hs1
  obtain ⟨od, oe, hd, he, rfl⟩ := relocLoop_append hb2
  obtain ⟨q2, hq2, hq2'⟩ := relocLoop_keeps hd hmid
  obtain ⟨xl, og, hs2, hg, rfl⟩ := relocLoop_cons rfl hel he
  rw [hl, hq2] at hs2
  obtain ⟨qa, hqa⟩ : ∃ qa : List Hi16, qa = oa.state := ⟨_, rfl⟩
  change mipsStep 6 dl ((show List Hi16 from oa.state) ++ [(⟨dh.offset, dh.base, dh.opcode⟩ : Hi16)] ++ q2) = some xl at hs2
  rw [← show qa = (show List Hi16 from oa.state) from hqa] at hs2
  obtain ⟨st, hst, rfl⟩ := mipsStep_lo hs2
  rw [List.append_assoc, List.singleton_append] at hst
  refine ⟨qa, q2, st, oa.actions ++ ([⟨dh.offset, dh.opcode⟩] ++ od.actions), og.actions, x.actions, oa.errors ++ ([] ++ od.errors),
    og.errors ++ (if x.ok then [] else x.errors), hq2', hst, ?_, ?_, ?_, ?_⟩
  · intro hok
    simp only [Bool.and_eq_true] at hok
    exact hok.1.2.2.2.1
  · intro hok
    simp only [hok, Bool.false_and, Bool.and_false, true_and, Bool.false_eq_true, if_false, if_true]
    simp [List.append_assoc]
  · simp [List.append_assoc]
  · intro P hP
    obtain ⟨hn1, hn2⟩ := relocLoop_near (P := P) hg (fun y hy => by cases hy) hP
    refine ⟨hn1, ?_⟩
    exact mipsFinish_near hx hn2

/-- An HI16 relocation, any relocations other than LO16, and a LO16 relocation: if the section is relocated successfully, both concern the
same symbol address, the two instructions together compute the old value plus that address, and their operations are unchanged. -/
theorem mips_hi_lo {f : File} {ext : String → Option Ext} {m : List (Nat × Int)} {s : Section} {pre mid post : List Rel} {hi lo : Rel}
    (hrels : s.rels = pre ++ hi :: (mid ++ lo :: post)) (hh : hi.type = 5) (hl : lo.type = 6) (hmid : ∀ r ∈ mid, r.type ≠ 6)
    (hsep : Separate s) {d : List Byte} (h : Relocated mips f ext m s d) {dh dl : RelocData}
    (heh : relocData mips f ext m s hi = .ok dh) (hel : relocData mips f ext m s lo = .ok dl) :
    dh.base = dl.base ∧
    (pairValue (getWord f.endian d hi.offset) (getWord f.endian d lo.offset) -
      (pairValue (getWord f.endian s.data hi.offset) (getWord f.endian s.data lo.offset) + dh.base)) % 2 ^ 32 = 0 ∧
    highHalf (getWord f.endian d hi.offset) = highHalf (getWord f.endian s.data hi.offset) ∧
    highHalf (getWord f.endian d lo.offset) = highHalf (getWord f.endian s.data lo.offset) := by
  obtain ⟨o, h, hok⟩ := h
  obtain ⟨q1, q2, st, A1, A2, A3, _, _, hq2, hst, hstok, _, hd, hP⟩ := pair_core hrels hh hl hmid h heh hel
  obtain ⟨hb, w, as, bs, st', hw, has, hbs, rfl⟩ := processHi16_at hst (hstok hok)
  simp only at hb
  obtain ⟨hin, hpw⟩ := hsep
  rw [hrels] at hin hpw
  have h1 := far_pre hpw
  have h2 := far_pre (List.pairwise_cons.1 (List.pairwise_append.1 hpw).2.1).2
  obtain ⟨hoh, hwh⟩ := relocData_offset heh
  obtain ⟨hol, hwl⟩ := relocData_offset hel
  have hinh := hin hi (by simp)
  have hinl := hin lo (by simp)
  have hW : getWord f.endian d hi.offset = w := by
    rw [hd, has]
    rw [show (A1 ++ (as ++ (⟨dh.offset, w⟩ : Action) :: st'.actions) ++ ⟨dl.offset, (dl.opcode &&& 0xffff0000#32) |||
        (((dl.opcode &&& 0xffff#32) + BitVec.ofInt 32 dl.base) &&& 0xffff#32)⟩ :: (A2 ++ A3)) =
      (A1 ++ as) ++ (⟨hi.offset + offsetOf m s.index, w⟩ : Action) :: (st'.actions ++ ⟨dl.offset, (dl.opcode &&& 0xffff0000#32) |||
        (((dl.opcode &&& 0xffff#32) + BitVec.ofInt 32 dl.base) &&& 0xffff#32)⟩ :: (A2 ++ A3)) by rw [hoh]; simp [List.append_assoc]]
    apply perform_last _ _ _ _ _ _ _ hinh
    intro a ha
    let P : Int → Prop := fun x => (hi.offset : Int) + offsetOf m s.index + 4 ≤ x ∨ x + 4 ≤ hi.offset + offsetOf m s.index
    have hfar : ∀ r ∈ mid ++ lo :: post, P (r.offset + offsetOf m s.index) := fun r hr => by
      have := h1 r hr; simp only [P]; omega
    rcases List.mem_append.1 ha with ha | ha
    · refine processHi16_near (P := P) hbs (fun y hy => ?_) a ha
      obtain ⟨r, hr, he⟩ := hq2 y hy
      rw [he]; exact hfar r (by simp [hr])
    · rcases List.mem_cons.1 ha with rfl | ha
      · have := hfar lo (by simp)
        rw [← hol] at this; exact this
      · have := hP P fun r hr => hfar r (by simp [hr])
        rcases List.mem_append.1 ha with ha | ha
        · exact this.1 a ha
        · exact this.2 a ha
  have hL : getWord f.endian d lo.offset = (dl.opcode &&& 0xffff0000#32) ||| (((dl.opcode &&& 0xffff#32) + BitVec.ofInt 32 dl.base) &&& 0xffff#32) := by
    rw [hd, hol]
    apply perform_last _ _ _ _ _ _ _ hinl
    intro a ha
    let P : Int → Prop := fun x => (lo.offset : Int) + offsetOf m s.index + 4 ≤ x ∨ x + 4 ≤ lo.offset + offsetOf m s.index
    have := hP P fun r hr => by have := h2 r hr; simp only [P]; omega
    rcases List.mem_append.1 ha with ha | ha
    · exact this.1 a ha
    · exact this.2 a ha
  obtain ⟨hu, hv⟩ := hi16Word_some hw
  refine ⟨hb, ?_, ?_, ?_⟩
  · rw [hW, ← hwh, ← hwl]
    apply hv
    rw [hL, merge_lower, lower_add, lower_and, hb]
    have := lower_ofInt dl.base
    simp only []
    omega
  · rw [hW, hu, hwh]
  · rw [hL, merge_upper, hwl]

/-- If the LO16 relocation concerns another symbol address, that is an error. -/
theorem mips_hi_lo_mismatch {f : File} {ext : String → Option Ext} {m : List (Nat × Int)} {s : Section} {pre mid post : List Rel} {hi lo : Rel}
    (hrels : s.rels = pre ++ hi :: (mid ++ lo :: post)) (hh : hi.type = 5) (hl : lo.type = 6) (hmid : ∀ r ∈ mid, r.type ≠ 6)
    {dh dl : RelocData} (heh : relocData mips f ext m s hi = .ok dh) (hel : relocData mips f ext m s lo = .ok dl) (hb : dh.base ≠ dl.base)
    {d : List Byte} {o : Outcome (List Hi16)} (h : relocSection mips f ext m s [] = some (d, o)) : o.ok = false ∧ o.errors ≠ [] := by
  obtain ⟨q1, q2, st, A1, A2, A3, e1, e2, hq2, hst, hstok, hbad, hd, hP⟩ := pair_core hrels hh hl hmid h heh hel
  obtain ⟨h1, h2⟩ := processHi16_mismatch hst (x := ⟨dh.offset, dh.base, dh.opcode⟩) (by simp) hb
  obtain ⟨h3, h4⟩ := hbad h1
  refine ⟨h3, ?_⟩
  rw [h4]
  simp [h2]

/-- A relocation of a word (`R_MIPS_32`) adds the symbol's address to it; one of a jump (`R_MIPS_26`) adds it to the jump target, of which an
instruction holds bits 2 to 27. -/
theorem mips_word_reloc {f : File} {ext : String → Option Ext} {m : List (Nat × Int)} {s : Section} {pre post : List Rel} {r : Rel}
    (hrels : s.rels = pre ++ r :: post) (hsep : Separate s) {d : List Byte} (h : Relocated mips f ext m s d) {x : RelocData}
    (he : relocData mips f ext m s r = .ok x) :
    (r.type = 2 → ((getWord f.endian d r.offset).toNat : Int) = ((getWord f.endian s.data r.offset).toNat + x.base) % 2 ^ 32) ∧
    (r.type = 4 →
      (field (getWord f.endian d r.offset) 0 26 : Int) = (field (getWord f.endian s.data r.offset) 0 26 + x.base / 4) % 2 ^ 26 ∧
      field (getWord f.endian d r.offset) 26 6 = field (getWord f.endian s.data r.offset) 26 6) := by
  obtain ⟨o, h, hok⟩ := h
  have hx := (relocData_offset he).2
  refine ⟨fun ht => ?_, fun ht => ?_⟩
  · rw [mips_at hrels hsep h he (w := x.opcode + BitVec.ofInt 32 x.base) (by rw [ht]; intro q; rfl), ← hx, BitVec.toNat_add, BitVec.toNat_ofInt]
    omega
  · rw [mips_at hrels hsep h he (w := (x.opcode &&& 0xFC000000#32) |||
      (((x.opcode &&& 0x03FFFFFF#32) + BitVec.ofInt 32 (x.base / 4)) &&& 0x03FFFFFF#32)) (by rw [ht]; intro q; rfl), ← hx]
    obtain ⟨h1, h2⟩ := jump_word x.opcode (x.base / 4)
    exact ⟨h1, h2⟩

/-- Bytes outside of the words that are relocated stay as they are. -/
theorem mips_other_bytes {f : File} {ext : String → Option Ext} {m : List (Nat × Int)} {s : Section} {d : List Byte}
    (h : Relocated mips f ext m s d) {i : Nat} (hi : ∀ r ∈ s.rels, i < r.offset ∨ r.offset + 4 ≤ i) : d[i]? = s.data[i]? := by
  obtain ⟨o, h, _⟩ := h
  obtain ⟨o1, x, h1, hx, rfl, rfl⟩ := relocSection_eq h
  have hn := relocLoop_near (P := fun p => (i : Int) + offsetOf m s.index < p ∨ p + 4 ≤ i + offsetOf m s.index) h1 (fun y hy => by cases hy)
    (fun r hr => by have := hi r hr; omega)
  apply perform_get?
  intro a ha
  rcases List.mem_append.1 ha with ha | ha
  · exact hn.1 a ha
  · exact mipsFinish_near (P := fun p => (i : Int) + offsetOf m s.index < p ∨ p + 4 ≤ i + offsetOf m s.index) hx hn.2 a ha

/-- Any other type of relocation is an error. -/
theorem mips_unknown_type {f : File} {ext : String → Option Ext} {m : List (Nat × Int)} {s : Section} {pre post : List Rel} {r : Rel}
    (hrels : s.rels = pre ++ r :: post) {x : RelocData} (he : relocData mips f ext m s r = .ok x)
    (ht : r.type ≠ 2 ∧ r.type ≠ 4 ∧ r.type ≠ 5 ∧ r.type ≠ 6) {d : List Byte} {o : Outcome (List Hi16)}
    (h : relocSection mips f ext m s [] = some (d, o)) : o.ok = false ∧ o.errors ≠ [] := by
  obtain ⟨o1, y, h1, hy, rfl, rfl⟩ := relocSection_eq h
  rw [hrels] at h1
  obtain ⟨oa, ob, ha, hb, rfl⟩ := relocLoop_append h1
  obtain ⟨z, oc, hz, hc, rfl⟩ := relocLoop_cons rfl he hb
  obtain ⟨h5, h6⟩ := mipsStep_unknown ht hz
  simp [h5, h6]

/-- Symbols of the file: the address of their section plus their value. -/
theorem mips_symbol_here {f : File} {ext : String → Option Ext} {m : List (Nat × Int)} {s : Section} {r : Rel} (h : r.sym ≠ 0)
    (hs : (f.syms r.sym).shndx ≠ 0) :
    ∃ d, relocData mips f ext m s r = .ok d ∧ d.base = offsetOf m (f.syms r.sym).shndx + (f.syms r.sym).value := by
  simp [relocData, h, hs, mips]

/-- Symbols from elsewhere: the label of that name. -/
theorem mips_symbol_elsewhere {f : File} {ext : String → Option Ext} {m : List (Nat × Int)} {s : Section} {r : Rel} (h : r.sym ≠ 0)
    (hs : (f.syms r.sym).shndx = 0) {n : String} (hn : (f.syms r.sym).name = some n) {l : Ext} (hl : ext n = some l) (hv : 0 ≤ l.value ∧ l.value < 2 ^ 32) :
    ∃ d, relocData mips f ext m s r = .ok d ∧ d.base = l.value := by
  simp only [relocData, h, if_false, hs, if_true, hn, hl, mips]
  exact ⟨_, rfl, Int.emod_eq_of_lt hv.1 hv.2⟩

/-! ### A section that is relocated -/

/-- `lui r4,1; lw r5,8(r4); jal 4; .word 6`, relocated against a symbol at 0x80123ff8. -/
def elfText : Section :=
  ⟨1, 16, 4, false, toBytes .little 4 0x3C040001 ++ toBytes .little 4 0x8C850008 ++ toBytes .little 4 0x0C000001 ++ toBytes .little 4 6,
    [⟨0, 5, 1, 0⟩, ⟨8, 4, 1, 0⟩, ⟨12, 2, 1, 0⟩, ⟨4, 6, 1, 0⟩]⟩

/-- The file around it. -/
def elfSample : File := ⟨.little, [elfText], fun _ => ⟨some "there", 0, 0, 2, 0⟩, []⟩

/-- The label. -/
def elfExt (n : String) : Option Ext := if n = "there" then some ⟨0x80123ff8, false, 0⟩ else none

example : Relocated mips elfSample elfExt [(1, 0x80000000)] elfText
    (toBytes .little 4 0x3C048013 ++ toBytes .little 4 0x8C854000 ++ toBytes .little 4 0x0C048FFF ++ toBytes .little 4 0x80123ffe) :=
  ⟨_, rfl, rfl⟩

example : Separate elfText := by
  refine ⟨by decide, by decide⟩

example : (relocData mips elfSample elfExt [(1, 0x80000000)] elfText ⟨0, 5, 1, 0⟩).toOption.map (·.base) = some 0x80123ff8 := rfl

/-- Such a section with one relocation more. -/
def elfTextBad : Section := { elfText with rels := elfText.rels ++ [⟨8, 7, 1, 0⟩] }

example : RelocFails mips elfSample elfExt [(1, 0x80000000)] elfTextBad := ⟨_, _, rfl, rfl, by decide⟩

/-! ### What goes wrong -/

/-- A HI16 relocation without LO16 is accepted in silence; the instruction is relocated as if the other half were 0. -/
theorem mips_hi_alone_wrong :
    ∃ s : Section, (∃ r, r.type = 5 ∧ s.rels = [r]) ∧ Separate s ∧
      ∃ d o, relocSection mips elfSample elfExt [(1, 0x80000000)] s [] = some (d, o) ∧ o.ok = true ∧ o.errors = [] ∧ o.warnings = [] ∧ d ≠ s.data := by
  refine ⟨⟨1, 4, 4, false, toBytes .little 4 0x3C040000, [⟨0, 5, 1, 0⟩]⟩, ⟨_, rfl, rfl⟩, ⟨by decide, by decide⟩, ?_⟩
  exact ⟨_, _, rfl, rfl, rfl, rfl, by decide⟩

/-- The two halves 0x8000 and 0x8000 overflow an `int`, which is undefined in C++. -/
theorem mips_hi_lo_undefined :
    ∃ s : Section, s.data = toBytes .little 4 0x3C048000 ++ toBytes .little 4 0x8C858000 ∧ s.rels = [⟨0, 5, 1, 0⟩, ⟨4, 6, 1, 0⟩] ∧
      relocSection mips elfSample elfExt [(1, 0x80000000)] s [] = none :=
  ⟨⟨1, 8, 4, false, _, _⟩, rfl, rfl, rfl⟩

/-- In all other cases a pair of the same symbol is accepted: only an upper half of 0x8000 with a negative lower half overflows. -/
theorem mips_pair_accepted {f : File} {ext : String → Option Ext} {m : List (Nat × Int)} {s : Section} {hi lo : Rel}
    (hrels : s.rels = [hi, lo]) (hh : hi.type = 5) (hl : lo.type = 6) {dh dl : RelocData}
    (heh : relocData mips f ext m s hi = .ok dh) (hel : relocData mips f ext m s lo = .ok dl) (hb : dh.base = dl.base)
    (hno : ¬ (lowHalf (getWord f.endian s.data hi.offset) = 0x8000 ∧ 0x8000 ≤ lowHalf (getWord f.endian s.data lo.offset))) :
    ∃ d, Relocated mips f ext m s d := by
  have hwh := (relocData_offset heh).2
  have hwl := (relocData_offset hel).2
  rw [← hwh, ← hwl] at hno
  obtain ⟨w, hw⟩ := hi16Word_defined (hi := ⟨dh.offset, dh.base, dh.opcode⟩) hno
  have s1 : mips.step hi.type dh [] = some ⟨true, [(⟨dh.offset, dh.base, dh.opcode⟩ : Hi16)], [⟨dh.offset, dh.opcode⟩], []⟩ := by rw [hh]; rfl
  have s2 : ∃ as, mips.step lo.type dl [(⟨dh.offset, dh.base, dh.opcode⟩ : Hi16)] = some ⟨true, ([] : List Hi16), as, []⟩ := by
    rw [hl]
    refine ⟨[⟨dh.offset, w⟩, ⟨dl.offset, (dl.opcode &&& 0xffff0000#32) |||
      (((dl.opcode &&& 0xffff#32) + BitVec.ofInt 32 dl.base) &&& 0xffff#32)⟩], ?_⟩
    show mipsStep 6 dl _ = _
    simp only [mipsStep, processHi16, hb, ne_eq, not_true_eq_false, if_false, bind, Option.bind]
    rw [← hb, hw]
    rfl
  obtain ⟨as, s2⟩ := s2
  have hloop : relocLoop mips f ext m s mips.init s.rels = some ⟨true, ([] : List Hi16), ⟨dh.offset, dh.opcode⟩ :: (as ++ []), [], []⟩ := by
    rw [hrels]
    rw [show mips.init = ([] : List Hi16) from rfl]
    simp only [relocLoop, heh, hel, bind]
    rw [s1]
    simp only [Option.bind]
    rw [s2]
    rfl
  exact ⟨_, _, by unfold relocSection; rw [hloop]; rfl, rfl⟩

end Armips.Props
