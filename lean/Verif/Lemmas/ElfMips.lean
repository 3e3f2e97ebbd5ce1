import Verif.Lemmas.Elf
/-! HI16 and LO16. -/
namespace Armips.Elf
open Spec Spec.Elf

theorem and_ffff (x : BitVec 32) : (x &&& 0xFFFF#32).toNat = x.toNat % 2 ^ 16 := by
  rw [BitVec.toNat_and]; exact Nat.and_two_pow_sub_one_eq_mod _ 16

theorem lower_eq (w : BitVec 32) : lowHalf w = (w.extractLsb' 0 16).toNat := by simp [lowHalf]
theorem upper_eq (w : BitVec 32) : highHalf w = (w.extractLsb' 16 16).toNat := by
  have := w.isLt
  simp [highHalf, Nat.shiftRight_eq_div_pow]; omega

theorem merge_lower (a b : BitVec 32) : lowHalf ((a &&& 0xffff0000#32) ||| (b &&& 0xFFFF#32)) = lowHalf b := by
  rw [lower_eq, lower_eq]
  congr 1
  apply BitVec.eq_of_getLsbD_eq
  intro i hi
  have h1 : ∀ j, j < 16 → (0xffff0000#32).getLsbD j = false := by decide
  have h2 : ∀ j, j < 16 → (0xffff#32).getLsbD j = true := by decide
  simp only [BitVec.getLsbD_extractLsb', BitVec.getLsbD_or, BitVec.getLsbD_and, Nat.zero_add, h1 i hi, h2 i hi]
  simp

theorem merge_upper (a b : BitVec 32) : highHalf ((a &&& 0xffff0000#32) ||| (b &&& 0xFFFF#32)) = highHalf a := by
  rw [upper_eq, upper_eq]
  congr 1
  apply BitVec.eq_of_getLsbD_eq
  intro i hi
  have h1 : ∀ j, j < 16 → (0xffff0000#32).getLsbD (16 + j) = true := by decide
  have h2 : ∀ j, j < 16 → (0xffff#32).getLsbD (16 + j) = false := by decide
  simp only [BitVec.getLsbD_extractLsb', BitVec.getLsbD_or, BitVec.getLsbD_and, h1 i hi, h2 i hi]
  simp

theorem lower_ofInt (v : Int) : (lowHalf (BitVec.ofInt 32 v) : Int) = v % 2 ^ 16 := by
  unfold lowHalf
  rw [BitVec.toNat_ofInt]
  omega

theorem lower_add (a b : BitVec 32) : lowHalf (a + b) = (lowHalf a + lowHalf b) % 2 ^ 16 := by
  unfold lowHalf; rw [BitVec.toNat_add]; omega

theorem lower_and (a : BitVec 32) : lowHalf (a &&& 0xffff#32) = lowHalf a := by
  unfold lowHalf; rw [and_ffff]; omega

/-- The sum that the code computes from the two halves. -/
theorem addend_eq (hi lo : BitVec 32) :
    ∃ s : Int, ((hi &&& 0xFFFF#32) <<< 16).toInt + ((lo &&& 0xFFFF#32).setWidth 16).toInt = s ∧ (s - pairValue hi lo) % 2 ^ 32 = 0 := by
  refine ⟨_, rfl, ?_⟩
  have h1 : ((hi &&& 0xFFFF#32) <<< 16).toNat = 2 ^ 16 * lowHalf hi := by
    rw [BitVec.toNat_shiftLeft, and_ffff, Nat.shiftLeft_eq]; unfold lowHalf; omega
  have h2 : ((lo &&& 0xFFFF#32).setWidth 16).toInt = signed 16 (lowHalf lo) := by
    have h3 : ((lo &&& 0xFFFF#32).setWidth 16).toNat = lowHalf lo := by
      rw [BitVec.toNat_setWidth, and_ffff]; unfold lowHalf; omega
    rw [BitVec.toInt_eq_toNat_bmod, h3, Int.bmod_def]; unfold signed
    have : lowHalf lo < 65536 := by unfold lowHalf; omega
    split <;> split <;> omega
  rw [BitVec.toInt_eq_toNat_bmod, h1, h2, Int.bmod_def]
  unfold pairValue
  have : lowHalf hi < 65536 := by unfold lowHalf; omega
  split <;> omega

theorem hi16Word_some {hi : Hi16} {lo w : BitVec 32} (h : hi16Word hi lo = some w) :
    highHalf w = highHalf hi.opcode ∧
      ∀ lo' : BitVec 32, (lowHalf lo' : Int) = (lowHalf lo + hi.base) % 2 ^ 16 →
        (pairValue w lo' - (pairValue hi.opcode lo + hi.base)) % 2 ^ 32 = 0 := by
  unfold hi16Word at h
  obtain ⟨s, hs, hc⟩ := addend_eq hi.opcode lo
  simp only [hs] at h
  split at h
  · cases h
    refine ⟨merge_upper .., fun lo' hl => ?_⟩
    have hlo : (s - signed 16 (lowHalf lo)) % 2 ^ 16 = 0 := by unfold pairValue at hc; omega
    have hlt : lowHalf lo < 65536 := by unfold lowHalf; omega
    have hlt' : lowHalf lo' < 65536 := by unfold lowHalf; omega
    have hp : ∀ x : BitVec 32, (lowHalf ((hi.opcode &&& 0xffff0000#32) ||| (x &&& 0xFFFF#32)) : Int) = lowHalf x := fun x => by rw [merge_lower]
    generalize hX : (s + hi.base) / 2 ^ 16 + (if (s + hi.base) / 2 ^ 15 % 2 = 1 then 1 else 0 : Int) = X
    have hX' := lower_ofInt X
    unfold pairValue at hc ⊢
    rw [hp, hX']
    unfold signed at hc hlo ⊢
    split at hX <;> split at hc <;> split <;> simp_all <;> omega
  · cases h

/-- Nothing but HI16 relocations is pending, and actions concern pending and current ones. -/
def Near (P : Int → Prop) (as : List Action) : Prop := ∀ a ∈ as, P a.offset

theorem processHi16_near {lo : BitVec 32} {b : Int} {q : List Hi16} {s : Step Unit} {P : Int → Prop} (h : processHi16 lo b q = some s)
    (hq : ∀ x ∈ q, P x.offset) : Near P s.actions := by
  induction q generalizing s with
  | nil => cases h; intro a ha; cases ha
  | cons x q ih =>
    rw [processHi16] at h
    split at h
    · simp only [bind, Option.bind_eq_some_iff, Option.some.injEq] at h
      obtain ⟨s', h', rfl⟩ := h
      exact ih (s := s') h' fun y hy => hq y (List.mem_cons_of_mem _ hy)
    · simp only [bind, Option.bind_eq_some_iff, Option.some.injEq] at h
      obtain ⟨w, _, s', h', rfl⟩ := h
      intro a ha
      rcases List.mem_cons.1 ha with rfl | ha
      · exact hq x (List.mem_cons_self ..)
      · exact ih h' (fun y hy => hq y (List.mem_cons_of_mem _ hy)) a ha

/-- A pending entry is dealt with. -/
theorem processHi16_at {lo : BitVec 32} {b : Int} {q1 q2 : List Hi16} {x : Hi16} {s : Step Unit} (h : processHi16 lo b (q1 ++ x :: q2) = some s)
    (hok : s.ok = true) : x.base = b ∧ ∃ w as bs s', hi16Word x lo = some w ∧ s.actions = as ++ ⟨x.offset, w⟩ :: bs ∧
      processHi16 lo b q2 = some s' ∧ s'.actions = bs := by
  induction q1 generalizing s with
  | nil =>
    rw [List.nil_append, processHi16] at h
    split at h
    · simp only [bind, Option.bind_eq_some_iff, Option.some.injEq] at h
      obtain ⟨s', h', rfl⟩ := h
      cases hok
    · rename_i hb
      simp only [bind, Option.bind_eq_some_iff, Option.some.injEq] at h
      obtain ⟨w, hw, s', h', rfl⟩ := h
      exact ⟨Classical.not_not.1 hb, w, [], s'.actions, s', hw, rfl, h', rfl⟩
  | cons y q1 ih =>
    rw [List.cons_append, processHi16] at h
    split at h
    · simp only [bind, Option.bind_eq_some_iff, Option.some.injEq] at h
      obtain ⟨s', h', rfl⟩ := h
      cases hok
    · simp only [bind, Option.bind_eq_some_iff, Option.some.injEq] at h
      obtain ⟨w, hw, s', h', rfl⟩ := h
      obtain ⟨h1, w', as, bs, s2, h2, h3, h4, h5⟩ := ih h' hok
      exact ⟨h1, w', ⟨y.offset, w⟩ :: as, bs, s2, h2, by simp [h3], h4, h5⟩

theorem processHi16_mismatch {lo : BitVec 32} {b : Int} {q : List Hi16} {x : Hi16} {s : Step Unit} (h : processHi16 lo b q = some s)
    (hx : x ∈ q) (hb : x.base ≠ b) : s.ok = false ∧ s.errors ≠ [] := by
  induction q generalizing s with
  | nil => cases hx
  | cons y q ih =>
    rw [processHi16] at h
    split at h
    · simp only [bind, Option.bind_eq_some_iff, Option.some.injEq] at h
      obtain ⟨s', h', rfl⟩ := h
      simp
    · rename_i hy
      simp only [bind, Option.bind_eq_some_iff, Option.some.injEq] at h
      obtain ⟨w, hw, s', h', rfl⟩ := h
      rcases List.mem_cons.1 hx with rfl | hx
      · exact absurd hb hy
      · exact ih (s := s') h' hx

theorem mipsStep_near {t : Nat} {d : RelocData} {q : List Hi16} {x : Step (List Hi16)} {P : Int → Prop} (h : mipsStep t d q = some x)
    (hq : ∀ y ∈ q, P y.offset) (hd : P d.offset) : Near P x.actions ∧ ∀ y ∈ x.state, P y.offset := by
  have one : ∀ w, Near P [⟨d.offset, w⟩] := fun w a ha => by rw [List.mem_singleton] at ha; subst ha; exact hd
  unfold mipsStep at h
  split at h
  · cases h; exact ⟨one _, hq⟩
  · cases h; exact ⟨one _, hq⟩
  · cases h
    refine ⟨one _, fun y hy => ?_⟩
    rcases List.mem_append.1 hy with hy | hy
    · exact hq y hy
    · rw [List.mem_singleton] at hy; subst hy; exact hd
  · simp only [bind, Option.bind_eq_some_iff, Option.some.injEq] at h
    obtain ⟨s, hs, rfl⟩ := h
    refine ⟨fun a ha => ?_, fun y hy => by cases hy⟩
    rcases List.mem_append.1 ha with ha | ha
    · exact processHi16_near hs hq a ha
    · exact one _ a ha
  · cases h; exact ⟨fun a ha => (by cases ha), hq⟩

theorem relocLoop_near {f : File} {ext : String → Option Ext} {m : List (Nat × Int)} {s : Section} {P : Int → Prop} {l : List Rel} :
    ∀ {q : List Hi16} {o : Outcome (List Hi16)}, relocLoop mips f ext m s q l = some o → (∀ y ∈ q, P y.offset) →
      (∀ r ∈ l, P (r.offset + offsetOf m s.index)) → Near P o.actions ∧ ∀ y ∈ o.state, P y.offset := by
  induction l with
  | nil => intro q o h hq _; cases h; exact ⟨fun a ha => (by cases ha), hq⟩
  | cons r l ih =>
    intro q o h hq hl
    have hl' : ∀ r ∈ l, P (r.offset + offsetOf m s.index) := fun r hr => hl r (List.mem_cons_of_mem _ hr)
    cases he : relocData mips f ext m s r with
    | error e =>
      obtain ⟨o', h', _, h2, h3⟩ := relocLoop_error rfl he h
      rw [h2, h3]
      exact ih h' hq hl'
    | ok d =>
      obtain ⟨x, o2, h1, h2, rfl⟩ := relocLoop_cons rfl he h
      have hd : P d.offset := by rw [(relocData_offset he).1]; exact hl r (List.mem_cons_self ..)
      obtain ⟨h3, h4⟩ := mipsStep_near h1 hq hd
      obtain ⟨h5, h6⟩ := ih h2 h4 hl'
      refine ⟨fun a ha => ?_, h6⟩
      rcases List.mem_append.1 ha with ha | ha
      · exact h3 a ha
      · exact h5 a ha

/-- Without LO16, pending entries stay pending. -/
theorem relocLoop_keeps {f : File} {ext : String → Option Ext} {m : List (Nat × Int)} {s : Section} {l : List Rel} :
    ∀ {q : List Hi16} {o : Outcome (List Hi16)}, relocLoop mips f ext m s q l = some o → (∀ r ∈ l, r.type ≠ 6) →
      ∃ q', o.state = q ++ q' ∧ ∀ y ∈ q', ∃ r ∈ l, y.offset = r.offset + offsetOf m s.index := by
  induction l with
  | nil => intro q o h _; cases h; exact ⟨[], by simp, fun y hy => by cases hy⟩
  | cons r l ih =>
    intro q o h hl
    have hl' : ∀ r ∈ l, r.type ≠ 6 := fun r hr => hl r (List.mem_cons_of_mem _ hr)
    cases he : relocData mips f ext m s r with
    | error e =>
      obtain ⟨o', h', _, h5, _⟩ := relocLoop_error rfl he h
      rw [h5]
      obtain ⟨q', h1, h2⟩ := ih h' hl'
      exact ⟨q', h1, fun y hy => let ⟨r, hr, h⟩ := h2 y hy; ⟨r, List.mem_cons_of_mem _ hr, h⟩⟩
    | ok d =>
      obtain ⟨x, o2, h1, h2, rfl⟩ := relocLoop_cons rfl he h
      obtain ⟨q', h3, h4⟩ := ih h2 hl'
      have hx : x.state = q ∨ x.state = q ++ [⟨d.offset, d.base, d.opcode⟩] := by
        change mipsStep _ _ _ = _ at h1
        have h6 := hl r (List.mem_cons_self ..)
        unfold mipsStep at h1
        split at h1
        · cases h1; exact .inl rfl
        · cases h1; exact .inl rfl
        · cases h1; exact .inr rfl
        · rename_i h; exact absurd h h6
        · cases h1; exact .inl rfl
      rcases hx with hx | hx <;> rw [hx] at h3
      · exact ⟨q', h3, fun y hy => let ⟨r, hr, h⟩ := h4 y hy; ⟨r, List.mem_cons_of_mem _ hr, h⟩⟩
      · refine ⟨⟨d.offset, d.base, d.opcode⟩ :: q', by rw [h3]; exact List.append_assoc .., fun y hy => ?_⟩
        rcases List.mem_cons.1 hy with rfl | hy
        · exact ⟨r, List.mem_cons_self .., (relocData_offset he).1⟩
        · obtain ⟨r, hr, h⟩ := h4 y hy; exact ⟨r, List.mem_cons_of_mem _ hr, h⟩

theorem mipsFinish_near {q : List Hi16} {x : Step (List Hi16)} {P : Int → Prop} (h : mipsFinish q = some x) (hq : ∀ y ∈ q, P y.offset) :
    Near P x.actions := by
  cases q with
  | nil => cases h; intro a ha; cases ha
  | cons y qs =>
    simp only [mipsFinish, bind, Option.bind_eq_some_iff, Option.some.injEq] at h
    obtain ⟨st', hst', rfl⟩ := h
    exact processHi16_near hst' hq

theorem mipsStep_unknown {t : Nat} (ht : t ≠ 2 ∧ t ≠ 4 ∧ t ≠ 5 ∧ t ≠ 6) {d : RelocData} {q : List Hi16} {x : Step (List Hi16)}
    (h : mipsStep t d q = some x) : x.ok = false ∧ x.errors ≠ [] := by
  unfold mipsStep at h
  split at h <;> first | omega | (cases h; simp)

/-- The word at a relocation that writes it once. -/
theorem mips_at {f : File} {ext : String → Option Ext} {m : List (Nat × Int)} {s : Section} {pre post : List Rel} {r : Rel}
    (hrels : s.rels = pre ++ r :: post) (hsep : Separate s) {d : List Byte} {o : Outcome (List Hi16)}
    (h : relocSection mips f ext m s [] = some (d, o)) {x : RelocData}
    (he : relocData mips f ext m s r = .ok x) {w : BitVec 32} (hw : ∀ q, mipsStep r.type x q = some ⟨true, q, [⟨x.offset, w⟩], []⟩) :
    getWord f.endian d r.offset = w := by
  obtain ⟨o1, y, h1, hy, rfl, rfl⟩ := relocSection_eq h
  rw [hrels] at h1
  obtain ⟨oa, ob, ha, hb, rfl⟩ := relocLoop_append h1
  obtain ⟨z, oc, hz, hc, rfl⟩ := relocLoop_cons rfl he hb
  have hz' := Option.some.inj ((hw oa.state).symm.trans hz)
  subst hz'
  let P : Int → Prop := fun p => (r.offset : Int) + offsetOf m s.index + 4 ≤ p ∨ p + 4 ≤ r.offset + offsetOf m s.index
  have hfar : ∀ r' ∈ pre ++ post, P (r'.offset + offsetOf m s.index) := by
    have hp := hsep.2
    rw [hrels] at hp
    obtain ⟨_, h2, h3⟩ := List.pairwise_append.1 hp
    intro r' hr
    simp only [P]
    rcases List.mem_append.1 hr with hr | hr
    · have := h3 r' hr r (List.mem_cons_self ..); omega
    · have := (List.pairwise_cons.1 h2).1 r' hr; omega
  have n1 := relocLoop_near (P := P) ha (fun y hy => by cases hy) (fun r hr => hfar r (List.mem_append_left _ hr))
  have n2 := relocLoop_near (P := P) hc n1.2 (fun r hr => hfar r (List.mem_append_right _ hr))
  have n3 := mipsFinish_near hy n2.2
  have hin : r.offset + 4 ≤ s.data.length := hsep.1 r (by rw [hrels]; simp)
  rw [show (oa.actions ++ ([(⟨x.offset, w⟩ : Action)] ++ oc.actions) ++ y.actions) =
    oa.actions ++ (⟨r.offset + offsetOf m s.index, w⟩ : Action) :: (oc.actions ++ y.actions) by rw [(relocData_offset he).1]; simp]
  apply perform_last _ _ _ _ _ _ _ hin
  intro a ha
  rcases List.mem_append.1 ha with ha | ha
  · exact n2.1 a ha
  · exact n3 a ha

theorem jump_word (w : BitVec 32) (v : Int) :
    (field ((w &&& 0xFC000000#32) ||| (((w &&& 0x03FFFFFF#32) + BitVec.ofInt 32 v) &&& 0x03FFFFFF#32)) 0 26 : Int) =
      (field w 0 26 + v) % 2 ^ 26 ∧
    field ((w &&& 0xFC000000#32) ||| (((w &&& 0x03FFFFFF#32) + BitVec.ofInt 32 v) &&& 0x03FFFFFF#32)) 26 6 = field w 26 6 := by
  have e : ∀ a b : BitVec 32, ((a &&& 0xFC000000#32) ||| (b &&& 0x03FFFFFF#32)).extractLsb' 0 26 = b.extractLsb' 0 26 := by
    intro a b
    apply BitVec.eq_of_getLsbD_eq
    intro i hi
    have h1 : ∀ j, j < 26 → (0xFC000000#32).getLsbD j = false := by decide
    have h2 : ∀ j, j < 26 → (0x03FFFFFF#32).getLsbD j = true := by decide
    simp [h1 i hi, h2 i hi]
  have e' : ∀ a b : BitVec 32, ((a &&& 0xFC000000#32) ||| (b &&& 0x03FFFFFF#32)).extractLsb' 26 6 = a.extractLsb' 26 6 := by
    intro a b
    apply BitVec.eq_of_getLsbD_eq
    intro i hi
    have h1 : ∀ j, j < 6 → (0xFC000000#32).getLsbD (26 + j) = true := by decide
    have h2 : ∀ j, j < 6 → (0x03FFFFFF#32).getLsbD (26 + j) = false := by decide
    simp [h1 i hi, h2 i hi]
  have lo : ∀ x : BitVec 32, field x 0 26 = (x.extractLsb' 0 26).toNat := by
    intro x; simp [field, BitVec.extractLsb'_toNat]
  have hi : ∀ x : BitVec 32, field x 26 6 = (x.extractLsb' 26 6).toNat := by
    intro x; simp [field, BitVec.extractLsb'_toNat, Nat.shiftRight_eq_div_pow]
  refine ⟨?_, ?_⟩
  · rw [lo, e, ← lo]
    have h0 : (w &&& 0x03FFFFFF#32).toNat = w.toNat % 2 ^ 26 := by
      rw [BitVec.toNat_and]; exact Nat.and_two_pow_sub_one_eq_mod _ 26
    simp only [field, BitVec.toNat_add, BitVec.toNat_ofInt, h0]
    omega
  · rw [hi, e', ← hi]

theorem hi16Word_defined {hi : Hi16} {lo : BitVec 32} (h : ¬ (lowHalf hi.opcode = 0x8000 ∧ 0x8000 ≤ lowHalf lo)) :
    ∃ w, hi16Word hi lo = some w := by
  unfold hi16Word
  have h1 : ((hi.opcode &&& 0xFFFF#32) <<< 16).toNat = 2 ^ 16 * lowHalf hi.opcode := by
    rw [BitVec.toNat_shiftLeft, and_ffff, Nat.shiftLeft_eq]; unfold lowHalf; omega
  have h3 : ((lo &&& 0xFFFF#32).setWidth 16).toNat = lowHalf lo := by
    rw [BitVec.toNat_setWidth, and_ffff]; unfold lowHalf; omega
  have b1 : lowHalf hi.opcode < 2 ^ 16 := Nat.mod_lt _ (by decide)
  have b2 : lowHalf lo < 2 ^ 16 := Nat.mod_lt _ (by decide)
  have hi' : inInt (((hi.opcode &&& 0xFFFF#32) <<< 16).toInt + ((lo &&& 0xFFFF#32).setWidth 16).toInt) = true := by
    unfold inInt
    rw [decide_eq_true_eq, BitVec.toInt_eq_toNat_cond, BitVec.toInt_eq_toNat_cond, h1, h3]
    split <;> split <;> omega
  rw [if_pos hi']
  exact ⟨_, rfl⟩

end Armips.Elf
