import Verif.Lemmas.Elf
import Verif.Spec.Fields
/-! Lemmas about the ARM relocations. -/
namespace Armips.Elf
open Armips Spec Spec.Elf

/-! ### A relocator without state -/

/-- Every relocation concerns its own word only, and nothing is left for the end. -/
def Stateless (M : Machine) : Prop :=
  (∀ t d q x, M.step t d q = some x → ∀ a ∈ x.actions, a.offset = d.offset) ∧ ∀ q x, M.finish q = some x → x.actions = []

theorem stateless_near {M : Machine} (hM : Stateless M) {f : File} {ext : String → Option Ext} {m : List (Nat × Int)} {s : Section} {l : List Rel} :
    ∀ {q : M.State} {o : Outcome M.State}, relocLoop M f ext m s q l = some o →
      ∀ a ∈ o.actions, ∃ r ∈ l, a.offset = r.offset + offsetOf m s.index := by
  induction l with
  | nil => intro q o h a ha; cases h; cases ha
  | cons r l ih =>
    intro q o h a ha
    cases hd : M.dummy r.type with
    | true =>
      simp only [relocLoop, hd, if_true] at h
      obtain ⟨r', h1, h2⟩ := ih h a ha
      exact ⟨r', List.mem_cons_of_mem _ h1, h2⟩
    | false =>
      cases he : relocData M f ext m s r with
      | error e =>
        obtain ⟨o2, h2, _, _, h5⟩ := relocLoop_error hd he h
        rw [h5] at ha
        obtain ⟨r', h1, h2⟩ := ih h2 a ha
        exact ⟨r', List.mem_cons_of_mem _ h1, h2⟩
      | ok d =>
        obtain ⟨x, o2, h1, h2, rfl⟩ := relocLoop_cons hd he h
        rcases List.mem_append.1 ha with ha | ha
        · exact ⟨r, List.mem_cons_self .., by rw [hM.1 _ _ _ _ h1 a ha]; exact (relocData_offset he).1⟩
        · obtain ⟨r', h1, h2⟩ := ih h2 a ha
          exact ⟨r', List.mem_cons_of_mem _ h1, h2⟩

/-- What happens to the word of one relocation. -/
theorem stateless_at {M : Machine} (hM : Stateless M) {f : File} {ext : String → Option Ext} {m : List (Nat × Int)} {s : Section}
    {pre post : List Rel} {r : Rel} (hrels : s.rels = pre ++ r :: post) (hdum : M.dummy r.type = false) {x : RelocData}
    (he : relocData M f ext m s r = .ok x) {q : M.State} {d : List Byte} {o : Outcome M.State} (h : relocSection M f ext m s q = some (d, o)) :
    ∃ q' y, M.step r.type x q' = some y ∧ (o.ok = true → y.ok = true) ∧ (y.ok = false → y.errors ≠ [] → o.ok = false ∧ o.errors ≠ []) ∧
      ∀ w, y.actions = [⟨x.offset, w⟩] → Separate s → getWord f.endian d r.offset = w := by
  obtain ⟨o1, y, h1, hy, rfl, rfl⟩ := relocSection_eq h
  rw [hrels] at h1
  obtain ⟨oa, ob, ha, hb, rfl⟩ := relocLoop_append h1
  obtain ⟨z, oc, hz, hc, rfl⟩ := relocLoop_cons hdum he hb
  refine ⟨oa.state, z, hz, ?_, ?_, ?_⟩
  · intro h; simp only [Bool.and_eq_true] at h; exact h.1.2.1
  · intro h h'; simp [h, h']
  · intro w hw hsep
    rw [hM.2 _ _ hy, List.append_nil, hw]
    have hin : r.offset + 4 ≤ s.data.length := hsep.1 r (by rw [hrels]; simp)
    rw [show oa.actions ++ ([(⟨x.offset, w⟩ : Action)] ++ oc.actions) = oa.actions ++ (⟨r.offset + offsetOf m s.index, w⟩ : Action) :: oc.actions by
      rw [(relocData_offset he).1]; rfl]
    apply perform_last _ _ _ _ _ _ _ hin
    intro a ha
    obtain ⟨r', hr, h2⟩ := stateless_near hM hc a ha
    have hp := hsep.2
    rw [hrels] at hp
    have := (List.pairwise_cons.1 (List.pairwise_append.1 hp).2.1).1 r' hr
    omega

theorem stateless_other {M : Machine} (hM : Stateless M) {f : File} {ext : String → Option Ext} {m : List (Nat × Int)} {s : Section}
    {q : M.State} {d : List Byte} {o : Outcome M.State} (h : relocSection M f ext m s q = some (d, o)) {i : Nat}
    (hi : ∀ r ∈ s.rels, i < r.offset ∨ r.offset + 4 ≤ i) : d[i]? = s.data[i]? := by
  obtain ⟨o1, y, h1, hy, rfl, rfl⟩ := relocSection_eq h
  rw [hM.2 _ _ hy, List.append_nil]
  apply perform_get?
  intro a ha
  obtain ⟨r, hr, h2⟩ := stateless_near hM h1 a ha
  have := hi r hr
  omega

theorem armFail_none (t : String) {x : Step Unit} (h : armFail t = some x) : x.ok = false ∧ x.errors ≠ [] ∧ x.actions = [] := by
  cases h; simp

/-! ### Arithmetic -/

theorem field_extract {n : Nat} (w : BitVec n) (lo len : Nat) : field w lo len = (w.extractLsb' lo len).toNat := by
  simp [field, BitVec.extractLsb'_toNat, Nat.shiftRight_eq_div_pow]

theorem toInt_ofInt_mod (v : Int) : ((BitVec.ofInt 32 v).toInt - v) % 2 ^ 32 = 0 := by
  rw [BitVec.toInt_ofInt]
  have := Int.bmod_def v (2 ^ 32)
  rw [this]
  split <;> omega

theorem distance_some {s a p : BitVec 32} {v : Int} (h : distance s a p = some v) : v = s.toInt + a.toInt - p.toInt := by
  unfold distance at h
  split at h
  · exact (Option.some.inj h).symm
  · cases h

theorem signExtend_toInt (v : BitVec 32) (n : Nat) (hn : 0 < n) (hn' : n ≤ 32) (hv : v.toNat < 2 ^ n) :
    (signExtend v n).toInt = signed n v.toNat := by
  unfold signExtend signed
  rw [BitVec.toInt_sshiftRight, BitVec.toInt_eq_toNat_cond, BitVec.toNat_shiftLeft, Nat.shiftLeft_eq]
  have e1 : (2 : Nat) ^ 32 = 2 ^ n * 2 ^ (32 - n) := by rw [← Nat.pow_add]; congr 1; omega
  have e2 : (2 : Nat) ^ n = 2 * 2 ^ (n - 1) := by rw [← Nat.pow_succ']; congr 1; omega
  have hpos : 0 < 2 ^ (32 - n) := Nat.pow_pos (by decide)
  have hlt : v.toNat * 2 ^ (32 - n) < 2 ^ 32 := by rw [e1]; exact Nat.mul_lt_mul_of_pos_right hv hpos
  rw [Nat.mod_eq_of_lt hlt, Int.shiftRight_eq_div_pow]
  have hc : 2 * (v.toNat * 2 ^ (32 - n)) < 2 ^ 32 ↔ v.toNat < 2 ^ (n - 1) := by
    rw [e1, e2]
    constructor
    · intro h
      apply Nat.lt_of_mul_lt_mul_right (a := 2 ^ (32 - n)) 
      have : 2 * (v.toNat * 2 ^ (32 - n)) < 2 * (2 ^ (n - 1) * 2 ^ (32 - n)) := by rw [← Nat.mul_assoc 2 (2 ^ (n-1))]; exact h
      omega
    · intro h
      have := Nat.mul_lt_mul_of_pos_right h hpos
      rw [Nat.mul_assoc 2 (2 ^ (n-1))]
      omega
  have hpos' : (0 : Int) < ((2 ^ (32 - n) : Nat) : Int) := by exact_mod_cast hpos
  by_cases h : v.toNat < 2 ^ (n - 1)
  · rw [if_pos (hc.2 h), if_pos h]
    rw [Int.natCast_mul]
    exact Int.mul_ediv_cancel _ (by omega)
  · rw [if_neg (fun h' => h (hc.1 h')), if_neg h]
    rw [show ((v.toNat * 2 ^ (32 - n) : Nat) : Int) - ((2 ^ 32 : Nat) : Int) = ((v.toNat : Int) - 2 ^ n) * ((2 ^ (32 - n) : Nat) : Int) by
      rw [e1, Int.natCast_mul, Int.natCast_mul, Int.sub_mul]; congr 2]
    exact Int.mul_ediv_cancel _ (by omega)

/-- The word that a branch becomes. -/
def branchWord (t : Bool) (w : BitVec 32) (v : Int) : BitVec 32 :=
  (if t then (if v / 2 % 2 = 1 then 0xFB000000#32 else 0xFA000000#32) else w &&& 0xFF000000#32) ||| (BitVec.ofInt 32 (v / 4) &&& 0xFFFFFF#32)

theorem armCall_cases {arm9 t jump : Bool} {d : RelocData} {x : Step Unit} (h : armCall arm9 t jump d = some x) :
    ∃ v, distance (BitVec.ofInt 32 d.base) (signExtend ((d.opcode &&& 0xFFFFFF#32) <<< 2) 26) (BitVec.ofInt 32 d.offset) = some v ∧
      (x.ok = true ↔ (t = true → d.base % 2 = 0 ∧ jump = false ∧ arm9 = true ∧ (d.opcode >>> 28) &&& 0xF#32 = 0xE#32) ∧
        (t = false → d.base % 4 = 0) ∧ v.natAbs < 0x2000000) ∧
      (x.ok = false → x.errors ≠ []) ∧ (x.ok = true → x.actions = [⟨d.offset, branchWord t d.opcode v⟩]) ∧ (x.ok = false → x.actions = []) := by
  unfold armCall at h
  simp only [bind, Option.bind_eq_some_iff] at h
  obtain ⟨v, hv, h⟩ := h
  refine ⟨v, hv, ?_⟩
  have hf : ∀ s, armFail s = some x → x.ok = false ∧ x.errors ≠ [] ∧ x.actions = [] := fun s => armFail_none s
  cases t <;> simp only [Bool.true_and, Bool.false_and, Bool.not_true, Bool.not_false, Bool.false_eq_true, if_false, decide_eq_true_eq] at h
  · split at h
    · rename_i h1
      obtain ⟨a, b, c⟩ := hf _ h
      simp [a, b, c]; omega
    split at h
    · cases h
    split at h
    · obtain ⟨a, b, c⟩ := hf _ h
      simp [a, b, c]; omega
    · cases h
      simp only [branchWord, Bool.false_eq_true, if_false]
      simp; omega
  · split at h
    · rename_i h1
      obtain ⟨a, b, c⟩ := hf _ h
      simp [a, b, c]; omega
    split at h
    · rename_i h1 h2
      obtain ⟨a, b, c⟩ := hf _ h
      simp [a, b, c, h2]
    split at h
    · rename_i h1 h2 h3
      obtain ⟨a, b, c⟩ := hf _ h
      simp only [Bool.not_eq_true'] at h3
      simp [a, b, c, h3]
    split at h
    · rename_i h1 h2 h3 h4
      obtain ⟨a, b, c⟩ := hf _ h
      simp only [bne_iff_ne, ne_eq] at h4
      simp [a, b, c, h4]
    split at h
    · cases h
    split at h
    · obtain ⟨a, b, c⟩ := hf _ h
      simp [a, b, c]; omega
    · rename_i h1 h2 h3 h4 _ _
      cases h
      simp only [bne_iff_ne, ne_eq, Decidable.not_not] at h4
      simp only [Bool.not_eq_true', Bool.not_eq_false] at h3
      simp only [Bool.not_eq_true] at h2
      simp only [branchWord, if_true]
      simp [h2, h3, h4]
      omega

theorem branchWord_low (t : Bool) (w : BitVec 32) (v : Int) (hv : v.natAbs < 0x2000000) : 4 * signed 24 (field (branchWord t w v) 0 24) = v - v % 4 := by
  have e : ∀ a b : BitVec 32, ((a &&& 0xFF000000#32) ||| (b &&& 0xFFFFFF#32)).extractLsb' 0 24 = b.extractLsb' 0 24 := by
    intro a b
    apply BitVec.eq_of_getLsbD_eq
    intro i hi
    have h1 : ∀ j, j < 24 → (0xFF000000#32).getLsbD j = false := by decide
    have h2 : ∀ j, j < 24 → (0xFFFFFF#32).getLsbD j = true := by decide
    simp [h1 i hi, h2 i hi]
  have hb : field (branchWord t w v) 0 24 = field (BitVec.ofInt 32 (v / 4)) 0 24 := by
    rw [field_extract, field_extract]
    congr 1
    unfold branchWord
    cases t
    · exact e _ _
    · simp only [if_true]
      split
      · exact e 0xFB000000#32 _
      · exact e 0xFA000000#32 _
  rw [hb]
  simp only [field, signed, BitVec.toNat_ofInt]
  split <;> omega

theorem branchWord_high (t : Bool) (w : BitVec 32) (v : Int) :
    field (branchWord t w v) 24 8 = if t then (if v / 2 % 2 = 1 then 0xFB else 0xFA) else field w 24 8 := by
  have e : ∀ a b : BitVec 32, ((a &&& 0xFF000000#32) ||| (b &&& 0xFFFFFF#32)).extractLsb' 24 8 = a.extractLsb' 24 8 := by
    intro a b
    apply BitVec.eq_of_getLsbD_eq
    intro i hi
    have h1 : ∀ j, j < 8 → (0xFF000000#32).getLsbD (24 + j) = true := by decide
    have h2 : ∀ j, j < 8 → (0xFFFFFF#32).getLsbD (24 + j) = false := by decide
    simp [h1 i hi, h2 i hi]
  rw [field_extract]
  unfold branchWord
  cases t
  · simp only [Bool.false_eq_true, if_false]; rw [e, ← field_extract]
  · simp only [if_true]
    split
    · rw [show (0xFB000000#32 : BitVec 32) = 0xFB000000#32 &&& 0xFF000000#32 from rfl, e]; rfl
    · rw [show (0xFA000000#32 : BitVec 32) = 0xFA000000#32 &&& 0xFF000000#32 from rfl, e]; rfl

theorem arm_addend (w : BitVec 32) : (signExtend ((w &&& 0xFFFFFF#32) <<< 2) 26).toInt = 4 * signed 24 (field w 0 24) := by
  have h0 : (w &&& 0xFFFFFF#32).toNat = w.toNat % 2 ^ 24 := by rw [BitVec.toNat_and]; exact Nat.and_two_pow_sub_one_eq_mod _ 24
  have h1 : ((w &&& 0xFFFFFF#32) <<< 2).toNat = 4 * field w 0 24 := by
    rw [BitVec.toNat_shiftLeft, h0, Nat.shiftLeft_eq]; simp only [field]; omega
  have h2 : field w 0 24 < 2 ^ 24 := Nat.mod_lt _ (by decide)
  rw [signExtend_toInt _ _ (by decide) (by decide) (by omega), h1]
  simp only [signed]
  split <;> split <;> omega

theorem arm_cond (w : BitVec 32) : ((w >>> 28) &&& 0xF#32 = 0xE#32) ↔ field w 28 4 = 14 := by
  have h0 : ((w >>> 28) &&& 0xF#32).toNat = field w 28 4 := by
    rw [BitVec.toNat_and, BitVec.toNat_ushiftRight, Nat.shiftRight_eq_div_pow]; exact Nat.and_two_pow_sub_one_eq_mod _ 4
  rw [← BitVec.toNat_inj, h0]
  rfl

/-! ### Thumb -/

/-- The word that a Thumb call becomes. -/
def callWord (t : Bool) (w : BitVec 32) (v : Int) : BitVec 32 :=
  (((w &&& 0xFFFF#32) &&& 0xF800#32) ||| (((BitVec.ofInt 32 (v / 2)).sshiftRight 11) &&& 0x7FF#32)) |||
    (((if t then ((w >>> 16) &&& 0xFFFF#32) &&& 0xF800#32 else 0xE800#32) ||| ((BitVec.ofInt 32 (v / 2)) &&& 0x7FF#32)) <<< 16)

theorem thmCall_cases {arm9 t : Bool} {d : RelocData} {x : Step Unit} (h : thmCall arm9 t d = some x) :
    ∃ v, distance (BitVec.ofInt 32 d.base) (signExtend (((((d.opcode &&& 0xFFFF#32) &&& 0x7FF#32) <<< 11) |||
        (((d.opcode >>> 16) &&& 0xFFFF#32) &&& 0x7FF#32)) <<< 1) 23) (BitVec.ofInt 32 d.offset) = some v ∧
      (x.ok = true ↔ (t = true → d.base % 2 = 0) ∧ (t = false → arm9 = true ∧ d.base % 4 = 0) ∧ v.natAbs < 0x400000) ∧
      (x.ok = false → x.errors ≠ []) ∧ (x.ok = true → x.actions = [⟨d.offset, callWord t d.opcode v⟩]) ∧ (x.ok = false → x.actions = []) := by
  unfold thmCall at h
  simp only [bind, Option.bind_eq_some_iff] at h
  obtain ⟨v, hv, h⟩ := h
  refine ⟨v, hv, ?_⟩
  have hf : ∀ s, armFail s = some x → x.ok = false ∧ x.errors ≠ [] ∧ x.actions = [] := fun s => armFail_none s
  cases t <;> simp only [Bool.true_and, Bool.false_and, Bool.not_true, Bool.not_false, Bool.false_eq_true, if_false, decide_eq_true_eq] at h
  · split at h
    · rename_i h1
      obtain ⟨a, b, c⟩ := hf _ h
      simp only [Bool.not_eq_true'] at h1
      simp [a, b, c, h1]
    split at h
    · obtain ⟨a, b, c⟩ := hf _ h
      simp [a, b, c]; omega
    split at h
    · cases h
    split at h
    · obtain ⟨a, b, c⟩ := hf _ h
      simp [a, b, c]; omega
    · rename_i h1 _ _ _
      cases h
      simp only [Bool.not_eq_true', Bool.not_eq_false] at h1
      simp only [callWord, Bool.false_eq_true, if_false]
      simp [h1]; omega
  · split at h
    · rename_i h1
      obtain ⟨a, b, c⟩ := hf _ h
      simp [a, b, c]; omega
    split at h
    · cases h
    split at h
    · obtain ⟨a, b, c⟩ := hf _ h
      simp [a, b, c]; omega
    · cases h
      simp only [callWord, if_true]
      simp
      omega

theorem thumb_addend (w : BitVec 32) :
    (signExtend (((((w &&& 0xFFFF#32) &&& 0x7FF#32) <<< 11) ||| (((w >>> 16) &&& 0xFFFF#32) &&& 0x7FF#32)) <<< 1) 23).toInt =
      4096 * signed 11 (field w 0 11) + 2 * field w 16 11 := by
  have h1 : ((((w &&& 0xFFFF#32) &&& 0x7FF#32) <<< 11) ||| (((w >>> 16) &&& 0xFFFF#32) &&& 0x7FF#32)).toNat = 2 ^ 11 * field w 0 11 + field w 16 11 := by
    have e1 : ((w &&& 0xFFFF#32) &&& 0x7FF#32).toNat = field w 0 11 := by
      rw [BitVec.toNat_and, BitVec.toNat_and]
      rw [show (0xFFFF#32).toNat = 2 ^ 16 - 1 from rfl, show (0x7FF#32).toNat = 2 ^ 11 - 1 from rfl, Nat.and_two_pow_sub_one_eq_mod,
        Nat.and_two_pow_sub_one_eq_mod]
      simp only [field]; omega
    have e2 : (((w >>> 16) &&& 0xFFFF#32) &&& 0x7FF#32).toNat = field w 16 11 := by
      rw [BitVec.toNat_and, BitVec.toNat_and, BitVec.toNat_ushiftRight, Nat.shiftRight_eq_div_pow]
      rw [show (0xFFFF#32).toNat = 2 ^ 16 - 1 from rfl, show (0x7FF#32).toNat = 2 ^ 11 - 1 from rfl, Nat.and_two_pow_sub_one_eq_mod,
        Nat.and_two_pow_sub_one_eq_mod]
      simp only [field]; omega
    have b1 : field w 0 11 < 2 ^ 11 := Nat.mod_lt _ (by decide)
    have b2 : field w 16 11 < 2 ^ 11 := Nat.mod_lt _ (by decide)
    rw [BitVec.toNat_or, BitVec.toNat_shiftLeft, e1, e2, Nat.mod_eq_of_lt (by rw [Nat.shiftLeft_eq]; omega)]
    rw [Nat.shiftLeft_eq, Nat.mul_comm, ← Nat.two_pow_add_eq_or_of_lt b2]
  have b1 : field w 0 11 < 2 ^ 11 := Nat.mod_lt _ (by decide)
  have b2 : field w 16 11 < 2 ^ 11 := Nat.mod_lt _ (by decide)
  have h2 : (((((w &&& 0xFFFF#32) &&& 0x7FF#32) <<< 11) ||| (((w >>> 16) &&& 0xFFFF#32) &&& 0x7FF#32)) <<< 1).toNat =
      2 * (2 ^ 11 * field w 0 11 + field w 16 11) := by
    rw [BitVec.toNat_shiftLeft, h1, Nat.shiftLeft_eq]; omega
  rw [signExtend_toInt _ _ (by decide) (by decide) (by omega), h2]
  simp only [signed]
  split <;> split <;> omega

theorem callWord_bits (t : Bool) (w : BitVec 32) (v : Int) (hv : v.natAbs < 0x400000) :
    4096 * signed 11 (field (callWord t w v) 0 11) + 2 * field (callWord t w v) 16 11 = v - v % 2 ∧
    field (callWord t w v) 11 5 = field w 11 5 ∧ field (callWord t w v) 27 5 = if t then field w 27 5 else 29 := by
  have m1 : ∀ j, j < 11 → (0xF800#32).getLsbD j = false := by decide
  have m2 : ∀ j, j < 11 → (0x7FF#32).getLsbD j = true := by decide
  have m3 : ∀ j, j < 5 → (0xF800#32).getLsbD (11 + j) = true := by decide
  have m4 : ∀ j, j < 5 → (0x7FF#32).getLsbD (11 + j) = false := by decide
  have m5 : ∀ j, j < 5 → (0xFFFF#32).getLsbD (11 + j) = true := by decide
  have m6 : ∀ j, j < 11 → (0xE800#32).getLsbD j = false := by decide
  have m7 : ∀ j, j < 5 → (0xE800#32).getLsbD (11 + j) = (29#5).getLsbD j := by decide
  have e1 : ∀ a b c d : BitVec 32, (((a &&& 0xFFFF#32) &&& 0xF800#32) ||| (b &&& 0x7FF#32) ||| ((c ||| (d &&& 0x7FF#32)) <<< 16)).extractLsb' 0 11 =
      b.extractLsb' 0 11 := by
    intro a b c d
    apply BitVec.eq_of_getLsbD_eq
    intro i hi
    simp [m1 i hi, m2 i hi, hi, show i < 16 by omega]
  have e2 : ∀ a b c d : BitVec 32, (((a &&& 0xFFFF#32) &&& 0xF800#32) ||| (b &&& 0x7FF#32) ||| ((c ||| (d &&& 0x7FF#32)) <<< 16)).extractLsb' 11 5 =
      a.extractLsb' 11 5 := by
    intro a b c d
    apply BitVec.eq_of_getLsbD_eq
    intro i hi
    simp [m3 i hi, m4 i hi, m5 i hi, hi, show 11 + i < 16 by omega]
  have hy : ∀ j, j < 16 → (0xFFFF#32).getLsbD (16 + j) = false := by decide
  have hy' : ∀ j, j < 16 → (0x7FF#32).getLsbD (16 + j) = false := by decide
  have hz : ∀ j, 16 ≤ j → j < 32 → (0xFFFF#32).getLsbD j = false := fun j h h' => by
    have := hy (j - 16) (by omega); rwa [show 16 + (j - 16) = j by omega] at this
  have hz' : ∀ j, 16 ≤ j → j < 32 → (0x7FF#32).getLsbD j = false := fun j h h' => by
    have := hy' (j - 16) (by omega); rwa [show 16 + (j - 16) = j by omega] at this
  have e3 : ∀ a b c d : BitVec 32, (∀ j, j < 11 → c.getLsbD j = false) →
      (((a &&& 0xFFFF#32) &&& 0xF800#32) ||| (b &&& 0x7FF#32) ||| ((c ||| (d &&& 0x7FF#32)) <<< 16)).extractLsb' 16 11 =
      d.extractLsb' 0 11 := by
    intro a b c d hc
    apply BitVec.eq_of_getLsbD_eq
    intro i hi
    simp only [BitVec.getLsbD_extractLsb', BitVec.getLsbD_or, BitVec.getLsbD_and, BitVec.getLsbD_shiftLeft, m2 i hi, hi, hc i hi,
      hz (16 + i) (by omega) (by omega), hz' (16 + i) (by omega) (by omega), show 16 + i < 32 by omega, show ¬ 16 + i < 16 by omega,
      show 16 + i - 16 = i by omega, Nat.zero_add]
    simp
  have e4 : ∀ a b c d : BitVec 32, 
      (((a &&& 0xFFFF#32) &&& 0xF800#32) ||| (b &&& 0x7FF#32) ||| ((c ||| (d &&& 0x7FF#32)) <<< 16)).extractLsb' 27 5 =
      c.extractLsb' 11 5 := by
    intro a b c d
    apply BitVec.eq_of_getLsbD_eq
    intro i hi
    simp only [BitVec.getLsbD_extractLsb', BitVec.getLsbD_or, BitVec.getLsbD_and, BitVec.getLsbD_shiftLeft, m4 i hi, hi,
      hz (27 + i) (by omega) (by omega), hz' (27 + i) (by omega) (by omega), show 27 + i < 32 by omega, show ¬ 27 + i < 16 by omega,
      show 27 + i - 16 = 11 + i by omega]
    simp
  refine ⟨?_, ?_, ?_⟩
  · rw [field_extract (callWord t w v) 0 11, field_extract (callWord t w v) 16 11]
    unfold callWord
    rw [e1, e3, ← field_extract, ← field_extract]
    · have hs : (field ((BitVec.ofInt 32 (v / 2)).sshiftRight 11) 0 11 : Int) = v / 4096 % 2 ^ 11 := by
        have : ((BitVec.ofInt 32 (v / 2)).sshiftRight 11).toInt = v / 4096 := by
          rw [BitVec.toInt_sshiftRight, BitVec.toInt_ofInt, Int.bmod_def, Int.shiftRight_eq_div_pow]
          split <;> omega
        have h2 := BitVec.toInt_eq_toNat_cond ((BitVec.ofInt 32 (v / 2)).sshiftRight 11)
        rw [this] at h2
        simp only [field]
        split at h2 <;> omega
      have hl : (field (BitVec.ofInt 32 (v / 2)) 0 11 : Int) = v / 2 % 2 ^ 11 := by
        simp only [field, BitVec.toNat_ofInt]; omega
      rw [hl]
      simp only [signed]
      split <;> omega
    · intro j hj
      cases t
      · exact m6 j hj
      · simp [m1 j hj]
  · rw [field_extract (callWord t w v) 11 5]
    unfold callWord
    rw [e2, ← field_extract]
  · rw [field_extract (callWord t w v) 27 5]
    unfold callWord
    rw [e4]
    cases t
    · simp only [Bool.false_eq_true, if_false]; decide
    · simp only [if_true]
      rw [field_extract]
      congr 1
      apply BitVec.eq_of_getLsbD_eq
      intro i hi
      simp [m3 i hi, m5 i hi, hi, show 16 + (11 + i) = 27 + i by omega]

theorem arm_stateless (arm9 : Bool) : Stateless (arm arm9) := by
  refine ⟨?_, ?_⟩
  · intro t d q x h a ha
    change armStep arm9 t d q = some x at h
    unfold armStep at h
    have key : ∀ w, x.actions = [⟨d.offset, w⟩] → a.offset = d.offset := by
      intro w hw; rw [hw, List.mem_singleton] at ha; rw [ha]
    split at h
    · cases h; exact key _ rfl
    · cases h; exact key _ rfl
    · obtain ⟨v, _, _, _, h1, h2⟩ := thmCall_cases h
      cases hx : x.ok
      · rw [h2 hx] at ha; cases ha
      · exact key _ (h1 hx)
    · obtain ⟨v, _, _, _, h1, h2⟩ := armCall_cases h
      cases hx : x.ok
      · rw [h2 hx] at ha; cases ha
      · exact key _ (h1 hx)
    · obtain ⟨v, _, _, _, h1, h2⟩ := armCall_cases h
      cases hx : x.ok
      · rw [h2 hx] at ha; cases ha
      · exact key _ (h1 hx)
    · rw [(armFail_none _ h).2.2] at ha; cases ha
  · intro q x h; cases h; rfl

theorem sh_stateless : Stateless sh := by
  refine ⟨?_, ?_⟩
  · intro t d q x h a ha
    change shStep t d q = some x at h
    unfold shStep at h
    split at h <;> cases h
    · rw [List.mem_singleton.1 ha]
    · rw [List.mem_singleton.1 ha]
    · cases ha
  · intro q x h; cases h; rfl

end Armips.Elf
