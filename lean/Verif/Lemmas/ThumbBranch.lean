import Verif.Lemmas.ThumbImm
/-! Branches and program counter relative addresses of THUMB instructions. -/
namespace Armips.Thumb
open Spec Spec.Thumb Spec.Instr
open Armips.Arm (fld orIf field_fld field_fld_ne hasFields_cons hasFields_nil)

theorem int32_range (v : Int) : -2147483648 ≤ int32 v ∧ int32 v < 2147483648 := by
  unfold int32; omega

theorem int32_eq {v : Int} (h : -2147483648 ≤ v) (h' : v < 2147483648) : int32 v = v := by
  unfold int32; omega

/-- Equal addresses of a 32-bit processor. -/
theorem ofInt_eq_of_int32 {v w : Int} (h : int32 v = int32 w) : BitVec.ofInt 32 v = BitVec.ofInt 32 w := by
  apply BitVec.eq_of_toInt_eq
  rw [toInt_int32, toInt_int32, h]

theorem int32_congr {v w : Int} (h : (v - w) % 4294967296 = 0) : int32 v = int32 w := by
  unfold int32; omega

/-- What the proofs use of a row of a branch. -/
structure BranchRow (op : Op) (ex : Bool) (bits : Nat) : Prop where
  imm : op.has .immediate = true
  branch : op.has .branch = true
  exchange : op.has .exchange = ex
  addsub : op.has .addsub = false
  bits : constantBits op.mask.toList = bits
  type : op.type ≠ 1

theorem branch_ok {op : Op} {ex : Bool} {bits : Nat} (r : BranchRow op ex bits) (hb : bits ≤ 22) {v a : Int}
    (hal : v % (if ex = true then 4 else 2) = 0) (h1 : -2 ^ bits ≤ int32 (v - a - 4)) (h2 : int32 (v - a - 4) < 2 ^ bits) :
    ∃ m, immediate op (constantBits op.mask.toList) (BitVec.ofInt 32 v) a = .ok m ∧ m.pool = false ∧ m.encoding = none ∧
      ∃ n : Nat, m.value = fld n 0 ∧ n < 2 ^ bits ∧
        (n : Int) = (int32 (v - a - 4) / 2 + (if ex = true then int32 (v - a - 4) / 2 % 2 else 0)) % 2 ^ bits := by
  have hv4 : (BitVec.ofInt 32 v).toInt = int32 v := toInt_int32 v
  have hd : (BitVec.ofInt 32 ((BitVec.ofInt 32 v).toInt - a - 4)).toInt = int32 (v - a - 4) := by
    rw [toInt_int32, hv4]
    apply int32_congr
    unfold int32; omega
  have hpow : (2 : Int) ^ bits ≤ 4194304 := by
    have : 2 ^ bits ≤ 2 ^ 22 := Nat.pow_le_pow_right (by decide) hb
    have h3 : ((2 ^ bits : Nat) : Int) = (2 : Int) ^ bits := by simp
    omega
  have hcast : ((2 ^ bits : Nat) : Int) = (2 : Int) ^ bits := by simp
  generalize hD : int32 (v - a - 4) = D at *
  have hdr : ¬ ((BitVec.ofInt 32 ((BitVec.ofInt 32 v).toInt - a - 4)).toInt ≥ 2 ^ bits ∨
      (BitVec.ofInt 32 ((BitVec.ofInt 32 v).toInt - a - 4)).toInt < -2 ^ bits) := by rw [hd]; omega
  generalize hN : BitVec.ofInt 32 ((BitVec.ofInt 32 v).toInt - a - 4) = N at *
  have hsh : (N.sshiftRight 1).toInt = D / 2 := by rw [toInt_sshift, hd]; rfl
  have hand : ((N.sshiftRight 1) &&& 1#32).toNat = (D / 2 % 2).toNat := by
    rw [BitVec.toNat_and]
    rw [show (1#32).toNat = 2 ^ 1 - 1 from rfl, Nat.and_two_pow_sub_one_eq_mod]
    have := BitVec.toInt_eq_toNat_cond (x := N.sshiftRight 1)
    rw [hsh] at this
    split at this <;> omega
  -- the value before masking
  obtain ⟨V, hV, hVi⟩ : ∃ V : BitVec 32, immBranch op bits (BitVec.ofInt 32 v) a = .ok V ∧
      V.toInt = D / 2 + (if ex = true then D / 2 % 2 else 0) := by
    cases ex with
    | true =>
      refine ⟨N.sshiftRight 1 + (N.sshiftRight 1 &&& 1#32), ?_, ?_⟩
      · have e : BitVec.ofInt 32 v &&& 3#32 = 0#32 := (and3 _).2 (by
          rw [hv4]; simp only [if_true] at hal; unfold int32; omega)
        simp only [immBranch, r.exchange, e, hN]
        rw [if_neg (by simp), if_neg (by simp), if_neg hdr, if_pos trivial]
      · rw [BitVec.toInt_add, hsh, BitVec.toInt_eq_toNat_of_lt (by rw [hand]; omega), hand, Int.bmod_def]
        simp only [if_true]
        split <;> omega
    | false =>
      refine ⟨N.sshiftRight 1, ?_, by simpa using hsh⟩
      have e : BitVec.ofInt 32 v &&& 1#32 = 0#32 := (and1 _).2 (by
        rw [hv4]; simp only [Bool.false_eq_true, if_false] at hal; unfold int32; omega)
      simp only [immBranch, r.exchange, e, hN]
      rw [if_neg (by simp), if_neg (by simp), if_neg hdr, if_neg (by simp)]
  have hmask : V &&& BitVec.ofNat 32 (2 ^ bits - 1) = fld (V.toNat % 2 ^ bits) 0 := by
    apply BitVec.eq_of_toNat_eq
    have hlt : V.toNat % 2 ^ bits < 2 ^ bits := Nat.mod_lt _ (Nat.two_pow_pos _)
    rw [BitVec.toNat_and, BitVec.toNat_ofNat, Nat.mod_eq_of_lt (by omega : 2 ^ bits - 1 < 2 ^ 32),
      Nat.and_two_pow_sub_one_eq_mod]
    simp only [fld, BitVec.shiftLeft_zero, BitVec.toNat_ofNat]
    rw [Nat.mod_eq_of_lt (by omega : V.toNat % 2 ^ bits < 2 ^ 32)]
  refine ⟨{ value := V &&& BitVec.ofNat 32 (2 ^ bits - 1) }, ?_, rfl, rfl, V.toNat % 2 ^ bits, hmask,
    Nat.mod_lt _ (Nat.two_pow_pos _), ?_⟩
  · rw [r.bits]
    simp [immediate, immCases, r.branch, hV, addSub, r.addsub, checkRange, r.type]
  · rw [← hVi]
    have hdvd : (2 : Int) ^ bits ∣ 4294967296 := by
      have : (2 : Int) ^ 32 = 2 ^ bits * 2 ^ (32 - bits) := by rw [← Int.pow_add]; congr 1; omega
      exact ⟨2 ^ (32 - bits), this⟩
    rw [BitVec.toInt_eq_toNat_cond]
    split
    · simp
    · rw [Int.sub_emod, Int.emod_eq_zero_of_dvd (show (2 : Int) ^ bits ∣ ((2 ^ 32 : Nat) : Int) from hdvd)]
      simp

theorem branch_bad {op : Op} {ex : Bool} {bits : Nat} (r : BranchRow op ex bits) {v a : Int}
    (hbad : v % (if ex = true then 4 else 2) ≠ 0 ∨ int32 (v - a - 4) < -2 ^ bits ∨ 2 ^ bits ≤ int32 (v - a - 4)) :
    ∃ t, immediate op (constantBits op.mask.toList) (BitVec.ofInt 32 v) a = .error t := by
  have hv4 : (BitVec.ofInt 32 v).toInt = int32 v := toInt_int32 v
  have hd : (BitVec.ofInt 32 ((BitVec.ofInt 32 v).toInt - a - 4)).toInt = int32 (v - a - 4) := by
    rw [toInt_int32, hv4]
    apply int32_congr
    unfold int32; omega
  suffices h : ∃ t, immBranch op bits (BitVec.ofInt 32 v) a = .error t by
    obtain ⟨t, ht⟩ := h
    exact ⟨t, by simp [immediate, immCases, r.branch, r.bits, ht]⟩
  have e3 : BitVec.ofInt 32 v &&& 3#32 = 0#32 ↔ v % 4 = 0 := by
    rw [and3, hv4]; unfold int32; omega
  have e1 : BitVec.ofInt 32 v &&& 1#32 = 0#32 ↔ v % 2 = 0 := by
    rw [and1, hv4]; unfold int32; omega
  simp only [immBranch, r.exchange, hd]
  cases ex with
  | true =>
    by_cases h3 : v % 4 = 0
    · have := e3.2 h3
      simp only [if_true, h3, ne_eq, not_true, false_or] at hbad
      rw [if_neg (by simp [this]), if_neg (by simp), if_pos (by omega)]
      exact ⟨_, rfl⟩
    · rw [if_pos (by simpa using fun h => h3 (e3.1 h))]
      exact ⟨_, rfl⟩
  | false =>
    by_cases h3 : v % 2 = 0
    · have := e1.2 h3
      simp only [Bool.false_eq_true, if_false, h3, ne_eq, not_true, false_or] at hbad
      rw [if_neg (by simp), if_neg (by simp [this]), if_pos (by omega)]
      exact ⟨_, rfl⟩
    · rw [if_neg (by simp), if_pos (by simpa using fun h => h3 (e1.1 h))]
      exact ⟨_, rfl⟩

instance (op : Op) (ex : Bool) (bits : Nat) : Decidable (BranchRow op ex bits) :=
  decidable_of_iff (op.has .immediate = true ∧ op.has .branch = true ∧ op.has .exchange = ex ∧ op.has .addsub = false ∧
      constantBits op.mask.toList = bits ∧ op.type ≠ 1)
    ⟨fun ⟨h1, h2, h3, h4, h5, h6⟩ => ⟨h1, h2, h3, h4, h5, h6⟩, fun ⟨h1, h2, h3, h4, h5, h6⟩ => ⟨h1, h2, h3, h4, h5, h6⟩⟩

set_option maxRecDepth 10000 in
set_option synthInstance.maxSize 1000 in
set_option synthInstance.maxHeartbeats 0 in
theorem branch_table : ∀ op ∈ opcodes, ∀ f ∈ (format op.name op.mask).toList, formatType f ∈ [16, 18] →
    BranchRow op false f.bits := by decide +kernel

set_option maxRecDepth 10000 in
set_option synthInstance.maxSize 1000 in
set_option synthInstance.maxHeartbeats 0 in
theorem long_table :
    (∀ op ∈ (longRow "bl").toList, BranchRow op false 22 ∧ op.type = 19 ∧ op.has .long = true ∧ op.encoding = 0xF000#32) ∧
    (∀ op ∈ (longRow "blx").toList, BranchRow op true 22 ∧ op.type = 19 ∧ op.has .long = true ∧ op.encoding = 0xF000#32) := by
  decide +kernel

set_option maxRecDepth 10000 in
set_option synthInstance.maxSize 1000 in
set_option synthInstance.maxHeartbeats 0 in
theorem pcr_table : ∀ op ∈ opcodes, ∀ f ∈ (format op.name op.mask).toList,
    (op.mask = "d,[/#I\x20]" ∨ op.mask = "d,=/#i\x20") →
    op.has .immediate = true ∧ op.has .branch = false ∧ op.has .word = false ∧ op.has .halfword = false ∧
      op.has .pool = false ∧ op.has .pcr = true ∧ op.has .addsub = false ∧ op.type ≠ 1 ∧ regular f = true ∧
      f.bits = 8 ∧ (f = .literal ∨ f = .address 0) := by decide +kernel

set_option maxRecDepth 10000 in
set_option synthInstance.maxSize 1000 in
set_option synthInstance.maxHeartbeats 0 in
theorem pool_table : ∀ op ∈ opcodes, op.mask = "d,=/#I\x20" →
    op.has .immediate = true ∧ op.has .branch = false ∧ op.has .word = false ∧ op.has .halfword = false ∧
      op.has .pool = true ∧ op.has .addsub = false ∧ op.type ≠ 1 := by decide +kernel

/-! ### Program counter relative -/

theorem clearBit1 (z : BitVec 32) : ((z &&& 0xFFFFFFFD#32).toNat : Int) = z.toNat - 2 * (z.toNat / 2 % 2) := by
  have h1 : z &&& 0xFFFFFFFD#32 ||| z &&& 2#32 = z := by
    rw [← BitVec.and_or_distrib_left]
    exact BitVec.and_allOnes
  have h0 : (z &&& 0xFFFFFFFD#32) &&& (z &&& 2#32) = 0#32 := by
    have : (z &&& 0xFFFFFFFD#32) &&& (z &&& 2#32) = (z &&& z) &&& (0xFFFFFFFD#32 &&& 2#32) := by ac_rfl
    rw [this]; simp
  have hadd := BitVec.add_eq_or_of_and_eq_zero _ _ h0
  rw [h1] at hadd
  have h2 : (z &&& 2#32).toNat = 2 * (z.toNat / 2 % 2) := by
    rw [BitVec.toNat_and]
    have hd : (z.toNat &&& 2) / 2 = z.toNat / 2 % 2 := by
      have h := Nat.and_div_two_pow (a := z.toNat) (b := 2) (n := 1)
      rw [show 2 / 2 ^ 1 = 2 ^ 1 - 1 from rfl, Nat.and_two_pow_sub_one_eq_mod] at h
      exact h
    have hm : (z.toNat &&& 2) % 2 = 0 := by
      have h := Nat.and_mod_two_pow (a := z.toNat) (b := 2) (n := 1)
      exact h.trans (by simp)
    show z.toNat &&& 2 = _
    omega
  have h3 : (z &&& 0xFFFFFFFD#32).toNat + (z &&& 2#32).toNat = z.toNat := by
    have := congrArg BitVec.toNat hadd
    rw [BitVec.toNat_add, Nat.mod_eq_of_lt] at this
    · exact this
    · have : (z &&& 2#32).toNat ≤ 2 := by rw [h2]; omega
      have hle : (z &&& 0xFFFFFFFD#32).toNat ≤ 0xFFFFFFFD := by
        rw [BitVec.toNat_and]; exact Nat.and_le_right
      omega
  omega

/-- The distance of an address from the program counter of an instruction at an even address. -/
theorem pcOffset_eq {a p : Int} (ha : a % 2 = 0) : (pcOffset a p).toInt = int32 (p - ((a + 4) - (a + 4) % 4)) := by
  unfold pcOffset
  rw [toInt_int32]
  apply int32_congr
  have h1 : BitVec.setWidth 32 (BitVec.ofInt 64 (a + 4) &&& 0xFFFFFFFD#64) = BitVec.ofInt 32 (a + 4) &&& 0xFFFFFFFD#32 := by
    rw [BitVec.setWidth_and]
    congr 1
    apply BitVec.eq_of_toNat_eq
    simp only [BitVec.toNat_setWidth, BitVec.toNat_ofInt]
    omega
  have h2 := clearBit1 (BitVec.ofInt 32 (a + 4))
  rw [← h1, BitVec.toNat_setWidth, BitVec.toNat_ofInt] at h2
  generalize (BitVec.ofInt 64 (a + 4) &&& 0xFFFFFFFD#64) = Y at *
  have h3 := BitVec.toInt_eq_toNat_cond (x := Y)
  split at h3 <;> omega

theorem fld_div {N : BitVec 32} (h0 : 0 ≤ N.toInt) : N.sshiftRight 2 = fld (N.toInt / 4).toNat 0 := by
  apply fld_of_toInt
  rw [toInt_sshift]
  omega

end Armips.Thumb
