import Verif.Model.Crc
import Verif.Spec.Crc

/-! C40 — the table-driven checksums are the standard CRC-32 (reflected `0xEDB88320`) and CRC-16 (reflected
`0xA001`, initial value `0xFFFF`), for every byte string. -/
namespace Armips.Props
open Armips.Crc Armips.Spec

private def stp {n} (poly x : BitVec n) : BitVec n := (x >>> 1) ^^^ (if x.getLsbD 0 then poly else 0)

private theorem stp_xor {n} (poly x y : BitVec n) (hy : y.getLsbD 0 = false) :
    stp poly (x ^^^ y) = stp poly x ^^^ (y >>> 1) := by
  unfold stp
  rw [BitVec.getLsbD_xor, hy, Bool.xor_false]
  split <;> (ext i hi; simp) <;> (cases x.getLsbD (1+i) <;> cases y.getLsbD (1+i) <;> simp)

private theorem crcBit_eq {n} (poly crc : BitVec n) (b : Bool) (hn : 0 < n) :
    crcBit poly crc b = stp poly (crc ^^^ (if b then 1#n else 0#n)) := by
  unfold crcBit stp
  have h1 : (1#n).getLsbD 0 = true := by simp; omega
  have h2 : (1#n) >>> 1 = 0#n := by
    apply BitVec.eq_of_toNat_eq
    simp [BitVec.toNat_ushiftRight, BitVec.toNat_ofNat]
    rcases Nat.lt_or_ge 1 n with h | h
    · have : 1 < 2 ^ n := by
        calc 1 < 2 ^ 1 := by decide
          _ ≤ 2 ^ n := Nat.pow_le_pow_right (by decide) (by omega)
      rw [Nat.mod_eq_of_lt this]; rfl
    · have : n = 1 := by omega
      subst this; decide
  cases b
  · simp
    split <;> simp
  · simp only [if_true, BitVec.getLsbD_xor, h1, Bool.xor_true]
    have : (crc ^^^ 1#n) >>> 1 = crc >>> 1 := by
      have e : (crc ^^^ 1#n) >>> 1 = (crc >>> 1) ^^^ ((1#n) >>> 1) := by
        ext i hi; simp
      rw [e, h2, BitVec.xor_zero]
    rw [this]
    split <;> simp

/-- Eight table-free steps with the byte xored in first equal feeding the byte bit by bit. -/
private theorem feed (n : Nat) (poly crc b : BitVec n) (hn : 0 < n) (k : Nat)
    (hb : ∀ i, k ≤ i → b.getLsbD i = false) :
    ((List.range k).map b.getLsbD).foldl (crcBit poly) crc = Nat.repeat (stp poly) k (crc ^^^ b) := by
  induction k generalizing crc b with
  | zero =>
    have : b = 0#n := by ext i hi; simp [← BitVec.getLsbD_eq_getElem, hb i (Nat.zero_le i)]
    simp [this, Nat.repeat]
  | succ k ih =>
    rw [List.range_succ_eq_map, List.map_cons, List.map_map, List.foldl_cons]
    have hsplit : b = (if b.getLsbD 0 then 1#n else 0#n) ^^^ (b &&& ~~~ 1#n) := by
      ext i hi
      rcases Nat.eq_zero_or_pos i with h | h
      · subst h
        simp [← BitVec.getLsbD_eq_getElem]
        cases b.getLsbD 0 <;> simp [hn]
      · have h1 : (1#n)[i] = false := by
          rw [← BitVec.getLsbD_eq_getElem]; simp; omega
        cases hb0 : b.getLsbD 0 <;> simp [h1]
    have hlow : (b &&& ~~~ 1#n).getLsbD 0 = false := by simp
    have hfun : (b.getLsbD ∘ Nat.succ) = (b >>> 1).getLsbD := by
      funext i; simp [Nat.add_comm]
    rw [hfun, ih _ (b >>> 1) (by intro i hi; simp; exact hb _ (by omega))]
    rw [crcBit_eq _ _ _ hn]
    have hsh : b >>> 1 = (b &&& ~~~ 1#n) >>> 1 := by
      ext i hi
      simp
      intro h
      exact BitVec.lt_of_getLsbD h
    have key : Nat.repeat (stp poly) (k+1) (crc ^^^ b)
        = Nat.repeat (stp poly) k (stp poly (crc ^^^ b)) := by
      have : ∀ (m : Nat) (x : BitVec n), Nat.repeat (stp poly) (m+1) x = Nat.repeat (stp poly) m (stp poly x) := by
        intro m; induction m with
        | zero => intro x; rfl
        | succ m ihm => intro x; rw [Nat.repeat, ihm]; rfl
      exact this k _
    rw [key]
    congr 1
    have e : crc ^^^ b = (crc ^^^ (if b.getLsbD 0 then 1#n else 0#n)) ^^^ (b &&& ~~~ 1#n) := by
      rw [BitVec.xor_assoc, ← hsplit]
    rw [e, stp_xor _ _ _ hlow, ← hsh]

private theorem repeat_succ' {α} (f : α → α) : ∀ (m : Nat) (x : α), Nat.repeat f (m+1) x = Nat.repeat f m (f x)
  | 0, _ => rfl
  | m + 1, x => by
    show f (Nat.repeat f (m+1) x) = f (Nat.repeat f m (f x))
    rw [repeat_succ' f m x]

private theorem repeat_stp_xor {n} (poly : BitVec n) (k : Nat) : ∀ (x y : BitVec n),
    (∀ i, i < k → y.getLsbD i = false) →
    Nat.repeat (stp poly) k (x ^^^ y) = Nat.repeat (stp poly) k x ^^^ (y >>> k) := by
  induction k with
  | zero => intro x y _; simp [Nat.repeat]
  | succ k ih =>
    intro x y h
    rw [repeat_succ', repeat_succ', stp_xor _ _ _ (h 0 (by omega)), ih]
    · congr 1; ext i hi; simp; congr 1; omega
    · intro i hi; simp; exact h _ (by omega)

private theorem table16 : ∀ i, i < 256 → lookup crc16Table i = some (Nat.repeat (stp 0xA001#16) 8 (BitVec.ofNat 16 i)) := by
  decide +kernel
private theorem table32 : ∀ i, i < 256 → lookup crc32Table i = some (Nat.repeat (stp 0xEDB88320#32) 8 (BitVec.ofNat 32 i)) := by
  decide +kernel

private theorem mask16 (i : Nat) : (0xFF#16).getLsbD i = decide (i < 8) := by
  rcases Nat.lt_or_ge i 16 with h | h
  · revert i; decide
  · rw [BitVec.getLsbD_of_ge _ _ h]; simp; omega
private theorem mask32 (i : Nat) : (0xFF#32).getLsbD i = decide (i < 8) := by
  rcases Nat.lt_or_ge i 32 with h | h
  · revert i; decide
  · rw [BitVec.getLsbD_of_ge _ _ h]; simp; omega

private theorem lt256_of {n} (m x : BitVec n) (hm : m.toNat = 255) : (x &&& m).toNat < 256 := by
  rw [BitVec.toNat_and, hm]
  exact Nat.lt_of_le_of_lt Nat.and_le_right (by decide)

private theorem byteStep {n} (poly crc : BitVec n) (b : BitVec 8) (m : BitVec n) (h8 : 8 ≤ n) (hm : m.toNat = 255)
    (hmask : ∀ i, m.getLsbD i = decide (i < 8)) (t : List (BitVec n))
    (ht : ∀ i, i < 256 → lookup t i = some (Nat.repeat (stp poly) 8 (BitVec.ofNat n i))) :
    ∃ v, lookup t ((crc ^^^ b.setWidth n) &&& m).toNat = some v ∧
      (crc >>> 8) ^^^ v = ((List.range 8).map b.getLsbD).foldl (crcBit poly) crc := by
  refine ⟨_, ht _ (lt256_of m _ hm), ?_⟩
  have hfe := feed n poly crc (b.setWidth n) (by omega) 8 (by intro i hi; simp; intro _; exact BitVec.getLsbD_of_ge _ _ hi)
  have hb : (List.range 8).map (b.setWidth n).getLsbD = (List.range 8).map b.getLsbD := by
    apply List.map_congr_left
    intro i hi
    have : i < 8 := List.mem_range.mp hi
    simp; intro; omega
  rw [hb] at hfe
  rw [hfe]
  let x := crc ^^^ b.setWidth n
  have hx : x = (x &&& m) ^^^ (x &&& ~~~ m) := by
    ext i hi
    simp
    cases m[i] <;> simp
  show (crc >>> 8) ^^^ Nat.repeat (stp poly) 8 (BitVec.ofNat n (x &&& m).toNat) = Nat.repeat (stp poly) 8 x
  rw [show Nat.repeat (stp poly) 8 x = Nat.repeat (stp poly) 8 ((x &&& m) ^^^ (x &&& ~~~ m)) by rw [← hx]]
  rw [repeat_stp_xor poly 8 _ _ (by intro i hi; simp [hmask, hi])]
  rw [BitVec.ofNat_toNat, BitVec.setWidth_eq, BitVec.xor_comm]
  congr 1
  ext i hi
  simp only [BitVec.getElem_ushiftRight, BitVec.getLsbD_and, BitVec.getLsbD_not, hmask, x, BitVec.getLsbD_xor,
    BitVec.getLsbD_setWidth]
  have : b.getLsbD (8 + i) = false := BitVec.getLsbD_of_ge _ _ (by omega)
  rw [this]
  simp
  intro h
  exact BitVec.lt_of_getLsbD h

/-- `getCrc32` is the bit-serial reflected CRC-32 (`0xEDB88320`, initial value and final xor all ones) of every
byte string, and never reads outside its table. -/
theorem crc32_standard (msg : List (BitVec 8)) :
    getCrc32 msg = some (crcSerial 0xEDB88320#32 0xFFFFFFFF#32 0xFFFFFFFF#32 msg) := by
  have h : ∀ crc, crc32Loop crc msg = some ((messageBits msg).foldl (crcBit 0xEDB88320#32) crc) := by
    induction msg with
    | nil => intro crc; rfl
    | cons b rest ih =>
      intro crc
      obtain ⟨v, hv, he⟩ := byteStep 0xEDB88320#32 crc b 0xFF#32 (by decide) (by decide) mask32 crc32Table table32
      have hidx : (crc &&& 0xFF#32) ^^^ b.setWidth 32 = (crc ^^^ b.setWidth 32) &&& 0xFF#32 := by
        apply BitVec.eq_of_getLsbD_eq
        intro i hi
        rw [BitVec.getLsbD_xor, BitVec.getLsbD_and, BitVec.getLsbD_and, BitVec.getLsbD_xor, mask32]
        by_cases h : i < 8
        · simp [h]
        · simp [h, BitVec.getLsbD_of_ge b i (by omega)]
      simp only [crc32Loop, hidx, hv, Option.bind_eq_bind, Option.bind_some, ih, messageBits, List.flatMap_cons,
        List.foldl_append, he]
  simp [getCrc32, h, crcSerial]

/-- `getCrc16` is the bit-serial reflected CRC-16 (`0xA001`, initial value all ones, no final xor). -/
theorem crc16_standard (msg : List (BitVec 8)) :
    getCrc16 msg = some (crcSerial 0xA001#16 0xFFFF#16 0#16 msg) := by
  have h : ∀ crc, crc16Loop crc msg = some ((messageBits msg).foldl (crcBit 0xA001#16) crc) := by
    induction msg with
    | nil => intro crc; rfl
    | cons b rest ih =>
      intro crc
      obtain ⟨v, hv, he⟩ := byteStep 0xA001#16 crc b 0xFF#16 (by decide) (by decide) mask16 crc16Table table16
      simp only [crc16Loop, hv, Option.bind_eq_bind, Option.bind_some, ih, messageBits, List.flatMap_cons,
        List.foldl_append, he]
  simp [getCrc16, h, crcSerial]

/-- `getChecksum` is the sum of the bytes as long as that sum fits a signed 32-bit integer. -/
theorem checksum_sum (msg : List (BitVec 8)) (h : (msg.map BitVec.toNat).sum < 2 ^ 31) :
    getChecksum msg = some (BitVec.ofNat 32 (msg.map BitVec.toNat).sum) := by
  have key : ∀ a, a + (msg.map BitVec.toNat).sum < 2 ^ 31 →
      msg.foldl (fun acc b => acc.bind fun a =>
        if a + b.toNat < 2 ^ 31 then some (a + b.toNat) else none) (some a)
      = some (a + (msg.map BitVec.toNat).sum) := by
    induction msg with
    | nil => intro a _; simp
    | cons b rest ih =>
      intro a ha
      simp only [List.map_cons, List.sum_cons] at ha h ⊢
      have h1 : a + b.toNat < 2 ^ 31 := by omega
      simp only [List.foldl_cons, Option.bind_some, if_pos h1]
      rw [ih (by omega) _ (by omega)]
      congr 1; omega
  unfold getChecksum
  rw [key 0 (by simpa using h)]
  simp

/-- Test vector: "123456789" has the published check values. -/
example : getCrc32 ([0x31,0x32,0x33,0x34,0x35,0x36,0x37,0x38,0x39].map (BitVec.ofNat 8)) = some 0xCBF43926#32 := by
  decide +kernel
example : getCrc16 ([0x31,0x32,0x33,0x34,0x35,0x36,0x37,0x38,0x39].map (BitVec.ofNat 8)) = some 0x4B37#16 := by
  decide +kernel
example : (([200#8, 100#8].map BitVec.toNat).sum < 2 ^ 31) := by decide

end Armips.Props
