import Verif.Model.ByteArray
/-!
# C44: byte arrays behave like byte lists

`BA.Ok` is the class invariant `size_ ≤ allocatedSize_`. Every operation that the class offers for growing an
array keeps it, never touches memory outside the allocation, and acts on `contents` as the corresponding list
operation.
-/
namespace Armips.Props
open Armips BA

/-- Class invariant: the used part lies inside the allocation. -/
def BAOk (a : BA) : Prop := a.size ≤ a.buf.length

private theorem grow_le (junk) (a : BA) (n : Nat) : n ≤ (grow junk a n).buf.length := by
  unfold grow
  split
  · omega
  · simp; omega

private theorem grow_size (junk) (a : BA) (n : Nat) : (grow junk a n).size = a.size := by
  unfold grow; split <;> rfl

private theorem grow_take (junk) (a : BA) (n k : Nat) (h : k ≤ a.buf.length) :
    (grow junk a n).buf.take k = a.buf.take k := by
  unfold grow; split
  · rfl
  · simp [List.take_append, h]

private theorem store_ok (a : BA) (pos : Nat) (bs : List Byte) (h : pos + bs.length ≤ a.buf.length) :
    a.store pos bs = some { a with buf := a.buf.take pos ++ bs ++ a.buf.drop (pos + bs.length) } := by
  unfold store; rw [if_pos h]

theorem ba_empty : BAOk BA.empty ∧ BA.empty.contents = [] := by
  simp [BAOk, BA.empty, contents]

/-- Appending never leaves the allocation, returns the old size and appends to the contents. -/
theorem ba_append (junk) (a : BA) (bs : List Byte) (ha : BAOk a) :
    ∃ a', a.append junk bs = some (a', a.size) ∧ BAOk a' ∧ a'.contents = a.contents ++ bs := by
  unfold BA.append
  have hg := grow_le junk a (a.size + bs.length)
  simp only [store_ok _ _ _ hg]
  refine ⟨_, rfl, ?_, ?_⟩
  · unfold BAOk at *; simp; omega
  · unfold contents
    simp only
    rw [grow_take _ _ _ _ ha, List.take_append_of_le_length (by simp; unfold BAOk at ha; omega)]
    apply List.take_of_length_le
    simp; omega

/-- `reserveBytes` appends `count` copies of the value. -/
theorem ba_reserve (junk) (a : BA) (n : Nat) (v : Byte) (ha : BAOk a) :
    ∃ a', a.reserveBytes junk n v = some a' ∧ BAOk a' ∧ a'.contents = a.contents ++ List.replicate n v := by
  obtain ⟨a', h, h1, h2⟩ := ba_append junk a (List.replicate n v) ha
  refine ⟨a', ?_, h1, h2⟩
  unfold BA.append at h
  unfold BA.reserveBytes
  simp only [List.length_replicate] at h ⊢
  generalize hs : (grow junk a (a.size + n)).store a.size (List.replicate n v) = s at h
  cases s with
  | none => simp at h
  | some s => simpa using h

private theorem size_eq (a : BA) (h : BAOk a) : a.contents.length = a.size := by
  simp [contents]; exact Nat.min_eq_left h

/-- `alignSize` pads the contents with the least number of zero bytes that makes the size a multiple of the
alignment (and does nothing for alignment 0). -/
theorem ba_alignSize (junk) (a : BA) (n : Nat) (ha : BAOk a) :
    ∃ a' k, a.alignSize junk n = some a' ∧ BAOk a' ∧ a'.contents = a.contents ++ List.replicate k 0#8 ∧
      (n = 0 → k = 0) ∧ (0 < n → n ∣ a'.contents.length ∧ k < n) := by
  unfold alignSize
  by_cases hn : n = 0
  · simp only [hn, if_true]
    exact ⟨a, 0, rfl, ha, by simp, by simp, by omega⟩
  · rw [if_neg hn]
    have key : ∀ fuel k (a : BA), BAOk a → (a.size + k) % n = 0 → k < n → k < fuel →
        ∃ a', alignLoop junk n fuel a = some a' ∧ BAOk a' ∧ a'.contents = a.contents ++ List.replicate k 0#8 := by
      intro fuel
      induction fuel with
      | zero => intro k a _ _ _ h; omega
      | succ fuel ih =>
        intro k a ha hk hkn hf
        unfold alignLoop
        by_cases hz : a.size % n = 0
        · have : k = 0 := by
            rcases Nat.eq_zero_or_pos k with h | h
            · exact h
            · rw [Nat.add_mod, hz, Nat.zero_add, Nat.mod_mod, Nat.mod_eq_of_lt hkn] at hk; exact hk
          subst this
          simp [hz, ha]
        · rw [if_pos hz]
          obtain ⟨a', h1, h2, h3⟩ := ba_append junk a [0#8] ha
          have hkpos : 0 < k := by
            rcases Nat.eq_zero_or_pos k with h | h
            · subst h; simp at hk; contradiction
            · exact h
          have hsz : a'.size = a.size + 1 := by
            rw [← size_eq a' h2, h3, List.length_append, size_eq a ha]; rfl
          obtain ⟨a'', e1, e2, e3⟩ := ih (k - 1) a' h2 (by rw [hsz]; rw [← hk]; congr 1; omega) (by omega) (by omega)
          refine ⟨a'', by simp [h1, e1], e2, ?_⟩
          rw [e3, h3, List.append_assoc]
          congr 1
          rw [show k = (k - 1) + 1 by omega, List.replicate_succ]; simp
    have hpos : 0 < n := by omega
    let k := (n - a.size % n) % n
    have hk : (a.size + k) % n = 0 := by
      simp only [k]
      have hlt := Nat.mod_lt a.size hpos
      by_cases hz : a.size % n = 0
      · simp [hz]
      · rw [Nat.mod_eq_of_lt (a := n - a.size % n) (by omega), Nat.add_mod, Nat.mod_eq_of_lt (a := n - a.size % n) (by omega)]
        rw [show a.size % n + (n - a.size % n) = n by omega, Nat.mod_self]
    obtain ⟨a', h1, h2, h3⟩ := key (n + 1) k a ha hk (Nat.mod_lt _ hpos) (by have := Nat.mod_lt (n - a.size % n) hpos; omega)
    refine ⟨a', k, h1, h2, h3, by omega, fun _ => ⟨?_, Nat.mod_lt _ hpos⟩⟩
    rw [h3, List.length_append, size_eq a ha, List.length_replicate]
    exact Nat.dvd_of_mod_eq_zero hk

/-- Writing over existing bytes replaces exactly those bytes. -/
private theorem store_contents (a : BA) (pos : Nat) (bs : List Byte) (ha : BAOk a) (h : pos + bs.length ≤ a.size) :
    ∃ a', a.store pos bs = some a' ∧ BAOk a' ∧ a'.size = a.size ∧
      a'.contents = a.contents.take pos ++ bs ++ a.contents.drop (pos + bs.length) := by
  unfold BAOk at *
  rw [store_ok _ _ _ (by omega)]
  refine ⟨_, rfl, by simp; omega, rfl, ?_⟩
  unfold contents
  simp only
  apply List.ext_getElem
  · simp; omega
  · intro i h1 h2
    simp only [List.getElem_take, List.getElem_append, List.getElem_drop, List.length_append, List.length_take]
    simp at h1
    split
    · rename_i h3
      have : i < min pos (min a.size a.buf.length) + bs.length := by omega
      rw [dif_pos this]
      split
      · rw [dif_pos (by omega)]
      · rw [dif_neg (by omega)]; congr 1; omega
    · rw [dif_neg (by omega)]; congr 1; omega

/-- `replaceBytes` at an in-range position overwrites exactly the addressed bytes. -/
theorem ba_replaceBytes (a : BA) (pos : Nat) (bs : List Byte) (ha : BAOk a) (h : pos + bs.length ≤ a.contents.length) :
    ∃ a', a.replaceBytes pos bs = some a' ∧ BAOk a' ∧
      a'.contents = a.contents.take pos ++ bs ++ a.contents.drop (pos + bs.length) := by
  induction bs generalizing a pos with
  | nil => exact ⟨a, rfl, ha, by simp⟩
  | cons b bs ih =>
    rw [size_eq a ha] at h
    simp only [List.length_cons] at h
    obtain ⟨a1, e1, e2, e3, e4⟩ := store_contents a pos [b] ha (by simp; omega)
    obtain ⟨a2, f1, f2, f3⟩ := ih a1 (pos + 1) e2 (by rw [size_eq a1 e2, e3]; omega)
    refine ⟨a2, by simp [BA.replaceBytes, BA.replaceByte, e1, f1], f2, ?_⟩
    rw [f3, e4]
    have hl := size_eq a ha
    have hlen : (a.contents.take pos).length = pos := by simp; omega
    simp only [List.length_singleton, List.length_cons]
    rw [List.take_append_of_le_length (by simp; omega), List.take_of_length_le (by simp; omega),
      List.drop_append, List.drop_of_length_le (by simp; omega)]
    simp only [List.length_append, hlen, List.length_singleton, List.drop_drop, List.nil_append, List.append_assoc,
      List.cons_append]
    congr 4; simp; omega

private theorem two (a : BA) (pos : Nat) (x y : Byte) (ha : BAOk a) (h : pos + 2 ≤ a.contents.length) :
    ∃ a', (do let a ← a.replaceByte pos x; a.replaceByte (pos + 1) y) = some a' ∧ BAOk a' ∧
      a'.contents = a.contents.take pos ++ [x, y] ++ a.contents.drop (pos + 2) := by
  obtain ⟨a', h1, h2, h3⟩ := ba_replaceBytes a pos [x, y] ha h
  refine ⟨a', ?_, h2, h3⟩
  rw [← h1]
  simp [BA.replaceBytes]

private theorem four (a : BA) (pos : Nat) (x y z w : Byte) (ha : BAOk a) (h : pos + 4 ≤ a.contents.length) :
    ∃ a', (do let a ← a.replaceByte pos x; let a ← a.replaceByte (pos + 1) y
              let a ← a.replaceByte (pos + 2) z; a.replaceByte (pos + 3) w) = some a' ∧ BAOk a' ∧
      a'.contents = a.contents.take pos ++ [x, y, z, w] ++ a.contents.drop (pos + 4) := by
  obtain ⟨a', h1, h2, h3⟩ := ba_replaceBytes a pos [x, y, z, w] ha h
  refine ⟨a', ?_, h2, h3⟩
  rw [← h1]
  simp [BA.replaceBytes]

private theorem byteOf_eq (w : BitVec 32) (s : Nat) : byteOf w s = BitVec.ofNat 8 (w.toNat / 2 ^ s) := by
  apply BitVec.eq_of_toNat_eq
  unfold byteOf
  simp only [BitVec.toNat_setWidth, BitVec.toNat_and, BitVec.toNat_ushiftRight, BitVec.toNat_ofNat,
    Nat.shiftRight_eq_div_pow]
  rw [show (255 % 2 ^ 32 : Nat) = 2 ^ 8 - 1 by decide, Nat.and_two_pow_sub_one_eq_mod, Nat.mod_mod]

private theorem le2 (w : BitVec 32) : toLE 2 w.toNat = [byteOf w 0, byteOf w 8] := by
  simp [toLE, byteOf_eq]
private theorem le4 (w : BitVec 32) : toLE 4 w.toNat = [byteOf w 0, byteOf w 8, byteOf w 16, byteOf w 24] := by
  simp [toLE, byteOf_eq, Nat.div_div_eq_div_mul]

/-- An in-range 16-bit write stores the two bytes of the value in the chosen order and changes nothing else. -/
theorem ba_replaceWord (a : BA) (pos : Nat) (w : BitVec 32) (e : Endianness) (ha : BAOk a)
    (hs : a.contents.length < 2 ^ 64) (h : pos + 2 ≤ a.contents.length) :
    ∃ a', a.replaceWord pos w e = some a' ∧ BAOk a' ∧
      a'.contents = a.contents.take pos ++ toBytes e 2 w.toNat ++ a.contents.drop (pos + 2) := by
  unfold replaceWord
  rw [if_neg (by rw [size_eq a ha] at *; rw [Nat.mod_eq_of_lt] <;> omega)]
  cases e
  · simpa [toBytes, toBE, le2] using two a pos (byteOf w 8) (byteOf w 0) ha h
  · simpa [toBytes, le2] using two a pos (byteOf w 0) (byteOf w 8) ha h

/-- An in-range 32-bit write stores the four bytes of the value in the chosen order and changes nothing else. -/
theorem ba_replaceDoubleWord (a : BA) (pos : Nat) (w : BitVec 32) (e : Endianness) (ha : BAOk a)
    (hs : a.contents.length < 2 ^ 64) (h : pos + 4 ≤ a.contents.length) :
    ∃ a', a.replaceDoubleWord pos w e = some a' ∧ BAOk a' ∧
      a'.contents = a.contents.take pos ++ toBytes e 4 w.toNat ++ a.contents.drop (pos + 4) := by
  unfold replaceDoubleWord
  rw [if_neg (by rw [size_eq a ha] at *; rw [Nat.mod_eq_of_lt] <;> omega)]
  cases e
  · simpa [toBytes, toBE, le4] using four a pos (byteOf w 24) (byteOf w 16) (byteOf w 8) (byteOf w 0) ha h
  · simpa [toBytes, le4] using four a pos (byteOf w 0) (byteOf w 8) (byteOf w 16) (byteOf w 24) ha h

private theorem at_contents (a : BA) (i : Nat) (ha : BAOk a) (h : i < a.contents.length) :
    a.at? i = some (a.contents[i]) := by
  rw [size_eq a ha] at h
  unfold BAOk at ha
  simp only [BA.at?, contents, List.getElem_take]
  exact List.getElem?_eq_getElem (by omega)

private theorem or_shift (x : BitVec 32) (y : Byte) (s : Nat) (hx : x.toNat < 2 ^ s) (hs : s + 8 ≤ 32) :
    (x ||| (y.setWidth 32 <<< s)).toNat = x.toNat + 2 ^ s * y.toNat := by
  have hy := y.isLt
  have h1 : (y.setWidth 32 <<< s).toNat = 2 ^ s * y.toNat := by
    rw [BitVec.toNat_shiftLeft, BitVec.toNat_setWidth, Nat.mod_eq_of_lt (a := y.toNat) (by omega), Nat.shiftLeft_eq,
      Nat.mul_comm]
    apply Nat.mod_eq_of_lt
    calc 2 ^ s * y.toNat < 2 ^ s * 2 ^ 8 := Nat.mul_lt_mul_of_pos_left hy (Nat.two_pow_pos s)
      _ = 2 ^ (s + 8) := (Nat.pow_add 2 s 8).symm
      _ ≤ 2 ^ 32 := Nat.pow_le_pow_right (by decide) hs
  rw [BitVec.toNat_or, h1, Nat.or_comm, ← Nat.two_pow_add_eq_or_of_lt hx, Nat.add_comm]

private theorem word2 (x y : Byte) : (x.setWidth 32 ||| (y.setWidth 32 <<< 8)).toNat = fromLE [x, y] := by
  have := x.isLt
  have h0 : (x.setWidth 32).toNat = x.toNat := by
    rw [BitVec.toNat_setWidth]; exact Nat.mod_eq_of_lt (by omega)
  rw [or_shift _ _ _ (by rw [h0]; omega) (by decide), h0]
  simp [fromLE]

private theorem word4 (x y z w : Byte) : (x.setWidth 32 ||| (y.setWidth 32 <<< 8) ||| (z.setWidth 32 <<< 16) |||
    (w.setWidth 32 <<< 24)).toNat = fromLE [x, y, z, w] := by
  have := x.isLt
  have := y.isLt
  have := z.isLt
  have h1 : (x.setWidth 32 ||| (y.setWidth 32 <<< 8)).toNat = x.toNat + 256 * y.toNat := by
    rw [word2]; simp [fromLE]
  have h2 := or_shift (x.setWidth 32 ||| (y.setWidth 32 <<< 8)) z 16 (by rw [h1]; omega) (by decide)
  rw [or_shift _ w 24 (by rw [h2, h1]; omega) (by decide), h2, h1]
  simp [fromLE]; omega

private theorem drop_take2 (l : List Byte) (p : Nat) (h : p + 2 ≤ l.length) :
    (l.drop p).take 2 = [l[p], l[p+1]] := by
  apply List.ext_getElem
  · simp; omega
  · intro i h1 h2
    simp at h2
    match i, h2 with
    | 0, _ => simp
    | 1, _ => simp

private theorem drop_take4 (l : List Byte) (p : Nat) (h : p + 4 ≤ l.length) :
    (l.drop p).take 4 = [l[p], l[p+1], l[p+2], l[p+3]] := by
  apply List.ext_getElem
  · simp; omega
  · intro i h1 h2
    simp at h2
    match i, h2 with
    | 0, _ => simp
    | 1, _ => simp
    | 2, _ => simp
    | 3, _ => simp

/-- An in-range 16-bit read returns the number denoted by the two addressed bytes. -/
theorem ba_getWord (a : BA) (pos : Nat) (e : Endianness) (ha : BAOk a) (hs : a.contents.length < 2 ^ 64)
    (h : pos + 2 ≤ a.contents.length) :
    ∃ v, a.getWord pos e = some v ∧ v.toNat = fromBytes e ((a.contents.drop pos).take 2) := by
  unfold getWord
  rw [if_neg (by rw [size_eq a ha] at *; rw [Nat.mod_eq_of_lt] <;> omega)]
  rw [at_contents a pos ha (by omega), at_contents a (pos + 1) ha (by omega), drop_take2 _ _ h]
  cases e
  · exact ⟨_, rfl, by rw [word2]; rfl⟩
  · exact ⟨_, rfl, by rw [word2]; rfl⟩

/-- An in-range 32-bit read returns the number denoted by the four addressed bytes. -/
theorem ba_getDoubleWord (a : BA) (pos : Nat) (e : Endianness) (ha : BAOk a) (hs : a.contents.length < 2 ^ 64)
    (h : pos + 4 ≤ a.contents.length) :
    ∃ v, a.getDoubleWord pos e = some v ∧ v.toNat = fromBytes e ((a.contents.drop pos).take 4) := by
  unfold getDoubleWord
  rw [if_neg (by rw [size_eq a ha] at *; rw [Nat.mod_eq_of_lt] <;> omega)]
  rw [at_contents a pos ha (by omega), at_contents a (pos + 1) ha (by omega), at_contents a (pos + 2) ha (by omega),
    at_contents a (pos + 3) ha (by omega), drop_take4 _ _ h]
  cases e
  · exact ⟨_, rfl, by rw [word4]; rfl⟩
  · exact ⟨_, rfl, by rw [word4]; rfl⟩

private theorem mid_slice (l : List Byte) (p : Nat) (bs : List Byte) (h : p + bs.length ≤ l.length) :
    ((l.take p ++ bs ++ l.drop (p + bs.length)).drop p).take bs.length = bs := by
  rw [List.append_assoc, List.drop_append_of_le_length (by simp; omega), List.drop_of_length_le (by simp; omega),
    List.nil_append, List.take_append_of_le_length (by omega), List.take_of_length_le (by omega)]

/-- Reading a 32-bit word just written returns it, in either byte order. -/
theorem ba_doubleWord_roundtrip (a : BA) (pos : Nat) (w : BitVec 32) (e : Endianness) (ha : BAOk a)
    (hs : a.contents.length < 2 ^ 64) (h : pos + 4 ≤ a.contents.length) :
    ∃ a', a.replaceDoubleWord pos w e = some a' ∧ a'.getDoubleWord pos e = some w := by
  obtain ⟨a', h1, h2, h3⟩ := ba_replaceDoubleWord a pos w e ha hs h
  have hl : a'.contents.length = a.contents.length := by rw [h3]; simp; omega
  obtain ⟨v, e1, e2⟩ := ba_getDoubleWord a' pos e h2 (by omega) (by omega)
  refine ⟨a', h1, ?_⟩
  rw [e1]
  congr 1
  apply BitVec.eq_of_toNat_eq
  have := mid_slice a.contents pos (toBytes e 4 w.toNat) (by simpa using h)
  simp only [toBytes_length] at this
  rw [e2, h3, this, fromBytes_toBytes]
  exact Nat.mod_eq_of_lt w.isLt

/-- Reading a 16-bit word just written returns its low 16 bits, in either byte order. -/
theorem ba_word_roundtrip (a : BA) (pos : Nat) (w : BitVec 32) (e : Endianness) (ha : BAOk a)
    (hs : a.contents.length < 2 ^ 64) (h : pos + 2 ≤ a.contents.length) :
    ∃ a' v, a.replaceWord pos w e = some a' ∧ a'.getWord pos e = some v ∧ v.toNat = w.toNat % 2 ^ 16 := by
  obtain ⟨a', h1, h2, h3⟩ := ba_replaceWord a pos w e ha hs h
  have hl : a'.contents.length = a.contents.length := by rw [h3]; simp; omega
  obtain ⟨v, e1, e2⟩ := ba_getWord a' pos e h2 (by omega) (by omega)
  refine ⟨a', v, h1, e1, ?_⟩
  have := mid_slice a.contents pos (toBytes e 2 w.toNat) (by simpa using h)
  simp only [toBytes_length] at this
  rw [e2, h3, this, fromBytes_toBytes]

/-- Out-of-range reads return -1 and out-of-range writes change nothing, for every position whose check does
not wrap around the 64-bit address space. -/
theorem ba_outOfRange (a : BA) (pos : Nat) (w : BitVec 32) (e : Endianness) (hp : pos + 3 < 2 ^ 64) (ha : BAOk a) :
    (a.contents.length < pos + 2 → a.getWord pos e = some (-1#32) ∧ a.replaceWord pos w e = some a) ∧
    (a.contents.length < pos + 4 → a.getDoubleWord pos e = some (-1#32) ∧ a.replaceDoubleWord pos w e = some a) := by
  rw [size_eq a ha]
  constructor
  · intro h
    have : (pos + 1) % 2 ^ 64 ≥ a.size := by rw [Nat.mod_eq_of_lt (by omega)]; omega
    simp [getWord, replaceWord, this]
  · intro h
    have : (pos + 3) % 2 ^ 64 ≥ a.size := by rw [Nat.mod_eq_of_lt (by omega)]; omega
    simp [getDoubleWord, replaceDoubleWord, this]

/-- `mid` with an in-range slice returns that slice; a negative length means "to the end"; a start at or past
the end gives an empty array. -/
theorem ba_mid (junk) (a : BA) (start : Nat) (length : Int) (ha : BAOk a)
    (h : 0 ≤ length → start < a.contents.length → start + length.toNat ≤ a.contents.length) :
    ∃ a', a.mid junk start length = some a' ∧ BAOk a' ∧
      a'.contents = if length < 0 then a.contents.drop start else (a.contents.drop start).take length.toNat := by
  rw [size_eq a ha] at h
  unfold mid
  by_cases hs : start ≥ a.size
  · rw [if_pos hs]
    refine ⟨_, rfl, ba_empty.1, ?_⟩
    rw [ba_empty.2]
    have : a.contents.drop start = [] := List.drop_of_length_le (by rw [size_eq a ha]; exact hs)
    simp [this]
  · rw [if_neg hs]
    have hb := ha
    unfold BAOk at hb
    have hlen : start + (if length < 0 then a.size - start else length.toNat) ≤ a.size := by
      split
      · omega
      · exact h (by omega) (by omega)
    generalize hL : (if length < 0 then a.size - start else length.toNat) = L at hlen
    have hload : a.load start L = some ((a.contents.drop start).take L) := by
      unfold load
      rw [if_pos (by omega)]
      congr 1
      unfold contents
      rw [List.drop_take, List.take_take]
      congr 1; omega
    have hbl : ((a.contents.drop start).take L).length = L := by simp [size_eq a ha]; omega
    rw [hload]
    have hg := grow_le junk BA.empty L
    simp only [Option.bind_eq_bind, Option.bind_some]
    rw [store_ok _ _ _ (by simp only [hbl]; omega)]
    refine ⟨_, rfl, ?_, ?_⟩
    · unfold BAOk; simp only [List.length_append, List.length_take, List.length_drop, hbl]; omega
    · simp only [contents, List.take_zero, List.nil_append]
      rw [List.take_append_of_le_length (by rw [show (a.buf.take a.size) = a.contents from rfl, hbl]; omega), List.take_take,
        Nat.min_self]
      split
      · rename_i hneg
        rw [if_pos hneg] at hL
        apply List.take_of_length_le
        simp; omega
      · rename_i hneg
        rw [if_neg hneg] at hL
        rw [hL]

/-- The length is not clamped: asking for more than the array holds can read outside the allocation. -/
theorem ba_mid_overread : ∃ a : BA, BAOk a ∧ ∀ junk, a.mid junk 0 5 = none := by
  refine ⟨⟨[1#8, 2#8], 2⟩, by unfold BAOk; decide, fun junk => rfl⟩

/-- The bounds check wraps: at the last position of the address space it lets an access through that is outside
the array. -/
theorem ba_outOfRange_wraps : ∃ (a : BA) (pos : Nat), BAOk a ∧ pos < 2 ^ 64 ∧ a.contents.length < pos + 2 ∧
    a.getWord pos .little = none := by
  refine ⟨⟨[1#8, 2#8], 2⟩, 2 ^ 64 - 1, by unfold BAOk; decide, by decide, by decide, by decide +kernel⟩

-- a concrete array meeting the hypotheses of the in-range theorems
example : ∃ a : BA, BAOk a ∧ a.contents.length < 2 ^ 64 ∧ 1 + 4 ≤ a.contents.length ∧ a.contents.length < 2 + 4 :=
  ⟨⟨[1#8, 2#8, 3#8, 4#8, 5#8, 6#8], 5⟩, by unfold BAOk; decide, by decide, by decide, by decide⟩

end Armips.Props
