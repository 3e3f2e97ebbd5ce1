import Verif.Model.ElfFile
/-! # Helper lemmas: parts of byte lists, and replacing parts of them -/
namespace Armips.ElfFile
open Armips.Elf (getWord putWord)

def slice (d : List Byte) (p n : Nat) : List Byte := (d.drop p).take n

def patch (d : List Byte) (p : Nat) (bs : List Byte) : List Byte := d.take p ++ bs ++ d.drop (p + bs.length)

theorem slice_length {d p n} (h : p + n ≤ d.length) : (slice d p n).length = n := by
  simp [slice]; omega

theorem slice_get (d : List Byte) (p n i : Nat) : (slice d p n)[i]? = if i < n then d[p + i]? else none := by
  simp only [slice, List.getElem?_take, List.getElem?_drop]

theorem patch_length {d p bs} (h : p + bs.length ≤ d.length) : (patch d p bs).length = d.length := by
  simp [patch]; omega

theorem patch_get {d : List Byte} {p : Nat} {bs : List Byte} (h : p + bs.length ≤ d.length) (i : Nat) :
    (patch d p bs)[i]? = if i < p then d[i]? else if i < p + bs.length then bs[i - p]? else d[i]? := by
  have hp : (d.take p).length = p := by simp; omega
  simp only [patch]
  by_cases h1 : i < p
  · rw [if_pos h1, List.append_assoc, List.getElem?_append_left (by omega), List.getElem?_take, if_pos h1]
  · rw [if_neg h1]
    by_cases h2 : i < p + bs.length
    · rw [if_pos h2, List.getElem?_append_left (by simp; omega), List.getElem?_append_right (by omega), hp]
    · rw [if_neg h2, List.getElem?_append_right (by simp; omega), List.getElem?_drop]
      congr 1
      simp; omega

theorem slice_ext {d d' : List Byte} {p p' n : Nat} (h : ∀ i < n, d[p + i]? = d'[p' + i]?) : slice d p n = slice d' p' n := by
  apply List.ext_getElem?
  intro i
  rw [slice_get, slice_get]
  split
  · next hi => exact h i hi
  · rfl

theorem slice_patch_other {d p bs} (h : p + bs.length ≤ d.length) {q n} (ho : q + n ≤ p ∨ p + bs.length ≤ q) :
    slice (patch d p bs) q n = slice d q n := by
  apply slice_ext
  intro i hi
  rw [patch_get h]
  rcases ho with ho | ho
  · rw [if_pos (by omega)]
  · rw [if_neg (by omega), if_neg (by omega)]

theorem slice_patch_in {d p bs} (h : p + bs.length ≤ d.length) {k n} (hk : k + n ≤ bs.length) :
    slice (patch d p bs) (p + k) n = slice bs k n := by
  apply slice_ext
  intro i hi
  rw [patch_get h, if_neg (by omega), if_pos (by omega)]
  congr 1; omega

theorem slice_patch_self {d p bs} (h : p + bs.length ≤ d.length) : slice (patch d p bs) p bs.length = bs := by
  have := slice_patch_in h (k := 0) (n := bs.length) (by omega)
  simpa [slice] using this

theorem patch_patch {d p bs cs} (h : p + bs.length + cs.length ≤ d.length) :
    patch (patch d p bs) (p + bs.length) cs = patch d p (bs ++ cs) := by
  apply List.ext_getElem?
  intro i
  rw [patch_get (by rw [patch_length (by omega)]; omega), patch_get (by omega), patch_get (by simp; omega)]
  by_cases h1 : i < p
  · rw [if_pos (by omega), if_pos h1, if_pos h1]
  · by_cases h2 : i < p + bs.length
    · rw [if_pos h2, if_neg h1, if_pos h2, if_neg h1, if_pos (by simp; omega), List.getElem?_append_left (by omega)]
    · by_cases h3 : i < p + bs.length + cs.length
      · rw [if_neg h2, if_pos h3, if_neg h1, if_pos (by simp; omega), List.getElem?_append_right (by omega)]
        congr 1; omega
      · rw [if_neg h2, if_neg h3, if_neg h1, if_neg h2, if_neg h1, if_neg (by simp; omega)]

theorem putWord_patch {e d} {p : Nat} {w : BitVec 32} (h : p + 4 ≤ d.length) :
    putWord e d p w = patch d p (toBytes e 4 w.toNat) := by
  unfold putWord patch
  rw [if_pos ⟨by omega, by omega⟩]
  simp

theorem putHalf_patch {e d} {p : Nat} {w : BitVec 16} (h : p + 2 ≤ d.length) :
    putHalf e d p w = patch d p (toBytes e 2 w.toNat) := by
  unfold putHalf patch
  rw [if_pos h]
  simp

def wordBytes (e : Endianness) (l : List (BitVec 32)) : List Byte := l.flatMap fun w => toBytes e 4 w.toNat
def halfBytes (e : Endianness) (l : List (BitVec 16)) : List Byte := l.flatMap fun w => toBytes e 2 w.toNat

theorem wordBytes_length (e l) : (wordBytes e l).length = 4 * l.length := by
  induction l with
  | nil => rfl
  | cons w l ih => simp only [wordBytes, List.flatMap_cons, List.length_append, toBytes_length, List.length_cons] at ih ⊢; omega

theorem halfBytes_length (e l) : (halfBytes e l).length = 2 * l.length := by
  induction l with
  | nil => rfl
  | cons w l ih => simp only [halfBytes, List.flatMap_cons, List.length_append, toBytes_length, List.length_cons] at ih ⊢; omega

theorem patch_nil (d : List Byte) (p : Nat) : patch d p [] = d := by
  simp [patch]

theorem putWords_patch {e} (l : List (BitVec 32)) : ∀ {d p}, p + 4 * l.length ≤ d.length →
    putWords e d p l = patch d p (wordBytes e l) := by
  induction l with
  | nil => intro d p _; rw [putWords]; exact (patch_nil d p).symm
  | cons w l ih =>
    intro d p h
    simp only [List.length_cons] at h
    rw [putWords, putWord_patch (by omega), ih (by rw [patch_length (by simp; omega)]; omega)]
    have := patch_patch (d := d) (p := p) (bs := toBytes e 4 w.toNat) (cs := wordBytes e l)
      (by rw [wordBytes_length, toBytes_length]; omega)
    rw [toBytes_length] at this
    rw [this]; rfl

theorem putHalves_patch {e} (l : List (BitVec 16)) : ∀ {d p}, p + 2 * l.length ≤ d.length →
    putHalves e d p l = patch d p (halfBytes e l) := by
  induction l with
  | nil => intro d p _; rw [putHalves]; exact (patch_nil d p).symm
  | cons w l ih =>
    intro d p h
    simp only [List.length_cons] at h
    rw [putHalves, putHalf_patch (by omega), ih (by rw [patch_length (by simp; omega)]; omega)]
    have := patch_patch (d := d) (p := p) (bs := toBytes e 2 w.toNat) (cs := halfBytes e l)
      (by rw [halfBytes_length, toBytes_length]; omega)
    rw [toBytes_length] at this
    rw [this]; rfl

theorem slice_slice {d p n k m} (h : k + m ≤ n) : slice (slice d p n) k m = slice d (p + k) m := by
  apply slice_ext
  intro i hi
  rw [slice_get, if_pos (by omega)]
  congr 1; omega

theorem slice_append_left {a b : List Byte} {p n} (h : p + n ≤ a.length) : slice (a ++ b) p n = slice a p n := by
  apply slice_ext
  intro i hi
  rw [List.getElem?_append_left (by omega)]

theorem slice_append_right {a b : List Byte} {p n} : slice (a ++ b) (a.length + p) n = slice b p n := by
  apply slice_ext
  intro i hi
  rw [List.getElem?_append_right (by omega)]
  congr 1; omega

/-- The `k`-th word of a row of words. -/
theorem slice_wordBytes (e) (l : List (BitVec 32)) : ∀ (k : Nat) (w), l[k]? = some w →
    slice (wordBytes e l) (4 * k) 4 = toBytes e 4 w.toNat := by
  induction l with
  | nil => simp
  | cons v l ih =>
    intro k w h
    cases k with
    | zero =>
      simp only [List.getElem?_cons_zero, Option.some.injEq] at h
      subst h
      rw [show wordBytes e (v :: l) = toBytes e 4 v.toNat ++ wordBytes e l from rfl, slice_append_left (by simp)]
      simp only [slice, Nat.mul_zero, List.drop_zero]
      exact List.take_of_length_le (by simp)
    | succ k =>
      rw [List.getElem?_cons_succ] at h
      rw [show wordBytes e (v :: l) = toBytes e 4 v.toNat ++ wordBytes e l from rfl]
      have := slice_append_right (a := toBytes e 4 v.toNat) (b := wordBytes e l) (p := 4 * k) (n := 4)
      rw [toBytes_length] at this
      rw [show 4 * (k + 1) = 4 + 4 * k by omega, this]
      exact ih k w h

theorem slice_halfBytes (e) (l : List (BitVec 16)) : ∀ (k : Nat) (w), l[k]? = some w →
    slice (halfBytes e l) (2 * k) 2 = toBytes e 2 w.toNat := by
  induction l with
  | nil => simp
  | cons v l ih =>
    intro k w h
    cases k with
    | zero =>
      simp only [List.getElem?_cons_zero, Option.some.injEq] at h
      subst h
      rw [show halfBytes e (v :: l) = toBytes e 2 v.toNat ++ halfBytes e l from rfl, slice_append_left (by simp)]
      simp only [slice, Nat.mul_zero, List.drop_zero]
      exact List.take_of_length_le (by simp)
    | succ k =>
      rw [List.getElem?_cons_succ] at h
      rw [show halfBytes e (v :: l) = toBytes e 2 v.toNat ++ halfBytes e l from rfl]
      have := slice_append_right (a := toBytes e 2 v.toNat) (b := halfBytes e l) (p := 2 * k) (n := 2)
      rw [toBytes_length] at this
      rw [show 2 * (k + 1) = 2 + 2 * k by omega, this]
      exact ih k w h

theorem fromBytes_lt (e : Endianness) (l : List Byte) : fromBytes e l < 256 ^ l.length := by
  have : ∀ l : List Byte, fromLE l < 256 ^ l.length := by
    intro l
    induction l with
    | nil => simp [fromLE]
    | cons b l ih =>
      simp only [fromLE, List.length_cons, Nat.pow_succ]
      have := b.isLt
      omega
  cases e
  · simpa [fromBytes, fromBE] using this l.reverse
  · exact this l

theorem getWord_slice {e d p} (h : p + 4 ≤ d.length) : (getWord e d p).toNat = fromBytes e (slice d p 4) := by
  unfold getWord
  rw [if_pos h, BitVec.toNat_ofNat]
  have := fromBytes_lt e (slice d p 4)
  rw [slice_length h] at this
  exact Nat.mod_eq_of_lt (by simpa [slice] using this)

theorem getHalf_slice {e d p} (h : p + 2 ≤ d.length) : (getHalf e d p).toNat = fromBytes e (slice d p 2) := by
  unfold getHalf
  rw [if_pos h, BitVec.toNat_ofNat]
  have := fromBytes_lt e (slice d p 2)
  rw [slice_length h] at this
  exact Nat.mod_eq_of_lt (by simpa [slice] using this)

theorem fromBytes_word (e) (w : BitVec 32) : fromBytes e (toBytes e 4 w.toNat) = w.toNat := by
  rw [fromBytes_toBytes, Nat.mod_eq_of_lt w.isLt]

theorem fromBytes_half (e) (w : BitVec 16) : fromBytes e (toBytes e 2 w.toNat) = w.toNat := by
  rw [fromBytes_toBytes, Nat.mod_eq_of_lt w.isLt]

end Armips.ElfFile
