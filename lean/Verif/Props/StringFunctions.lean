import Verif.Props.Expression
/-!
# String and file functions of expressions (C61, C62)
-/
namespace Armips.Props
open Armips

/-- `t` occurs in `s` at position `i`. -/
def OccursAt (s t : Str) (i : Nat) : Prop := i + t.length ≤ s.length ∧ ∀ j < t.length, s[i + j]? = t[j]?

theorem occursAt_iff (s t : Str) (i : Nat) (hi : i ≤ s.length) : OccursAt s t i ↔ t.isPrefixOf (s.drop i) = true := by
  rw [List.isPrefixOf_iff_prefix, List.prefix_iff_eq_take]
  constructor
  · rintro ⟨h1, h2⟩
    apply List.ext_getElem?
    intro j
    rw [List.getElem?_take]
    by_cases hj : j < t.length
    · rw [if_pos hj, List.getElem?_drop, h2 j hj]
    · rw [if_neg hj, List.getElem?_eq_none (by omega)]
  · intro h
    constructor
    · have := congrArg List.length h
      rw [List.length_take, List.length_drop] at this
      omega
    · intro j hj
      have := congrArg (fun l => l[j]?) h
      simp only [List.getElem?_take, if_pos hj, List.getElem?_drop] at this
      exact this.symm

theorem findFrom_spec (s t : Str) (i : Nat) (hi : i ≤ s.length) :
    match findFrom t i (s.drop i) with
    | none => ∀ k, i ≤ k → k ≤ s.length → ¬ OccursAt s t k
    | some p => i ≤ p ∧ OccursAt s t p ∧ ∀ k, i ≤ k → k < p → ¬ OccursAt s t k := by
  generalize hn : s.length - i = n
  induction n generalizing i with
  | zero =>
    have he : i = s.length := by omega
    have hd : s.drop i = [] := by rw [he]; simp
    rw [hd]
    simp only [findFrom]
    by_cases ht : t.isEmpty
    · simp only [ht, if_true]
      refine ⟨Nat.le_refl _, ?_, fun k h1 h2 => by omega⟩
      have : t = [] := by simpa using ht
      subst this
      exact ⟨by simpa using hi, by simp⟩
    · simp only [ht]
      intro k h1 h2 h3
      have := h3.1
      have : t.length = 0 := by omega
      simp at ht
      exact ht (List.length_eq_zero_iff.1 this)
  | succ n ih =>
    have hlt : i < s.length := by omega
    have hd : s.drop i = s[i] :: s.drop (i + 1) := List.drop_eq_getElem_cons hlt
    rw [hd]
    simp only [findFrom]
    rw [← hd]
    by_cases hp : t.isPrefixOf (s.drop i) = true
    · rw [if_pos hp]
      exact ⟨Nat.le_refl _, (occursAt_iff s t i hi).2 hp, fun k h1 h2 => by omega⟩
    · rw [if_neg hp]
      have hno : ¬ OccursAt s t i := fun h => hp ((occursAt_iff s t i hi).1 h)
      have := ih (i + 1) hlt (by omega)
      split at this
      · intro k h1 h2
        by_cases hk : k = i
        · subst hk; exact hno
        · exact this k (by omega) h2
      · refine ⟨by omega, this.2.1, fun k h1 h2 => ?_⟩
        by_cases hk : k = i
        · subst hk; exact hno
        · exact this.2.2 k (by omega) h2

theorem rfindFrom_spec (s t : Str) (i : Nat) (hi : i ≤ s.length) :
    match rfindFrom s t i with
    | none => ∀ k ≤ i, ¬ OccursAt s t k
    | some p => p ≤ i ∧ OccursAt s t p ∧ ∀ k, p < k → k ≤ i → ¬ OccursAt s t k := by
  induction i with
  | zero =>
    simp only [rfindFrom]
    by_cases hp : t.isPrefixOf s = true
    · rw [if_pos hp]
      exact ⟨Nat.le_refl _, (occursAt_iff s t 0 hi).2 (by simpa using hp), fun k h1 h2 => by omega⟩
    · rw [if_neg hp]
      intro k hk h
      have : k = 0 := by omega
      subst this
      exact hp (by simpa using (occursAt_iff s t 0 hi).1 h)
  | succ i ih =>
    simp only [rfindFrom]
    by_cases hp : t.isPrefixOf (s.drop (i + 1)) = true
    · rw [if_pos hp]
      exact ⟨Nat.le_refl _, (occursAt_iff s t _ hi).2 hp, fun k h1 h2 => by omega⟩
    · rw [if_neg hp]
      have hno : ¬ OccursAt s t (i + 1) := fun h => hp ((occursAt_iff s t _ hi).1 h)
      have := ih (by omega)
      split at this
      · intro k hk
        by_cases hk' : k = i + 1
        · subst hk'; exact hno
        · exact this k (by omega)
      · refine ⟨by omega, this.2.1, fun k h1 h2 => ?_⟩
        by_cases hk' : k = i + 1
        · subst hk'; exact hno
        · exact this.2.2 k h1 (by omega)

/-- `find(s, t, start)` with a start that is not negative is the first position from `start` on where `t` occurs, or -1
if there is none. Without a third parameter the search starts at 0. -/
theorem find_first (H : Host) (c : Ctx) (s t : Str) (start : Nat) (hs : (start : Int) < 2 ^ 63) :
    ∃ r : Int, Builtin.find.exec H c [.str s, .str t, .int start] = .ok (.int r) [] ∧
      (start = 0 → Builtin.find.exec H c [.str s, .str t] = .ok (.int r) []) ∧
      ((r = -1 ∧ ∀ k, start ≤ k → ¬ OccursAt s t k) ∨
       (∃ p : Nat, r = p ∧ start ≤ p ∧ OccursAt s t p ∧ ∀ k, start ≤ k → k < p → ¬ OccursAt s t k)) := by
  have hz : toSizeT start = start := by
    unfold toSizeT; rw [BitVec.toNat_ofInt]
    have h2 : ((2 ^ 64 : Nat) : Int) = 2 ^ 64 := rfl
    rw [h2]; omega
  refine ⟨optPos (strFind s t start), ?_, ?_, ?_⟩
  · simp [Builtin.exec, paramStr, paramInt, paramIntOpt, hz]
  · intro h0
    subst h0
    have hz0 : toSizeT 0 = 0 := by decide
    simp [Builtin.exec, paramStr, paramIntOpt, hz0]
  · unfold strFind
    by_cases h : start > s.length
    · rw [if_pos h]
      exact .inl ⟨rfl, fun k hk ho => by have := ho.1; omega⟩
    · rw [if_neg h]
      have := findFrom_spec s t start (by omega)
      cases heq : findFrom t start (s.drop start) with
      | none =>
        rw [heq] at this
        refine .inl ⟨rfl, fun k hk ho => this k hk (by have := ho.1; omega) ho⟩
      | some p =>
        rw [heq] at this
        exact .inr ⟨p, rfl, this⟩

/-- `rfind(s, t, start)` is the last position up to `start` where `t` occurs, or -1. Without a third parameter it is the
last position of all. -/
theorem rfind_last (H : Host) (c : Ctx) (s t : Str) (start : Nat) (hs : (start : Int) < 2 ^ 63)
    (hlen : s.length < 2 ^ 63) :
    (∃ r : Int, Builtin.rfind.exec H c [.str s, .str t, .int start] = .ok (.int r) [] ∧
      ((r = -1 ∧ ∀ k ≤ start, ¬ OccursAt s t k) ∨
       (∃ p : Nat, r = p ∧ p ≤ start ∧ OccursAt s t p ∧ ∀ k, p < k → k ≤ start → ¬ OccursAt s t k))) ∧
    (∃ r : Int, Builtin.rfind.exec H c [.str s, .str t] = .ok (.int r) [] ∧
      ((r = -1 ∧ ∀ k, ¬ OccursAt s t k) ∨
       (∃ p : Nat, r = p ∧ OccursAt s t p ∧ ∀ k, p < k → ¬ OccursAt s t k))) := by
  have hz : toSizeT start = start := by
    unfold toSizeT; rw [BitVec.toNat_ofInt]
    have h2 : ((2 ^ 64 : Nat) : Int) = 2 ^ 64 := rfl
    rw [h2]; omega
  have hm : toSizeT (-1) = 2 ^ 64 - 1 := by decide
  have key : ∀ pos : Nat, (optPos (strRFind s t pos) = -1 ∧
        (∀ k ≤ pos, ¬ OccursAt s t k)) ∨
      (∃ p : Nat, optPos (strRFind s t pos) = p ∧ p ≤ pos ∧ OccursAt s t p ∧
        ∀ k, p < k → k ≤ pos → ¬ OccursAt s t k) := by
    intro pos
    unfold strRFind
    by_cases h : t.length > s.length
    · rw [if_pos h]
      exact .inl ⟨rfl, fun k hk ho => by have := ho.1; omega⟩
    · rw [if_neg h]
      have := rfindFrom_spec s t (min pos (s.length - t.length)) (by omega)
      cases heq : rfindFrom s t (min pos (s.length - t.length)) with
      | none =>
        rw [heq] at this
        exact .inl ⟨rfl, fun k hk ho => this k (by have := ho.1; omega) ho⟩
      | some p =>
        rw [heq] at this
        exact .inr ⟨p, rfl, by omega, this.2.1, fun k h1 h2 ho => this.2.2 k h1 (by have := ho.1; omega) ho⟩
  constructor
  · refine ⟨_, ?_, key start⟩
    simp [Builtin.exec, paramStr, paramInt, paramIntOpt, hz]
  · refine ⟨optPos (strRFind s t (2 ^ 64 - 1)), ?_, ?_⟩
    · simp only [Builtin.exec, paramStr, paramIntOpt, List.length_cons, List.length_nil, List.getElem?_cons_zero,
        List.getElem?_cons_succ, hm]
      rfl
    · rcases key (2 ^ 64 - 1) with ⟨h1, h2⟩ | ⟨p, h1, h2, h3, h4⟩
      · exact .inl ⟨h1, fun k ho => h2 k (by have := ho.1; omega) ho⟩
      · exact .inr ⟨p, h1, h3, fun k hk ho => h4 k hk (by have := ho.1; omega) ho⟩

/-- `substr(s, start, count)` with a start inside the string (or at its end) and a count that is not negative consists of
the bytes `start`, …, at most `count` of them and none past the end. -/
theorem substr_bytes (H : Host) (c : Ctx) (s : Str) (start count : Nat) (hs : start ≤ s.length)
    (hlen : s.length < 2 ^ 63) (hc : count < 2 ^ 63) :
    ∃ t : Str, Builtin.substr.exec H c [.str s, .int start, .int count] = .ok (.str t) [] ∧
      t.length = min count (s.length - start) ∧ OccursAt s t start := by
  have hz : ∀ n : Nat, n < 2 ^ 63 → toSizeT n = n := by
    intro n hn
    unfold toSizeT; rw [BitVec.toNat_ofInt]
    have h2 : ((2 ^ 64 : Nat) : Int) = 2 ^ 64 := rfl
    rw [h2]; omega
  refine ⟨(s.drop start).take count, ?_, by simp, ?_⟩
  · simp [Builtin.exec, paramStr, paramInt, hz start (by omega), hz count hc, Nat.not_lt.2 hs]
  · constructor
    · simp; omega
    · intro j hj
      simp at hj
      rw [List.getElem?_take, if_pos (by omega), List.getElem?_drop]

/-- A negative start, or one behind the end of the string, is not handled: `std::string::substr` throws. -/
theorem substr_out_of_range (H : Host) (c : Ctx) (s : Str) (start count : Int) (hlen : s.length < 2 ^ 63)
    (h : (-(2 ^ 63) ≤ start ∧ start < 0) ∨ ((s.length : Int) < start ∧ start < 2 ^ 63)) :
    Builtin.substr.exec H c [.str s, .int start, .int count] = .ub := by
  have : toSizeT start > s.length := by
    unfold toSizeT; rw [BitVec.toNat_ofInt]
    have h2 : ((2 ^ 64 : Nat) : Int) = 2 ^ 64 := rfl
    rw [h2]; omega
  simp [Builtin.exec, paramStr, paramInt, this]

example : Builtin.find.exec exampleHost exampleCtx [.str (lit "banana"), .str (lit "an"), .int 2] = .ok (.int 3) [] := by
  decide +kernel
example : Builtin.rfind.exec exampleHost exampleCtx [.str (lit "banana"), .str (lit "an")] = .ok (.int 3) [] := by
  decide +kernel
example : Builtin.substr.exec exampleHost exampleCtx [.str (lit "banana"), .int 2, .int 100] =
    .ok (.str (lit "nana")) [] := by decide +kernel

/-! ## C62 -/

/-- `readu8` … `reads64`: the value of the `n` bytes at the offset in the byte order of the machine, as an unsigned
(modulo 2^64) or two's complement number. A file that does not exist or is too short, and a negative offset, give an
invalid value and an error. -/
theorem read_number (H : Host) (c : Ctx) (n : Nat) (signed : Bool) (name : Str) (pos : Int)
    (hn : n = 1 ∨ n = 2 ∨ n = 4 ∨ n = 8) :
    (∀ content, c.readFile name = some content → 0 ≤ pos → pos + n ≤ content.length →
      ∃ r : Int, (Builtin.read n signed).exec H c [.str name, .int pos] = .ok (.int r) [] ∧
        (∃ k : Int, r = fromBytes H.endianness ((content.drop pos.toNat).take n) + k * 2 ^ (if signed then 8 * n else 64)) ∧
        (if signed then -(2 ^ (8 * n - 1)) ≤ r ∧ r < 2 ^ (8 * n - 1) else InI64 r)) ∧
    ((c.readFile name = none ∨ pos < 0 ∨ (∃ content, c.readFile name = some content ∧ (content.length : Int) < pos + n)) →
      ∃ text, (Builtin.read n signed).exec H c [.str name, .int pos] = .ok .invalid [{ type := .error, text := text }]) := by
  have hsigned : ∀ v : Nat, ∃ k : Int, (BitVec.ofNat (8 * n) v).toInt = v + k * 2 ^ (8 * n) := by
    intro v
    rw [BitVec.toInt_eq_toNat_cond, BitVec.toNat_ofNat]
    have key : ∀ m : Nat, ∃ k : Int, (if 2 * (v % 2 ^ m) < 2 ^ m then ((v % 2 ^ m : Nat) : Int)
        else ((v % 2 ^ m : Nat) : Int) - ((2 ^ m : Nat) : Int)) = v + k * 2 ^ m := by
      intro m
      have h1 := Nat.div_add_mod v (2 ^ m)
      have h2 : ((2 ^ m : Nat) : Int) = 2 ^ m := by simp
      have h3 : (v : Int) = 2 ^ m * (v / 2 ^ m : Nat) + (v % 2 ^ m : Nat) := by
        rw [← h2, ← Int.natCast_mul, ← Int.natCast_add, h1]
      generalize v % 2 ^ m = r at *
      generalize v / 2 ^ m = q at *
      split
      · refine ⟨-q, ?_⟩
        rw [h3, Int.neg_mul, Int.mul_comm (2 ^ m)]; omega
      · refine ⟨-q - 1, ?_⟩
        rw [h3, Int.sub_mul, Int.neg_mul, Int.mul_comm (2 ^ m), h2]; omega
    exact key (8 * n)
  have hrange : ∀ v : Nat, -(2 ^ (8 * n - 1)) ≤ (BitVec.ofNat (8 * n) v).toInt ∧
      (BitVec.ofNat (8 * n) v).toInt < 2 ^ (8 * n - 1) := by
    intro v
    rcases hn with rfl | rfl | rfl | rfl
    all_goals
      rw [BitVec.toInt_eq_toNat_cond, BitVec.toNat_ofNat]
      split <;> omega
  constructor
  · intro content hc h0 hl
    have hlen : ((content.drop pos.toNat).take n).length = n := by simp; omega
    refine ⟨if signed then (BitVec.ofNat (8 * n) (fromBytes H.endianness ((content.drop pos.toNat).take n))).toInt
        else wrap64 (fromBytes H.endianness ((content.drop pos.toNat).take n)), ?_, ?_, ?_⟩
    · have h1 : ¬ pos < 0 := by omega
      simp only [Builtin.exec, expRead, paramStr, paramIntOpt, paramInt, List.length_cons, List.length_nil,
        List.getElem?_cons_zero, List.getElem?_cons_succ, hc, if_neg h1, hlen, Nat.lt_irrefl, if_false]
      rfl
    · generalize fromBytes H.endianness ((content.drop pos.toNat).take n) = v
      cases signed with
      | true => simpa using hsigned v
      | false =>
        simp only [Bool.false_eq_true, if_false, wrap64]
        obtain ⟨k, hk⟩ := toInt_mod (BitVec.ofInt 64 v)
        rw [hk, BitVec.toNat_ofInt]
        have h2 : ((2 ^ 64 : Nat) : Int) = 2 ^ 64 := rfl
        rw [h2]
        exact ⟨k - v / 2 ^ 64, by omega⟩
    · cases signed with
      | true => simpa using hrange _
      | false => simpa [wrap64] using toInt_inI64 _
  · intro h
    have e : (Builtin.read n signed).exec H c [.str name, .int pos] = (match c.readFile name with
        | none => do Ev.queue .error "Could not open file"; pure .invalid
        | some content =>
          if pos < 0 then do Ev.queue .error "Invalid offset"; pure .invalid
          else
            if ((content.drop pos.toNat).take n).length < n then do Ev.queue .error "Failed to read"; pure .invalid
            else
              let v := fromBytes H.endianness ((content.drop pos.toNat).take n)
              pure (.int (if signed then (BitVec.ofNat (8 * n) v).toInt else wrap64 v))) := rfl
    rw [e]
    cases hf : c.readFile name with
    | none => exact ⟨"Could not open file", rfl⟩
    | some content =>
      rw [hf] at h
      simp only
      by_cases h0 : pos < 0
      · rw [if_pos h0]; exact ⟨"Invalid offset", rfl⟩
      · rw [if_neg h0]
        have : ((content.drop pos.toNat).take n).length < n := by
          rcases h with h | h | ⟨content', h, h'⟩
          · simp at h
          · omega
          · simp at h; subst h
            rw [List.length_take, List.length_drop]; omega
        rw [if_pos this]; exact ⟨"Failed to read", rfl⟩

example : (Builtin.read 2 true).exec exampleHost { exampleCtx with readFile := fun _ => some [1#8, 0xFE#8, 0xFF#8] }
    [.str (lit "f"), .int 1] = .ok (.int (-2)) [] := by decide +kernel

end Armips.Props
