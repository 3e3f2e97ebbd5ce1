import Verif.Model.Object
/-! # Helper lemmas: archives -/
namespace Armips.Object
open Armips.Spec

theorem digit_byte {k : Nat} (h : k < 10) : BitVec.ofNat 8 (Nat.digitChar k).toNat = BitVec.ofNat 8 (0x30 + k) := by
  have : ∀ k < 10, BitVec.ofNat 8 (Nat.digitChar k).toNat = BitVec.ofNat 8 (0x30 + k) := by decide
  exact this k h

/-- The digits of a number as bytes. -/
def digits (n : Nat) : List Byte := (Nat.toDigits 10 n).map fun c => BitVec.ofNat 8 c.toNat

theorem arSize_digit {k n : Nat} (hk : k < 10) (hn : n * 10 + k < 2 ^ 31) (r : List Byte) :
    arSize (BitVec.ofNat 8 (0x30 + k) :: r) n = arSize r (n * 10 + k) := by
  have h1 : (BitVec.ofNat 8 (0x30 + k)).toNat = 0x30 + k := by rw [BitVec.toNat_ofNat]; omega
  have h2 : BitVec.ofNat 8 (0x30 + k) ≠ 0x20#8 := by
    intro hc
    have := congrArg BitVec.toNat hc
    rw [h1] at this
    simp at this
    omega
  rw [arSize, if_neg h2, h1, if_pos ⟨by omega, by omega, by omega⟩]
  congr 1; omega

theorem arSize_digits : ∀ (n : Nat), n < 2 ^ 31 → ∀ r, arSize (digits n ++ r) 0 = arSize r n := by
  intro n
  induction n using Nat.strongRecOn with
  | ind n ih =>
    intro hn r
    unfold digits
    rw [Nat.toDigits_eq_if (by omega)]
    split
    · next h =>
      rw [List.map_singleton, digit_byte h, List.singleton_append, arSize_digit h (by omega)]
      simp
    · next h =>
      rw [List.map_append, List.map_singleton, digit_byte (Nat.mod_lt _ (by omega)), List.append_assoc, List.singleton_append]
      refine (ih (n / 10) (by omega) (by omega) _).trans ?_
      rw [arSize_digit (Nat.mod_lt _ (by omega)) (by omega)]
      congr 1; omega

theorem decimal_eq (n : Nat) : Obj.decimal n = digits n := by
  unfold Obj.decimal Obj.ascii digits
  rw [show (toString n) = Nat.repr n from rfl, Nat.toList_repr]

theorem arSize_field {n k : Nat} (h : n < 2 ^ 31) : arSize (Obj.field k (Obj.decimal n)) 0 = some n := by
  rw [Obj.field, decimal_eq, arSize_digits n h]
  cases (k - (digits n).length) with
  | zero => rfl
  | succ m => rw [List.replicate_succ, arSize, if_pos rfl]

theorem digits_length {n k : Nat} (hk : 0 < k) (h : n < 10 ^ k) : (digits n).length ≤ k := by
  unfold digits
  rw [List.length_map]
  exact Nat.length_toDigits_le_iff (by omega) hk |>.2 h

theorem takeWhile_all {p : Byte → Bool} {l : List Byte} (h : ∀ b ∈ l, p b = true) (r : List Byte) :
    (l ++ r).takeWhile p = l ++ r.takeWhile p := by
  induction l with
  | nil => rfl
  | cons b l ih =>
    rw [List.cons_append, List.takeWhile_cons, if_pos (h b (List.mem_cons_self ..)), ih (fun c hc => h c (List.mem_cons_of_mem _ hc))]
    rfl

theorem takeWhile_spaces (k : Nat) : (List.replicate k 0x20#8).takeWhile (fun b => decide (b ≠ 0x20#8)) = [] := by
  cases k <;> simp [List.replicate_succ]

theorem getLast_append_slash (n : List Byte) : (n ++ [0x2F#8]).getLast? = some 0x2F#8 := by simp

theorem field_length {n : Nat} {s : List Byte} (h : s.length ≤ n) : (Obj.field n s).length = n := by
  unfold Obj.field; rw [List.length_append, List.length_replicate]; omega

theorem arName_field {f n : List Byte} (hf : Obj.Names f n) (hn : Obj.Short n) : arName f = n := by
  obtain ⟨h1, h2, h3, h4⟩ := hn
  have key : ∀ m : List Byte, 0x20#8 ∉ m → (Obj.field 16 m).takeWhile (fun b => decide (b ≠ 0x20#8)) = m := by
    intro m hm
    unfold Obj.field
    rw [takeWhile_all (fun b hb => decide_eq_true (p := b ≠ 0x20#8) (fun hc => hm (hc ▸ hb))), takeWhile_spaces, List.append_nil]
  have zero : ∀ m : List Byte, 0#8 ∉ m → m.takeWhile (fun b => decide (b ≠ 0#8)) = m := by
    intro m hm
    have := takeWhile_all (p := fun b => decide (b ≠ 0#8)) (l := m) (fun b hb => decide_eq_true (fun hc => hm (hc ▸ hb))) []
    simpa using this
  unfold arName
  rcases hf with rfl | rfl
  · rw [key n h3]
    simp only
    rw [if_neg (fun hc => h4 hc.2), zero n h2]
  · rw [key _ (by simp [h3])]
    simp only
    rw [getLast_append_slash, field_length (by simp; omega)]
    rw [if_pos ⟨by simp; omega, rfl⟩, List.dropLast_concat, zero n h2]

theorem elfMagic_eq : elfMagic = 0x7F#8 :: Obj.ascii "ELF" := by decide
theorem arMagic_eq : Obj.ascii "!<arch>\n" = arMagic := by decide

theorem member_parts {m : Obj.Member} (h : m.Valid) (rest : List Byte) :
    let r := m.bytes ++ rest
    r.take 16 = m.name ∧ (r.drop 48).take 10 = Obj.field 10 (Obj.decimal m.data.length) ∧
    r.drop 60 = m.data ++ (List.replicate (m.data.length % 2) 0x0A#8 ++ rest) ∧ 60 + m.data.length ≤ r.length := by
  have l1 := h.name
  have l2 := h.middle
  have l3 : (Obj.field 10 (Obj.decimal m.data.length)).length = 10 :=
    field_length (by rw [decimal_eq]; exact digits_length (by omega) h.size)
  intro r
  have hr : r = m.name ++ (m.middle ++ (Obj.field 10 (Obj.decimal m.data.length) ++
      ([0x60#8, 0x0A#8] ++ (m.data ++ (List.replicate (m.data.length % 2) 0x0A#8 ++ rest))))) := by
    show m.bytes ++ rest = _
    simp only [Obj.Member.bytes, List.append_assoc]
  generalize Obj.field 10 (Obj.decimal m.data.length) = c at *
  generalize List.replicate (m.data.length % 2) 0x0A#8 ++ rest = tail at *
  have d48 : r.drop 48 = c ++ ([0x60#8, 0x0A#8] ++ (m.data ++ tail)) := by
    rw [hr, ← List.append_assoc, List.drop_append_of_le_length (by simp; omega), List.drop_eq_nil_of_le (by simp; omega), List.nil_append]
  refine ⟨?_, ?_, ?_, ?_⟩
  · rw [hr, List.take_append_of_le_length (by omega), List.take_of_length_le (by omega)]
  · rw [d48, List.take_append_of_le_length (by omega), List.take_of_length_le (by omega)]
  · have : r.drop 60 = (r.drop 48).drop 12 := by rw [List.drop_drop]
    rw [this, d48, ← List.append_assoc, List.drop_append_of_le_length (by simp; omega), List.drop_eq_nil_of_le (by simp; omega), List.nil_append]
  · rw [hr]
    simp only [List.length_append, List.length_cons, List.length_nil]
    omega

theorem arLoop_members : ∀ (ms : List Obj.Member) (fuel : Nat), ms.length ≤ fuel → (∀ m ∈ ms, m.Valid) →
    (∀ m ∈ ms, 4 ≤ m.data.length ∧ m.data.length < 2 ^ 31) →
    arLoop fuel (ms.flatMap Obj.Member.bytes) =
      some ((ms.filter fun m => decide (Obj.IsElf m.data)).map fun m => ⟨arName m.name, m.data⟩) := by
  intro ms
  induction ms with
  | nil => intro fuel _ _ _; cases fuel <;> rfl
  | cons m ms ih =>
    intro fuel hf hv hs
    cases fuel with
    | zero => simp at hf
    | succ fuel =>
      have hi := ih fuel (by simpa using hf) (fun x hx => hv x (List.mem_cons_of_mem _ hx)) (fun x hx => hs x (List.mem_cons_of_mem _ hx))
      have hm := hv m (List.mem_cons_self ..)
      obtain ⟨s1, s2⟩ := hs m (List.mem_cons_self ..)
      rw [List.flatMap_cons]
      obtain ⟨p1, p2, p3, p4⟩ := member_parts hm (ms.flatMap Obj.Member.bytes)
      rw [arLoop, if_neg (by intro hc; rw [hc] at p4; simp at p4), if_neg (by omega), p1, p2, p3, arSize_field s2]
      simp only [Option.bind_eq_bind, Option.bind_some]
      have hdrop : (m.data ++ (List.replicate (m.data.length % 2) 0x0A#8 ++ ms.flatMap Obj.Member.bytes)).drop
          (m.data.length + m.data.length % 2) = ms.flatMap Obj.Member.bytes := by
        rw [← List.append_assoc, List.drop_append_of_le_length (by simp), List.drop_eq_nil_of_le (by simp), List.nil_append]
      rw [hdrop, hi, List.take_append_of_le_length s1, List.take_append_of_le_length (Nat.le_refl _), List.take_length]
      by_cases he : Obj.IsElf m.data
      · rw [if_pos (by rw [elfMagic_eq]; exact he), if_pos (by simp), List.filter_cons, if_pos (decide_eq_true he)]
        rfl
      · rw [if_neg (by rw [elfMagic_eq]; exact he), List.filter_cons, if_neg (by simpa using he)]

theorem flatMap_length : ∀ (ms : List Obj.Member), (∀ m ∈ ms, m.Valid) →
    ms.length ≤ (ms.flatMap Obj.Member.bytes).length := by
  intro ms
  induction ms with
  | nil => intro _; simp
  | cons m ms ih =>
    intro hv
    have := ih (fun x hx => hv x (List.mem_cons_of_mem _ hx))
    have := (member_parts (hv m (List.mem_cons_self ..)) (ms.flatMap Obj.Member.bytes)).2.2.2
    have p : (m.bytes).length ≥ 60 := by
      have := (member_parts (hv m (List.mem_cons_self ..)) []).2.2.2
      simp only [List.append_nil] at this
      omega
    rw [List.flatMap_cons, List.length_cons, List.length_append]
    omega

theorem loadArchive_archive {name : List Byte} {ms : List Obj.Member} (hv : ∀ m ∈ ms, m.Valid)
    (hs : ∀ m ∈ ms, 4 ≤ m.data.length ∧ m.data.length < 2 ^ 31) :
    loadArchive name (Obj.archive ms) =
      some ((ms.filter fun m => decide (Obj.IsElf m.data)).map fun m => ⟨arName m.name, m.data⟩) := by
  have h8 : arMagic.length = 8 := rfl
  unfold loadArchive Obj.archive
  rw [arMagic_eq, if_neg (by
    rw [List.take_append_of_le_length (by omega), List.length_append]
    rintro (h | h)
    · omega
    · exact h (by rfl)), List.drop_append_of_le_length (by omega), List.drop_eq_nil_of_le (by omega), List.nil_append]
  refine arLoop_members ms _ ?_ hv hs
  have := flatMap_length ms hv
  rw [List.length_append]
  omega

end Armips.Object
