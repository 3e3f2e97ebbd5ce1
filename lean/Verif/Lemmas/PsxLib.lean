import Verif.Lemmas.PsxRead
/-! Reading libraries of the PlayStation. -/
namespace Armips.Psx
open Armips.Elf (getWord)
open Armips.Spec.Psx (Record Place Shift str Member)

theorem skipNames_directory {l : List (List Byte)} : ∀ {fuel : Nat} (r : List Byte), l.length < fuel → (∀ n ∈ l, n ≠ [] ∧ n.length < 256) →
    skipNames fuel (l.flatMap str ++ 0#8 :: r) = some (l.flatMap str ++ [0#8]).length := by
  induction l with
  | nil =>
    intro fuel r h _
    obtain ⟨k, rfl⟩ : ∃ k, fuel = k + 1 := ⟨fuel - 1, by simp at h; omega⟩
    rw [List.flatMap_nil, List.nil_append, skipNames.eq_def]
    dsimp only
    rw [if_pos rfl]
    rfl
  | cons n l ih =>
    intro fuel r h hl
    obtain ⟨k, rfl⟩ : ∃ k, fuel = k + 1 := ⟨fuel - 1, by simp at h; omega⟩
    obtain ⟨hn, hb⟩ := hl n (List.mem_cons_self ..)
    have e : (BitVec.ofNat 8 n.length).toNat = n.length := by rw [BitVec.toNat_ofNat]; omega
    have hpos : 0 < n.length := List.length_pos_iff.2 hn
    rw [List.flatMap_cons, str]
    simp only [List.cons_append, List.append_assoc]
    rw [skipNames.eq_def]
    dsimp only
    rw [if_neg fun hc => by rw [hc] at e; simp at e; omega, e, List.drop_left' rfl,
      ih r (by simp at h; omega) fun m hm => hl m (List.mem_cons_of_mem _ hm)]
    simp
    omega

theorem takeWhile_name {n : List Byte} (h : 0x20#8 ∉ n) (k : Nat) :
    (n ++ List.replicate k 0x20#8).takeWhile (fun b => b ≠ 0x20#8) = n := by
  induction n with
  | nil =>
    cases k with
    | zero => rfl
    | succ k => rw [List.nil_append, List.replicate_succ, List.takeWhile_cons]; rfl
  | cons b n ih =>
    rw [List.cons_append, List.takeWhile_cons, if_pos (by
      rw [decide_eq_true_eq]; intro hc; exact h (hc ▸ List.mem_cons_self ..)), ih fun hm => h (List.mem_cons_of_mem _ hm)]

theorem Member.parts {m : Member} (h : m.Valid) (rest : List Byte) :
    ((m.bytes ++ rest).take 16).takeWhile (fun b => b ≠ 0x20#8) = m.name ∧ word32 ((m.bytes ++ rest).drop 16) = m.size ∧
    (m.bytes ++ rest).drop 20 = m.exports.flatMap str ++ 0#8 :: (m.data ++ rest) ∧
    (m.bytes ++ rest).drop (20 + m.directory.length) = m.data ++ rest ∧ (m.bytes ++ rest).drop m.size = rest ∧
    20 < (m.bytes ++ rest).length ∧ m.exports.length < (m.bytes ++ rest).length ∧ m.bytes.length = m.size := by
  have hl : (m.name ++ List.replicate (16 - m.name.length) 0x20#8).length = 16 := by
    have := h.name.1; simp; omega
  have hdir : 0 < m.directory.length := by simp [Member.directory]
  have hlen : m.bytes.length = m.size := by
    unfold Member.bytes Member.size
    simp only [List.length_append, toLE_length] at hl ⊢
    omega
  have hexp : m.exports.length ≤ m.directory.length := by
    have : ∀ l : List (List Byte), l.length ≤ (l.flatMap str).length := by
      intro l
      induction l with
      | nil => simp
      | cons n l ih => rw [List.flatMap_cons, List.length_append, List.length_cons]; simp only [str, List.length_cons]; omega
    unfold Member.directory
    have := this m.exports
    rw [List.length_append]; omega
  have hsz : 20 + m.directory.length ≤ m.size := by unfold Member.size; omega
  refine ⟨?_, ?_, ?_, ?_, ?_, ?_, ?_, hlen⟩
  · unfold Member.bytes
    simp only [List.append_assoc]
    rw [← List.append_assoc m.name, List.take_left' hl, takeWhile_name h.name.2]
  · unfold Member.bytes
    simp only [List.append_assoc]
    rw [← List.append_assoc m.name, List.drop_left' hl, word32_toLE h.size]
  · unfold Member.bytes
    rw [show m.name ++ List.replicate (16 - m.name.length) 0x20#8 ++ toLE 4 m.size ++ m.directory ++ m.data ++ rest =
      (m.name ++ List.replicate (16 - m.name.length) 0x20#8 ++ toLE 4 m.size) ++ (m.exports.flatMap str ++ 0#8 :: (m.data ++ rest)) by
      simp [Member.directory, List.append_assoc]]
    exact List.drop_left' (by rw [List.length_append, hl, toLE_length])
  · unfold Member.bytes
    rw [show m.name ++ List.replicate (16 - m.name.length) 0x20#8 ++ toLE 4 m.size ++ m.directory ++ m.data ++ rest =
      (m.name ++ List.replicate (16 - m.name.length) 0x20#8 ++ toLE 4 m.size ++ m.directory) ++ (m.data ++ rest) by
      simp [List.append_assoc]]
    exact List.drop_left' (by rw [List.length_append, List.length_append, hl, toLE_length])
  · exact List.drop_left' hlen
  · rw [List.length_append]; omega
  · rw [List.length_append]; omega

theorem libLoop_members {l : List Member} : ∀ {fuel : Nat}, l.length ≤ fuel → (∀ m ∈ l, m.Valid) →
    libLoop fuel (l.flatMap Member.bytes) = .ok (l.map fun m => ⟨m.name, m.data⟩) := by
  induction l with
  | nil => intro fuel _ _; rw [List.flatMap_nil, libLoop.eq_1]; rfl
  | cons m l ih =>
    intro fuel hl hv
    obtain ⟨fuel, rfl⟩ : ∃ k, fuel = k + 1 := ⟨fuel - 1, by simp at hl; omega⟩
    have hm := hv m (List.mem_cons_self ..)
    rw [List.flatMap_cons]
    obtain ⟨h1, h2, h3, h4, h5, h6, h7, h8⟩ := Member.parts hm (l.flatMap Member.bytes)
    have hne : m.bytes ++ l.flatMap Member.bytes ≠ [] := fun hc => by rw [hc] at h6; simp at h6
    rw [libLoop.eq_3 _ _ hne, if_neg (by omega), h2, h3]
    dsimp only
    rw [skipNames_directory _ h7 hm.exports]
    dsimp only
    have hmid : mid (m.bytes ++ l.flatMap Member.bytes) (20 + (m.exports.flatMap str ++ [0#8]).length)
        (m.size - (20 + ((m.exports.flatMap str ++ [0#8]).length : Nat) : Int)) = some m.data := by
      rw [show m.exports.flatMap str ++ [0#8] = m.directory from rfl]
      have hlen : (m.bytes ++ l.flatMap Member.bytes).length = m.size + (l.flatMap Member.bytes).length := by rw [List.length_append, h8]
      have hd : m.size = 20 + m.directory.length + m.data.length := rfl
      unfold mid
      split
      · have : m.data.length = 0 := by omega
        rw [List.length_eq_zero_iff.1 this]
      · dsimp only
        rw [if_neg (show ¬ ((m.size : Int) - (20 + (m.directory.length : Nat) : Int)) < 0 by omega), show ((m.size : Int) - (20 + (m.directory.length : Nat) : Int)).toNat = m.data.length by omega, if_pos (by omega), h4,
          List.take_left' rfl]
    rw [hmid]
    dsimp only
    have hs : 0 < m.size := by unfold Member.size; omega
    rw [if_neg (by omega), if_neg (by omega), Int.toNat_natCast, h5, ih (by simp at hl; omega) fun x hx => hv x (List.mem_cons_of_mem _ hx),
      Res.bind_ok, h1]
    rfl

theorem flatMap_members_length {l : List Member} (hv : ∀ m ∈ l, m.Valid) : l.length * 20 ≤ (l.flatMap Member.bytes).length := by
  induction l with
  | nil => simp
  | cons m l ih =>
    have := (Member.parts (hv m (List.mem_cons_self ..)) []).2.2.2.2.2.1
    rw [List.append_nil] at this
    have ih := ih fun x hx => hv x (List.mem_cons_of_mem _ hx)
    rw [List.flatMap_cons, List.length_append, List.length_cons]
    omega

end Armips.Psx
