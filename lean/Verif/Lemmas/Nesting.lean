import Verif.Spec.Nesting
/-!
# Lemmas about the nesting of the parser
-/
namespace Armips.Nesting
open Spec.Nesting

theorem seq_sources (enter : Bool → Bool → Nat → Option Out × Bool) (n : Nat) (h : ∀ tr un s o, (enter tr un s).1 = some o → sources o + 1 ≤ n)
    (p : Prog) : ∀ tr un, sources (parseSeq enter tr un p).1 ≤ n := by
  have hent : ∀ tr un s r, sources r ≤ n → sources (entered (enter tr un s).1 r) ≤ n := by
    intro tr un s r hr
    cases hq : (enter tr un s).1 with
    | none => exact hr
    | some o =>
      have := h tr un s o hq
      simp only [entered, sources]
      omega
  induction p with
  | nil => intro tr un; exact Nat.zero_le _
  | cmd c rest ih =>
    intro tr un
    simp only [parseSeq]
    split
    · exact ih tr un
    · exact ih tr un
  | known v t e rest iht ihe ih =>
    intro tr un
    simp only [parseSeq]
    split
    · simp only [sources]
      have := ih tr un
      cases v
      · have := ihe (tr && !false) un
        simp only [Bool.false_eq_true, if_false]
        omega
      · have := iht (tr && true) un
        simp only [if_true]
        omega
    · exact ih tr un
  | unknown i t e rest iht ihe ih =>
    intro tr un
    simp only [parseSeq]
    split
    · simp only [sources]
      have := ih tr un
      have := ihe tr true
      have := iht tr true
      omega
    · exact ih tr un
  | block k b rest ihb ih =>
    intro tr un
    simp only [parseSeq]
    split
    · simp only [sources]
      have := ih tr un
      have := ihb tr un
      omega
    · exact ih tr un
  | call s rest ih =>
    intro tr un
    simp only [parseSeq]
    split
    · exact ih tr un
    · split
      · exact hent _ _ _ _ (ih tr un)
      · exact ih tr un
  | incl s rest ih =>
    intro tr un
    simp only [parseSeq]
    split
    · exact ih tr un
    · exact hent _ _ _ _ (ih tr un)

theorem parse_sources (W : Nat → Prog) : ∀ (k d : Nat) (tr un : Bool) (s : Nat) (o : Out), 150 - d = k → (parse W d tr un s).1 = some o →
    sources o + 1 ≤ k := by
  intro k
  induction k with
  | zero =>
    intro d tr un s o hd h
    unfold parse at h
    rw [if_pos (by omega)] at h
    cases h
  | succ k ih =>
    intro d tr un s o hd h
    unfold parse at h
    rw [if_neg (by omega)] at h
    simp only [Option.some.injEq] at h
    rw [← h]
    have := seq_sources (fun tr' un' s' => parse W (d + 1) tr' un' s') k (fun a b c o ho => ih (d + 1) a b c o (by omega) ho) (W s) tr un
    omega

theorem seq_error (enter : Bool → Bool → Nat → Option Out × Bool) (p : Prog) :
    ∀ tr un, (parseSeq enter tr un p).2 = true ↔ ∃ s a b, Enters tr un p s a b ∧ (enter a b s).2 = true := by
  induction p with
  | nil =>
    intro tr un
    constructor
    · intro h; cases h
    · rintro ⟨s, a, b, h, _⟩; cases h
  | cmd c rest ih =>
    intro tr un
    simp only [parseSeq]
    rw [ih tr un]
    constructor
    · rintro ⟨s, a, b, h, he⟩; exact ⟨s, a, b, .cmd h, he⟩
    · rintro ⟨s, a, b, h, he⟩; cases h with | cmd h => exact ⟨s, a, b, h, he⟩
  | known v t e rest iht ihe ih =>
    intro tr un
    simp only [parseSeq, Bool.or_eq_true]
    rw [iht, ihe, ih]
    constructor
    · rintro ((⟨s, a, b, h, he⟩ | ⟨s, a, b, h, he⟩) | ⟨s, a, b, h, he⟩)
      · exact ⟨s, a, b, .known_then h, he⟩
      · exact ⟨s, a, b, .known_else h, he⟩
      · exact ⟨s, a, b, .known_rest h, he⟩
    · rintro ⟨s, a, b, h, he⟩
      cases h with
      | known_then h => exact Or.inl (Or.inl ⟨s, a, b, h, he⟩)
      | known_else h => exact Or.inl (Or.inr ⟨s, a, b, h, he⟩)
      | known_rest h => exact Or.inr ⟨s, a, b, h, he⟩
  | unknown i t e rest iht ihe ih =>
    intro tr un
    simp only [parseSeq, Bool.or_eq_true]
    rw [iht, ihe, ih]
    constructor
    · rintro ((⟨s, a, b, h, he⟩ | ⟨s, a, b, h, he⟩) | ⟨s, a, b, h, he⟩)
      · exact ⟨s, a, b, .unknown_then h, he⟩
      · exact ⟨s, a, b, .unknown_else h, he⟩
      · exact ⟨s, a, b, .unknown_rest h, he⟩
    · rintro ⟨s, a, b, h, he⟩
      cases h with
      | unknown_then h => exact Or.inl (Or.inl ⟨s, a, b, h, he⟩)
      | unknown_else h => exact Or.inl (Or.inr ⟨s, a, b, h, he⟩)
      | unknown_rest h => exact Or.inr ⟨s, a, b, h, he⟩
  | block k b rest ihb ih =>
    intro tr un
    simp only [parseSeq, Bool.or_eq_true]
    rw [ihb, ih]
    constructor
    · rintro (⟨s, a, b, h, he⟩ | ⟨s, a, b, h, he⟩)
      · exact ⟨s, a, b, .block h, he⟩
      · exact ⟨s, a, b, .block_rest h, he⟩
    · rintro ⟨s, a, b, h, he⟩
      cases h with
      | block h => exact Or.inl ⟨s, a, b, h, he⟩
      | block_rest h => exact Or.inr ⟨s, a, b, h, he⟩
  | call q rest ih =>
    intro tr un
    simp only [parseSeq]
    split
    · rename_i hc
      simp only [Bool.and_eq_true, Bool.not_eq_true'] at hc
      rw [ih]
      constructor
      · rintro ⟨s, a, b, h, he⟩; exact ⟨s, a, b, .call_rest h, he⟩
      · rintro ⟨s, a, b, h, he⟩
        cases h with
        | call hx => rw [hc.1, hc.2] at hx; rcases hx with hx | hx <;> cases hx
        | call_rest h => exact ⟨s, a, b, h, he⟩
    · rename_i hc
      simp only [Bool.or_eq_true]
      rw [ih]
      constructor
      · rintro (h | ⟨s, a, b, h, he⟩)
        · refine ⟨q, tr, un, .call ?_, h⟩
          cases tr <;> cases un <;> simp_all
        · exact ⟨s, a, b, .call_rest h, he⟩
      · rintro ⟨s, a, b, h, he⟩
        cases h with
        | call _ => exact Or.inl he
        | call_rest h => exact Or.inr ⟨s, a, b, h, he⟩
  | incl q rest ih =>
    intro tr un
    simp only [parseSeq]
    split
    · rename_i hc
      simp only [Bool.not_eq_true'] at hc
      rw [ih]
      constructor
      · rintro ⟨s, a, b, h, he⟩; exact ⟨s, a, b, .incl_rest h, he⟩
      · rintro ⟨s, a, b, h, he⟩
        cases h with
        | incl => cases hc
        | incl_rest h => exact ⟨s, a, b, h, he⟩
    · rename_i hc
      simp only [Bool.not_eq_true', Bool.not_eq_false] at hc
      subst hc
      simp only [Bool.or_eq_true]
      rw [ih]
      constructor
      · rintro (h | ⟨s, a, b, h, he⟩)
        · exact ⟨q, true, un, .incl, h⟩
        · exact ⟨s, a, b, .incl_rest h, he⟩
      · rintro ⟨s, a, b, h, he⟩
        cases h with
        | incl => exact Or.inl he
        | incl_rest h => exact Or.inr ⟨s, a, b, h, he⟩

theorem parse_error (W : Nat → Prog) : ∀ (k d : Nat) (tr un : Bool) (s : Nat), 150 - d = k → ((parse W d tr un s).2 = true ↔ Deep W k tr un s) := by
  intro k
  induction k with
  | zero =>
    intro d tr un s hd
    unfold parse
    rw [if_pos (by omega)]
    exact ⟨fun _ => .zero, fun _ => rfl⟩
  | succ k ih =>
    intro d tr un s hd
    unfold parse
    rw [if_neg (by omega)]
    simp only
    rw [seq_error]
    constructor
    · rintro ⟨s', a, b, h, he⟩
      exact .succ h ((ih (d + 1) a b s' (by omega)).mp he)
    · intro h
      cases h with
      | succ h hk => exact ⟨_, _, _, h, (ih (d + 1) _ _ _ (by omega)).mpr hk⟩

theorem seq_means (W : Nat → Prog) (ρ : Nat → Bool) (enter : Bool → Bool → Nat → Option Out × Bool)
    (h : ∀ un s, (enter true un s).2 = false → ∃ o, (enter true un s).1 = some o ∧ Means W ρ (W s) (run ρ o)) (p : Prog) :
    ∀ un, (parseSeq enter true un p).2 = false → Means W ρ p (run ρ (parseSeq enter true un p).1) := by
  induction p with
  | nil => intro un _; exact .nil
  | cmd c rest ih =>
    intro un hf
    simp only [parseSeq, if_true] at hf ⊢
    exact .cmd (ih un hf)
  | known v t e rest iht ihe ih =>
    intro un hf
    simp only [parseSeq, if_true, Bool.or_eq_false_iff, Bool.true_and] at hf ⊢
    cases v
    · exact .known_else (ihe un hf.1.2) (ih un hf.2)
    · exact .known_then (iht un hf.1.1) (ih un hf.2)
  | unknown i t e rest iht ihe ih =>
    intro un hf
    simp only [parseSeq, if_true, Bool.or_eq_false_iff] at hf ⊢
    simp only [run]
    cases hi : ρ i
    · exact .unknown_else hi (ihe true hf.1.2) (ih un hf.2)
    · exact .unknown_then hi (iht true hf.1.1) (ih un hf.2)
  | block k b rest ihb ih =>
    intro un hf
    simp only [parseSeq, if_true, Bool.or_eq_false_iff] at hf ⊢
    exact .block (ihb un hf.1) (ih un hf.2)
  | call s rest ih =>
    intro un hf
    simp only [parseSeq, Bool.not_true, Bool.and_false, Bool.false_eq_true, if_false, if_true, Bool.or_eq_false_iff] at hf ⊢
    obtain ⟨o, ho, hm⟩ := h un s hf.1
    rw [ho]
    exact .call hm (ih un hf.2)
  | incl s rest ih =>
    intro un hf
    simp only [parseSeq, Bool.not_true, Bool.false_eq_true, if_false, Bool.or_eq_false_iff] at hf ⊢
    obtain ⟨o, ho, hm⟩ := h un s hf.1
    rw [ho]
    exact .incl hm (ih un hf.2)

theorem parse_means (W : Nat → Prog) (ρ : Nat → Bool) : ∀ (k d : Nat) (un : Bool) (s : Nat), 150 - d = k → (parse W d true un s).2 = false →
    ∃ o, (parse W d true un s).1 = some o ∧ Means W ρ (W s) (run ρ o) := by
  intro k
  induction k with
  | zero =>
    intro d un s hd h
    unfold parse at h
    rw [if_pos (by omega)] at h
    cases h
  | succ k ih =>
    intro d un s hd h
    unfold parse at h ⊢
    rw [if_neg (by omega)] at h ⊢
    refine ⟨_, rfl, ?_⟩
    exact seq_means W ρ _ (fun un' s' h' => ih (d + 1) un' s' (by omega) h') (W s) un h

end Armips.Nesting
