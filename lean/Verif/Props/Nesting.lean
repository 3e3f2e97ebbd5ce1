import Verif.Lemmas.Nesting
/-!
# C60, C63: nesting, and conditional assembly

`parseMain W s` is the outcome of parsing the source `s` as the main file: the commands, and whether the nesting was too deep. That this is a total
function for every `W` is part of the claim: also a macro that calls itself, or a file that includes itself, comes to an end.
-/
namespace Armips.Props
open Nesting Spec.Nesting

/-! ## C60 -/

/-- Files and macros are never nested deeper than 150: the main file and 149 in it. -/
theorem nesting_bounded (W : Nat → Prog) (s : Nat) (o : Out) (h : (parseMain W s).1 = some o) : sources o + 1 ≤ 150 :=
  parse_sources W 150 0 true false s o rfl h

/-- An error is given exactly if 150 sources are to be entered one inside another from the main file. -/
theorem nesting_error (W : Nat → Prog) (s : Nat) : (parseMain W s).2 = true ↔ Deep W 150 true false s :=
  parse_error W 150 0 true false s rfl

/-- A file that includes itself is an error, and so is a macro that calls itself. -/
theorem nesting_self (W : Nat → Prog) (s : Nat) (p q : Prog) (h : W s = .cmd 0 (.incl s p) ∨ W s = .known true (.call s p) q .nil) :
    (parseMain W s).2 = true := by
  rw [nesting_error]
  have : ∀ n, Deep W n true false s := by
    intro n
    induction n with
    | zero => exact .zero
    | succ n ih =>
      refine .succ (s' := s) (tr' := true) (un' := false) ?_ ih
      rcases h with h | h <;> rw [h]
      · exact .cmd .incl
      · exact .known_then (.call (Or.inl rfl))
  exact this 150

/-- Non-vacuity: 149 sources in the main file are accepted, 150 are not. -/
example : (parseMain (fun s => if s < 149 then .incl (s + 1) .nil else .cmd 7 .nil) 0).2 = false ∧
    (parseMain (fun s => if s < 150 then .incl (s + 1) .nil else .cmd 7 .nil) 0).2 = true := by
  constructor
  · rw [Bool.eq_false_iff, ne_eq, nesting_error]
    have : ∀ n s tr un, Deep (fun s => if s < 149 then .incl (s + 1) .nil else .cmd 7 .nil) n tr un s → s ≤ 149 → n + s ≤ 149 := by
      intro n
      induction n with
      | zero => intro s _ _ _ hs; omega
      | succ n ih =>
        intro s tr un h hs
        cases h with
        | succ h hk =>
          split at h
          · cases h with
            | incl => have := ih _ _ _ hk (by omega); omega
            | incl_rest h => cases h
          · cases h with | cmd h => cases h
    intro h
    have := this 150 0 _ _ h (by omega)
    omega
  · rw [nesting_error]
    have : ∀ n s, n + s ≤ 150 → Deep (fun s => if s < 150 then .incl (s + 1) .nil else .cmd 7 .nil) n true false s := by
      intro n
      induction n with
      | zero => intro s _; exact .zero
      | succ n ih =>
        intro s hs
        refine .succ (s' := s + 1) (tr' := true) (un' := false) ?_ (ih (s + 1) (by omega))
        simp only [if_pos (show s < 150 by omega)]
        exact .incl
    exact this 150 0 (by omega)

/-- Blocks and conditionals are not bounded: for every `n` there is a program with `n` of them inside each other, and it gives no error. (The
parser calls itself that deep.) -/
theorem nesting_blocks_wrong (n : Nat) : ∃ (W : Nat → Prog) (o : Out), (parseMain W 0).1 = some o ∧ (parseMain W 0).2 = false ∧ n ≤ blocks o := by
  have same : ∀ n, ∃ p, ∀ enter un, (parseSeq enter true un p).2 = false ∧ blocks (parseSeq enter true un p).1 = n := by
    intro n
    induction n with
    | zero => exact ⟨.nil, fun _ _ => ⟨rfl, rfl⟩⟩
    | succ n ih =>
      obtain ⟨p, h⟩ := ih
      refine ⟨.block 0 p .nil, fun enter un => ⟨?_, ?_⟩⟩
      · simp only [parseSeq, (h enter un).1, Bool.or_false]
      · simp only [parseSeq, if_true, blocks, (h enter un).2]
        omega
  obtain ⟨p, h⟩ := same n
  refine ⟨fun _ => p, (parseSeq (fun tr' un' s' => parse (fun _ => p) (0 + 1) tr' un' s') true false p).1, ?_, ?_, ?_⟩
  · unfold parseMain; rw [parse, if_neg (by omega)]
  · unfold parseMain; rw [parse, if_neg (by omega)]; exact (h _ _).1
  · rw [(h _ _).2]; exact Nat.le_refl _

/-! ## C63 -/

/-- If there is no error, the commands that are carried out are those the program stands for, whatever the conditions turn out to be that are
not known beforehand. -/
theorem conditional_exact (W : Nat → Prog) (s : Nat) (h : (parseMain W s).2 = false) :
    ∃ o, (parseMain W s).1 = some o ∧ ∀ ρ, Means W ρ (W s) (run ρ o) := by
  obtain ⟨o, ho, _⟩ := parse_means W (fun _ => true) 150 0 false s rfl h
  refine ⟨o, ho, fun ρ => ?_⟩
  obtain ⟨o', ho', hm⟩ := parse_means W ρ 150 0 false s rfl h
  rw [ho] at ho'
  cases ho'
  exact hm

/-- A program stands for one list of commands only. -/
theorem means_unique (W : Nat → Prog) (ρ : Nat → Bool) (p : Prog) (a b : List Nat) (ha : Means W ρ p a) (hb : Means W ρ p b) : a = b := by
  induction ha generalizing b with
  | nil => cases hb; rfl
  | cmd _ ih => cases hb with | cmd h => rw [ih _ h]
  | known_then _ _ ih₁ ih₂ => cases hb with | known_then h h' => rw [ih₁ _ h, ih₂ _ h']
  | known_else _ _ ih₁ ih₂ => cases hb with | known_else h h' => rw [ih₁ _ h, ih₂ _ h']
  | unknown_then hi _ _ ih₁ ih₂ =>
    cases hb with
    | unknown_then _ h h' => rw [ih₁ _ h, ih₂ _ h']
    | unknown_else hj _ _ => rw [hi] at hj; cases hj
  | unknown_else hi _ _ ih₁ ih₂ =>
    cases hb with
    | unknown_then hj _ _ => rw [hi] at hj; cases hj
    | unknown_else _ h h' => rw [ih₁ _ h, ih₂ _ h']
  | block _ _ ih₁ ih₂ => cases hb with | block h h' => rw [ih₁ _ h, ih₂ _ h']
  | call _ _ ih₁ ih₂ => cases hb with | call h h' => rw [ih₁ _ h, ih₂ _ h']
  | incl _ _ ih₁ ih₂ => cases hb with | incl h h' => rw [ih₁ _ h, ih₂ _ h']

/-- Nothing inside a conditional that is known to be false is carried out, not even the content of a file it would include; there it does not
matter what the file is. -/
theorem conditional_false (W : Nat → Prog) (d s : Nat) (t e rest : Prog) (un : Bool) :
    (parseSeq (fun tr' un' s' => parse W d tr' un' s') true un (.known true t (.incl s e) rest)) =
      (parseSeq (fun tr' un' s' => parse W d tr' un' s') true un (.known true t e rest)) := by
  simp only [parseSeq, if_true, Bool.true_and, Bool.not_true, Bool.not_false]

/-- Non-vacuity: a macro that counts down from 3 (the sources 3, 2, 1, 0), called from the main file. -/
example : parseMain (fun s => if s = 9 then .call 3 .nil else .cmd s (.known (decide (0 < s)) (.call (s - 1) .nil) .nil .nil)) 9 =
    (some (.source (.cmd 3 (.group (.source (.cmd 2 (.group (.source (.cmd 1 (.group (.source (.cmd 0 (.group .nil .nil)) .nil) .nil)) .nil) .nil)) .nil)
      .nil)) .nil), false) := by
  unfold parseMain
  repeat (unfold parse; simp [parseSeq, entered])

/-- The same macro called inside of a conditional that is not known beforehand: the calls in its false parts are expanded, too, and the nesting
becomes too deep. The program has a meaning all the same. -/
theorem conditional_macro_wrong : ∃ (W : Nat → Prog) (s : Nat), (∀ ρ, ∃ cs, Means W ρ (W s) cs) ∧ (parseMain W s).2 = true := by
  let W : Nat → Prog := fun s => if s = 9 then .unknown 0 (.call 3 .nil) .nil .nil else .cmd s (.known (decide (0 < s)) (.call (s - 1) .nil) .nil .nil)
  refine ⟨W, 9, ?_, ?_⟩
  · intro ρ
    have h0 : Means W ρ (W 0) [0] := .cmd (.known_else (cs := []) (ds := []) .nil .nil)
    have h1 : Means W ρ (W 1) [1, 0] := .cmd (.known_then (cs := [0]) (ds := []) (.call (cs := [0]) (ds := []) h0 .nil) .nil)
    have h2 : Means W ρ (W 2) [2, 1, 0] := .cmd (.known_then (cs := [1, 0]) (ds := []) (.call (cs := [1, 0]) (ds := []) h1 .nil) .nil)
    have h3 : Means W ρ (W 3) [3, 2, 1, 0] := .cmd (.known_then (cs := [2, 1, 0]) (ds := []) (.call (cs := [2, 1, 0]) (ds := []) h2 .nil) .nil)
    cases hρ : ρ 0
    · exact ⟨[], .unknown_else (cs := []) (ds := []) hρ .nil .nil⟩
    · exact ⟨[3, 2, 1, 0], .unknown_then (cs := [3, 2, 1, 0]) (ds := []) hρ (.call (cs := [3, 2, 1, 0]) (ds := []) h3 .nil) .nil⟩
  · rw [nesting_error]
    have e : ∀ tr s, s ≠ 9 → Enters tr true (W s) (s - 1) (tr && decide (0 < s)) true := by
      intro tr s hs
      simp only [W, if_neg hs]
      exact .cmd (.known_then (.call (Or.inr rfl)))
    have all : ∀ n s tr, s < 9 → Deep W n tr true s := by
      intro n
      induction n with
      | zero => intro s tr _; exact .zero
      | succ n ih => intro s tr hs; exact .succ (e tr s (by omega)) (ih (s - 1) _ (by omega))
    refine .succ (s' := 3) (tr' := true) (un' := true) ?_ (all 149 3 true (by omega))
    exact .unknown_then (.call (Or.inl rfl))

end Armips.Props
