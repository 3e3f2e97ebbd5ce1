import Verif.Model.Ctor
/-!
# Texts with variables: lemmas
-/
namespace Armips.Ctor

/-- A piece of a template: text, or a variable without its percent signs. -/
inductive Piece
  | text (l : List Char)
  | var (b : List Char)
  deriving DecidableEq

/-- The characters of a piece. -/
def Piece.chars : Piece → List Char
  | .text l => l
  | .var b => '%' :: b ++ ['%']

/-- No percent sign. -/
def Free (l : List Char) : Prop := '%' ∉ l

/-- Texts have no percent signs; a variable is followed by text that does not begin like the variable `o`. -/
def WF (o : List Char) : List Piece → Prop
  | [] => True
  | .text l :: ps => Free l ∧ WF o ps
  | .var b :: ps => Free b ∧ (∃ c l ps', ps = .text (c :: l) :: ps' ∧ o.head? ≠ some c) ∧ WF o ps

/-- Replacing a variable. -/
def Piece.subst (o new : List Char) : Piece → Piece
  | .text l => .text l
  | .var b => if b = o then .text new else .var b

theorem afterPrefix_length {p s r : List Char} (h : afterPrefix p s = some r) : s.length = p.length + r.length := by
  induction p generalizing s with
  | nil => simp only [afterPrefix, Option.some.injEq] at h; subst h; simp
  | cons c p ih =>
    cases s with
    | nil => simp [afterPrefix] at h
    | cons d s =>
      simp only [afterPrefix] at h
      split at h
      · have := ih h; simp only [List.length_cons]; omega
      · cases h

theorem replaceAll_fuel {c : Char} {o new : List Char} : ∀ {n m : Nat} {s : List Char}, s.length ≤ n → s.length ≤ m →
    replaceAll (c :: o) new n s = replaceAll (c :: o) new m s := by
  intro n
  induction n with
  | zero =>
    intro m s h1 h2
    have : s = [] := List.length_eq_zero_iff.mp (by omega)
    subst this
    cases m <;> rfl
  | succ n ih =>
    intro m s h1 h2
    cases s with
    | nil => cases m <;> rfl
    | cons d s =>
      cases m with
      | zero => simp at h2
      | succ m =>
        simp only [List.length_cons] at h1 h2
        simp only [replaceAll]
        split
        · rename_i r hr
          have := afterPrefix_length hr
          simp only [List.length_cons] at this
          rw [ih (m := m) (by omega) (by omega)]
        · rw [ih (m := m) (by omega) (by omega)]

/-- All replacements, with as many steps as needed. -/
def subs (o new s : List Char) : List Char := replaceAll ('%' :: o ++ ['%']) new s.length s

theorem subs_nil (o new : List Char) : subs o new [] = [] := rfl

theorem subs_hit {o new s r : List Char} (h : afterPrefix ('%' :: o ++ ['%']) s = some r) : subs o new s = new ++ subs o new r := by
  have hl := afterPrefix_length h
  unfold subs
  cases s with
  | nil => simp [afterPrefix] at h
  | cons c s =>
    simp only [List.length_cons, replaceAll, h]
    congr 1
    simp only [List.length_cons, List.cons_append, List.length_append] at hl
    exact replaceAll_fuel (by omega) (Nat.le_refl _)

theorem subs_miss {o new s : List Char} {c : Char} (h : afterPrefix ('%' :: o ++ ['%']) (c :: s) = none) : subs o new (c :: s) = c :: subs o new s := by
  unfold subs
  simp only [List.length_cons, replaceAll, h]

theorem subs_text {o new x s : List Char} (h : Free x) : subs o new (x ++ s) = x ++ subs o new s := by
  induction x with
  | nil => rfl
  | cons c x ih =>
    rw [List.cons_append, subs_miss, ih (fun hm => h (List.mem_cons_of_mem _ hm))]
    · rfl
    · have : '%' ≠ c := fun he => h (by rw [he]; exact List.mem_cons_self)
      simp [afterPrefix, this]

theorem afterPrefix_name {o b s : List Char} (ho : Free o) (hb : Free b) : afterPrefix (o ++ ['%']) (b ++ '%' :: s) = if b = o then some s else none := by
  induction o generalizing b with
  | nil =>
    cases b with
    | nil => simp [afterPrefix]
    | cons d b =>
      have : '%' ≠ d := fun he => hb (by rw [he]; exact List.mem_cons_self)
      simp [afterPrefix, this]
  | cons c o ih =>
    cases b with
    | nil =>
      have : c ≠ '%' := fun he => ho (by rw [he]; exact List.mem_cons_self)
      simp [afterPrefix, this]
    | cons d b =>
      simp only [List.cons_append, afterPrefix]
      by_cases h : c = d
      · subst h
        rw [if_pos rfl, ih (fun hm => ho (List.mem_cons_of_mem _ hm)) (fun hm => hb (List.mem_cons_of_mem _ hm))]
        simp
      · rw [if_neg h, if_neg]
        intro he
        exact h (List.cons.inj he).1.symm

/-- Replacing in the characters is replacing the pieces. -/
theorem subs_pieces {o new : List Char} (ho : Free o) (hne : o ≠ []) : ∀ {ps : List Piece}, WF o ps →
    subs o new (ps.flatMap Piece.chars) = (ps.map (Piece.subst o new)).flatMap Piece.chars := by
  intro ps
  induction ps with
  | nil => intro _; rfl
  | cons p ps ih =>
    intro h
    cases p with
    | text l =>
      simp only [List.flatMap_cons, List.map_cons, Piece.chars, Piece.subst]
      rw [subs_text h.1, ih h.2]
    | var b =>
      obtain ⟨hb, ⟨c, l, ps', rfl, hc⟩, hw⟩ := h
      show subs o new (Piece.chars (.var b) ++ (Piece.text (c :: l) :: ps').flatMap Piece.chars) = _
      have e : Piece.chars (.var b) ++ (Piece.text (c :: l) :: ps').flatMap Piece.chars =
          '%' :: (b ++ '%' :: (Piece.text (c :: l) :: ps').flatMap Piece.chars) := by simp [Piece.chars]
      rw [e]
      have ha : afterPrefix ('%' :: o ++ ['%']) ('%' :: (b ++ '%' :: (Piece.text (c :: l) :: ps').flatMap Piece.chars)) =
          if b = o then some ((Piece.text (c :: l) :: ps').flatMap Piece.chars) else none := by
        simp only [List.cons_append, afterPrefix, if_true]
        exact afterPrefix_name ho hb
      by_cases h : b = o
      · rw [if_pos h] at ha
        rw [subs_hit ha, ih hw]
        simp [Piece.subst, h, Piece.chars]
      · rw [if_neg h] at ha
        rw [subs_miss ha, subs_text hb, subs_miss, ih hw]
        · simp [Piece.subst, h, Piece.chars]
        · cases o with
          | nil => exact absurd rfl hne
          | cons d o =>
            have : d ≠ c := fun he => hc (by simp [he])
            simp [afterPrefix, Piece.chars, this]

theorem WF.subst {o o' new : List Char} (hn : Free new) : ∀ {ps : List Piece}, WF o' ps → WF o' (ps.map (Piece.subst o new))
  | [], _ => trivial
  | .text _ :: _, h => ⟨h.1, WF.subst hn h.2⟩
  | .var b :: ps, h => by
    obtain ⟨hb, ⟨c, l, ps', rfl, hc⟩, hw⟩ := h
    have := WF.subst (o := o) hn hw
    simp only [List.map_cons, Piece.subst] at this ⊢
    split
    · exact ⟨hn, this⟩
    · exact ⟨hb, ⟨c, l, _, rfl, hc⟩, this⟩

/-! ### The template -/

/-- `MipsElfRelocator.cpp:78-108` in pieces. -/
def mipsPieces : List Piece := [
  .text "\n\taddiu\tsp,-32\n\tsw\t\tra,0(sp)\n\tsw\t\ts0,4(sp)\n\tsw\t\ts1,8(sp)\n".toList,
  .text "\tsw\t\ts2,12(sp)\n\tsw\t\ts3,16(sp)\n\tli\t\ts0,".toList, .var "ctorTable".toList,
  .text "\n\tli\t\ts1,".toList, .var "ctorTable".toList, .text ['+'], .var "ctorTableSize".toList, .text "\n\t".toList, .var "outerLoopLabel".toList,
  .text ":\n\tlw\t\ts2,(s0)\n\tlw\t\ts3,4(s0)\n\taddiu\ts0,8\n\t".toList, .var "innerLoopLabel".toList,
  .text ":\n\tlw\t\ta0,(s2)\n\tjalr\ta0\n\taddiu\ts2,4h\n\tbne\t\ts2,s3,".toList, .var "innerLoopLabel".toList,
  .text "\n\tnop\n\tbne\t\ts0,s1,".toList, .var "outerLoopLabel".toList,
  .text "\n\tnop\n\tlw\t\tra,0(sp)\n\tlw\t\ts0,4(sp)\n\tlw\t\ts1,8(sp)\n".toList,
  .text "\tlw\t\ts2,12(sp)\n\tlw\t\ts3,16(sp)\n\tjr\t\tra\n\taddiu\tsp,32\n\t".toList,
  .var "ctorTable".toList, .text ":\n\t.word\t".toList, .var "ctorContent".toList, .text ['\n']]

theorem mipsPieces_text : joined mipsTemplate = mipsPieces.flatMap Piece.chars := by decide +kernel

instance (l : List Char) : Decidable (Free l) := inferInstanceAs (Decidable (¬ _))

/-- `WF`, decided. -/
def wf (o : List Char) : List Piece → Bool
  | [] => true
  | .text l :: ps => decide (Free l) && wf o ps
  | .var b :: ps => decide (Free b) && (match ps with | .text (c :: _) :: _ => decide (o.head? ≠ some c) | _ => false) && wf o ps

theorem wf_WF {o : List Char} : ∀ {ps : List Piece}, wf o ps = true → WF o ps
  | [], _ => trivial
  | .text _ :: _, h => by
    simp only [wf, Bool.and_eq_true, decide_eq_true_eq] at h
    exact ⟨h.1, wf_WF h.2⟩
  | .var b :: ps, h => by
    simp only [wf, Bool.and_eq_true, decide_eq_true_eq] at h
    refine ⟨h.1.1, ?_, wf_WF h.2⟩
    have h2 := h.1.2
    split at h2
    · rename_i c l ps'
      exact ⟨c, l, ps', rfl, by simpa using h2⟩
    · cases h2

theorem mipsPieces_wf : ∀ o ∈ ["ctorTable", "ctorTableSize", "outerLoopLabel", "innerLoopLabel", "ctorContent"].map String.toList,
    wf o mipsPieces = true ∧ Free o ∧ o ≠ [] := by decide +kernel

theorem instantiate_cons (t : List Char) (b v : List Char) (vars : List (List Char × List Char)) :
    instantiate t (('%' :: b ++ ['%'], v) :: vars) = instantiate (subs b v t) vars := rfl

/-- The text of the function, for all names without percent signs. -/
theorem mipsText_eq {table outer inner : List Char} {ctors : List (List Char × Nat)} (hc : ctors ≠ []) (h1 : Free table) (h2 : Free outer) (h3 : Free inner)
    (h4 : Free (Nat.repr (ctors.length * 8)).toList) (h5 : Free (tableText ctors)) : mipsText table outer inner ctors =
      (((((mipsPieces.map (Piece.subst "ctorTable".toList table)).map (Piece.subst "ctorTableSize".toList (Nat.repr (ctors.length * 8)).toList)).map
        (Piece.subst "outerLoopLabel".toList outer)).map (Piece.subst "innerLoopLabel".toList inner)).map
        (Piece.subst "ctorContent".toList (tableText ctors))).flatMap Piece.chars := by
  obtain ⟨w1, f1, n1⟩ := mipsPieces_wf _ (show "ctorTable".toList ∈ _ by simp)
  obtain ⟨w2, f2, n2⟩ := mipsPieces_wf _ (show "ctorTableSize".toList ∈ _ by simp)
  obtain ⟨w3, f3, n3⟩ := mipsPieces_wf _ (show "outerLoopLabel".toList ∈ _ by simp)
  obtain ⟨w4, f4, n4⟩ := mipsPieces_wf _ (show "innerLoopLabel".toList ∈ _ by simp)
  obtain ⟨w5, f5, n5⟩ := mipsPieces_wf _ (show "ctorContent".toList ∈ _ by simp)
  have e1 : "%ctorTable%".toList = '%' :: "ctorTable".toList ++ ['%'] := by decide
  have e2 : "%ctorTableSize%".toList = '%' :: "ctorTableSize".toList ++ ['%'] := by decide
  have e3 : "%outerLoopLabel%".toList = '%' :: "outerLoopLabel".toList ++ ['%'] := by decide
  have e4 : "%innerLoopLabel%".toList = '%' :: "innerLoopLabel".toList ++ ['%'] := by decide
  have e5 : "%ctorContent%".toList = '%' :: "ctorContent".toList ++ ['%'] := by decide
  unfold mipsText
  rw [if_neg (by simpa using hc), e1, e2, e3, e4, e5, mipsPieces_text]
  rw [instantiate_cons, subs_pieces f1 n1 (wf_WF w1)]
  rw [instantiate_cons, subs_pieces f2 n2 (WF.subst h1 (wf_WF w2))]
  rw [instantiate_cons, subs_pieces f3 n3 (WF.subst h4 (WF.subst h1 (wf_WF w3)))]
  rw [instantiate_cons, subs_pieces f4 n4 (WF.subst h2 (WF.subst h4 (WF.subst h1 (wf_WF w4))))]
  rw [instantiate_cons, subs_pieces f5 n5 (WF.subst h3 (WF.subst h2 (WF.subst h4 (WF.subst h1 (wf_WF w5)))))]
  rfl

end Armips.Ctor
