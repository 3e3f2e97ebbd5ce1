import Verif.Model.SymbolTable
import Verif.Spec.Symbols
namespace Armips.SymTab
open Armips.Spec.Sym

theorem lower_eq_iff (x y : Byte) : lower x = lower y ↔ SameLetter x y := by
  have h1 : ∀ b : Byte, (lower b).toNat = if 65 ≤ b.toNat ∧ b.toNat ≤ 90 then b.toNat + 32 else b.toNat := by
    intro b; unfold lower; split <;> simp [BitVec.toNat_add]; omega
  unfold SameLetter
  constructor
  · intro h
    have := congrArg BitVec.toNat h
    rw [h1, h1] at this
    rw [← BitVec.toNat_inj]
    split at this <;> split at this <;> omega
  · intro h
    apply BitVec.eq_of_toNat_eq
    rw [h1, h1]
    rw [← BitVec.toNat_inj] at h
    split <;> split <;> omega

theorem map_lower_eq_iff (a b : Str) : a.map lower = b.map lower ↔ SameText a b := by
  induction a generalizing b with
  | nil => cases b with
    | nil => simp [SameText.nil]
    | cons => simp; intro h; cases h
  | cons x xs ih => cases b with
    | nil => simp; intro h; cases h
    | cons y ys =>
      simp only [List.map_cons, List.cons.injEq, lower_eq_iff, ih]
      constructor
      · exact fun ⟨h, h'⟩ => .cons h h'
      · intro h; cases h; exact ⟨by assumption, by assumption⟩

theorem lower_at (x : Byte) : lower x = chr '@' ↔ x = chr '@' := by
  revert x; decide +kernel

theorem kind_lower (s : Str) : kind (s.map lower) = kind s := by
  match s with
  | [] => rfl
  | [a] => simp [kind, lower_at]
  | a :: b :: r => simp [kind, lower_at]

theorem kind_of_same {a b : Str} (h : SameText a b) : kind a = kind b := by
  rw [← kind_lower a, ← kind_lower b, (map_lower_eq_iff a b).2 h]

theorem setFS_kind (n : Str) (f s : Int) : setFileSectionValues n f s =
    match kind n with | .global => (-1, -1) | .static_ => (f, -1) | .local_ => (-1, s) := by
  match n with
  | [] => simp [setFileSectionValues, kind]
  | [a] => by_cases h : a = chr '@' <;> simp [setFileSectionValues, kind, h]
  | a :: b :: r =>
    by_cases h : a = chr '@' <;> by_cases h' : b = chr '@' <;> simp [setFileSectionValues, kind, h, h']

theorem key_eq_iff (n₁ : Str) (f₁ s₁ : Int) (n₂ : Str) (f₂ s₂ : Int) :
    key n₁ f₁ s₁ = key n₂ f₂ s₂ ↔ SameSymbol n₁ f₁ s₁ n₂ f₂ s₂ := by
  unfold key SameSymbol
  simp only [SymbolKey.mk.injEq, map_lower_eq_iff, setFS_kind]
  constructor
  · intro ⟨h, h'⟩
    rw [← kind_of_same h] at h'
    refine ⟨h, ?_⟩
    cases hk : kind n₁ <;> simp_all
  · intro ⟨h, h'⟩
    rw [← kind_of_same h]
    refine ⟨h, ?_⟩
    cases hk : kind n₁ <;> simp_all

/-- Every label key has its own label. -/
structure WF (t : SymTab) : Prop where
  bound : ∀ k i, t.symbols k = some (.label i) → i < t.labels.length
  inj : ∀ k k' i, t.symbols k = some (.label i) → t.symbols k' = some (.label i) → k = k'

/-- `t'` keeps every entry of `t`. -/
def Ext (t t' : SymTab) : Prop :=
  (∀ k x, t.symbols k = some x → t'.symbols k = some x) ∧ t.labels.length ≤ t'.labels.length ∧
    t.uniqueCount ≤ t'.uniqueCount

theorem Ext.rfl' (t : SymTab) : Ext t t := ⟨fun _ _ h => h, Nat.le_refl _, Nat.le_refl _⟩
theorem Ext.trans {a b c : SymTab} (h : Ext a b) (h' : Ext b c) : Ext a c :=
  ⟨fun k x hx => h'.1 k x (h.1 k x hx), Nat.le_trans h.2.1 h'.2.1, Nat.le_trans h.2.2 h'.2.2⟩

theorem wf_empty : WF {} := ⟨by simp, by simp⟩

theorem getLabel_wf {t : SymTab} (h : WF t) (n f s) : WF (t.getLabel n f s).1 ∧ Ext t (t.getLabel n f s).1 := by
  unfold getLabel
  split
  · exact ⟨h, Ext.rfl' t⟩
  · simp only
    split
    · rename_i hn
      refine ⟨⟨?_, ?_⟩, ?_, ?_, Nat.le_refl _⟩
      · intro k i hk
        simp only [setSymbol] at hk
        split at hk
        · simp at hk; simp [← hk]
        · have := h.bound k i hk; simp; omega
      · intro k k' i hk hk'
        simp only [setSymbol] at hk hk'
        split at hk <;> split at hk'
        · simp_all
        · have := h.bound k' i hk'; simp at hk; omega
        · have := h.bound k i hk; simp at hk'; omega
        · exact h.inj k k' i hk hk'
      · intro k x hx
        simp only [setSymbol]
        split
        · simp_all
        · exact hx
      · simp
    · exact ⟨h, Ext.rfl' t⟩
    · exact ⟨h, Ext.rfl' t⟩

theorem addEquation_wf {t : SymTab} (h : WF t) (n f s r) :
    WF (t.addEquation n f s r).1 ∧ Ext t (t.addEquation n f s r).1 := by
  unfold addEquation
  split
  · exact ⟨h, Ext.rfl' t⟩
  · split
    · exact ⟨h, Ext.rfl' t⟩
    · rename_i hv he
      simp [symbolExists] at he hv
      have he := he hv
      refine ⟨⟨?_, ?_⟩, ?_, Nat.le_refl _, Nat.le_refl _⟩
      · intro k i hk
        simp only [setSymbol] at hk
        split at hk
        · simp at hk
        · exact h.bound k i hk
      · intro k k' i hk hk'
        simp only [setSymbol] at hk hk'
        split at hk <;> split at hk' <;> simp_all
        exact h.inj k k' i hk hk'
      · intro k x hx
        simp only [setSymbol]
        split
        · simp_all
        · exact hx

theorem modifyLabel_wf {t : SymTab} (h : WF t) (i g) : WF (t.modifyLabel i g) ∧ Ext t (t.modifyLabel i g) :=
  ⟨⟨fun k j hk => by simpa [modifyLabel] using h.bound k j hk, h.inj⟩, fun _ _ h => h, by simp [modifyLabel],
    Nat.le_refl _⟩

theorem addLabels_wf {t : SymTab} (h : WF t) (f s) (defs) :
    WF (t.addLabels f s defs).1 ∧ Ext t (t.addLabels f s defs).1 := by
  induction defs generalizing t s with
  | nil => exact ⟨h, Ext.rfl' t⟩
  | cons d rest ih =>
    obtain ⟨name, value⟩ := d
    have h1 := getLabel_wf h name f s
    unfold addLabels
    split
    · rename_i t' heq
      rw [heq] at h1
      have h2 := ih h1.1 s
      exact ⟨h2.1, h1.2.trans h2.2⟩
    · rename_i t' i heq
      rw [heq] at h1
      have h3 := modifyLabel_wf h1.1 i fun l => { l with defined := true, value := value }
      have h2 := ih h3.1 (if isLocalSymbol name then s else s + 1)
      exact ⟨h2.1, h1.2.trans (h3.2.trans h2.2)⟩

theorem step_wf {t : SymTab} (h : WF t) (op) : WF (t.step op) ∧ Ext t (t.step op) := by
  cases op with
  | getLabel n f s => exact getLabel_wf h n f s
  | addEquation n f s r => exact addEquation_wf h n f s r
  | getUniqueLabelName l =>
    exact ⟨⟨h.bound, h.inj⟩, fun _ _ h => h, Nat.le_refl _, Nat.le_succ _⟩
  | modifyLabel i v p d => exact modifyLabel_wf h i _
  | addLabels f s defs => exact addLabels_wf h f s defs

theorem run_wf {t : SymTab} (h : WF t) (ops) : WF (t.run ops) ∧ Ext t (t.run ops) := by
  induction ops generalizing t with
  | nil => exact ⟨h, Ext.rfl' t⟩
  | cons op ops ih =>
    have h1 := step_wf h op
    have h2 := ih h1.1
    exact ⟨h2.1, h1.2.trans h2.2⟩

theorem getLabel_some {t : SymTab} {n f s i} (h : (t.getLabel n f s).2 = some i) :
    (t.getLabel n f s).1.symbols (key n f s) = some (.label i) := by
  unfold getLabel at h ⊢
  split at h
  · simp at h
  · rename_i hv
    rw [if_neg hv]
    simp only at h ⊢
    cases hs : t.symbols (key n f s) with
    | none => simp_all [setSymbol]
    | some x => cases x <;> simp_all

theorem getLabel_none {t : SymTab} {n f s} :
    (t.getLabel n f s).2 = none ↔ isValidSymbolName n = false ∨ ∃ r, t.symbols (key n f s) = some (.equation r) := by
  unfold getLabel
  split
  · simp_all
  · simp only
    cases hs : t.symbols (key n f s) with
    | none => simp_all
    | some x => cases x <;> simp_all

/-! ### Hexadecimal rendering -/

/-- Number denoted by hexadecimal digits. -/
def hexVal (s : Str) : Nat :=
  s.foldl (fun a b => 16 * a + (if b.toNat < 58 then b.toNat - 48 else b.toNat - 87)) 0

theorem hexDigit_val (n : Nat) (h : n < 16) :
    (if (hexDigit n).toNat < 58 then (hexDigit n).toNat - 48 else (hexDigit n).toNat - 87) = n := by
  have : ∀ m : Fin 16, (if (hexDigit m).toNat < 58 then (hexDigit m).toNat - 48 else (hexDigit m).toNat - 87) = m := by
    decide +kernel
  exact this ⟨n, h⟩

theorem hexVal_append (a : Str) (b : Byte) :
    hexVal (a ++ [b]) = 16 * hexVal a + (if b.toNat < 58 then b.toNat - 48 else b.toNat - 87) := by
  simp [hexVal]

theorem hexVal_hexDigits (fuel n : Nat) (h : n < fuel) : hexVal (hexDigits fuel n) = n := by
  induction fuel generalizing n with
  | zero => omega
  | succ fuel ih =>
    unfold hexDigits
    split
    · rename_i h16
      have := hexDigit_val n h16
      simpa [hexVal] using this
    · rename_i h16
      rw [hexVal_append, ih (n / 16) (by omega), hexDigit_val _ (Nat.mod_lt _ (by decide))]
      omega

theorem hexVal_zeros (k : Nat) (s : Str) : hexVal (List.replicate k (chr '0') ++ s) = hexVal s := by
  induction k with
  | zero => simp
  | succ k ih =>
    rw [List.replicate_succ, List.cons_append]
    rw [← ih]
    simp only [hexVal, List.foldl_cons]
    rfl

theorem hexVal_fmt08x (n : Nat) : hexVal (fmt08x n) = n := by
  unfold fmt08x
  simp only [hexVal_zeros]
  exact hexVal_hexDigits _ _ (by omega)

theorem hexDigit_class (n : Nat) (h : n < 16) :
    isSymbolChar (hexDigit n) = true ∧ lower (hexDigit n) = hexDigit n ∧ hexDigit n ≠ chr '@' ∧ hexDigit n ≠ chr '_' := by
  have : ∀ m : Fin 16, isSymbolChar (hexDigit m) = true ∧ lower (hexDigit m) = hexDigit m ∧ hexDigit m ≠ chr '@' ∧
      hexDigit m ≠ chr '_' := by decide +kernel
  exact this ⟨n, h⟩

theorem hexDigits_class (fuel n : Nat) : ∀ b ∈ hexDigits fuel n, isSymbolChar b = true ∧ lower b = b := by
  induction fuel generalizing n with
  | zero => simp [hexDigits]
  | succ fuel ih =>
    unfold hexDigits
    split
    · rename_i h; intro b hb; simp at hb; subst hb
      exact ⟨(hexDigit_class n h).1, (hexDigit_class n h).2.1⟩
    · intro b hb
      simp only [List.mem_append, List.mem_singleton] at hb
      rcases hb with hb | hb
      · exact ih _ b hb
      · subst hb
        have := hexDigit_class (n % 16) (Nat.mod_lt _ (by decide))
        exact ⟨this.1, this.2.1⟩

theorem fmt08x_class (n : Nat) : ∀ b ∈ fmt08x n, isSymbolChar b = true ∧ lower b = b := by
  intro b hb
  unfold fmt08x at hb
  simp only [List.mem_append, List.mem_replicate] at hb
  rcases hb with hb | hb
  · rw [hb.2]; decide +kernel
  · exact hexDigits_class _ _ b hb

/-- The name made from counter value `n`. -/
def uname (n : Nat) (l : Bool) : Str :=
  if l then lit "@@" ++ (lit "__armips_label_" ++ fmt08x n ++ lit "__") else lit "__armips_label_" ++ fmt08x n ++ lit "__"

theorem getUnique_eq (t : SymTab) (l : Bool) : (t.getUniqueLabelName l).2 = uname t.uniqueCount l := rfl

theorem map_lower_id (s : Str) (h : ∀ b ∈ s, lower b = b) : s.map lower = s := by
  induction s with
  | nil => rfl
  | cons x xs ih =>
    simp only [List.map_cons]
    rw [h x (by simp), ih (fun b hb => h b (by simp [hb]))]

theorem uname_lower (n : Nat) (l : Bool) : (uname n l).map lower = uname n l := by
  have h1 : (lit "__armips_label_").map lower = lit "__armips_label_" := by decide +kernel
  have h2 : (lit "__").map lower = lit "__" := by decide +kernel
  have h3 : (lit "@@").map lower = lit "@@" := by decide +kernel
  have h4 := map_lower_id (fmt08x n) fun b hb => (fmt08x_class n b hb).2
  cases l <;> simp [uname, h1, h2, h3, h4]

theorem uname_inj {n m : Nat} {l l' : Bool} (h : uname n l = uname m l') : n = m ∧ l = l' := by
  have e1 : lit "@@" = [chr '@', chr '@'] := by decide
  have e2 : lit "__armips_label_" = chr '_' :: (lit "__armips_label_").tail := by decide +kernel
  have e3 : chr '@' ≠ chr '_' := by decide
  have key : ∀ a b, lit "__armips_label_" ++ fmt08x a ++ lit "__" = lit "__armips_label_" ++ fmt08x b ++ lit "__" →
      a = b := by
    intro a b hab
    rw [List.append_assoc, List.append_assoc] at hab
    have := List.append_cancel_right (List.append_cancel_left hab)
    have := congrArg hexVal this
    rwa [hexVal_fmt08x, hexVal_fmt08x] at this
  cases l <;> cases l' <;> simp only [uname, if_true] at h
  · exact ⟨key _ _ h, rfl⟩
  · rw [e1, e2] at h; simp at h; exact absurd h.1.symm e3
  · rw [e1, e2] at h; simp at h; exact absurd h.1 e3
  · exact ⟨key _ _ (List.append_cancel_left h), rfl⟩

theorem symbolChar_class (b : Byte) : (isSymbolChar b = true ↔ (Letter b ∨ Digit b ∨ Extra b) ∨ b = 0#8) := by
  unfold Letter Digit Extra
  revert b; decide +kernel

theorem lit_at : lit "@" = [chr '@'] := by decide
theorem lit_atat : lit "@@" = [chr '@', chr '@'] := by decide

theorem at_not_start : ¬ (Letter (chr '@') ∨ Extra (chr '@')) := by
  unfold Letter Extra; decide

theorem ident_iff (c : Byte) (r : Str) (h0 : 0#8 ∉ c :: r) :
    (if 48 ≤ c.toNat ∧ c.toNat ≤ 57 then false else (c :: r).all isSymbolChar) = true ↔
      (Letter c ∨ Extra c) ∧ ∀ x ∈ r, Letter x ∨ Digit x ∨ Extra x := by
  have hc0 : c ≠ 0#8 := fun h => h0 (by simp [h])
  have hr0 : ∀ x ∈ r, x ≠ 0#8 := fun x hx h => h0 (by simp [← h, hx])
  have hr : (∀ x ∈ r, isSymbolChar x = true) ↔ ∀ x ∈ r, Letter x ∨ Digit x ∨ Extra x := by
    constructor
    · intro h x hx
      rcases (symbolChar_class x).1 (h x hx) with h | h
      · exact h
      · exact absurd h (hr0 x hx)
    · intro h x hx; exact (symbolChar_class x).2 (.inl (h x hx))
  have hd : (48 ≤ c.toNat ∧ c.toNat ≤ 57) → ¬ (Letter c ∨ Extra c) := by
    unfold Letter Extra
    intro hd h
    rcases h with h | h | h
    · omega
    · subst h; revert hd; decide
    · subst h; revert hd; decide
  split
  · rename_i h; simp [hd h]
  · rename_i h
    rw [List.all_cons, Bool.and_eq_true, List.all_eq_true, hr, symbolChar_class]
    have : ¬ Digit c := h
    constructor
    · intro ⟨h1, h2⟩
      refine ⟨?_, h2⟩
      rcases h1 with (h1 | h1 | h1) | h1
      · exact .inl h1
      · exact absurd h1 this
      · exact .inr h1
      · exact absurd h1 hc0
    · intro ⟨h1, h2⟩
      refine ⟨.inl ?_, h2⟩
      rcases h1 with h1 | h1
      · exact .inl h1
      · exact .inr (.inr h1)

theorem uname_valid (n : Nat) (l : Bool) : isValidSymbolName (uname n l) = true := by
  obtain ⟨tl, htl⟩ : ∃ tl, lit "__armips_label_" = chr '_' :: tl := ⟨(lit "__armips_label_").tail, by decide +kernel⟩
  have ht : ∀ b ∈ tl, isSymbolChar b = true := by
    have : ∀ b ∈ lit "__armips_label_", isSymbolChar b = true := by decide +kernel
    intro b hb; exact this b (by rw [htl]; simp [hb])
  have he : ∀ b ∈ lit "__", isSymbolChar b = true := by decide +kernel
  have hu : isSymbolChar (chr '_') = true := by decide +kernel
  have hall : (chr '_' :: (tl ++ fmt08x n ++ lit "__")).all isSymbolChar = true := by
    rw [List.all_eq_true]
    intro b hb
    simp only [List.mem_cons, List.mem_append] at hb
    rcases hb with hb | (hb | hb) | hb
    · rw [hb]; exact hu
    · exact ht b hb
    · exact (fmt08x_class n b hb).1
    · exact he b hb
  have e3 : chr '_' ≠ chr '@' := by decide
  have e4 : ¬ (48 ≤ (chr '_').toNat ∧ (chr '_').toNat ≤ 57) := by decide
  cases l
  · have e : uname n false = chr '_' :: (tl ++ fmt08x n ++ lit "__") := by simp [uname, htl]
    rw [e]
    rw [show isValidSymbolName (chr '_' :: (tl ++ fmt08x n ++ lit "__")) =
      (if 48 ≤ (chr '_').toNat ∧ (chr '_').toNat ≤ 57 then false
        else (chr '_' :: (tl ++ fmt08x n ++ lit "__")).all isSymbolChar) from by
        simp [isValidSymbolName, lit_at, lit_atat, e3], if_neg e4]
    exact hall
  · have e : uname n true = chr '@' :: chr '@' :: chr '_' :: (tl ++ fmt08x n ++ lit "__") := by
      simp [uname, htl, lit_atat]
    rw [e]
    rw [show isValidSymbolName (chr '@' :: chr '@' :: chr '_' :: (tl ++ fmt08x n ++ lit "__")) =
      (if 48 ≤ (chr '_').toNat ∧ (chr '_').toNat ≤ 57 then false
        else (chr '_' :: (tl ++ fmt08x n ++ lit "__")).all isSymbolChar) from by
        simp [isValidSymbolName, lit_at, lit_atat], if_neg e4]
    exact hall

theorem step_count (t : SymTab) (op) : t.uniqueCount ≤ (t.step op).uniqueCount := by
  have gl : ∀ (t : SymTab) n f s, (t.getLabel n f s).1.uniqueCount = t.uniqueCount := by
    intro t n f s; unfold getLabel
    split
    · rfl
    · simp only; split <;> rfl
  cases op with
  | getLabel n f s => simp [step, gl]
  | addEquation n f s r =>
    simp only [step, addEquation]
    split
    · simp
    · split <;> simp [setSymbol]
  | getUniqueLabelName l => simp [step, getUniqueLabelName]
  | modifyLabel i v p d => simp [step, modifyLabel]
  | addLabels f s defs =>
    simp only [step]
    induction defs generalizing t s with
    | nil => simp [addLabels]
    | cons d rest ih =>
      obtain ⟨name, value⟩ := d
      have h1 := gl t name f s
      unfold addLabels
      split
      · rename_i t' heq
        rw [heq] at h1
        rw [← h1]; exact ih _ _
      · rename_i t' i heq
        rw [heq] at h1
        rw [← h1]
        exact ih (t'.modifyLabel i fun l => { l with defined := true, value := value }) _

theorem run_count (t : SymTab) (ops) : t.uniqueCount ≤ (t.run ops).uniqueCount := by
  induction ops generalizing t with
  | nil => exact Nat.le_refl _
  | cons op ops ih => exact Nat.le_trans (step_count t op) (ih _)

/-! ### Section lookup -/

theorem split_cases {b a b' a' : List Mark} {m m' : Mark} (e : b ++ m :: a = b' ++ m' :: a') :
    (b = b' ∧ m = m') ∨ m ∈ b' ∨ m' ∈ b := by
  induction b generalizing b' with
  | nil => cases b' with
    | nil => simp at e; exact .inl ⟨rfl, e.1⟩
    | cons x xs => simp at e; exact .inr (.inl (by simp [e.1]))
  | cons y ys ih => cases b' with
    | nil => simp at e; exact .inr (.inr (by simp [e.1]))
    | cons x xs =>
      simp at e
      rcases ih e.2 with ⟨h, h'⟩ | h | h
      · exact .inl ⟨by rw [e.1, h], h'⟩
      · exact .inr (.inl (by simp [h]))
      · exact .inr (.inr (by simp [h]))


abbrev mark (l : Label) : Mark := ⟨l.value, l.section_⟩

theorem findSection_fold (address : Int) (ls : List Label) (pre : List Mark) (acc : Int × Int)
    (h : ((∃ (before : List Mark) (m : Mark) (after : List Mark), pre = before ++ m :: after ∧
      m.value ≤ address ∧ address - m.value < 2 ^ 31 - 1 ∧ acc = (m.section_, address - m.value) ∧
      (∀ x ∈ before, x.value ≤ address → x.value < m.value) ∧
      (∀ x ∈ after, x.value ≤ address → x.value ≤ m.value)) ∨
      ((∀ x ∈ pre, x.value ≤ address → 2 ^ 31 - 1 ≤ address - x.value) ∧ acc = (-1, 2 ^ 31 - 1)))) :
    SectionOf (pre ++ ls.map mark) address (ls.foldl (findSectionStep address) acc).1 := by
  induction ls generalizing pre acc with
  | nil =>
    simp only [List.map_nil, List.append_nil, List.foldl_nil]
    rcases h with ⟨b, m, a, h1, h2, h3, h4, h5, h6⟩ | ⟨h1, h2⟩
    · exact .inl ⟨b, m, a, h1, h2, h3, by rw [h4], h5, h6⟩
    · exact .inr ⟨h1, by rw [h2]⟩
  | cons l ls ih =>
    have e : pre ++ (l :: ls).map mark = (pre ++ [mark l]) ++ ls.map mark := by simp
    rw [e, List.foldl_cons]
    apply ih
    rcases h with ⟨b, m, a, h1, h2, h3, h4, h5, h6⟩ | ⟨h1, h2⟩
    · subst h4
      unfold findSectionStep
      simp only
      split
      · rename_i hc
        refine .inl ⟨pre, mark l, [], rfl, by simp [mark]; omega, by simp [mark]; omega, rfl, ?_, by simp⟩
        intro x hx hxa
        subst h1
        simp only [List.mem_append, List.mem_cons] at hx
        simp only [mark]
        rcases hx with hx | hx | hx
        · have := h5 x hx hxa; omega
        · subst hx; omega
        · have := h6 x hx hxa; omega
      · rename_i hc
        refine .inl ⟨b, m, a ++ [mark l], by simp [h1], h2, h3, rfl, h5, ?_⟩
        intro x hx hxa
        simp only [List.mem_append, List.mem_singleton] at hx
        rcases hx with hx | hx
        · exact h6 x hx hxa
        · subst hx; simp only [mark] at hxa ⊢; omega
    · subst h2
      unfold findSectionStep
      simp only
      split
      · rename_i hc
        refine .inl ⟨pre, mark l, [], rfl, by simp [mark]; omega, by simp [mark]; omega, rfl, ?_, by simp⟩
        intro x hx hxa
        have := h1 x hx hxa
        simp only [mark]; omega
      · rename_i hc
        refine .inr ⟨?_, rfl⟩
        intro x hx hxa
        simp only [List.mem_append, List.mem_singleton] at hx
        rcases hx with hx | hx
        · exact h1 x hx hxa
        · subst hx; simp only [mark] at hxa ⊢; omega

end Armips.SymTab
