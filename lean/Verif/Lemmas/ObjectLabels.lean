import Verif.Spec.ObjectLabels
import Verif.Props.SymbolTable
import Verif.Lemmas.ElfLayout
/-!
# Labels of imported object files: lemmas
-/
namespace Armips.ObjLabels
open Armips.SymTab Armips.Spec.Sym Armips.Elf Armips.Spec.ObjLabels

/-! ### Names -/

theorem lower_lower (n : Str) : (n.map lower).map lower = n.map lower := by
  have h : ∀ b : Byte, lower (lower b) = lower b := by decide +kernel
  simp [h]

theorem valid_lower (n : Str) : isValidSymbolName (n.map lower) = isValidSymbolName n := by
  have hc : ∀ b : Byte, isSymbolChar (lower b) = isSymbolChar b := by decide +kernel
  have ha : ∀ b : Byte, (lower b = chr '@') = (b = chr '@') := fun b => propext (lower_at b)
  have hd : ∀ b : Byte, (48 ≤ (lower b).toNat ∧ (lower b).toNat ≤ 57) = (48 ≤ b.toNat ∧ b.toNat ≤ 57) := by
    have : ∀ b : Byte, (48 ≤ (lower b).toNat ∧ (lower b).toNat ≤ 57) ↔ (48 ≤ b.toNat ∧ b.toNat ≤ 57) := by decide +kernel
    exact fun b => propext (this b)
  have hall : ∀ l : Str, (l.map lower).all isSymbolChar = l.all isSymbolChar := by
    intro l; induction l with
    | nil => rfl
    | cons a l ih => simp only [List.map_cons, List.all_cons, hc, ih]
  match n with
  | [] => rfl
  | [a] =>
    by_cases h1 : a = chr '@' <;> simp_all [isValidSymbolName, lit_at, lit_atat, lower_at]
  | [a, b] =>
    by_cases h1 : a = chr '@' <;> by_cases h2 : b = chr '@' <;>
      simp [isValidSymbolName, lit_at, lit_atat, ha, hd, hc, h1, h2, lower_at]
  | a :: b :: c :: r =>
    have := hall (c :: r)
    have := hall r
    by_cases h1 : a = chr '@' <;> by_cases h2 : b = chr '@' <;>
      simp_all [isValidSymbolName, lit_at, lit_atat, lower_at]

theorem key_global (n : Str) : key n (-1) (-1) = ⟨n.map lower, -1, -1⟩ := by
  unfold key setFileSectionValues
  split
  · split <;> rfl
  · rfl

theorem key_lower (n : Str) : key (n.map lower) (-1) (-1) = key n (-1) (-1) := by
  rw [key_global, key_global, lower_lower]

theorem key_name (n : Str) (f s : Int) : (key n f s).name = n.map lower := rfl

theorem valid_of_key {n m : Str} {f s f' s' : Int} (h : key n f s = key m f' s') : isValidSymbolName n = isValidSymbolName m := by
  have : n.map lower = m.map lower := by have := congrArg SymbolKey.name h; exact this
  rw [← valid_lower n, this, valid_lower]

theorem key_global_iff (n m : Str) : key n (-1) (-1) = key m (-1) (-1) ↔ SameText n m := by
  rw [key_global, key_global, ← map_lower_eq_iff]; simp

/-! ### Looking up -/

theorem find_eq (L : Labels) (hw : WF L.tab) (n : Str) (f s : Int) : find L n f s =
    if isValidSymbolName n then
      match L.tab.symbols (key n f s) with
      | some (.label i) => look L i
      | _ => none
    else none := by
  unfold find getLabel
  cases hv : isValidSymbolName n with
  | false => simp
  | true =>
    simp only [Bool.not_true, Bool.false_eq_true, if_false, if_true]
    cases hs : L.tab.symbols (key n f s) with
    | none => simp [look]
    | some x => cases x <;> simp

/-- The symbol's label: known by its name, defined, with its marks. -/
structure Bound (M : Machine) (L : Labels) (s : Symb) (i : Nat) : Prop where
  valid : isValidSymbolName s.name = true
  sym : L.tab.symbols (key s.name (-1) (-1)) = some (.label i)
  lab : ∃ l, L.tab.labels[i]? = some l ∧ l.defined = true
  hint : L.hint i = (s.type == 1, (M.symbol s.value s.type).2)

theorem Bound.find {M : Machine} {L : Labels} {s : Symb} {i : Nat} (hw : WF L.tab) (h : Bound M L s i) {l : Label}
    (hl : L.tab.labels[i]? = some l) {n : Str} {f c : Int} (hn : SameSymbol s.name (-1) (-1) n f c) :
    find L n f c = some (says M s l.value) := by
  have hk := (key_eq_iff _ _ _ _ _ _).2 hn
  obtain ⟨l', hl', hd⟩ := h.lab
  rw [hl] at hl'; cases hl'
  rw [find_eq L hw, ← valid_of_key hk, h.valid, ← hk, h.sym]
  simp [look, hl, hd, h.hint, says]

/-! ### Exporting one symbol -/

/-- What exporting a symbol does, when it is not refused. -/
structure Exported (M : Machine) (L : Labels) (s : Symb) (L' : Labels) (i : Nat) : Prop where
  wf : WF L'.tab
  ext : Ext L.tab L'.tab
  bound : Bound M L' s i
  new : ∀ k, L.tab.symbols k = some (.label i) → k = key s.name (-1) (-1)
  zero : find L' s.name (-1) (-1) = some (says M s 0)
  others : ∀ n f c, key n f c ≠ key s.name (-1) (-1) → find L' n f c = find L n f c
  equs : ∀ n f c, L'.tab.findEquation n f c = L.tab.findEquation n f c
  labs : ∀ k, k ≠ i → k < L.tab.labels.length → L'.tab.labels[k]? = L.tab.labels[k]?
  hints : ∀ k, k ≠ i → L'.hint k = L.hint k
  undef : look L i = none

theorem exportSymbol_spec (M : Machine) (L : Labels) (hw : WF L.tab) (s : Symb) :
    ((exportSymbol M L s).2.2 = true ↔ isValidSymbolName s.name = true ∧ L.tab.findEquation s.name (-1) (-1) = none ∧
      find L s.name (-1) (-1) = none) ∧
    ((exportSymbol M L s).2.2 = true → ∃ i, (exportSymbol M L s).2.1 = some i ∧ Exported M L s (exportSymbol M L s).1 i) := by
  unfold exportSymbol getLabel
  rw [valid_lower]
  cases hv : isValidSymbolName s.name with
  | false => simp
  | true =>
    simp only [Bool.not_true, Bool.false_eq_true, if_false, key_lower, true_and]
    rw [find_eq L hw, hv, if_pos rfl]
    unfold findEquation
    have hk1 : (key s.name (-1) (-1)).section_ = -1 := by rw [key_global]
    cases hs : L.tab.symbols (key s.name (-1) (-1)) with
    | none =>
      simp only [hk1, if_true]
      rw [show ((L.tab.labels ++ [({ name := s.name.map lower, section_ := -1 } : Label)])[L.tab.labels.length]?.map (·.defined)).getD false = false by simp,
        if_neg (by simp)]
      refine ⟨by simp, fun _ => ⟨_, rfl, ?_⟩⟩
      have hg := getLabel_wf hw s.name (-1) (-1)
      have hkey : ∀ k, L.tab.symbols k = some (.label L.tab.labels.length) → False := fun k hk => by
        have := hw.bound k _ hk; omega
      have wf' : WF ((⟨(L.tab.setSymbol (key s.name (-1) (-1)) (.label L.tab.labels.length)).symbols, L.tab.labels ++ [({ name := s.name.map lower, section_ := -1 } : Label)], L.tab.equationsCount, L.tab.uniqueCount⟩ : SymTab)) ∧
          Ext L.tab (⟨(L.tab.setSymbol (key s.name (-1) (-1)) (.label L.tab.labels.length)).symbols, L.tab.labels ++ [({ name := s.name.map lower, section_ := -1 } : Label)], L.tab.equationsCount, L.tab.uniqueCount⟩ : SymTab) := by
        have hg := getLabel_wf hw (s.name.map lower) (-1) (-1)
        unfold getLabel at hg
        rw [valid_lower, hv, key_lower] at hg
        simp only [Bool.not_true, Bool.false_eq_true, if_false, hs, hk1, if_true] at hg
        exact hg
      have wm := modifyLabel_wf wf'.1 L.tab.labels.length (fun l => { l with value := 0, defined := true })
      refine ⟨wm.1, wf'.2.trans wm.2, ⟨hv, ?_, ?_, ?_⟩, fun k hk => (hkey k hk).elim, ?_, ?_, ?_, ?_, ?_, ?_⟩
      · simp [modifyLabel, setSymbol]
      · simp [modifyLabel, setSymbol]
      · simp [sttObject]
      · rw [find_eq _ wm.1, hv]
        simp [modifyLabel, setSymbol, look, says, sttObject]
      · intro n f c hn
        rw [find_eq _ wm.1, find_eq _ hw]
        simp only [modifyLabel, setSymbol, if_neg hn]
        cases hx : L.tab.symbols (key n f c) with
        | none => rfl
        | some x =>
          cases x with
          | equation => rfl
          | label j =>
            have hj := hw.bound _ _ hx
            have : j ≠ L.tab.labels.length := by omega
            simp only [look, List.getElem?_modify, if_neg this.symm, List.getElem?_append_left hj, if_neg this]
            simp
      · intro n f c
        simp only [modifyLabel, setSymbol, findEquation]
        by_cases hn : key n f c = key s.name (-1) (-1)
        · rw [if_pos hn, hn, hs]
        · rw [if_neg hn]
      · intro k hk hlt
        simp only [modifyLabel, setSymbol]
        rw [List.getElem?_modify, List.getElem?_append_left hlt]; simp [hk.symm]
      · intro k hk; simp [hk]
      · simp [look]
    | some x =>
      cases x with
      | equation r => simp
      | label i =>
        have hb := hw.bound _ _ hs
        have hlab : L.tab.labels[i]? = some L.tab.labels[i] := List.getElem?_eq_getElem hb
        simp only [look, hlab, Option.map_some, Option.getD_some]
        cases hd : L.tab.labels[i].defined with
        | true => simp
        | false =>
          refine ⟨by simp, fun _ => ⟨i, rfl, ?_⟩⟩
          simp only [Bool.false_eq_true, if_false]
          have wm := modifyLabel_wf hw i (fun l => { l with value := 0, defined := true })
          refine ⟨wm.1, wm.2, ⟨hv, ?_, ?_, ?_⟩, fun k hk => hw.inj _ _ _ hk hs, ?_, ?_, ?_, ?_, ?_, ?_⟩
          · exact hs
          · exact ⟨_, by simp [modifyLabel, hlab]; rfl, rfl⟩
          · simp [sttObject]
          · rw [find_eq _ wm.1, hv]
            simp [modifyLabel, hs, look, hlab, says, sttObject]
          · intro n f c hn
            rw [find_eq _ wm.1, find_eq _ hw]
            simp only [modifyLabel]
            cases hx : L.tab.symbols (key n f c) with
            | none => rfl
            | some x =>
              cases x with
              | equation => rfl
              | label j =>
                have hj : j ≠ i := fun he => hn (hw.inj _ _ _ hx (he ▸ hs))
                simp only [look, List.getElem?_modify, if_neg hj.symm, if_neg hj]
                simp
          · intro n f c; rfl
          · intro k hk _
            simp only [modifyLabel]
            rw [List.getElem?_modify]; simp [hk.symm]
          · intro k hk; simp [hk]
          · simp [look, hlab, hd]

/-! ### Exporting all symbols -/

theorem exportSymbols_append (M : Machine) (L : Labels) (l l' : List Symb) :
    exportSymbols M L (l ++ l') =
      ((exportSymbols M (exportSymbols M L l).1 l').1, (exportSymbols M L l).2.1 ++ (exportSymbols M (exportSymbols M L l).1 l').2.1,
        (exportSymbols M L l).2.2 && (exportSymbols M (exportSymbols M L l).1 l').2.2) := by
  induction l generalizing L with
  | nil => simp [exportSymbols]
  | cons s l ih => simp [exportSymbols, ih, Bool.and_assoc]

theorem exportFiles_flat (M : Machine) (L : Labels) (objs : List Obj) :
    (exportFiles M L objs).1 = (exportSymbols M L (symbolsOf objs)).1 ∧
    (exportFiles M L objs).2.2 = (exportSymbols M L (symbolsOf objs)).2.2 := by
  induction objs generalizing L with
  | nil => exact ⟨rfl, rfl⟩
  | cons o l ih =>
    have he : symbolsOf (o :: l) = o.symbols ++ symbolsOf l := by simp [symbolsOf]
    rw [he, exportSymbols_append]
    have := ih (exportSymbols M L o.symbols).1
    simp [exportFiles, this.1, this.2]

theorem exportSymbols_ok (M : Machine) (L : Labels) (hw : WF L.tab) (l : List Symb) :
    (exportSymbols M L l).2.2 = true ↔ (∀ s ∈ l, isValidSymbolName s.name = true) ∧
      (l.Pairwise fun a b => ¬ SameText a.name b.name) ∧ (∀ s ∈ l, L.tab.findEquation s.name (-1) (-1) = none) ∧
      ∀ s ∈ l, find L s.name (-1) (-1) = none := by
  induction l generalizing L with
  | nil => simp [exportSymbols]
  | cons s l ih =>
    obtain ⟨h1, h2⟩ := exportSymbol_spec M L hw s
    have hc : (exportSymbols M L (s :: l)).2.2 = ((exportSymbol M L s).2.2 && (exportSymbols M (exportSymbol M L s).1 l).2.2) := rfl
    rw [hc]
    cases hok : (exportSymbol M L s).2.2 with
    | false =>
      simp only [Bool.false_and, Bool.false_eq_true, false_iff]
      intro ⟨a, _, b, c⟩
      have := h1.2 ⟨a s (List.mem_cons_self ..), b s (List.mem_cons_self ..), c s (List.mem_cons_self ..)⟩
      rw [hok] at this; cases this
    | true =>
      obtain ⟨i, _, e⟩ := h2 hok
      obtain ⟨v, q, u⟩ := h1.1 hok
      rw [Bool.true_and, ih _ e.wf]
      have key : (∀ t ∈ l, find (exportSymbol M L s).1 t.name (-1) (-1) = none) ↔
          (∀ t ∈ l, ¬ SameText s.name t.name) ∧ ∀ t ∈ l, find L t.name (-1) (-1) = none := by
        constructor
        · intro h
          have hn : ∀ t ∈ l, key t.name (-1) (-1) ≠ key s.name (-1) (-1) := fun t ht hk => by
            have hz := e.zero
            rw [find_eq _ e.wf, ← hk, ← valid_of_key hk, ← find_eq _ e.wf, h t ht] at hz
            cases hz
          refine ⟨fun t ht hs => hn t ht ((key_global_iff _ _).2 hs).symm, fun t ht => ?_⟩
          rw [← e.others _ _ _ (hn t ht)]; exact h t ht
        · intro ⟨h, h'⟩ t ht
          rw [e.others _ _ _ (fun hk => h t ht ((key_global_iff _ _).1 hk.symm))]
          exact h' t ht
      rw [key]
      simp only [e.equs, List.mem_cons, forall_eq_or_imp, List.pairwise_cons]
      constructor
      · intro ⟨a, b, c, d, e⟩; exact ⟨⟨v, a⟩, ⟨d, b⟩, ⟨q, c⟩, u, e⟩
      · intro ⟨⟨_, a⟩, ⟨d, b⟩, ⟨_, c⟩, _, e⟩; exact ⟨a, b, c, d, e⟩

/-- Defined labels are left alone. -/
def Keeps (L L' : Labels) (is : List Nat) : Prop :=
  ∀ j, (look L j).isSome → j ∉ is ∧ L'.tab.labels[j]? = L.tab.labels[j]? ∧ L'.hint j = L.hint j

theorem look_lt {L : Labels} {j : Nat} (h : (look L j).isSome) : j < L.tab.labels.length := by
  unfold look at h
  cases hl : L.tab.labels[j]? with
  | none => rw [hl] at h; simp at h
  | some l => exact (List.getElem?_eq_some_iff.1 hl).1

theorem look_congr {L L' : Labels} {j : Nat} (h : L'.tab.labels[j]? = L.tab.labels[j]?) (h' : L'.hint j = L.hint j) : look L' j = look L j := by
  simp [look, h, h']

theorem Keeps.trans {A B C : Labels} {is js : List Nat} (h : Keeps A B is) (h' : Keeps B C js) : Keeps A C (is ++ js) := by
  intro j hj
  obtain ⟨a, b, c⟩ := h j hj
  obtain ⟨a', b', c'⟩ := h' j (by rw [look_congr b c]; exact hj)
  exact ⟨by simp [a, a'], b'.trans b, c'.trans c⟩

theorem Bound.look {M : Machine} {L : Labels} {s : Symb} {i : Nat} (h : Bound M L s i) : (look L i).isSome := by
  obtain ⟨l, hl, hd⟩ := h.lab
  simp [ObjLabels.look, hl, hd]

theorem Bound.keep {M : Machine} {L L' : Labels} {s : Symb} {i : Nat} {is : List Nat} (h : Bound M L s i) (he : Ext L.tab L'.tab)
    (hk : Keeps L L' is) : Bound M L' s i ∧ i ∉ is ∧ ObjLabels.look L' i = ObjLabels.look L i := by
  obtain ⟨a, b, c⟩ := hk i h.look
  exact ⟨⟨h.valid, he.1 _ _ h.sym, by rw [b]; exact h.lab, by rw [c]; exact h.hint⟩, a, look_congr b c⟩

/-- What exporting some symbols does, when none is refused. -/
structure AllExported (M : Machine) (L : Labels) (l : List Symb) (L' : Labels) (is : List Nat) : Prop where
  wf : WF L'.tab
  ext : Ext L.tab L'.tab
  len : is.length = l.length
  nodup : is.Nodup
  bound : ∀ (j : Nat) s i, l[j]? = some s → is[j]? = some i → Bound M L' s i ∧ look L' i = some (says M s 0)
  keeps : Keeps L L' is
  others : ∀ n f c, (∀ s ∈ l, key n f c ≠ key s.name (-1) (-1)) → find L' n f c = find L n f c

theorem exportSymbols_all (M : Machine) (L : Labels) (hw : WF L.tab) (l : List Symb) (h : (exportSymbols M L l).2.2 = true) :
    ∃ is, (exportSymbols M L l).2.1 = is.map some ∧ AllExported M L l (exportSymbols M L l).1 is := by
  induction l generalizing L with
  | nil => exact ⟨[], rfl, hw, Ext.rfl' _, rfl, List.nodup_nil, by simp, fun j _ => ⟨by simp, rfl, rfl⟩, fun _ _ _ _ => rfl⟩
  | cons s l ih =>
    obtain ⟨h1, h2⟩ := exportSymbol_spec M L hw s
    have hc : (exportSymbols M L (s :: l)).2.2 = ((exportSymbol M L s).2.2 && (exportSymbols M (exportSymbol M L s).1 l).2.2) := rfl
    rw [hc, Bool.and_eq_true] at h
    obtain ⟨i, hi, e⟩ := h2 h.1
    obtain ⟨is, hs, a⟩ := ih _ e.wf h.2
    have hk : Keeps L (exportSymbol M L s).1 [i] := by
      intro j hj
      have hne : j ≠ i := fun he => by rw [he, e.undef] at hj; cases hj
      exact ⟨by simpa using hne, e.labs j hne (look_lt hj), e.hints j hne⟩
    obtain ⟨b1, b2, b3⟩ := e.bound.keep a.ext a.keeps
    refine ⟨i :: is, ?_, a.wf, e.ext.trans a.ext, by simp [a.len], List.nodup_cons.2 ⟨b2, a.nodup⟩, ?_, hk.trans a.keeps, ?_⟩
    · show (exportSymbol M L s).2.1 :: (exportSymbols M (exportSymbol M L s).1 l).2.1 = _
      rw [hi, hs]; rfl
    · intro j t k ht hk
      cases j with
      | succ j => exact a.bound j t k (by simpa using ht) (by simpa using hk)
      | zero =>
        simp only [List.getElem?_cons_zero, Option.some.injEq] at ht hk
        subst ht; subst hk
        refine ⟨b1, ?_⟩
        show ObjLabels.look (exportSymbols M (exportSymbol M L s).1 l).1 i = _
        rw [b3]
        have hz := e.zero
        rw [find_eq _ e.wf, e.bound.valid, if_pos rfl, e.bound.sym] at hz
        exact hz
    · intro n f c hn
      show find (exportSymbols M (exportSymbol M L s).1 l).1 n f c = _
      rw [a.others n f c fun t ht => hn t (List.mem_cons_of_mem _ ht), e.others n f c (hn s (List.mem_cons_self ..))]

/-- Files with the labels of their symbols. -/
def link (objs : List (Obj × List Nat)) : List (Obj × List (Option Nat)) := objs.map fun p => (p.1, p.2.map some)

/-- All labels. -/
def labelsOf (objs : List (Obj × List Nat)) : List Nat := (objs.map (·.2)).flatten

theorem pointers_link (objs : List (Obj × List Nat)) : pointers (link objs) = labelsOf objs := by
  simp only [pointers, link, labelsOf, List.map_map]
  congr 1
  apply List.map_congr_left
  intro p _
  simp

/-- The symbols of the files have their own labels. -/
structure Own (M : Machine) (L : Labels) (objs : List (Obj × List Nat)) : Prop where
  wf : WF L.tab
  nodup : (labelsOf objs).Nodup
  len : ∀ p ∈ objs, p.2.length = p.1.symbols.length
  bound : ∀ p ∈ objs, ∀ (j : Nat) s i, p.1.symbols[j]? = some s → p.2[j]? = some i → Bound M L s i

theorem exportFiles_all (M : Machine) (L : Labels) (hw : WF L.tab) (objs : List Obj) (h : (exportFiles M L objs).2.2 = true) :
    ∃ os, (exportFiles M L objs).2.1 = link os ∧ os.map (·.1) = objs ∧ Own M (exportFiles M L objs).1 os ∧
      Ext L.tab (exportFiles M L objs).1.tab ∧ Keeps L (exportFiles M L objs).1 (labelsOf os) ∧
      ∀ p ∈ os, ∀ (j : Nat) s i, p.1.symbols[j]? = some s → p.2[j]? = some i → look (exportFiles M L objs).1 i = some (says M s 0) := by
  induction objs generalizing L with
  | nil => exact ⟨[], rfl, rfl, ⟨hw, List.nodup_nil, by simp, by simp⟩, Ext.rfl' _, fun j _ => ⟨by simp [labelsOf], rfl, rfl⟩, by simp⟩
  | cons o l ih =>
    have hc : (exportFiles M L (o :: l)).2.2 = ((exportSymbols M L o.symbols).2.2 && (exportFiles M (exportSymbols M L o.symbols).1 l).2.2) := rfl
    rw [hc, Bool.and_eq_true] at h
    obtain ⟨is, hs, a⟩ := exportSymbols_all M L hw o.symbols h.1
    obtain ⟨os, ho, hm, w, x, k, z⟩ := ih _ a.wf h.2
    have hb : ∀ (j : Nat) s i, o.symbols[j]? = some s → is[j]? = some i →
        Bound M (exportFiles M (exportSymbols M L o.symbols).1 l).1 s i ∧ i ∉ labelsOf os ∧
        look (exportFiles M (exportSymbols M L o.symbols).1 l).1 i = some (says M s 0) := by
      intro j s i h1 h2
      obtain ⟨b, lk⟩ := a.bound j s i h1 h2
      obtain ⟨b1, b2, b3⟩ := b.keep x k
      exact ⟨b1, b2, b3.trans lk⟩
    refine ⟨(o, is) :: os, ?_, by simp [hm], ⟨w.wf, ?_, ?_, ?_⟩, a.ext.trans x, ?_, ?_⟩
    · show (o, (exportSymbols M L o.symbols).2.1) :: (exportFiles M (exportSymbols M L o.symbols).1 l).2.1 = _
      rw [hs, ho]; rfl
    · have : labelsOf ((o, is) :: os) = is ++ labelsOf os := by simp [labelsOf]
      rw [this, List.nodup_append]
      refine ⟨a.nodup, w.nodup, fun i hi j hj he => ?_⟩
      obtain ⟨n, hn⟩ := List.getElem?_of_mem hi
      have hlt : n < o.symbols.length := by rw [← a.len]; exact (List.getElem?_eq_some_iff.1 hn).1
      exact (hb n _ i (List.getElem?_eq_getElem hlt) hn).2.1 (he ▸ hj)
    · intro p hp
      rcases List.mem_cons.1 hp with rfl | hp
      · exact a.len
      · exact w.len p hp
    · intro p hp j s i h1 h2
      rcases List.mem_cons.1 hp with rfl | hp
      · exact (hb j s i h1 h2).1
      · exact w.bound p hp j s i h1 h2
    · have : labelsOf ((o, is) :: os) = is ++ labelsOf os := by simp [labelsOf]
      rw [this]; exact a.keeps.trans k
    · intro p hp j s i h1 h2
      rcases List.mem_cons.1 hp with rfl | hp
      · exact (hb j s i h1 h2).2.2
      · exact z p hp j s i h1 h2

/-! ### Passes -/

/-- Two tables differ at most in the values of some labels. -/
structure Same (L L' : Labels) (is : List Nat) : Prop where
  symbols : L'.tab.symbols = L.tab.symbols
  length : L'.tab.labels.length = L.tab.labels.length
  hint : L'.hint = L.hint
  others : ∀ i, i ∉ is → L'.tab.labels[i]? = L.tab.labels[i]?
  value : ∀ i : Nat, (L'.tab.labels[i]?).map (fun l => (l.name, l.physicalValue, l.defined, l.section_)) =
    (L.tab.labels[i]?).map fun l => (l.name, l.physicalValue, l.defined, l.section_)

theorem Same.refl (L : Labels) (is : List Nat) : Same L L is := ⟨rfl, rfl, rfl, fun _ _ => rfl, fun _ => rfl⟩
theorem Same.trans {A B C : Labels} {is js : List Nat} (h : Same A B is) (h' : Same B C js) : Same A C (is ++ js) :=
  ⟨h'.symbols.trans h.symbols, h'.length.trans h.length, h'.hint.trans h.hint,
    fun i hi => (h'.others i fun hm => hi (by simp [hm])).trans (h.others i fun hm => hi (by simp [hm])),
    fun i => (h'.value i).trans (h.value i)⟩

theorem Same.wf {L L' : Labels} {is : List Nat} (h : Same L L' is) (hw : WF L.tab) : WF L'.tab :=
  ⟨fun k i hk => by rw [h.length]; rw [h.symbols] at hk; exact hw.bound k i hk,
    fun k k' i hk hk' => by rw [h.symbols] at hk hk'; exact hw.inj k k' i hk hk'⟩

theorem Same.bound {M : Machine} {L L' : Labels} {is : List Nat} {s : Symb} {i : Nat} (h : Same L L' is) (hb : Bound M L s i) : Bound M L' s i := by
  refine ⟨hb.valid, by rw [h.symbols]; exact hb.sym, ?_, by rw [h.hint]; exact hb.hint⟩
  obtain ⟨l, hl, hd⟩ := hb.lab
  have := h.value i
  rw [hl] at this
  cases hx : L'.tab.labels[i]? with
  | none => rw [hx] at this; cases this
  | some l' =>
    rw [hx] at this
    simp only [Option.map_some, Option.some.injEq, Prod.mk.injEq] at this
    exact ⟨l', rfl, this.2.2.1.trans hd⟩

theorem setValues_same (L : Labels) (is : List Nat) (vs : List Int) : Same L (setValues L (is.map some) vs) is := by
  induction is generalizing L vs with
  | nil => cases vs <;> exact Same.refl _ _
  | cons i is ih =>
    cases vs with
    | nil => exact Same.refl _ _
    | cons v vs =>
      have h1 : Same L { L with tab := L.tab.modifyLabel i fun l => { l with value := v } } [i] := by
        refine ⟨rfl, by simp [modifyLabel], rfl, fun k hk => ?_, fun k => ?_⟩
        · have : i ≠ k := fun h => hk (by simp [h])
          simp [modifyLabel, List.getElem?_modify, this]
        · simp only [modifyLabel, List.getElem?_modify]
          by_cases h : i = k
          · cases hx : L.tab.labels[k]? <;> simp [h, hx]
          · cases hx : L.tab.labels[k]? <;> simp [h, hx]
      exact h1.trans (ih _ vs)

theorem setValues_value (L : Labels) (is : List Nat) (vs : List Int) (hn : is.Nodup) {j i : Nat} {v : Int}
    (hi : is[j]? = some i) (hv : vs[j]? = some v) {l : Label} (hl : L.tab.labels[i]? = some l) :
    (setValues L (is.map some) vs).tab.labels[i]? = some { l with value := v } := by
  induction is generalizing L vs j l with
  | nil => simp at hi
  | cons k is ih =>
    cases vs with
    | nil => simp at hv
    | cons u vs =>
      rw [List.nodup_cons] at hn
      cases j with
      | zero =>
        simp only [List.getElem?_cons_zero, Option.some.injEq] at hi hv
        subst hi; subst hv
        show (setValues { L with tab := L.tab.modifyLabel k fun l => { l with value := u } } (is.map some) vs).tab.labels[k]? = _
        rw [(setValues_same _ is vs).others k hn.1]
        simp [modifyLabel, hl]
      | succ j =>
        simp only [List.getElem?_cons_succ] at hi hv
        have hne : k ≠ i := fun h => hn.1 (h ▸ List.mem_of_getElem? hi)
        exact ih { L with tab := L.tab.modifyLabel k fun l => { l with value := u } } vs hn.2 hi hv
          (by simp [modifyLabel, List.getElem?_modify, hne, hl])

theorem setValues_id (L : Labels) (is : List Nat) (vs : List Int)
    (h : ∀ (j : Nat) i v, is[j]? = some i → vs[j]? = some v → ∃ l, L.tab.labels[i]? = some l ∧ l.value = v) :
    setValues L (is.map some) vs = L := by
  induction is generalizing vs with
  | nil => cases vs <;> rfl
  | cons i is ih =>
    cases vs with
    | nil => rfl
    | cons v vs =>
      obtain ⟨l, hl, hv⟩ := h 0 i v rfl rfl
      have : ({ L with tab := L.tab.modifyLabel i fun l => { l with value := v } } : Labels) = L := by
        have hm : L.tab.labels.modify i (fun l => { l with value := v }) = L.tab.labels := by
          apply List.ext_getElem?
          intro k
          rw [List.getElem?_modify]
          by_cases hk : i = k
          · subst hk; rw [hl, ← hv]; simp
          · simp [hk]
        simp only [modifyLabel, hm]
      show setValues { L with tab := L.tab.modifyLabel i fun l => { l with value := v } } (is.map some) vs = L
      rw [this]
      exact ih vs fun j i v hi hv => h (j + 1) i v hi hv

/-- The labels have the given values. -/
def Holds (L : Labels) (objs : List (Obj × List Nat)) (adr : List (List Int)) : Prop :=
  ∀ (k : Nat) p vs, objs[k]? = some p → adr[k]? = some vs → ∀ (j : Nat) i v, p.2[j]? = some i → vs[j]? = some v →
    ∃ l, L.tab.labels[i]? = some l ∧ l.value = v

theorem file_symbols {M : Machine} {e : String → Option Elf.Ext} {a : Int} {f : Elf.File} {q : M.State} {x : Imported M.State}
    (h : relocateFile M e a f q = some x) : x.symbols.length = f.exported.length := by
  simp only [relocateFile, bind, Option.bind_eq_some_iff, Option.some.injEq, Prod.exists] at h
  obtain ⟨m, stop, _, out, o, _, syms, stop', h3, rfl⟩ := h
  exact (placeSymbols_props h3).2.1

theorem Own.tail {M : Machine} {L : Labels} {p : Obj × List Nat} {l : List (Obj × List Nat)} (h : Own M L (p :: l)) : Own M L l := by
  have : labelsOf (p :: l) = p.2 ++ labelsOf l := by simp [labelsOf]
  have hn := h.nodup
  rw [this, List.nodup_append] at hn
  exact ⟨h.wf, hn.2.1, fun x hx => h.len x (List.mem_cons_of_mem _ hx), fun x hx => h.bound x (List.mem_cons_of_mem _ hx)⟩

theorem Own.same {M : Machine} {L L' : Labels} {objs : List (Obj × List Nat)} {is : List Nat} (h : Own M L objs) (hs : Same L L' is) : Own M L' objs :=
  ⟨hs.wf h.wf, h.nodup, h.len, fun p hp j s i h1 h2 => hs.bound (h.bound p hp j s i h1 h2)⟩

theorem passFiles_spec {M : Machine} {objs : List (Obj × List Nat)} : ∀ {L L' : Labels} {a : Int} {q : M.State} {out : List Byte}
    {r : List (Imported M.State)}, Own M L objs → passFiles M L a q (link objs) = some (L', out, r) →
    r.length = objs.length ∧ Same L L' (labelsOf objs) ∧ Holds L' objs (r.map (·.symbols)) ∧
    ∀ (k : Nat) p x, objs[k]? = some p → r[k]? = some x → x.symbols.length = p.1.symbols.length := by
  induction objs with
  | nil =>
    intro L L' a q out r _ h
    cases h
    exact ⟨rfl, Same.refl _ _, by intro k p vs h; simp at h, by intro k p x h; simp at h⟩
  | cons p l ih =>
    intro L L' a q out r w h
    simp only [link, List.map_cons, passFiles, bind, Option.bind_eq_some_iff, Option.some.injEq, Prod.mk.injEq, Prod.exists] at h
    obtain ⟨x, hx, L1, out1, r1, hr, rfl, rfl, rfl⟩ := h
    have hs := setValues_same L p.2 x.symbols
    obtain ⟨a1, a2, a3, a4⟩ := ih (w.tail.same hs) hr
    have hlen := file_symbols hx
    have hl : labelsOf (p :: l) = p.2 ++ labelsOf l := by simp [labelsOf]
    have hn := w.nodup
    rw [hl, List.nodup_append] at hn
    refine ⟨by simp [a1], by rw [hl]; exact hs.trans a2, ?_, ?_⟩
    · intro k p' vs hp hv j i v hi hj
      cases k with
      | succ k => exact a3 k p' vs (by simpa using hp) (by simpa using hv) j i v hi hj
      | zero =>
        simp only [List.map_cons, List.getElem?_cons_zero, Option.some.injEq] at hp hv
        subst hp; subst hv
        have hjl : j < p.1.symbols.length := by
          rw [← w.len p (List.mem_cons_self ..)]; exact (List.getElem?_eq_some_iff.1 hi).1
        obtain ⟨lb, hlb, _⟩ := (w.bound p (List.mem_cons_self ..) j _ i (List.getElem?_eq_getElem hjl) hi).lab
        refine ⟨{ lb with value := v }, ?_, rfl⟩
        rw [a2.others i fun hm => hn.2.2 i (List.mem_of_getElem? hi) i hm rfl]
        exact setValues_value L p.2 x.symbols hn.1 hi hj hlb
    · intro k p' y hp hy
      cases k with
      | succ k => exact a4 k p' y (by simpa using hp) (by simpa using hy)
      | zero =>
        simp only [List.getElem?_cons_zero, Option.some.injEq] at hp hy
        subst hp; subst hy
        rw [hlen]; simp [Obj.file]

theorem passFiles_stable {M : Machine} {objs : List (Obj × List Nat)} : ∀ {L L' : Labels} {a : Int} {q : M.State} {out : List Byte}
    {r : List (Imported M.State)}, Holds L objs (r.map (·.symbols)) → passFiles M L a q (link objs) = some (L', out, r) →
    L' = L ∧ relocate M (ext L) a q (objs.map fun p => p.1.file M) = some (out, r) := by
  induction objs with
  | nil => intro L L' a q out r _ h; cases h; exact ⟨rfl, rfl⟩
  | cons p l ih =>
    intro L L' a q out r w h
    simp only [link, List.map_cons, passFiles, bind, Option.bind_eq_some_iff, Option.some.injEq, Prod.mk.injEq, Prod.exists] at h
    obtain ⟨x, hx, L1, out1, r1, hr, rfl, rfl, rfl⟩ := h
    have hs : setValues L (p.2.map some) x.symbols = L := setValues_id _ _ _ (w 0 p x.symbols rfl rfl)
    rw [hs] at hr
    obtain ⟨a1, a2⟩ := ih (fun k p vs h1 h2 => w (k + 1) p vs h1 h2) hr
    exact ⟨a1, by simp [relocate, hx, a2]⟩

/-! ### Histories -/

theorem step_foreign {M : Machine} {L : Labels} {objs : List (Obj × List Nat)} (w : Own M L objs) (op : SymTab.Op)
    (hf : Foreign (labelsOf objs) (.other op)) :
    Own M { L with tab := L.tab.step op } objs ∧ ∀ i ∈ labelsOf objs, (L.tab.step op).labels[i]? = L.tab.labels[i]? := by
  have hlt : ∀ i ∈ labelsOf objs, i < L.tab.labels.length := by
    intro i hi
    simp only [labelsOf, List.mem_flatten, List.mem_map] at hi
    obtain ⟨_, ⟨p, hp, rfl⟩, hi⟩ := hi
    obtain ⟨j, hj⟩ := List.getElem?_of_mem hi
    have hjl : j < p.1.symbols.length := by rw [← w.len p hp]; exact (List.getElem?_eq_some_iff.1 hj).1
    obtain ⟨lb, hlb, _⟩ := (w.bound p hp j _ i (List.getElem?_eq_getElem hjl) hj).lab
    exact (List.getElem?_eq_some_iff.1 hlb).1
  have hlab : ∀ i ∈ labelsOf objs, (L.tab.step op).labels[i]? = L.tab.labels[i]? := by
    intro i hi
    have h := hlt i hi
    cases op with
    | getLabel n f s =>
      simp only [SymTab.step, getLabel]
      split
      · rfl
      · split <;> simp [List.getElem?_append_left h]
    | addEquation n f s r =>
      simp only [SymTab.step, addEquation]
      split
      · rfl
      · split <;> rfl
    | getUniqueLabelName l => rfl
    | modifyLabel k v p d =>
      have : k ≠ i := fun he => hf (he ▸ hi)
      simp [SymTab.step, modifyLabel, List.getElem?_modify, this]
    | addLabels f s d => exact hf.elim
  have hw := step_wf w.wf op
  refine ⟨⟨hw.1, w.nodup, w.len, fun p hp j s i h1 h2 => ?_⟩, hlab⟩
  have b := w.bound p hp j s i h1 h2
  have hi : i ∈ labelsOf objs := List.mem_flatten.2 ⟨p.2, List.mem_map.2 ⟨p, hp, rfl⟩, List.mem_of_getElem? h2⟩
  exact ⟨b.valid, hw.2.1 _ _ b.sym, by rw [show ({ L with tab := L.tab.step op } : Labels).tab = L.tab.step op from rfl, hlab i hi]; exact b.lab, b.hint⟩

theorem Holds.congr {L L' : Labels} {objs : List (Obj × List Nat)} {adr : List (List Int)} (h : Holds L objs adr)
    (he : ∀ i ∈ labelsOf objs, L'.tab.labels[i]? = L.tab.labels[i]?) : Holds L' objs adr := by
  intro k p vs h1 h2 j i v h3 h4
  have hi : i ∈ labelsOf objs := List.mem_flatten.2 ⟨p.2, List.mem_map.2 ⟨p, List.mem_of_getElem? h1, rfl⟩, List.mem_of_getElem? h3⟩
  rw [he i hi]; exact h k p vs h1 h2 j i v h3 h4

theorem pass_eq {M : Machine} {os : List (Obj × List (Option Nat))} {a : Int} {L L' : Labels} {R R' : Memory} {ch : Bool}
    (h : pass M os a L R = some (L', R', ch)) : ∃ out r, passFiles M L a M.init os = some (L', out, r) ∧ R' = ⟨r.map (·.symbols), out⟩ ∧
      ch = decide (r.map (·.symbols) ≠ R.addresses ∨ out ≠ R.data) := by
  simp only [pass, bind, Option.bind_eq_some_iff, Option.some.injEq, Prod.mk.injEq, Prod.exists] at h
  obtain ⟨L1, out, r, h, rfl, rfl, rfl⟩ := h
  exact ⟨out, r, h, rfl, rfl⟩

theorem events_own {M : Machine} {objs : List (Obj × List Nat)} : ∀ {evs : List Event} {x y : Labels × Memory}, Own M x.1 objs →
    (∀ e ∈ evs, Foreign (labelsOf objs) e) → events M (link objs) x evs = some y →
    Own M y.1 objs ∧ ((Holds x.1 objs x.2.addresses ∨ HasPass evs) → Holds y.1 objs y.2.addresses) := by
  intro evs
  induction evs with
  | nil =>
    intro x y w _ h
    cases h
    refine ⟨w, fun h => ?_⟩
    rcases h with h | ⟨a, h⟩
    · exact h
    · cases h
  | cons e l ih =>
    intro x y w hf h
    simp only [events, bind, Option.bind_eq_some_iff] at h
    obtain ⟨z, hz, h⟩ := h
    have hf' := fun e he => hf e (List.mem_cons_of_mem _ he)
    cases e with
    | pass a =>
      simp only [event, bind, Option.bind_eq_some_iff, Option.some.injEq, Prod.exists] at hz
      obtain ⟨L', R', ch, hp, rfl⟩ := hz
      obtain ⟨out, r, hr, rfl, _⟩ := pass_eq hp
      obtain ⟨a1, a2, a3, a4⟩ := passFiles_spec w hr
      obtain ⟨b1, b2⟩ := ih (x := (L', ⟨r.map (·.symbols), out⟩)) (w.same a2) hf' h
      exact ⟨b1, fun _ => b2 (.inl a3)⟩
    | other op =>
      simp only [event, Option.some.injEq] at hz
      subst hz
      obtain ⟨a1, a2⟩ := step_foreign w op (hf _ (List.mem_cons_self ..))
      obtain ⟨b1, b2⟩ := ih (x := ({ x.1 with tab := x.1.tab.step op }, x.2)) a1 hf' h
      refine ⟨b1, fun hh => b2 ?_⟩
      rcases hh with hh | ⟨a, hh⟩
      · exact .inl (hh.congr a2)
      · refine .inr ⟨a, ?_⟩
        rcases List.mem_cons.1 hh with hh | hh
        · cases hh
        · exact hh

end Armips.ObjLabels
