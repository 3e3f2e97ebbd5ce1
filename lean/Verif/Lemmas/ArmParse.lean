import Verif.Spec.ArmParse
/-! Lemmas about the ARM parser. -/
namespace Armips.ArmParse
open Armips Spec.Arm

/-! ### Mnemonics -/

/-- The condition table with characters. -/
def condL : List (List Char × Nat) := conditions.map fun p => (p.1.toList, p.2)

theorem condL_eq : condL = [(['e', 'q'], 0), (['n', 'e'], 1), (['c', 's'], 2), (['h', 's'], 2), (['c', 'c'], 3), (['l', 'o'], 3), (['m', 'i'], 4),
    (['p', 'l'], 5), (['v', 's'], 6), (['v', 'c'], 7), (['h', 'i'], 8), (['l', 's'], 9), (['g', 'e'], 10), (['l', 't'], 11), (['g', 't'], 12),
    (['l', 'e'], 13), (['a', 'l'], 14)] := by decide +kernel

/-- The addressing modes with characters and numbers. -/
def modeL : List (List Char × Nat) := [(['i', 'b'], 0), (['i', 'a'], 1), (['d', 'b'], 2), (['d', 'a'], 3), (['e', 'd'], 4), (['f', 'd'], 5),
    (['e', 'a'], 6), (['f', 'a'], 7)]

theorem modeL_iff : (∀ p ∈ modes, ∀ k, k < 8 → modeOf k = p.2 → (p.1.toList, k) ∈ modeL) ∧
    ∀ q ∈ modeL, q.2 < 8 ∧ ∃ p ∈ modes, p.1.toList = q.1 ∧ p.2 = modeOf q.2 := by
  constructor
  · have : ∀ p ∈ modes, ∀ k : Fin 8, modeOf k.val = p.2 → (p.1.toList, k.val) ∈ modeL := by decide +kernel
    exact fun p hp k hk h => this p hp ⟨k, hk⟩ h
  · decide +kernel

theorem cond_sound {n : List Char} {k : Nat} {t : List Char} (h : decodeCondition n = (k, t)) :
    (k = 14 ∧ t = n) ∨ ∃ s : String, (s, k) ∈ conditions ∧ n = s.toList ++ t := by
  have key : ∀ c1 c2 k, conditionNumber c1 c2 = some k → ([c1, c2], k) ∈ condL := by
    intro c1 c2 k h
    rw [condL_eq]
    unfold conditionNumber at h
    split at h <;> first | (cases h; done) | (cases h; simp)
  unfold decodeCondition at h
  split at h
  · split at h
    · rename_i c1 c2 t' m hm
      cases h
      right
      obtain ⟨⟨p1, p2⟩, hp, he⟩ := List.mem_map.1 (key _ _ _ hm)
      obtain ⟨he1, he2⟩ := Prod.mk.inj he
      simp only at he1 he2
      subst he2
      exact ⟨p1, hp, by rw [he1]; rfl⟩
    · cases h; exact .inl ⟨rfl, rfl⟩
  · cases h; exact .inl ⟨rfl, rfl⟩

theorem decode_sound {e : List Char} : ∀ {n : List Char} {v v' : Vars}, decode e n v = some v' → Reads e n v v' := by
  induction e with
  | nil =>
    intro n v v' h
    unfold decode at h
    split at h
    · rename_i hn; cases h; subst hn; exact .done v
    · cases h
  | cons c e ih =>
    intro n v v' h
    unfold decode at h
    split at h
    · rename_i hc; subst hc
      rcases cond_sound (show decodeCondition n = ((decodeCondition n).1, (decodeCondition n).2) from rfl) with ⟨h1, h2⟩ | ⟨s, h1, h2⟩
      · rw [h1, h2] at h; exact .always (ih h)
      · rw [h2]; exact .cond s _ h1 (ih h)
    split at h
    · rename_i hc; subst hc
      unfold decodeS at h
      split at h
      · exact .flags (ih h)
      · exact .noFlags (ih h)
    split at h
    · rename_i hc; subst hc
      split at h
      · rename_i a t ha
        have hm : ∃ q ∈ modeL, q.2 = a ∧ n = q.1 ++ t := by
          unfold decodeAddressingMode at ha
          split at ha <;> cases ha <;> simp [modeL]
        obtain ⟨q, hq, rfl, rfl⟩ := hm
        obtain ⟨h8, p, hp, h1, h2⟩ := modeL_iff.2 q hq
        rw [← h1]
        exact .mode p.1 q.2 h8 (by rw [← h2]; exact hp) (ih h)
      · cases h
    split at h
    · rename_i hc; subst hc
      split at h
      · rename_i x t hx
        unfold decodeXY at hx
        split at hx <;> cases hx
        · exact .top (ih h)
        · exact .bottom (ih h)
      · cases h
    split at h
    · rename_i hc; subst hc
      split at h
      · rename_i x t hx
        unfold decodeXY at hx
        split at hx <;> cases hx
        · exact .top' (ih h)
        · exact .bottom' (ih h)
      · cases h
    split at h
    · cases h
    · split at h
      · rename_i h1 h2 h3 h4 h5 _ _ _ hc
        subst hc
        exact .itself c (by simp [h1, h2, h3, h4, h5]) (ih h)
      · cases h

/-- All spellings of a pattern. -/
def spellings : List Char → Vars → List (List Char × Vars)
  | [], v => [([], v)]
  | e :: es, v =>
    if e = 'C' then spellings es { v with c := 14 } ++
      condL.flatMap fun q => (spellings es { v with c := q.2 }).map fun p => (q.1 ++ p.1, p.2)
    else if e = 'S' then spellings es { v with s := false } ++ (spellings es { v with s := true }).map fun p => ('s' :: p.1, p.2)
    else if e = 'A' then modeL.flatMap fun q => (spellings es { v with a := q.2 }).map fun p => (q.1 ++ p.1, p.2)
    else if e = 'X' then (spellings es { v with x := true }).map (fun p => ('t' :: p.1, p.2)) ++
      (spellings es { v with x := false }).map (fun p => ('b' :: p.1, p.2))
    else if e = 'Y' then (spellings es { v with y := true }).map (fun p => ('t' :: p.1, p.2)) ++
      (spellings es { v with y := false }).map (fun p => ('b' :: p.1, p.2))
    else (spellings es v).map fun p => (e :: p.1, p.2)

theorem spellings_complete {e n : List Char} {v v' : Vars} (h : Reads e n v v') : (n, v') ∈ spellings e v := by
  induction h with
  | done v => simp [spellings]
  | @cond e n v v' s k hs _ ih =>
    simp only [spellings, if_true, List.mem_append, List.mem_flatMap, List.mem_map]
    exact .inr ⟨(s.toList, k), List.mem_map.2 ⟨_, hs, rfl⟩, _, ih, rfl⟩
  | always _ ih =>
    simp only [spellings, if_true, List.mem_append]
    exact .inl ih
  | flags _ ih =>
    simp only [spellings, if_true, show ¬ 'S' = 'C' by decide, if_false, List.mem_append, List.mem_map]
    exact .inr ⟨_, ih, rfl⟩
  | noFlags _ ih =>
    simp only [spellings, if_true, show ¬ 'S' = 'C' by decide, if_false, List.mem_append, List.mem_map]
    exact .inl ih
  | @mode e n v v' s k hk hs _ ih =>
    simp only [spellings, if_true, show ¬ 'A' = 'C' by decide, show ¬ 'A' = 'S' by decide, if_false, List.mem_flatMap, List.mem_map]
    exact ⟨(s.toList, k), modeL_iff.1 _ hs k hk rfl, _, ih, rfl⟩
  | top _ ih =>
    simp only [spellings, if_true, show ¬ 'X' = 'C' by decide, show ¬ 'X' = 'S' by decide, show ¬ 'X' = 'A' by decide, if_false,
      List.mem_append, List.mem_map]
    exact .inl ⟨_, ih, rfl⟩
  | bottom _ ih =>
    simp only [spellings, if_true, show ¬ 'X' = 'C' by decide, show ¬ 'X' = 'S' by decide, show ¬ 'X' = 'A' by decide, if_false,
      List.mem_append, List.mem_map]
    exact .inr ⟨_, ih, rfl⟩
  | top' _ ih =>
    simp only [spellings, if_true, show ¬ 'Y' = 'C' by decide, show ¬ 'Y' = 'S' by decide, show ¬ 'Y' = 'A' by decide, show ¬ 'Y' = 'X' by decide,
      if_false, List.mem_append, List.mem_map]
    exact .inl ⟨_, ih, rfl⟩
  | bottom' _ ih =>
    simp only [spellings, if_true, show ¬ 'Y' = 'C' by decide, show ¬ 'Y' = 'S' by decide, show ¬ 'Y' = 'A' by decide, show ¬ 'Y' = 'X' by decide,
      if_false, List.mem_append, List.mem_map]
    exact .inr ⟨_, ih, rfl⟩
  | itself ch hc _ ih =>
    simp only [List.mem_cons, List.not_mem_nil, or_false, not_or] at hc
    simp only [spellings, hc.1, hc.2.1, hc.2.2.1, hc.2.2.2.1, hc.2.2.2.2, if_false, List.mem_map]
    exact ⟨_, ih, rfl⟩

/-- The patterns of the opcode table. -/
def patterns : List String :=
  ["bxC", "blxC", "bC", "blC", "blx", "andCS", "eorCS", "xorCS", "subCS", "rsbCS", "addCS", "adcCS", "sbcCS", "rscCS", "tstC",
    "teqC", "cmpC", "cmnC", "orrCS", "movCS", "nop", "bicCS", "mvnCS", "adrCS", "lslCS", "lsrCS", "asrCS", "rorCS", "msrC", "movC",
    "mrsC", "mulCS", "mlaCS", "umullCS", "umlalCS", "smullCS", "smlalCS", "smlaXYC", "smlawYC", "smulwYC", "smlalXYC", "smulXYC",
    "strC", "ldrC", "strCb", "ldrCb", "strCt", "ldrCt", "strCbt", "ldrCbt", "pld", "strCh", "ldrCh", "ldrCsb", "ldCsb", "ldrCsh",
    "ldCsh", "ldrCd", "strCd", "stmCA", "ldmCA", "pushC", "popC", "swpC", "swpCb", "swiC", "bkpt", "cdpC", "cdp2", "mcrC", "mcr2",
    "mrcC", "mrc2", "mcrrC", "mrrcC", "clzC", "qaddC", "qsubC", "qdaddC", "qdsubC"]

theorem patterns_complete : ∀ op ∈ Arm.opcodes, op.name ∈ patterns := by decide +kernel

/-- Two patterns that have spellings in common. -/
def related (p q : String) : Bool :=
  p == q || (p, q) == ("blx", "blxC") || (p, q) == ("blxC", "blx") || (p, q) == ("movC", "movCS") || (p, q) == ("movCS", "movC")

theorem patterns_decode : ∀ p ∈ patterns, ∀ x ∈ spellings p.toList Vars.start, decode p.toList x.1 Vars.start = some x.2 := by decide +kernel

/-- The first characters are different. -/
def headDiffers : List Char → List Char → Bool
  | c :: _, d :: _ => c != d
  | _, _ => false

/-- The check of a whole table. -/
def uniqueCheck (l : List (String × List Char)) : Bool :=
  l.all fun p => (spellings p.2 Vars.start).all fun x => l.all fun q =>
    headDiffers q.2 x.1 || (decode q.2 x.1 Vars.start).isNone || related p.1 q.1

theorem unique_check : uniqueCheck (patterns.map fun p => (p, p.toList)) = true := by decide +kernel

theorem patterns_lower : ∀ p ∈ patterns, p.toList.head? ∉ [none, some 'C', some 'S', some 'A', some 'X', some 'Y'] := by decide +kernel

theorem patterns_unique {p q : String} (hp : p ∈ patterns) (hq : q ∈ patterns) {x : List Char × Vars} (hx : x ∈ spellings p.toList Vars.start)
    {v : Vars} (hd : decode q.toList x.1 Vars.start = some v) : related p q = true := by
  have h := unique_check
  unfold uniqueCheck at h
  rw [List.all_eq_true] at h
  have h1 := h (p, p.toList) (List.mem_map.2 ⟨p, hp, rfl⟩)
  rw [List.all_eq_true] at h1
  have h2 := h1 x hx
  rw [List.all_eq_true] at h2
  have h3 := h2 (q, q.toList) (List.mem_map.2 ⟨q, hq, rfl⟩)
  simp only [Bool.or_eq_true] at h3
  rcases h3 with (h3 | h3) | h3
  · exfalso
    have hl := patterns_lower q hq
    generalize q.toList = e at h3 hd hl
    cases e with
    | nil => cases h3
    | cons c e =>
      simp only [List.head?_cons, List.mem_cons, List.not_mem_nil, or_false, not_or, Option.some.injEq] at hl
      generalize x.1 = n at h3 hd
      cases n with
      | nil => cases h3
      | cons d n =>
        simp only [headDiffers, bne_iff_ne, ne_eq] at h3
        unfold decode at hd
        simp only [hl.2.1, hl.2.2.1, hl.2.2.2.1, hl.2.2.2.2.1, hl.2.2.2.2.2, if_false, h3] at hd
        cases hd
  · rw [hd] at h3; cases h3
  · exact h3

theorem mov_same : ∀ x ∈ spellings "movC".toList Vars.start, decode "movCS".toList x.1 Vars.start = some x.2 := by decide +kernel

theorem blx_spelling : spellings "blx".toList Vars.start = [("blx".toList, Vars.start)] := by decide +kernel

theorem blx_cond : decode "blxC".toList "blx".toList Vars.start = some { Vars.start with c := 14 } := by decide +kernel

/-! ### Register lists -/

theorem register_iff (s : String) (n : Nat) (ts : List Tok) :
    parseRegister (.ident s :: ts) = some (n, ts) ↔ registerName s n := by
  have h1 : ∀ p ∈ armRegisters, registerName p.1 p.2 := by
    have : ∀ p ∈ armRegisters, (p.2 < 16 ∧ p.1 = "r" ++ toString p.2) ∨ (p.1 = "sp" ∧ p.2 = 13) ∨ (p.1 = "lr" ∧ p.2 = 14) ∨
      (p.1 = "pc" ∧ p.2 = 15) := by decide +kernel
    exact this
  have h2 : ∀ k : Fin 16, armRegisters.find? (fun p => ("r" ++ toString k.val) == p.1) = some ("r" ++ toString k.val, k.val) := by decide +kernel
  unfold parseRegister
  constructor
  · intro h
    rw [Option.map_eq_some_iff] at h
    obtain ⟨p, hp, he⟩ := h
    cases he
    have hm := List.mem_of_find?_eq_some hp
    have hs := List.find?_some hp
    rw [beq_iff_eq.1 hs]
    exact h1 p hm
  · rintro (⟨h, rfl⟩ | ⟨rfl, rfl⟩ | ⟨rfl, rfl⟩ | ⟨rfl, rfl⟩)
    · have := h2 ⟨n, h⟩
      simp only at this ⊢
      rw [this]; rfl
    · rfl
    · rfl
    · rfl

theorem register_some {ts : List Tok} {n : Nat} {r : List Tok} (h : parseRegister ts = some (n, r)) :
    ∃ s, ts = .ident s :: r ∧ registerName s n := by
  have h' := h
  unfold parseRegister at h
  split at h
  · rename_i s ts
    obtain ⟨p, hp, he⟩ := Option.map_eq_some_iff.1 h
    cases he
    exact ⟨s, rfl, (register_iff _ _ _).1 h'⟩
  · cases h

theorem or_fold (l : List Nat) : ∀ (m i : Nat), (l.foldl (fun m i => m ||| 1 <<< i) m).testBit i = (m.testBit i || decide (i ∈ l)) := by
  induction l with
  | nil => intro m i; simp
  | cons a l ih =>
    intro m i
    rw [List.foldl_cons, ih, Nat.testBit_or, Nat.one_shiftLeft, Nat.testBit_two_pow, Bool.or_assoc]
    congr 1
    by_cases h : a = i
    · simp [h]
    · have h' : ¬ i = a := fun e => h e.symm
      simp [h, h']

theorem range_bit (a b i : Nat) : (rangeMask a b).testBit i = decide (a ≤ i ∧ i ≤ b) := by
  unfold rangeMask
  rw [or_fold, Nat.zero_testBit, Bool.false_or]
  apply decide_eq_decide.2
  rw [List.mem_range']
  constructor
  · rintro ⟨j, hj, rfl⟩; omega
  · intro h; exact ⟨i - a, by omega, by omega⟩

theorem parseRegisters_succ (n dest : Nat) (ts : List Tok) : parseRegisters (n + 1) dest ts =
    (parseItem dest ts).bind fun p => match p.2 with
      | .comma :: ts => parseRegisters n p.1 ts
      | ts => some (p.1, ts) := rfl

theorem item_parses {it : Item} (h : it.Ok) (dest : Nat) (rest : List Tok) (hr : rest.head? ≠ some .minus) :
    ∃ m, parseItem dest (it.tokens ++ rest) = some (m, rest) ∧ ∀ i, m.testBit i = true ↔ dest.testBit i = true ∨ it.Has i := by
  cases it with
  | one s a =>
    have h1 := (register_iff s a rest).2 h
    refine ⟨dest ||| 1 <<< a, ?_, ?_⟩
    · unfold parseItem
      simp only [Item.tokens, List.cons_append, List.nil_append, h1, Option.bind_eq_bind, Option.bind_some]
      split
      · simp at hr
      · rfl
    · intro i
      rw [Nat.testBit_or, Nat.one_shiftLeft, Nat.testBit_two_pow, Bool.or_eq_true, decide_eq_true_iff]
      simp only [Item.Has]
      exact or_congr_right ⟨Eq.symm, Eq.symm⟩
  | range s t a b =>
    obtain ⟨ha, hb, hab⟩ := h
    have h1 := (register_iff s a (.minus :: .ident t :: rest)).2 ha
    have h2 := (register_iff t b rest).2 hb
    refine ⟨dest ||| rangeMask a b, ?_, ?_⟩
    · unfold parseItem
      simp only [Item.tokens, List.cons_append, List.nil_append, h1, h2, Option.bind_eq_bind, Option.bind_some]
      rw [if_neg (by omega)]
    · intro i
      rw [Nat.testBit_or, range_bit, Bool.or_eq_true, decide_eq_true_iff]
      rfl

theorem item_sound {dest : Nat} {ts rest : List Tok} {m : Nat} (h : parseItem dest ts = some (m, rest)) :
    ∃ it : Item, it.Ok ∧ ts = it.tokens ++ rest ∧ (∀ i, m.testBit i = true ↔ dest.testBit i = true ∨ it.Has i) ∧
      ((∃ s n, it = .one s n) → rest.head? ≠ some .minus) := by
  unfold parseItem at h
  cases hp : parseRegister ts with
  | none => rw [hp] at h; cases h
  | some p =>
    obtain ⟨a, ts'⟩ := p
    obtain ⟨s, rfl, hs⟩ := register_some hp
    rw [hp] at h
    simp only [Option.bind_eq_bind, Option.bind_some] at h
    split at h
    · rename_i ts''
      cases hq : parseRegister ts'' with
      | none => rw [hq] at h; cases h
      | some q =>
        obtain ⟨b, r⟩ := q
        obtain ⟨t, rfl, ht⟩ := register_some hq
        rw [hq] at h
        simp only [Option.bind_some] at h
        split at h
        · cases h
        · rename_i hab
          cases h
          refine ⟨.range s t a b, ⟨hs, ht, by omega⟩, rfl, ?_, ?_⟩
          · intro i
            rw [Nat.testBit_or, range_bit, Bool.or_eq_true, decide_eq_true_iff]
            rfl
          · rintro ⟨_, _, h⟩; cases h
    · rename_i hne
      cases h
      refine ⟨.one s a, hs, rfl, ?_, ?_⟩
      · intro i
        rw [Nat.testBit_or, Nat.one_shiftLeft, Nat.testBit_two_pow, Bool.or_eq_true, decide_eq_true_iff]
        exact or_congr_right ⟨Eq.symm, Eq.symm⟩
      · intro _ hh
        cases rest with
        | nil => cases hh
        | cons x r => exact hne r (by rw [List.head?_cons, Option.some.injEq] at hh; rw [hh])

theorem listTokens_cons (i j : Item) (is : List Item) : listTokens (i :: j :: is) = i.tokens ++ .comma :: listTokens (j :: is) := rfl

theorem item_length (i : Item) : 0 < i.tokens.length := by cases i <;> simp [Item.tokens]

theorem registers_parse : ∀ (items : List Item), items ≠ [] → (∀ i ∈ items, i.Ok) → ∀ (rest : List Tok), Ends rest → ∀ (n dest : Nat),
    (listTokens items).length < n →
    ∃ m, parseRegisters n dest (listTokens items ++ rest) = some (m, rest) ∧
      ∀ i, m.testBit i = true ↔ dest.testBit i = true ∨ ∃ it ∈ items, it.Has i
  | [], h, _, _, _, _, _, _ => absurd rfl h
  | [it], _, hok, rest, he, n, dest, hn => by
    obtain ⟨n, rfl⟩ : ∃ k, n = k + 1 := ⟨n - 1, by omega⟩
    obtain ⟨m, h1, h2⟩ := item_parses (hok it (by simp)) dest rest he.2
    refine ⟨m, ?_, fun i => by rw [h2]; simp⟩
    rw [parseRegisters_succ]
    simp only [listTokens, h1, Option.bind_some]
    split
    · rename_i t; exact absurd rfl he.1
    · rfl
  | it :: it' :: items, _, hok, rest, he, n, dest, hn => by
    obtain ⟨n, rfl⟩ : ∃ k, n = k + 1 := ⟨n - 1, by omega⟩
    obtain ⟨m, h1, h2⟩ := item_parses (hok it (by simp)) dest (.comma :: listTokens (it' :: items) ++ rest) (by simp)
    have := item_length it
    obtain ⟨m', h3, h4⟩ := registers_parse (it' :: items) (by simp) (fun i hi => hok i (List.mem_cons_of_mem _ hi)) rest he n m
      (by rw [listTokens_cons] at hn; simp only [List.length_append, List.length_cons] at hn ⊢; omega)
    refine ⟨m', ?_, ?_⟩
    · rw [parseRegisters_succ, listTokens_cons, List.append_assoc, h1]
      exact h3
    · intro i
      rw [h4, h2]
      simp only [List.mem_cons]
      constructor
      · rintro ((h | h) | ⟨x, hx, h⟩)
        · exact .inl h
        · exact .inr ⟨it, .inl rfl, h⟩
        · exact .inr ⟨x, .inr hx, h⟩
      · rintro (h | ⟨x, rfl | hx, h⟩)
        · exact .inl (.inl h)
        · exact .inl (.inr h)
        · exact .inr ⟨x, hx, h⟩

theorem registers_sound : ∀ (n dest : Nat) (ts rest : List Tok) (m : Nat), parseRegisters n dest ts = some (m, rest) →
    ∃ items : List Item, items ≠ [] ∧ (∀ i ∈ items, i.Ok) ∧ ts = listTokens items ++ rest ∧ rest.head? ≠ some .comma ∧
      ∀ i, m.testBit i = true ↔ dest.testBit i = true ∨ ∃ it ∈ items, it.Has i
  | 0, _, _, _, _, h => by cases h
  | n + 1, dest, ts, rest, m, h => by
    rw [parseRegisters_succ] at h
    obtain ⟨⟨m1, r1⟩, h1, h2⟩ := Option.bind_eq_some_iff.1 h
    obtain ⟨it, ho, ht, hb, _⟩ := item_sound h1
    simp only at h2
    split at h2
    · rename_i _ r2 _
      obtain ⟨items, hne, hok, hts, hc, hbits⟩ := registers_sound n m1 r2 rest m h2
      obtain ⟨j, js, rfl⟩ := List.exists_cons_of_ne_nil hne
      refine ⟨it :: j :: js, by simp, ?_, ?_, hc, ?_⟩
      · intro i hi
        rcases List.mem_cons.1 hi with rfl | hi
        · exact ho
        · exact hok i hi
      · rw [ht, hts, listTokens_cons]; simp
      · intro i
        rw [hbits, hb]
        simp only [List.mem_cons]
        constructor
        · rintro ((h | h) | ⟨x, hx, h⟩)
          · exact .inl h
          · exact .inr ⟨it, .inl rfl, h⟩
          · exact .inr ⟨x, .inr hx, h⟩
        · rintro (h | ⟨x, rfl | hx, h⟩)
          · exact .inl (.inl h)
          · exact .inl (.inr h)
          · exact .inr ⟨x, hx, h⟩
    · rename_i hne
      cases h2
      refine ⟨[it], by simp, by simpa using ho, ht, ?_, fun i => by rw [hb]; simp⟩
      intro hh
      cases rest with
      | nil => cases hh
      | cons x r => exact hne r (by rw [List.head?_cons, Option.some.injEq] at hh; rw [hh])

theorem mask_iff (a b : Nat) : a &&& b = b ↔ ∀ i, b.testBit i = true → a.testBit i = true := by
  constructor
  · intro h i hb
    rw [← h, Nat.testBit_and, Bool.and_eq_true] at hb
    exact hb.1
  · intro h
    apply Nat.eq_of_testBit_eq
    intro i
    rw [Nat.testBit_and]
    cases hb : b.testBit i
    · simp
    · rw [h i hb]; rfl

end Armips.ArmParse
