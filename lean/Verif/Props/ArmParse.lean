import Verif.Lemmas.ArmParse
/-!
# C58, C59: mnemonics and register lists of ARM
-/
namespace Armips.Props
open Armips Armips.ArmParse Spec Spec.Arm

/-! ### Mnemonics -/

/-- A mnemonic is accepted for an entry of the opcode table exactly if it follows that entry's pattern, and then it makes the settings that its
parts denote. -/
theorem arm_mnemonic_iff {op : Arm.Op} (h : op ∈ Arm.opcodes) (name : String) (v : Vars) :
    decodeOpcode name op = some v ↔ Reads op.name.toList name.toList Vars.start v :=
  ⟨decode_sound, fun hr => patterns_decode _ (patterns_complete op h) _ (spellings_complete hr)⟩

/-- `addnes` is `add` with condition 1 and setting of flags. -/
example : ∀ op ∈ Arm.opcodes, op.name = "addCS" → decodeOpcode "addnes" op = some ⟨1, 0, true, false, false⟩ := by decide +kernel

/-- `ldmgtfd`: condition and mode. -/
example : ∀ op ∈ Arm.opcodes, op.name = "ldmCA" → decodeOpcode "ldmgtfd" op = some ⟨12, 5, false, false, false⟩ := by decide +kernel

/-- There are such entries. -/
example : (Arm.opcodes.filter fun op => op.name = "addCS").length ≠ 0 ∧ (Arm.opcodes.filter fun op => op.name = "ldmCA").length ≠ 0 := by
  decide +kernel

/-- A mnemonic is accepted for one pattern only, and makes the same settings for all entries with that pattern. The exceptions are `mov`, for
which two patterns make the same settings, and `blx`: there the settings are "always" or the pattern has no condition at all. -/
theorem arm_mnemonic_unique {op op' : Arm.Op} (h : op ∈ Arm.opcodes) (h' : op' ∈ Arm.opcodes) {name : String} {v v' : Vars}
    (hd : decodeOpcode name op = some v) (hd' : decodeOpcode name op' = some v') :
    (op.name = op'.name ∧ v = v') ∨ (op.name ∈ ["movC", "movCS"] ∧ op'.name ∈ ["movC", "movCS"] ∧ v = v') ∨
      (name = "blx" ∧ (op.name = "blx" ∨ op.name = "blxC" ∧ v.c = 14) ∧ (op'.name = "blx" ∨ op'.name = "blxC" ∧ v'.c = 14)) := by
  have hs := spellings_complete (decode_sound hd)
  have hs' := spellings_complete (decode_sound hd')
  have hr := patterns_unique (patterns_complete op h) (patterns_complete op' h') hs hd'
  unfold decodeOpcode at hd hd'
  unfold related at hr
  simp only [Bool.or_eq_true, beq_iff_eq, Prod.mk.injEq] at hr
  rcases hr with (((hr | ⟨h1, h2⟩) | ⟨h1, h2⟩) | ⟨h1, h2⟩) | ⟨h1, h2⟩
  · rw [hr] at hd
    exact .inl ⟨hr, Option.some.inj (hd.symm.trans hd')⟩
  · rw [h1, blx_spelling] at hs
    have hn : name = "blx" := String.toList_inj.1 (Prod.mk.inj (List.mem_singleton.1 hs)).1
    subst hn
    rw [h2, blx_cond] at hd'
    cases hd'
    exact .inr (.inr ⟨rfl, .inl h1, .inr ⟨h2, rfl⟩⟩)
  · rw [h2, blx_spelling] at hs'
    have hn : name = "blx" := String.toList_inj.1 (Prod.mk.inj (List.mem_singleton.1 hs')).1
    subst hn
    rw [h1, blx_cond] at hd
    cases hd
    exact .inr (.inr ⟨rfl, .inr ⟨h1, rfl⟩, .inl h2⟩)
  · rw [h1] at hs
    rw [h2] at hd'
    have := mov_same _ hs
    rw [this] at hd'
    cases hd'
    exact .inr (.inl ⟨by simp [h1], by simp [h2], rfl⟩)
  · rw [h2] at hs'
    rw [h1] at hd
    have := mov_same _ hs'
    rw [this] at hd
    cases hd
    exact .inr (.inl ⟨by simp [h1], by simp [h2], rfl⟩)

/-- `bls` is the branch with condition `ls`, not a branch with link, and nothing else accepts it. -/
example : ∀ op ∈ Arm.opcodes, decodeOpcode "bls" op = if op.name = "bC" then some ⟨9, 0, false, false, false⟩ else none := by decide +kernel

/-- `blt` is the branch if less, `blle` the branch with link. -/
example : ∀ op ∈ Arm.opcodes, (decodeOpcode "blt" op).isSome = (op.name == "bC") ∧ (decodeOpcode "blle" op).isSome = (op.name == "blC") := by
  decide +kernel

/-- If an entry has a place for a condition, the encoder fills in the condition field, which is empty in the table. Otherwise the field is fixed in
the table: it is `al` or the extension space, and `arm_mnemonic_condition` says that nothing is added to it. -/
theorem arm_condition_place {op : Arm.Op} (h : op ∈ Arm.opcodes) :
    if 'C' ∈ op.name.toList then op.has .uncond = false ∧ field op.encoding 28 4 = 0 else field op.encoding 28 4 ∈ [14, 15] := by
  have key : ∀ op ∈ Arm.opcodes, if 'C' ∈ op.name.toList then op.has .uncond = false ∧ field op.encoding 28 4 = 0
      else field op.encoding 28 4 ∈ [14, 15] := by decide +kernel
  exact key op h

/-- If an entry has a place for a condition, the condition is "always" or comes from the table and is written in the mnemonic. -/
theorem arm_mnemonic_condition {op : Arm.Op} (h : op ∈ Arm.opcodes) {name : String} {v : Vars} (hd : decodeOpcode name op = some v) :
    if 'C' ∈ op.name.toList then v.c = 14 ∨ ∃ s, (s, v.c) ∈ conditions ∧ ∃ p t, name.toList = p ++ s.toList ++ t
    else v.c = 0 := by
  have hr := decode_sound hd
  have key : ∀ {e n : List Char} {v v' : Vars}, Reads e n v v' → (e.count 'C' ≤ 1) →
      (if 'C' ∈ e then v'.c = 14 ∨ ∃ s, (s, v'.c) ∈ conditions ∧ ∃ p t, n = p ++ s.toList ++ t else v'.c = v.c) := by
    intro e n v v' h
    induction h with
    | done v => intro _; simp
    | @cond e n v v' s k hs _ ih =>
      intro hc
      rw [List.count_cons_self] at hc
      have h0 : 'C' ∉ e := List.count_eq_zero.1 (by omega)
      have := ih (by omega)
      rw [if_neg h0] at this
      simp only [List.mem_cons, true_or, if_true]
      exact .inr ⟨s, by rw [this]; exact hs, [], n, rfl⟩
    | @always e n v v' _ ih =>
      intro hc
      rw [List.count_cons_self] at hc
      have h0 : 'C' ∉ e := List.count_eq_zero.1 (by omega)
      have := ih (by omega)
      rw [if_neg h0] at this
      simp only [List.mem_cons, true_or, if_true]
      exact .inl this
    | flags _ ih | top _ ih | bottom _ ih | top' _ ih | bottom' _ ih =>
      intro hc
      rw [List.count_cons_of_ne (by decide)] at hc
      have := ih hc
      simp only [List.mem_cons, show ¬ ('C' = 'S') by decide, show ¬ ('C' = 'X') by decide, show ¬ ('C' = 'Y') by decide, false_or]
      split
      · rename_i hm
        rw [if_pos hm] at this
        rcases this with h | ⟨s, hs, p, t, rfl⟩
        · exact .inl h
        · exact .inr ⟨s, hs, _ :: p, t, rfl⟩
      · rename_i hm
        rwa [if_neg hm] at this
    | noFlags _ ih =>
      intro hc
      rw [List.count_cons_of_ne (by decide)] at hc
      have := ih hc
      simp only [List.mem_cons, show ¬ ('C' = 'S') by decide, false_or]
      exact this
    | mode sfx k hk hs _ ih =>
      intro hc
      rw [List.count_cons_of_ne (by decide)] at hc
      have := ih hc
      simp only [List.mem_cons, show ¬ ('C' = 'A') by decide, false_or]
      split
      · rename_i hm
        rw [if_pos hm] at this
        rcases this with h | ⟨s, hs, p, t, rfl⟩
        · exact .inl h
        · exact .inr ⟨s, hs, sfx.toList ++ p, t, by simp⟩
      · rename_i hm
        rwa [if_neg hm] at this
    | itself ch hch _ ih =>
      intro hc
      have hne : ¬ ('C' = ch) := fun e => hch (by simp [← e])
      rw [List.count_cons_of_ne (fun e => hne e.symm)] at hc
      have := ih hc
      simp only [List.mem_cons, hne, false_or]
      split
      · rename_i hm
        rw [if_pos hm] at this
        rcases this with h | ⟨s, hs, p, t, rfl⟩
        · exact .inl h
        · exact .inr ⟨s, hs, _ :: p, t, rfl⟩
      · rename_i hm
        rwa [if_neg hm] at this
  have hc : ∀ op ∈ Arm.opcodes, op.name.toList.count 'C' ≤ 1 := by decide +kernel
  exact key hr (hc op h)

/-! ### Register lists -/

/-- A list of registers and ranges is accepted, with exactly the listed registers set, if all of them are allowed. -/
theorem arm_list_parses {items : List Item} (hne : items ≠ []) (hok : ∀ i ∈ items, i.Ok) {rest : List Tok} (he : Ends rest) (mask : Nat)
    (hmask : ∀ it ∈ items, ∀ i, it.Has i → mask.testBit i = true) :
    ∃ m, parseRegisterList mask (listTokens items ++ rest) = some (m, rest) ∧ ∀ i, m.testBit i = true ↔ ∃ it ∈ items, it.Has i := by
  obtain ⟨m, h1, h2⟩ := registers_parse items hne hok rest he ((listTokens items ++ rest).length + 1) 0 (by simp; omega)
  have h3 : ∀ i, m.testBit i = true ↔ ∃ it ∈ items, it.Has i := fun i => by rw [h2]; simp
  refine ⟨m, ?_, h3⟩
  unfold parseRegisterList
  rw [h1]
  simp only [Option.bind_eq_bind, Option.bind_some]
  rw [if_pos ((mask_iff _ _).2 fun i hi => by
    obtain ⟨it, hit, hh⟩ := (h3 i).1 hi
    exact hmask it hit i hh)]

/-- Whatever is accepted is such a list: names of registers, ranges that do not go down, only allowed registers. -/
theorem arm_list_sound {mask : Nat} {ts rest : List Tok} {m : Nat} (h : parseRegisterList mask ts = some (m, rest)) :
    ∃ items : List Item, items ≠ [] ∧ (∀ i ∈ items, i.Ok) ∧ ts = listTokens items ++ rest ∧ rest.head? ≠ some .comma ∧
      (∀ i, m.testBit i = true ↔ ∃ it ∈ items, it.Has i) ∧ ∀ it ∈ items, ∀ i, it.Has i → mask.testBit i = true := by
  unfold parseRegisterList at h
  obtain ⟨⟨m', r'⟩, h1, h2⟩ := Option.bind_eq_some_iff.1 h
  simp only at h2
  split at h2
  · rename_i hm
    cases h2
    obtain ⟨items, hne, hok, hts, hc, hb⟩ := registers_sound _ _ _ _ _ h1
    have hb' : ∀ i, m.testBit i = true ↔ ∃ it ∈ items, it.Has i := fun i => by rw [hb]; simp
    exact ⟨items, hne, hok, hts, hc, hb', fun it hit i hh => (mask_iff _ _).1 hm i ((hb' i).2 ⟨it, hit, hh⟩)⟩
  · cases h2

/-- `r0,r4-r6,lr` is bits 0, 4, 5, 6 and 14, -/
example : parseRegisterList 0xFFFF [.ident "r0", .comma, .ident "r4", .minus, .ident "r6", .comma, .ident "lr", .other 0] =
    some (0b0100000001110001, [.other 0]) := by decide +kernel

/-- it is the list of the specification, -/
example : listTokens [.one "r0" 0, .range "r4" "r6" 4 6, .one "lr" 14] ++ [.other 0] =
    [.ident "r0", .comma, .ident "r4", .minus, .ident "r6", .comma, .ident "lr", .other 0] := by decide +kernel

/-- and it meets the hypotheses. -/
example : (∀ i ∈ [Item.one "r0" 0, .range "r4" "r6" 4 6, .one "lr" 14], i.Ok) ∧ Ends [.other 0] := by
  constructor
  · intro i hi
    simp only [List.mem_cons, List.not_mem_nil, or_false] at hi
    rcases hi with rfl | rfl | rfl
    · exact .inl ⟨by decide, by decide +kernel⟩
    · exact ⟨.inl ⟨by decide, by decide +kernel⟩, .inl ⟨by decide, by decide +kernel⟩, by decide⟩
    · exact .inr (.inr (.inl ⟨rfl, rfl⟩))
  · exact ⟨by decide, by decide⟩

/-- Ranges that go down and registers that are not allowed are refused. -/
example : parseRegisterList 0xFFFF [.ident "r6", .minus, .ident "r4"] = none ∧ parseRegisterList 0x00FF [.ident "r8"] = none := by decide +kernel

end Armips.Props
