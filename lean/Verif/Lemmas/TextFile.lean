import Verif.Spec.TextFile
import Verif.Props.Utf8
/-! Lemmas about text files. -/
namespace Armips.TextFile
open Armips Spec.Text

/-- These bytes have not been read yet. -/
def At (f : Src) (s : St) (rest : List Nat) : Prop :=
  s.pos + rest.length = f.bytes.length ∧
    if f.mem then f.bytes.drop s.pos = rest else s.buf ++ (if s.failed then [] else f.bytes.drop s.spos) = rest

theorem atEnd_iff {f : Src} {s : St} {rest : List Nat} (h : At f s rest) : atEnd f s = true ↔ rest = [] := by
  unfold atEnd
  rw [decide_eq_true_iff, ← List.length_eq_zero_iff]
  have := h.1
  omega

theorem fill_rest (f : Src) (s : St) (hb : s.buf = []) :
    (fill f s).buf ++ (if (fill f s).failed then [] else f.bytes.drop (fill f s).spos) = if s.failed then [] else f.bytes.drop s.spos := by
  unfold fill
  split
  · rename_i h; simp [h]
  · rename_i h
    simp only [decide_eq_true_eq]
    split
    · rename_i hl
      rw [List.length_take, List.length_drop] at hl
      rw [List.append_nil, List.take_of_length_le (by rw [List.length_drop]; omega)]
    · rename_i hl
      rw [← List.drop_drop]
      rw [List.length_take, Nat.not_lt] at hl
      rw [List.length_take, Nat.min_eq_left (by omega), List.take_append_drop]

theorem fill_same (f : Src) (s : St) : (fill f s).pos = s.pos ∧ (fill f s).err = s.err := by
  unfold fill; split <;> exact ⟨rfl, rfl⟩

theorem get_at {f : Src} {s : St} {b : Nat} {rest : List Nat} (h : At f s (b :: rest)) :
    ∃ s', get f s = some (b, s') ∧ At f s' rest ∧ s'.err = s.err := by
  obtain ⟨hp, hr⟩ := h
  simp only [List.length_cons] at hp
  unfold get
  by_cases hm : f.mem = true
  · rw [if_pos hm] at hr
    have hb : f.bytes.getD s.pos 0 = b := by
      have : f.bytes[s.pos]? = some b := by
        rw [← List.head?_drop, hr]; rfl
      rw [List.getD_eq_getElem?_getD, this]; rfl
    rw [if_pos hm, if_pos (by omega), hb]
    refine ⟨_, rfl, ⟨?_, ?_⟩, rfl⟩
    · show s.pos + 1 + _ = _
      omega
    · rw [if_pos hm, ← List.drop_drop, hr]; rfl
  · rw [if_neg hm] at hr
    rw [if_neg hm]
    have key : ∀ t : St, t.pos = s.pos → t.err = s.err → t.buf ++ (if t.failed then [] else f.bytes.drop t.spos) = b :: rest → t.buf ≠ [] →
        ∃ s', (match t.buf with
          | [] => some (0, t)
          | b :: l => some (b, { t with pos := t.pos + 1, buf := l })) = some (b, s') ∧ At f s' rest ∧ s'.err = s.err := by
      intro t h1 h2 h3 h4
      split
      · rename_i h; exact absurd h h4
      · rename_i c l h
        rw [h, List.cons_append] at h3
        injection h3 with h5 h6
        subst h5
        refine ⟨_, rfl, ⟨?_, ?_⟩, h2⟩
        · show t.pos + 1 + _ = _
          omega
        · rw [if_neg hm]; exact h6
    by_cases hb : s.buf = []
    · rw [hb, List.nil_append] at hr
      simp only [if_pos hb]
      refine key (fill f s) (fill_same f s).1 (fill_same f s).2 (by rw [fill_rest f s hb]; exact hr) ?_
      unfold fill
      split at hr
      · cases hr
      · rename_i hf
        rw [if_neg hf]
        simp only [hr, bufMax]
        intro h; cases h
    · simp only [if_neg hb]
      exact key s rfl rfl hr hb

theorem more_at {f : Src} : ∀ (n v : Nat) (s : St) (bytes : List Nat) {w : Nat} {bad bad' : Bool} {rest : List Nat}, At f s bytes →
    Utf8.continuation n v bad bytes = some (w, bad', rest) → s.err = bad →
    ∃ s', more f n v s = some (w, s') ∧ At f s' rest ∧ s'.err = bad'
  | 0, v, s, bytes, w, bad, bad', rest, ha, h, he => by
    cases h; exact ⟨s, rfl, ha, he⟩
  | n + 1, v, s, [], _, _, _, _, _, h, _ => by cases h
  | n + 1, v, s, b :: bytes, w, bad, bad', rest, ha, h, he => by
    obtain ⟨s1, h1, h2, h3⟩ := get_at ha
    rw [Utf8.continuation] at h
    rw [more, h1, Option.bind_some]
    by_cases hc : (b &&& 0xC0 != 0x80) = true
    · rw [if_pos hc]
      rw [hc, Bool.or_true] at h
      exact more_at n _ { s1 with err := true } bytes h2 h rfl
    · rw [if_neg hc]
      rw [Bool.eq_false_iff.2 hc, Bool.or_false] at h
      exact more_at n _ s1 bytes h2 h (h3.trans he)

/-- The reader does what the pure decoder does. -/
theorem raw_utf8 {sj : Nat → Option Nat} {f : Src} {s : St} {bytes : List Nat} {c : Nat} {bad : Bool} {rest : List Nat} (ha : At f s bytes)
    (he : s.err = false) (h : Utf8.readCharacter bytes = some (c, bad, rest)) :
    ∃ s', raw sj f .utf8 s = some (c, s') ∧ At f s' rest ∧ s'.err = bad := by
  unfold Utf8.readCharacter at h
  split at h
  · cases h
  · rename_i b t
    obtain ⟨s1, h1, h2, h3⟩ := get_at ha
    unfold raw
    simp only [h1, Option.bind_some]
    split at h
    · rename_i hc
      rw [if_pos hc]
      exact more_at _ _ _ _ h2 h (h3.trans he)
    · rename_i hc
      rw [if_neg hc]
      split at h
      · rename_i hd
        rw [if_pos hd]
        exact more_at _ _ _ _ h2 h (h3.trans he)
      · rename_i hd
        rw [if_neg hd]
        cases h
        by_cases hb : c > 0x7F
        · rw [if_pos hb]
          exact ⟨_, rfl, h2, by simp [hb]⟩
        · rw [if_neg hb]
          exact ⟨_, rfl, h2, by rw [h3, he]; simp [hb]⟩

theorem utf8_eq {c : Nat} (h : c < 0x10000) : Utf8.encode c = utf8 c := by
  have hj : ∀ k m : Nat, m < 64 → 0x80 ||| m = 0x80 + m := by
    intro k m hm
    have := @Nat.two_pow_add_eq_or_of_lt 7 m (by omega) 1
    simpa using this.symm
  have h6 : ∀ m : Nat, m &&& 0x3F = m % 64 := fun m => Nat.and_two_pow_sub_one_eq_mod m 6
  have h4 : ∀ m : Nat, m &&& 0xF = m % 16 := fun m => Nat.and_two_pow_sub_one_eq_mod m 4
  have h5 : ∀ m : Nat, m &&& 0x1F = m % 32 := fun m => Nat.and_two_pow_sub_one_eq_mod m 5
  have h7 : ∀ m : Nat, m &&& 0x7F = m % 128 := fun m => Nat.and_two_pow_sub_one_eq_mod m 7
  have hC : ∀ m : Nat, m < 32 → 0xC0 ||| m = 0xC0 + m := by
    intro m hm
    have := @Nat.two_pow_add_eq_or_of_lt 5 m (by omega) 6
    simpa using this.symm
  have hE : ∀ m : Nat, m < 16 → 0xE0 ||| m = 0xE0 + m := by
    intro m hm
    have := @Nat.two_pow_add_eq_or_of_lt 4 m (by omega) 14
    simpa using this.symm
  unfold Utf8.encode utf8
  simp only [h4, h5, h6, h7, Nat.shiftRight_eq_div_pow]
  split
  · congr 1; omega
  · split
    · rw [hC _ (by omega), hj 0 _ (by omega)]
      congr 1
      · omega
      · congr 1; omega
    · rw [hE _ (by omega), hj 0 _ (by omega), hj 0 _ (by omega)]
      congr 1
      · omega
      · congr 1
        · omega
        · congr 1; omega

theorem raw_spells {sj : Nat → Option Nat} {f : Src} {e : Enc} {s : St} {b : List Nat} {c : Nat} {rest : List Nat} (hb : Spells sj e b c)
    (ha : At f s (b ++ rest)) (he : s.err = false) :
    ∃ s', raw sj f e s = some (c, s') ∧ At f s' rest ∧ s'.err = false := by
  cases hb with
  | utf8 hc =>
    rw [← utf8_eq hc] at ha
    exact raw_utf8 ha he (Props.utf8_reader_roundtrip c hc rest)
  | utf16le hc =>
    obtain ⟨s1, h1, h2, h3⟩ := get_at ha
    obtain ⟨s2, g1, g2, g3⟩ := get_at h2
    refine ⟨s2, ?_, g2, by rw [g3, h3, he]⟩
    unfold raw
    simp only [h1, g1, Option.bind_some, Option.some.injEq, Prod.mk.injEq, and_true]
    rw [Nat.or_comm, Nat.shiftLeft_eq, Nat.mul_comm, ← @Nat.two_pow_add_eq_or_of_lt 8 (c % 256) (by omega) (c / 256)]
    omega
  | utf16be hc =>
    obtain ⟨s1, h1, h2, h3⟩ := get_at ha
    obtain ⟨s2, g1, g2, g3⟩ := get_at h2
    refine ⟨s2, ?_, g2, by rw [g3, h3, he]⟩
    unfold raw
    simp only [h1, g1, Option.bind_some, Option.some.injEq, Prod.mk.injEq, and_true]
    rw [Nat.or_comm, Nat.shiftLeft_eq, Nat.mul_comm, ← @Nat.two_pow_add_eq_or_of_lt 8 (c % 256) (by omega) (c / 256)]
    omega
  | sjis1 hc =>
    obtain ⟨s1, h1, h2, h3⟩ := get_at ha
    refine ⟨s1, ?_, h2, by rw [h3, he]⟩
    unfold raw
    simp only [h1, Option.bind_some, if_pos hc]
  | @sjis2 hi lo _ h0 hhi hlo hs hc =>
    obtain ⟨s1, h1, h2, h3⟩ := get_at ha
    obtain ⟨s2, g1, g2, g3⟩ := get_at h2
    refine ⟨s2, ?_, g2, by rw [g3, h3, he]⟩
    unfold raw
    simp only [h1, g1, Option.bind_some]
    rw [if_neg (by omega), Nat.shiftLeft_eq, Nat.mul_comm, ← @Nat.two_pow_add_eq_or_of_lt 8 lo hlo hi, Nat.mul_comm]
    rw [show hi * 2 ^ 8 + lo = hi * 256 + lo from rfl, hs]

theorem spells_ne {sj : Nat → Option Nat} {e : Enc} {b : List Nat} {c : Nat} (h : Spells sj e b c) : b ≠ [] := by
  cases h <;> simp [utf8]
  split <;> (try split) <;> simp

theorem spells_lt {sj : Nat → Option Nat} {e : Enc} {b : List Nat} {c : Nat} (h : Spells sj e b c) : c < 0x10000 := by
  cases h <;> omega

theorem text_nil {sj : Nat → Option Nat} {e : Enc} {bytes text : List Nat} (h : SpellsText sj e bytes text) : bytes = [] ↔ text = [] := by
  cases h with
  | nil => simp
  | cons hb _ => simp [spells_ne hb]

/-- What is left after the next character. -/
theorem char_at {sj : Nat → Option Nat} {f : Src} {e : Enc} {s : St} {bytes text : List Nat} {c : Nat} (ht : SpellsText sj e bytes (c :: text))
    (ha : At f s bytes) (he : s.err = false) (hcr : f.mem = true ∨ NoLoneCR (c :: text)) :
    ∃ s' d bytes' text', readCharacter sj f e s = some (d, s') ∧ SpellsText sj e bytes' text' ∧ At f s' bytes' ∧ s'.err = false ∧
      normalise (c :: text) = d :: normalise text' ∧ text'.length < (c :: text).length ∧ (f.mem = true ∨ NoLoneCR text') ∧ d < 0x10000 := by
  cases ht with
  | @cons b bs _ _ hb ht =>
  obtain ⟨s1, h1, h2, h3⟩ := raw_spells hb ha he
  have hsub : f.mem = true ∨ NoLoneCR text := hcr.imp id fun h a x y e => h (c :: a) x y (by rw [e]; rfl)
  unfold readCharacter
  rw [h1, Option.bind_some]
  by_cases hc : c = 13
  · subst hc
    cases ht with
    | nil =>
      have hend := (atEnd_iff h2).2 rfl
      refine ⟨s1, 13, [], [], by simp [hend], .nil, h2, h3, rfl, by simp, .inr (by intro a c b h; simp at h), by decide⟩
    | @cons b' bs' c' cs' hb' ht' =>
      have hend : atEnd f s1 = false := by
        rw [Bool.eq_false_iff]
        intro h
        exact spells_ne hb' (List.append_eq_nil_iff.1 ((atEnd_iff h2).1 h)).1
      simp only [hend, and_true, if_true]
      obtain ⟨s2, g1, g2, g3⟩ := raw_spells hb' h2 h3
      rw [g1, Option.bind_some]
      simp only
      by_cases h10 : c' = 10
      · subst h10
        rw [if_pos rfl]
        refine ⟨s2, 10, bs', cs', rfl, ht', g2, g3, rfl, by simp; omega, ?_, by decide⟩
        exact hsub.imp id fun h a x y e => h (10 :: a) x y (by rw [e]; rfl)
      · rw [if_neg h10]
        have hm : f.mem = true := by
          rcases hcr with h | h
          · exact h
          · exact absurd (h [] c' cs' rfl) h10
        refine ⟨_, 13, b' ++ bs', c' :: cs', rfl, .cons hb' ht', ?_, ?_, ?_, by simp, .inl hm, by decide⟩
        · unfold seek
          rw [if_pos hm]
          refine ⟨h2.1, ?_⟩
          have := h2.2
          rw [if_pos hm] at this ⊢
          exact this
        · unfold seek
          rw [if_pos hm]
          exact g3
        · rw [normalise]
          intro t _ h
          injection h with h
          exact h10 h
  · rw [if_neg (by simp [hc])]
    refine ⟨s1, c, bs, text, rfl, ht, h2, h3, ?_, by simp, hsub, spells_lt hb⟩
    rw [normalise]
    intro t h
    exact absurd h hc

theorem normalise_nil {t : List Nat} (h : normalise t = []) : t = [] := by
  cases t with
  | nil => rfl
  | cons c t =>
    unfold normalise at h
    split at h
    · cases h
    · cases h
    · rename_i h'; exact absurd h' (by simp)

/-- Reading a line: up to the first LF of the normalised text. -/
theorem line_at {sj : Nat → Option Nat} {f : Src} {e : Enc} : ∀ (n : Nat) {s : St} {bytes text : List Nat}, SpellsText sj e bytes text →
    At f s bytes → s.err = false → (f.mem = true ∨ NoLoneCR text) → text.length < n →
    ∃ l s' bytes' text', readLine sj f e n s = some (l, s') ∧ SpellsText sj e bytes' text' ∧ At f s' bytes' ∧ s'.err = false ∧
      (f.mem = true ∨ NoLoneCR text') ∧ 10 ∉ l ∧ (∀ c ∈ l, c < 0x10000) ∧
      ((normalise text = l ++ 10 :: normalise text' ∧ text'.length < text.length) ∨ (normalise text = l ∧ text' = []))
  | 0, _, _, _, _, _, _, _, h => by omega
  | n + 1, s, bytes, text, ht, ha, he, hcr, hn => by
    rw [readLine]
    by_cases hend : atEnd f s = true
    · rw [if_pos hend]
      have hb := (atEnd_iff ha).1 hend
      have htx := (text_nil ht).1 hb
      subst htx
      exact ⟨[], s, bytes, [], rfl, ht, ha, he, hcr, by simp, by simp, .inr ⟨rfl, rfl⟩⟩
    · rw [if_neg hend]
      cases text with
      | nil => exact absurd ((atEnd_iff ha).2 ((text_nil ht).2 rfl)) hend
      | cons c text =>
        obtain ⟨s1, d, b1, t1, h1, h2, h3, h4, h5, h6, h7, h8⟩ := char_at ht ha he hcr
        rw [h1, Option.bind_some]
        by_cases hd : d = 10
        · subst hd
          simp only [if_true]
          exact ⟨[], s1, b1, t1, rfl, h2, h3, h4, h7, by simp, by simp, .inl ⟨h5, h6⟩⟩
        · simp only [if_neg hd]
          obtain ⟨l, s2, b2, t2, g1, g2, g3, g4, g5, g6, g7, g8⟩ := line_at n h2 h3 h4 h7 (by simp only [List.length_cons] at hn h6; omega)
          refine ⟨d :: l, s2, b2, t2, by rw [g1]; rfl, g2, g3, g4, g5, ?_, ?_, ?_⟩
          · rw [List.mem_cons, not_or]; exact ⟨fun e => hd e.symm, g6⟩
          · intro x hx
            rcases List.mem_cons.1 hx with rfl | hx
            · exact h8
            · exact g7 x hx
          · rcases g8 with ⟨g8, g9⟩ | ⟨g8, g9⟩
            · exact .inl ⟨by rw [h5, g8]; rfl, by omega⟩
            · exact .inr ⟨by rw [h5, g8], g9⟩

theorem store_eq : ∀ {l : List Nat}, (∀ c ∈ l, c < 0x10000) → store l = l.flatMap utf8
  | [], _ => rfl
  | c :: l, h => by
    have ih := @store_eq l fun x hx => h x (List.mem_cons_of_mem _ hx)
    unfold store at ih ⊢
    rw [List.flatMap_cons, List.flatMap_cons, ih, utf8_eq (h c (by simp))]

/-- Reading everything. -/
theorem all_at {sj : Nat → Option Nat} {f : Src} {e : Enc} (n : Nat) : ∀ (k : Nat) {s : St} {bytes text : List Nat}, SpellsText sj e bytes text →
    At f s bytes → s.err = false → (f.mem = true ∨ NoLoneCR text) → text.length < n → text.length < k →
    ∃ ls s', readAll sj f e n k s = some (ls.map fun l => l.flatMap utf8, s') ∧ s'.err = false ∧ HasLines (normalise text) ls
  | 0, _, _, _, _, _, _, _, _, h => by omega
  | k + 1, s, bytes, text, ht, ha, he, hcr, hn, hk => by
    rw [readAll]
    by_cases hend : atEnd f s = true
    · rw [if_pos hend]
      have hb := (atEnd_iff ha).1 hend
      have htx := (text_nil ht).1 hb
      subst htx
      exact ⟨[], s, rfl, he, by simp, .inl rfl⟩
    · rw [if_neg hend]
      have hne : text ≠ [] := fun e => hend ((atEnd_iff ha).2 ((text_nil ht).2 e))
      obtain ⟨l, s1, b1, t1, h1, h2, h3, h4, h5, h6, h7, h8⟩ := line_at n ht ha he hcr hn
      rw [h1, Option.bind_some]
      simp only
      rcases h8 with ⟨h8, h9⟩ | ⟨h8, h9⟩
      · obtain ⟨ls, s2, g1, g2, g3, g4⟩ := all_at n k h2 h3 h4 h5 (by omega) (by omega)
        refine ⟨l :: ls, s2, by rw [g1, Option.map_some, store_eq h7]; rfl, g2, ?_, ?_⟩
        · intro x hx
          rcases List.mem_cons.1 hx with rfl | hx
          · exact h6
          · exact g3 x hx
        · rw [h8]
          rcases g4 with g4 | ⟨g4, g5⟩
          · exact .inl (by simp [g4])
          · refine .inr ⟨?_, by simp [g5]⟩
            cases ht1 : normalise t1 with
            | nil => rw [ht1] at g4; cases g4
            | cons a b =>
              rw [ht1] at g4
              rw [List.getLast?_append, List.getLast?_cons_cons]
              cases hlast : (a :: b).getLast? with
              | none => simp at hlast
              | some z => rw [hlast] at g4; simpa using g4
      · subst h9
        have hl : l ≠ [] := fun e => hne (normalise_nil (h8.trans e))
        obtain ⟨k, rfl⟩ : ∃ j, k = j + 1 := ⟨k - 1, by cases text with
          | nil => exact absurd rfl hne
          | cons a b => simp only [List.length_cons] at hk; omega⟩
        have hend1 := (atEnd_iff h3).2 ((text_nil h2).2 rfl)
        refine ⟨[l], s1, by rw [readAll, if_pos hend1, Option.map_some, store_eq h7]; rfl, h4, by simpa using h6, .inr ⟨?_, by rw [h8]; simp⟩⟩
        rw [h8]
        cases hlast : l.getLast? with
        | none => exact absurd (List.getLast?_eq_none_iff.1 hlast) hl
        | some z =>
          have : z ∈ l := List.mem_of_getLast? hlast
          simp only [Option.any_some, decide_eq_true_eq]
          exact fun e => h6 (e ▸ this)

end Armips.TextFile
