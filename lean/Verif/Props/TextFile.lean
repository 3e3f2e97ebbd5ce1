import Verif.Lemmas.TextFile
/-!
# C45, C46: reading and writing text files
-/
namespace Armips.Props
open Armips Armips.TextFile Spec Spec.Text

/-! ### Reading -/

theorem spells_utf8 {sj : Nat → Option Nat} : ∀ {text : List Nat}, (∀ c ∈ text, c < 0x10000) → SpellsText sj .utf8 (text.flatMap utf8) text
  | [], _ => .nil
  | c :: text, h => by
    rw [List.flatMap_cons]
    exact .cons (.utf8 (h c (by simp))) (spells_utf8 fun x hx => h x (List.mem_cons_of_mem _ hx))

/-- Text in memory: every CR LF becomes LF, nothing else changes, nothing is lost, and no error is reported. -/
theorem text_memory (sj : Nat → Option Nat) {text : List Nat} (h : ∀ c ∈ text, c < 0x10000) {n : Nat} (hn : text.length < n) :
    ∃ lines st, readAll sj (openMemory (text.flatMap utf8)).1 (openMemory (text.flatMap utf8)).2.1 n n (openMemory (text.flatMap utf8)).2.2 =
        some (lines.map (·.flatMap utf8), st) ∧ st.err = false ∧ HasLines (normalise text) lines :=
  all_at n n (spells_utf8 h) ⟨by simp [openMemory], by simp [openMemory]⟩ rfl (.inl rfl) hn hn

/-- "a CR LF, b CR c": the CR alone stays. -/
example : readAll (fun _ => none) (openMemory [97, 13, 10, 98, 13, 99]).1 (openMemory [97, 13, 10, 98, 13, 99]).2.1 9 9
    (openMemory [97, 13, 10, 98, 13, 99]).2.2 = some ([[97], [98, 13, 99]], ⟨6, 0, false, [], false⟩) := by decide +kernel

/-- Files with a byte order mark. Missing: files with a CR that stands alone (`text_lone_cr_wrong`). -/
theorem text_marked_partial (sj : Nat → Option Nat) {e : Enc} (he : e ∈ [Enc.utf8, .utf16le, .utf16be]) {bytes text : List Nat}
    (h : SpellsText sj e bytes text) (hcr : NoLoneCR text) (default : Option Enc) {n : Nat} (hn : text.length < n) :
    ∃ lines st, readAll sj (openRead (mark e ++ bytes) default).1 (openRead (mark e ++ bytes) default).2.1 n n
        (openRead (mark e ++ bytes) default).2.2 = some (lines.map (·.flatMap utf8), st) ∧ st.err = false ∧ HasLines (normalise text) lines := by
  simp only [List.mem_cons, List.not_mem_nil, or_false] at he
  rcases he with rfl | rfl | rfl
  · have ho : openRead (mark .utf8 ++ bytes) default = (⟨false, mark .utf8 ++ bytes⟩, .utf8, ⟨3, 3, false, [], false⟩) := by
      have h1 : ¬ (bytes.length + 1 + 1 + 1 < 3) := by omega
      simp [openRead, mark, h1]
    rw [ho]
    refine all_at n n h ⟨?_, ?_⟩ rfl (.inr hcr) hn hn
    · simp [mark]; omega
    · simp [mark]
  · have hlen : bytes = [] ∨ 2 ≤ bytes.length := by
      cases h with
      | nil => exact .inl rfl
      | cons hb _ => cases hb; right; simp
    rcases hlen with rfl | hlen
    · have ho : openRead (mark .utf16le ++ []) default = (⟨false, [0xFF, 0xFE]⟩, .utf16le, ⟨2, 2, true, [], false⟩) := rfl
      rw [ho]
      exact all_at n n h ⟨rfl, rfl⟩ rfl (.inr hcr) hn hn
    · have ho : openRead (mark .utf16le ++ bytes) default = (⟨false, mark .utf16le ++ bytes⟩, .utf16le, ⟨2, 2, false, [], false⟩) := by
        have h1 : ¬ (bytes.length + 1 + 1 < 3) := by omega
        simp [openRead, mark, h1]
      rw [ho]
      refine all_at n n h ⟨?_, ?_⟩ rfl (.inr hcr) hn hn
      · simp [mark]; omega
      · simp [mark]
  · have hlen : bytes = [] ∨ 2 ≤ bytes.length := by
      cases h with
      | nil => exact .inl rfl
      | cons hb _ => cases hb; right; simp
    rcases hlen with rfl | hlen
    · have ho : openRead (mark .utf16be ++ []) default = (⟨false, [0xFE, 0xFF]⟩, .utf16be, ⟨2, 2, true, [], false⟩) := rfl
      rw [ho]
      exact all_at n n h ⟨rfl, rfl⟩ rfl (.inr hcr) hn hn
    · have ho : openRead (mark .utf16be ++ bytes) default = (⟨false, mark .utf16be ++ bytes⟩, .utf16be, ⟨2, 2, false, [], false⟩) := by
        have h1 : ¬ (bytes.length + 1 + 1 < 3) := by omega
        simp [openRead, mark, h1]
      rw [ho]
      refine all_at n n h ⟨?_, ?_⟩ rfl (.inr hcr) hn hn
      · simp [mark]; omega
      · simp [mark]

/-- Files without a byte order mark, in the encoding that was asked for, or UTF-8. Missing: files with a CR that stands alone
(`text_lone_cr_wrong`), files of one or two bytes (`text_tiny_hangs`), ASCII (`text_ascii_wrong`). -/
theorem text_unmarked_partial (sj : Nat → Option Nat) {default : Option Enc} (he : default ∈ [none, some Enc.utf8, some .utf16le, some .utf16be, some .sjis])
    {bytes text : List Nat} (h : SpellsText sj (default.getD .utf8) bytes text) (hcr : NoLoneCR text)
    (hm : ∀ e ∈ [Enc.utf8, .utf16le, .utf16be], ¬ mark e <+: bytes) (hlen : bytes = [] ∨ 3 ≤ bytes.length) {n : Nat} (hn : text.length < n) :
    ∃ lines st, readAll sj (openRead bytes default).1 (openRead bytes default).2.1 n n (openRead bytes default).2.2 =
        some (lines.map (·.flatMap utf8), st) ∧ st.err = false ∧ HasLines (normalise text) lines := by
  rcases hlen with rfl | hlen
  · have ho : openRead [] default = (⟨false, []⟩, default.getD .utf8, ⟨0, 0, true, [], false⟩) := rfl
    rw [ho]
    exact all_at n n h ⟨rfl, rfl⟩ rfl (.inr hcr) hn hn
  · obtain ⟨a, b, c, r, rfl⟩ : ∃ a b c r, bytes = a :: b :: c :: r := by
      match bytes, hlen with
      | a :: b :: c :: r, _ => exact ⟨a, b, c, r, rfl⟩
      | [], h | [_], h | [_, _], h => simp at h
    have ho : openRead (a :: b :: c :: r) default = (⟨false, a :: b :: c :: r⟩, default.getD .utf8, ⟨0, 0, false, [], false⟩) := by
      have h1 := hm .utf8 (by simp)
      have h2 := hm .utf16le (by simp)
      have h3 := hm .utf16be (by simp)
      simp only [mark, List.cons_prefix_cons, List.nil_prefix, and_true] at h1 h2 h3
      unfold openRead
      simp only [List.getD_cons_zero, List.getD_cons_succ]
      rw [if_neg (fun h => h3 ⟨h.1.symm, h.2.symm⟩), if_neg (fun h => h2 ⟨h.1.symm, h.2.symm⟩),
        if_neg (fun h => h1 ⟨h.1.symm, h.2.1.symm, h.2.2.symm⟩)]
      simp
    rw [ho]
    exact all_at n n h ⟨by simp, by simp⟩ rfl (.inr hcr) hn hn

/-- "a CR LF é LF b" in UTF-8, without a mark. -/
example : readAll (fun _ => none) (openRead [97, 13, 10, 0xC3, 0xA9, 10, 98] none).1 (openRead [97, 13, 10, 0xC3, 0xA9, 10, 98] none).2.1 9 9
    (openRead [97, 13, 10, 0xC3, 0xA9, 10, 98] none).2.2 = some ([[97], [0xC3, 0xA9], [98]], ⟨7, 7, true, [], false⟩) := by decide +kernel

example : SpellsText (fun _ => none) .utf8 [97, 13, 10, 0xC3, 0xA9, 10, 98] [97, 13, 10, 0xE9, 10, 98] :=
  spells_utf8 (text := [97, 13, 10, 0xE9, 10, 98]) (by decide)

/-- The same lines in UTF-16, with mark. -/
example : (readAll (fun _ => none) (openRead [0xFF, 0xFE, 97, 0, 13, 0, 10, 0, 0xE9, 0] none).1 (openRead [0xFF, 0xFE, 97, 0, 13, 0, 10, 0, 0xE9, 0] none).2.1 9 9
    (openRead [0xFF, 0xFE, 97, 0, 13, 0, 10, 0, 0xE9, 0] none).2.2).map (·.1) = some [[97], [0xC3, 0xA9]] := by decide +kernel

/-- Plain characters that are in the buffer. -/
theorem plain_line {sj : Nat → Option Nat} {f : Src} (hm : f.mem = false) : ∀ (l : List Nat), (∀ c ∈ l, c < 0x80 ∧ c ≠ 10 ∧ c ≠ 13) →
    ∀ (t : List Nat) (n : Nat) (s : St), s.buf = l ++ t → s.pos + l.length ≤ f.bytes.length →
    readLine sj f .utf8 (n + l.length) s = (readLine sj f .utf8 n { s with pos := s.pos + l.length, buf := t }).map fun q => (l ++ q.1, q.2)
  | [], _, t, n, s, hb, _ => by
    simp only [List.nil_append] at hb
    subst hb
    simp
  | c :: l, hl, t, n, s, hb, hp => by
    simp only [List.length_cons] at hp
    obtain ⟨h1, h2, h3⟩ := hl c (by simp)
    have hb' : s.buf = c :: (l ++ t) := hb
    have hend : atEnd f s = false := by simp [atEnd]; omega
    have hs : s = { s with buf := c :: (l ++ t) } := by rw [← hb']
    have hand : ∀ c < 128, c &&& 0xE0 ≠ 0xC0 ∧ c &&& 0xF0 ≠ 0xE0 := by decide +kernel
    obtain ⟨a1, a2⟩ := hand c h1
    have hread : readCharacter sj f .utf8 s = some (c, { s with pos := s.pos + 1, buf := l ++ t }) := by
      have hg : TextFile.get f s = some (c, { s with pos := s.pos + 1, buf := l ++ t }) := by
        unfold TextFile.get
        simp [hm, hb']
      unfold readCharacter raw
      simp only [hg, Option.bind_some, if_neg a1, if_neg a2, if_neg (show ¬ c > 0x7F by omega)]
      simp [h3]
    rw [List.length_cons, ← Nat.add_assoc, readLine, hend, hread, Option.bind_some]
    simp only [if_neg h2]
    rw [plain_line hm l (fun x hx => hl x (List.mem_cons_of_mem _ hx)) t n { s with pos := s.pos + 1, buf := l ++ t } rfl (by simp only; omega)]
    rw [Option.map_map]
    simp only [show s.pos + 1 + l.length = s.pos + (l.length + 1) by omega]
    rfl

/-- A CR that stands alone in a file: the character after it is lost. In memory the same text is read correctly. -/
theorem text_lone_cr_wrong :
    (readAll (fun _ => none) (openRead [97, 13, 98, 99] none).1 (openRead [97, 13, 98, 99] none).2.1 9 9
      (openRead [97, 13, 98, 99] none).2.2).map (·.1) = some [[97, 13, 99]] ∧
    (readAll (fun _ => none) (openMemory [97, 13, 98, 99]).1 (openMemory [97, 13, 98, 99]).2.1 9 9
      (openMemory [97, 13, 98, 99]).2.2).map (·.1) = some [[97, 13, 98, 99]] := by decide +kernel

/-- In files of more than 4096 bytes it can be worse: the part after the first 4096 bytes, here `y`, is never read. Instead the text after the CR is
read a second time. -/
theorem text_lone_cr_repeats (sj : Nat → Option Nat) {x y : List Nat} (hx : x.length = 4093) (hy0 : 0 < y.length) (hy : y.length ≤ 4094)
    (hp : ∀ c ∈ x, c < 0x80 ∧ c ≠ 10 ∧ c ≠ 13) :
    (readAll sj (openRead (97 :: 13 :: 98 :: (x ++ y)) none).1 (openRead (97 :: 13 :: 98 :: (x ++ y)) none).2.1 9000 9000
      (openRead (97 :: 13 :: 98 :: (x ++ y)) none).2.2).map (·.1) = some [97 :: 13 :: (x ++ (98 :: x).take y.length)] := by
  generalize hf : 97 :: 13 :: 98 :: (x ++ y) = bytes
  have hlen : bytes.length = 4096 + y.length := by rw [← hf]; simp [hx]; omega
  have ho : openRead bytes none = (⟨false, bytes⟩, .utf8, ⟨0, 0, false, [], false⟩) := by
    rw [← hf]
    have h1 : ¬ (x.length + y.length + 1 + 1 + 1 < 3) := by omega
    simp [openRead, h1]
  rw [ho]
  obtain ⟨k, hk⟩ : ∃ k, y.length = k + 1 := ⟨y.length - 1, by omega⟩
  have hpos : 0 < bytes.length := by omega
  have h0 : bytes.take 4096 = 97 :: 13 :: 98 :: x := by
    rw [← hf, show 4096 = x.length + 3 by omega, List.take_succ_cons, List.take_succ_cons, List.take_succ_cons, List.take_left]
  have h1 : readCharacter sj ⟨false, bytes⟩ .utf8 ⟨0, 0, false, [], false⟩ = some (97, ⟨1, 4096, false, 13 :: 98 :: x, false⟩) := by
    simp [readCharacter, raw, TextFile.get, fill, bufMax, h0, hx]
  have h2 : readCharacter sj ⟨false, bytes⟩ .utf8 ⟨1, 4096, false, 13 :: 98 :: x, false⟩ = some (13, ⟨3, 2, false, x, false⟩) := by
    have : ¬ bytes.length ≤ 2 := by omega
    simp [readCharacter, raw, TextFile.get, atEnd, this, seek]
  have h3 : (bytes.drop 2).take 4096 = 98 :: (x ++ y.take 2) := by
    rw [← hf, show 4096 = (x.length + 2) + 1 by omega]
    simp only [List.drop_succ_cons, List.drop_zero, List.take_succ_cons, List.take_append, Nat.add_sub_cancel_left]
    rw [List.take_of_length_le (by omega)]
  have e0 : ¬ atEnd ⟨false, bytes⟩ ⟨0, 0, false, [], false⟩ = true := by simp only [atEnd, decide_eq_true_eq]; omega
  have h5 : ∃ sp fl, readCharacter sj ⟨false, bytes⟩ .utf8 ⟨4096, 2, false, [], false⟩ = some (98, ⟨4097, sp, fl, x ++ y.take 2, false⟩) := by
    refine ⟨2 + (98 :: (x ++ y.take 2)).length, decide ((98 :: (x ++ y.take 2)).length < 4096), ?_⟩
    simp only [readCharacter, raw, TextFile.get, fill, bufMax, h3]
    simp
  obtain ⟨sp, fl, h5⟩ := h5
  have h4 : readLine sj ⟨false, bytes⟩ .utf8 9000 ⟨0, 0, false, [], false⟩ =
      some (97 :: 13 :: (x ++ 98 :: x.take k), ⟨4096 + y.length, sp, fl, x.drop k ++ y.take 2, false⟩) := by
    have e2 : ¬ atEnd ⟨false, bytes⟩ ⟨1, 4096, false, 13 :: 98 :: x, false⟩ = true := by simp only [atEnd, decide_eq_true_eq]; omega
    rw [readLine, if_neg e0, h1, Option.bind_some]
    simp only [show ¬ (97 = 10) by decide, if_false]
    rw [readLine, if_neg e2, h2, Option.bind_some]
    simp only [show ¬ (13 = 10) by decide, if_false]
    have p1 := plain_line (sj := sj) (f := ⟨false, bytes⟩) rfl x hp [] 4905 ⟨3, 2, false, x, false⟩ (by simp) (by simp only; omega)
    simp only [hx] at p1
    rw [p1]
    have e3 : ¬ atEnd ⟨false, bytes⟩ ⟨4096, 2, false, [], false⟩ = true := by simp only [atEnd, decide_eq_true_eq]; omega
    have hkl : (x.take k).length = k := by rw [List.length_take]; omega
    have p2 := plain_line (sj := sj) (f := ⟨false, bytes⟩) rfl (x.take k) (fun c hc => hp c (List.mem_of_mem_take hc)) (x.drop k ++ y.take 2) (4904 - k)
      ⟨4097, sp, fl, x ++ y.take 2, false⟩ (by simp only [← List.append_assoc, List.take_append_drop]) (by simp only [hkl]; omega)
    simp only [hkl] at p2
    have e4 : atEnd ⟨false, bytes⟩ ⟨4097 + k, sp, fl, x.drop k ++ y.take 2, false⟩ = true := by simp only [atEnd, decide_eq_true_eq]; omega
    rw [show (4905 : Nat) = 4904 + 1 from rfl, readLine, if_neg e3, h5, Option.bind_some]
    simp only [show ¬ (98 = 10) by decide, if_false]
    rw [show (4904 : Nat) - k + k = 4904 by omega] at p2
    rw [p2]
    obtain ⟨m, hm⟩ : ∃ m, 4904 - k = m + 1 := ⟨4903 - k, by omega⟩
    rw [hm, readLine, if_pos e4]
    simp only [Option.map_some, List.append_nil]
    rw [hk, show 4096 + (k + 1) = 4097 + k by omega]
  have e5 : atEnd ⟨false, bytes⟩ ⟨4096 + y.length, sp, fl, x.drop k ++ y.take 2, false⟩ = true := by simp only [atEnd, decide_eq_true_eq]; omega
  simp only
  rw [readAll, if_neg e0, h4, Option.bind_some]
  simp only
  rw [readAll, if_pos e5]
  simp only [Option.map_some]
  have hplain : ∀ c ∈ 97 :: 13 :: (x ++ 98 :: x.take k), c < 0x80 := by
    intro c hc
    simp only [List.mem_cons, List.mem_append] at hc
    rcases hc with rfl | rfl | hc | rfl | hc
    · decide
    · decide
    · exact (hp c hc).1
    · decide
    · exact (hp c (List.mem_of_mem_take hc)).1
  rw [store_eq (fun c hc => by have := hplain c hc; omega), hk, List.take_succ_cons]
  congr 2
  have : ∀ l : List Nat, (∀ c ∈ l, c < 0x80) → l.flatMap utf8 = l := by
    intro l
    induction l with
    | nil => intro _; rfl
    | cons a l ih =>
      intro h
      rw [List.flatMap_cons, ih (fun x hx => h x (List.mem_cons_of_mem _ hx)), utf8, if_pos (h a (by simp))]; rfl
  exact this _ hplain

example : ∃ x y : List Nat, x.length = 4093 ∧ 0 < y.length ∧ y.length ≤ 4094 ∧ ∀ c ∈ x, c < 0x80 ∧ c ≠ 10 ∧ c ≠ 13 :=
  ⟨List.replicate 4093 98, [99], List.length_replicate, by decide, by decide, fun c hc => by rw [List.eq_of_mem_replicate hc]; decide⟩

/-- A file of one or two bytes is never read to its end: every attempt to read a character gives 0 and changes nothing. -/
theorem text_tiny_hangs (sj : Nat → Option Nat) {bytes : List Nat} (h0 : bytes ≠ []) (h : bytes.length < 3)
    (hm : ∀ e ∈ [Enc.utf8, .utf16le, .utf16be], ¬ mark e <+: bytes) :
    (openRead bytes none).2.1 = .utf8 ∧ atEnd (openRead bytes none).1 (openRead bytes none).2.2 = false ∧
    readCharacter sj (openRead bytes none).1 .utf8 (openRead bytes none).2.2 = some (0, (openRead bytes none).2.2) ∧
    ∀ n, readLine sj (openRead bytes none).1 .utf8 n (openRead bytes none).2.2 = none := by
  have ho : openRead bytes none = (⟨false, bytes⟩, .utf8, ⟨0, bytes.length, true, [], false⟩) := by
    have h2 := hm .utf16le (by simp)
    have h3 := hm .utf16be (by simp)
    match bytes, h0, h with
    | [a], _, _ => simp [openRead]
    | [a, b], _, _ =>
      simp only [mark, List.cons_prefix_cons, List.nil_prefix, and_true] at h2 h3
      unfold openRead
      simp only [List.getD_cons_zero, List.getD_cons_succ]
      rw [if_neg (fun h => h3 ⟨h.1.symm, h.2.symm⟩), if_neg (fun h => h2 ⟨h.1.symm, h.2.symm⟩), if_neg (by simp)]
      simp
  rw [ho]
  have hlen : 0 < bytes.length := List.length_pos_iff.2 h0
  have hend : atEnd ⟨false, bytes⟩ ⟨0, bytes.length, true, [], false⟩ = false := by simp [atEnd, h0]
  have hread : readCharacter sj ⟨false, bytes⟩ .utf8 ⟨0, bytes.length, true, [], false⟩ = some (0, ⟨0, bytes.length, true, [], false⟩) := by
    simp [readCharacter, raw, TextFile.get, fill]
  refine ⟨rfl, hend, hread, ?_⟩
  intro n
  induction n with
  | zero => rfl
  | succ n ih =>
    simp only at ih ⊢
    rw [readLine, hend, hread]
    simp [ih]

/-- With the encoding `ascii` only the first half of a file is read: the position is counted twice. -/
theorem text_ascii_wrong :
    (readAll (fun _ => none) (openRead [97, 98, 99, 100, 101, 102] (some .ascii)).1 (openRead [97, 98, 99, 100, 101, 102] (some .ascii)).2.1 9 9
      (openRead [97, 98, 99, 100, 101, 102] (some .ascii)).2.2).map (·.1) = some [[97, 98, 99]] := by decide +kernel

/-- In Shift-JIS a katakana character of one byte (here 0xB1) is taken together with the character after it. -/
theorem text_sjis_katakana_wrong (sj : Nat → Option Nat) :
    raw sj (openRead [0xB1, 0x41, 0x42] (some .sjis)).1 .sjis (openRead [0xB1, 0x41, 0x42] (some .sjis)).2.2 =
      match sj 0xB141 with
      | some c => some (c, ⟨2, 3, true, [0x42], false⟩)
      | none => some (0, ⟨2, 3, true, [0x42], true⟩) := by
  have : openRead [0xB1, 0x41, 0x42] (some .sjis) = (⟨false, [0xB1, 0x41, 0x42]⟩, .sjis, ⟨0, 0, false, [], false⟩) := by
    simp [openRead]
  rw [this]
  simp [raw, TextFile.get, fill, bufMax]
  cases sj 45377 <;> rfl

/-! ### Writing -/

/-- What a program can do with an open file. -/
inductive Put
  | text (s : List Nat)
  | line (s : List Nat)
  | block (p : List Nat)

/-- Doing it. -/
def Put.run (o : Out) : Put → Out
  | .text s => write o s
  | .line s => writeLine o s
  | .block p => putBlock o p

/-- The bytes it asks for. A C string ends before its first 0. -/
def Put.bytes : Put → List Nat
  | .text s => s.takeWhile (· ≠ 0)
  | .line s => s.takeWhile (· ≠ 0) ++ [10]
  | .block p => p

theorem put_bytes (o : Out) (c : Nat) (h : o.buf.length ≤ 4096) :
    (put o c).file ++ (put o c).buf = o.file ++ o.buf ++ [c] ∧ (put o c).buf.length ≤ 4096 := by
  unfold put drain bufMax
  split
  · simp
  · simp; omega

theorem write_bytes : ∀ (s : List Nat) (o : Out), o.buf.length ≤ 4096 →
    (write o s).file ++ (write o s).buf = o.file ++ o.buf ++ s.takeWhile (· ≠ 0) ∧ (write o s).buf.length ≤ 4096
  | [], o, h => by simpa [write] using h
  | c :: s, o, h => by
    rw [write]
    by_cases hc : c = 0
    · subst hc; simpa using h
    · rw [if_neg hc, List.takeWhile_cons_of_pos (by simpa using hc)]
      obtain ⟨h1, h2⟩ := put_bytes o c h
      obtain ⟨h3, h4⟩ := write_bytes s (put o c) h2
      exact ⟨by rw [h3, h1]; simp, h4⟩

theorem run_bytes (o : Out) (p : Put) (h : o.buf.length ≤ 4096) :
    (p.run o).file ++ (p.run o).buf = o.file ++ o.buf ++ p.bytes ∧ (p.run o).buf.length ≤ 4096 := by
  cases p with
  | text s => exact write_bytes s o h
  | line s =>
    obtain ⟨h1, h2⟩ := write_bytes s o h
    obtain ⟨h3, h4⟩ := put_bytes (write o s) 10 h2
    exact ⟨by simp only [Put.run, writeLine, Put.bytes]; rw [h3, h1]; simp, h4⟩
  | block p =>
    simp only [Put.run, Put.bytes]
    unfold putBlock drain bufMax
    split
    · simp
    · rename_i hp
      split
      · simp; omega
      · rename_i hb
        simp
        omega

/-- Whatever is written, and wherever the buffer happens to be full: after closing, the file consists of the mark (unless ASCII was asked for) and
the written pieces. The buffer never holds more than it can. -/
theorem text_output (ascii : Bool) (ops : List Put) :
    close (ops.foldl Put.run (openWrite ascii)) = (if ascii then [] else mark .utf8) ++ ops.flatMap Put.bytes ∧
    (ops.foldl Put.run (openWrite ascii)).buf.length ≤ 4096 := by
  have key : ∀ (ops : List Put) (o : Out), o.buf.length ≤ 4096 →
      close (ops.foldl Put.run o) = o.file ++ o.buf ++ ops.flatMap Put.bytes ∧ (ops.foldl Put.run o).buf.length ≤ 4096 := by
    intro ops
    induction ops with
    | nil => intro o h; exact ⟨by simp [close, drain], h⟩
    | cons p ops ih =>
      intro o h
      obtain ⟨h1, h2⟩ := run_bytes o p h
      obtain ⟨h3, h4⟩ := ih (p.run o) h2
      exact ⟨by rw [List.foldl_cons, h3, h1]; simp, h4⟩
  have ho : (openWrite ascii).buf.length ≤ 4096 ∧ (openWrite ascii).file ++ (openWrite ascii).buf = if ascii then [] else mark .utf8 := by
    cases ascii <;> decide +kernel
  obtain ⟨h1, h2⟩ := key ops (openWrite ascii) ho.1
  exact ⟨by rw [h1, ho.2], h2⟩

/-- Some lines. -/
example : close ([Put.line [97, 98], .text [99], .line []].foldl Put.run (openWrite true)) = [97, 98, 10, 99, 10] := by decide +kernel

theorem lines_unique : ∀ {a b : List (List Nat)}, (∀ l ∈ a, 10 ∉ l) → (∀ l ∈ b, 10 ∉ l) →
    a.flatMap (fun l => l ++ [10]) = b.flatMap (fun l => l ++ [10]) → a = b
  | [], [], _, _, _ => rfl
  | [], y :: b, _, _, h => by simp at h
  | x :: a, [], _, _, h => by simp at h
  | x :: a, y :: b, ha, hb, h => by
    have key : ∀ (x y u v : List Nat), 10 ∉ x → 10 ∉ y → x ++ 10 :: u = y ++ 10 :: v → x = y ∧ u = v := by
      intro x
      induction x with
      | nil =>
        intro y u v _ hy h
        cases y with
        | nil => exact ⟨rfl, by injection h⟩
        | cons c y => injection h with h1 _; exact absurd (by simp [h1]) hy
      | cons d x ih =>
        intro y u v hx hy h
        cases y with
        | nil => injection h with h1 _; exact absurd (by simp [h1]) hx
        | cons c y =>
          injection h with h1 h2
          rw [List.mem_cons, not_or] at hx hy
          obtain ⟨h3, h4⟩ := ih y u v hx.2 hy.2 h2
          exact ⟨by rw [h1, h3], h4⟩
    simp only [List.flatMap_cons, List.append_assoc, List.singleton_append] at h
    obtain ⟨h1, h2⟩ := key x y _ _ (ha x (by simp)) (hb y (by simp)) h
    rw [h1, lines_unique (fun l hl => ha l (List.mem_cons_of_mem _ hl)) (fun l hl => hb l (List.mem_cons_of_mem _ hl)) h2]

theorem normalise_same : ∀ {t : List Nat}, 13 ∉ t → normalise t = t
  | [], _ => rfl
  | c :: t, h => by
    rw [List.mem_cons, not_or] at h
    rw [normalise, normalise_same h.2]
    intro _ hc
    exact absurd hc.symm h.1

theorem takeWhile_utf8 {l : List Nat} (h : 0 ∉ l) : (l.flatMap utf8).takeWhile (· ≠ 0) = l.flatMap utf8 := by
  have key : ∀ t : List Nat, (∀ b ∈ t, b ≠ 0) → t.takeWhile (· ≠ 0) = t := by
    intro t
    induction t with
    | nil => intro _; rfl
    | cons a t ih =>
      intro h
      rw [List.takeWhile_cons_of_pos (by simpa using h a (by simp)), ih fun b hb => h b (List.mem_cons_of_mem _ hb)]
  apply key
  intro b hb
  obtain ⟨c, hc, hbc⟩ := List.mem_flatMap.1 hb
  have h0 : c ≠ 0 := fun e => h (e ▸ hc)
  unfold utf8 at hbc
  split at hbc
  · simp at hbc; omega
  · split at hbc <;> simp at hbc <;> omega

/-- Lines that were written are read again. -/
theorem text_write_read (sj : Nat → Option Nat) {lines : List (List Nat)} (h : ∀ l ∈ lines, ∀ c ∈ l, c < 0x10000 ∧ c ∉ [0, 10, 13])
    (default : Option Enc) {n : Nat} (hn : (lines.flatMap fun l => l ++ [10]).length < n) {file : List Nat}
    (hf : file = close ((lines.map fun l => Put.line (l.flatMap utf8)).foldl Put.run (openWrite false))) :
    ∃ st, readAll sj (openRead file default).1 (openRead file default).2.1 n n (openRead file default).2.2 =
        some (lines.map (·.flatMap utf8), st) ∧ st.err = false := by
  have hfile : file = mark .utf8 ++ (lines.flatMap fun l => l ++ [10]).flatMap utf8 := by
    rw [hf, (text_output false _).1]
    simp only [Bool.false_eq_true, if_false]
    congr 1
    clear hf hn
    induction lines with
    | nil => rfl
    | cons l lines ih =>
      rw [List.map_cons, List.flatMap_cons, ih (fun x hx => h x (List.mem_cons_of_mem _ hx)), List.flatMap_cons, List.flatMap_append,
        List.flatMap_append]
      simp only [Put.bytes]
      rw [takeWhile_utf8 (fun h0 => (h l (by simp) 0 h0).2 (by simp))]
      rfl
  have hmem : ∀ c ∈ lines.flatMap (fun l => l ++ [10]), c < 0x10000 ∧ c ≠ 13 := by
    intro c hc
    obtain ⟨l, hl, hc⟩ := List.mem_flatMap.1 hc
    rw [List.mem_append, List.mem_singleton] at hc
    rcases hc with hc | rfl
    · obtain ⟨h1, h2⟩ := h l hl c hc
      exact ⟨h1, fun e => h2 (by simp [e])⟩
    · decide
  have hno : 13 ∉ lines.flatMap (fun l => l ++ [10]) := fun hc => (hmem 13 hc).2 rfl
  obtain ⟨ls, st, h1, h2, h3, h4⟩ := text_marked_partial sj (e := .utf8) (by simp) (spells_utf8 fun c hc => (hmem c hc).1)
    (fun a c b e => absurd (by rw [e]; simp) hno) default hn
  rw [← hfile] at h1
  rw [normalise_same hno] at h4
  have : ls = lines := by
    apply lines_unique h3 (fun l hl h10 => (h l hl 10 h10).2 (by simp))
    rcases h4 with h4 | ⟨h4, h5⟩
    · exact h4
    · exfalso
      rcases List.eq_nil_or_concat lines with hl | ⟨a, b, hl⟩
      · subst hl; cases h4
      · rw [hl] at h4
        rw [List.concat_eq_append, List.flatMap_append] at h4
        simp at h4
  subst this
  exact ⟨st, h1, h2⟩

example : ∀ l ∈ [[97, 0xE9], [], [0x20AC]], ∀ c ∈ l, c < 0x10000 ∧ c ∉ [0, 10, 13] := by decide

example : close (([[97, 0xE9], [], [0x20AC]].map fun l => Put.line (l.flatMap utf8)).foldl Put.run (openWrite false)) =
    [0xEF, 0xBB, 0xBF, 97, 0xC3, 0xA9, 10, 10, 0xE2, 0x82, 0xAC, 10] := by decide +kernel

end Armips.Props
