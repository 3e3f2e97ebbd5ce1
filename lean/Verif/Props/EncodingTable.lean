import Verif.Lemmas.Trie
import Verif.Spec.Table
/-!
# C41: table string encoding

A table built from a fresh one by adding entries encodes every string as the longest-match specification says.
-/
namespace Armips.Props
open Armips Armips.Table Armips.Spec

/-- A table built by `addEntry` for each definition in order, after setting the termination bytes. -/
def buildTable (term : List Byte) (defs : TextTable) : Tbl :=
  defs.foldl (fun t d => t.addEntry d.2 d.1) (Tbl.empty.setTermination term)

/-- Keys the table format can express: nonempty, without NUL. -/
def GoodKeys (defs : TextTable) : Prop := ∀ d ∈ defs, d.1 ≠ [] ∧ 0#8 ∉ d.1

private theorem cstr_eq {s : List Byte} (h : 0#8 ∉ s) : cstr s = s := by
  unfold cstr
  induction s with
  | nil => rfl
  | cons c cs ih =>
    have hc : c ≠ 0#8 := fun e => h (by simp [e])
    rw [List.takeWhile_cons]
    rw [ih (fun hm => h (by simp [hm]))]
    simp [hc]

private theorem filter_congr_getLast (defs : TextTable) (d : List Byte × List Byte) (k : List Byte) :
    TextTable.defined (defs ++ [d]) k = if d.1 = k then some d.2 else TextTable.defined defs k := by
  unfold TextTable.defined
  rw [List.filter_append]
  by_cases h : d.1 = k
  · simp [h]
  · simp [h]

/-- Representation invariant of a table against its list of definitions. -/
private structure Rep (term : List Byte) (defs : TextTable) (t : Tbl) : Prop where
  inv : Trie.Inv t.lookup
  entries : ∀ (i : Nat) (e : Entry), t.entries[i]? = some e → e.hexPos + e.hexLen ≤ t.hexData.length
  mapped : ∀ k, match TextTable.defined defs k with
    | none => t.lookup.abs k = none
    | some b => ∃ (i : Nat) (e : Entry), t.lookup.abs k = some i ∧ t.entries[i]? = some e ∧ e.valueLen = k.length ∧
        (t.hexData.drop e.hexPos).take e.hexLen = b
  term1 : t.termination.hexPos + t.termination.hexLen ≤ t.hexData.length
  term2 : (t.hexData.drop t.termination.hexPos).take t.termination.hexLen = term

private theorem slice_append (h x : List Byte) (p n : Nat) (hp : p + n ≤ h.length) :
    ((h ++ x).drop p).take n = (h.drop p).take n := by
  rw [List.drop_append_of_le_length (by omega), List.take_append_of_le_length (by simp; omega)]

private theorem rep_build (term : List Byte) (defs : TextTable) (hg : GoodKeys defs) :
    Rep term defs (buildTable term defs) := by
  have gen : ∀ (more done : TextTable) (t : Tbl), Rep term done t → GoodKeys more →
      Rep term (done ++ more) (more.foldl (fun t d => t.addEntry d.2 d.1) t) := by
    intro more
    induction more with
    | nil => intro done t h _; simpa using h
    | cons d ds ih =>
      intro done t h hm
      obtain ⟨hne, hnul⟩ := hm d (by simp)
      have hstep : Rep term (done ++ [d]) (t.addEntry d.2 d.1) := by
        have hi := Trie.insert_spec h.inv (cstr d.1) t.entries.length
        rw [cstr_eq hnul] at hi
        have hl : ¬ d.1.length = 0 := by simpa using hne
        unfold Tbl.addEntry
        rw [if_neg hl, cstr_eq hnul]
        constructor
        · exact hi.1
        · intro i e he
          simp only [List.length_append] at he ⊢
          rcases Nat.lt_or_ge i t.entries.length with hlt | hge
          · rw [List.getElem?_append_left hlt] at he
            have := h.entries i e he; omega
          · rw [List.getElem?_append_right hge] at he
            have : i - t.entries.length = 0 := by
              rcases Nat.eq_zero_or_pos (i - t.entries.length) with h | h
              · exact h
              · rw [List.getElem?_eq_none (by simp; omega)] at he; simp at he
            rw [this] at he
            simp at he
            subst he
            simp
        · intro k
          rw [filter_congr_getLast]
          by_cases hk : d.1 = k
          · subst hk
            rw [if_pos rfl]
            refine ⟨t.entries.length, _, ?_, List.getElem?_concat_length, rfl, ?_⟩
            · simp only; rw [hi.2, if_pos rfl]
            · simp
          · rw [if_neg hk]
            have := h.mapped k
            have ha : (t.lookup.insert d.1 t.entries.length).abs k = t.lookup.abs k := by
              rw [hi.2, if_neg (fun h => hk h.symm)]
            cases hd : TextTable.defined done k with
            | none => rw [hd] at this; simp only at this ⊢; rw [ha, this]
            | some b =>
              rw [hd] at this
              obtain ⟨i, e, h1, h2, h3, h4⟩ := this
              have hilt : i < t.entries.length := (List.getElem?_eq_some_iff.mp h2).1
              refine ⟨i, e, ?_, ?_, h3, ?_⟩
              · simp only; rw [ha, h1]
              · simp only; rw [List.getElem?_append_left hilt, h2]
              · simp only; rw [slice_append _ _ _ _ (h.entries i e h2), h4]
        · simp only [List.length_append]; have := h.term1; omega
        · simp only; rw [slice_append _ _ _ _ h.term1, h.term2]
      have := ih (done ++ [d]) (t.addEntry d.2 d.1) hstep (fun x hx => hm x (by simp [hx]))
      simpa using this
  have h0 : Rep term [] (Tbl.empty.setTermination term) := by
    constructor
    · exact Trie.inv_empty
    · intro i e he; simp [Tbl.setTermination, Tbl.empty] at he
    · intro k
      simp only [TextTable.defined, List.filter_nil, List.getLast?_nil, Option.map_none]
      unfold Trie.abs
      simp only [Tbl.setTermination, Tbl.empty]
      cases h : Trie.empty.walk 0 k <;> simp [Trie.empty]
    · simp [Tbl.setTermination, Tbl.empty]
    · simp [Tbl.setTermination, Tbl.empty]
  simpa [buildTable] using gen defs [] _ h0 hg

private theorem entryBytes_eq {t : Tbl} {e : Entry} (h : e.hexPos + e.hexLen ≤ t.hexData.length) :
    t.entryBytes e = some ((t.hexData.drop e.hexPos).take e.hexLen) := by
  unfold Tbl.entryBytes; rw [if_pos (Or.inr h)]

private theorem lookup_spec {term defs} {t : Tbl} (h : Rep term defs t) (s : List Byte) :
    match t.lookup.findLongestPrefix s with
    | none => ∀ k b, TextTable.defined defs k = some b → ¬ k <+: s
    | some i => ∃ (k b : List Byte) (e : Entry), LongestMatch defs s k b ∧ t.entries[i]? = some e ∧ e.valueLen = k.length ∧
        t.entryBytes e = some b := by
  have hf := Trie.find_spec t.lookup s
  have some_iff : ∀ k, (t.lookup.abs k).isSome ↔ ∃ b, TextTable.defined defs k = some b := by
    intro k
    have := h.mapped k
    cases hd : TextTable.defined defs k with
    | none => rw [hd] at this; simp [this]
    | some b => rw [hd] at this; obtain ⟨i, e, h1, _⟩ := this; simp [h1]
  cases hr : t.lookup.findLongestPrefix s with
  | none =>
    rw [hr] at hf
    simp only at hf ⊢
    intro k b hk hp
    have := (some_iff k).mpr ⟨b, hk⟩
    rw [hf k hp] at this
    simp at this
  | some i =>
    rw [hr] at hf
    obtain ⟨k, h1, h2, h3⟩ := hf
    obtain ⟨b, hb⟩ := (some_iff k).mp (by simp [h2])
    have hm := h.mapped k
    rw [hb] at hm
    obtain ⟨i', e, e1, e2, e3, e4⟩ := hm
    rw [h2] at e1
    injection e1 with e1; subst e1
    refine ⟨k, b, e, ⟨hb, h1, fun k' b' hk' hp' => h3 k' hp' ((some_iff k').mpr ⟨b', hk'⟩)⟩, e2, e3, ?_⟩
    rw [entryBytes_eq (h.entries _ _ e2), e4]

/-- Two longest matches at the same place are the same. -/
theorem longestMatch_unique {t s k b k' b'} (h : LongestMatch t s k b) (h' : LongestMatch t s k' b') :
    k = k' ∧ b = b' := by
  have h1 := h.2.2 k' b' h'.1 h'.2.1
  have h2 := h'.2.2 k b h.1 h.2.1
  have hk : k = k' := by
    have hp := List.prefix_of_prefix_length_le h.2.1 h'.2.1 h2
    exact hp.eq_of_length (by omega)
  subst hk
  have := h.1.symm.trans h'.1
  exact ⟨rfl, by simpa using this⟩

private theorem loop_spec {term defs} (hg : GoodKeys defs) {t : Tbl} (h : Rep term defs t) {s o}
    (hgr : Greedy defs s o) (hs : 0#8 ∉ s) (fuel : Nat) (hf : s.length ≤ fuel) (acc : List Byte) :
    t.encodeLoop fuel s acc = match o with | none => .fail | some b => .ok (acc ++ b) := by
  induction hgr generalizing fuel acc with
  | nil => cases fuel <;> simp [Tbl.encodeLoop]
  | @step s k b o hne hlm hgr ih =>
    match s, fuel, hne with
    | c :: cs, fuel + 1, _ =>
      have hl := lookup_spec h (c :: cs)
      simp only [Tbl.encodeLoop, cstr_eq hs]
      cases hr : t.lookup.findLongestPrefix (c :: cs) with
      | none => rw [hr] at hl; exact absurd hlm.2.1 (hl k b hlm.1)
      | some i =>
        rw [hr] at hl
        obtain ⟨k', b', e, hlm', e2, e3, e4⟩ := hl
        obtain ⟨rfl, rfl⟩ := longestMatch_unique hlm hlm'
        simp only [e2, e4, e3]
        -- the matched text is not empty
        have hk : 1 ≤ k.length := by
          have hdef := hlm.1
          unfold TextTable.defined at hdef
          cases hgl : (List.filter (fun e => decide (e.1 = k)) defs).getLast? with
          | none => simp [hgl] at hdef
          | some d =>
            have hmem := List.mem_of_getLast? hgl
            simp at hmem
            have := (hg d hmem.1).1
            rw [hmem.2] at this
            exact List.length_pos_iff.mpr this
        have := ih (fun hmem => hs (List.mem_of_mem_drop hmem)) fuel (by simp at hf ⊢; omega) (acc ++ b)
        rw [this]
        cases o <;> simp
    | c :: cs, 0, _ => simp at hf
  | @fail s hne hno =>
    match s, fuel, hne with
    | c :: cs, fuel + 1, _ =>
      have hl := lookup_spec h (c :: cs)
      simp only [Tbl.encodeLoop, cstr_eq hs]
      cases hr : t.lookup.findLongestPrefix (c :: cs) with
      | none => rfl
      | some i =>
        rw [hr] at hl
        obtain ⟨k, b, e, hlm, _⟩ := hl
        exact absurd hlm.2.1 (hno k b hlm.1)
    | c :: cs, 0, _ => simp at hf

/-- **C41.** Encoding a string with a table gives the longest-match encoding, followed by the termination bytes if
requested, and fails exactly when the specification fails; no access is out of range. -/
theorem table_encode (term : List Byte) (defs : TextTable) (hg : GoodKeys defs) (s : List Byte) (hs : 0#8 ∉ s)
    (o : Option (List Byte)) (hgr : Greedy defs s o) (wt : Bool) :
    (buildTable term defs).encodeString s wt =
      match o with
      | none => .fail
      | some b => .ok (b ++ if wt then term else []) := by
  have h := rep_build term defs hg
  unfold Tbl.encodeString
  rw [loop_spec hg h hgr hs s.length (Nat.le_refl _) []]
  cases o with
  | none => rfl
  | some b =>
    simp only [List.nil_append]
    cases wt
    · simp
    · simp only [if_true]
      rw [entryBytes_eq h.term1, h.term2]

/-- The specification covers every string: it has exactly one outcome. -/
theorem greedy_total (defs : TextTable) (hg : GoodKeys defs) (s : List Byte) : ∃ o, Greedy defs s o := by
  have h := rep_build [] defs hg
  have gen : ∀ n (s : List Byte), s.length ≤ n → ∃ o, Greedy defs s o := by
    intro n
    induction n with
    | zero =>
      intro s hl
      have : s = [] := List.length_eq_zero_iff.mp (by omega)
      subst this; exact ⟨_, .nil⟩
    | succ n ih =>
      intro s hl
      by_cases hne : s = []
      · subst hne; exact ⟨_, .nil⟩
      · have hl' := lookup_spec h s
        cases hr : (buildTable [] defs).lookup.findLongestPrefix s with
        | none => rw [hr] at hl'; exact ⟨_, .fail hne hl'⟩
        | some i =>
          rw [hr] at hl'
          obtain ⟨k, b, e, hlm, _⟩ := hl'
          have hk : 1 ≤ k.length := by
            have hdef := hlm.1
            unfold TextTable.defined at hdef
            cases hgl : (List.filter (fun e => decide (e.1 = k)) defs).getLast? with
            | none => simp [hgl] at hdef
            | some d =>
              have hmem := List.mem_of_getLast? hgl
              simp at hmem
              have := (hg d hmem.1).1
              rw [hmem.2] at this
              exact List.length_pos_iff.mpr this
          obtain ⟨o, ho⟩ := ih (s.drop k.length) (by simp; omega)
          exact ⟨_, .step hne hlm ho⟩
  exact gen s.length s (Nat.le_refl _)

theorem greedy_unique {defs : TextTable} {s o o'} (h : Greedy defs s o) (h' : Greedy defs s o') : o = o' := by
  induction h generalizing o' with
  | nil => cases h' with
    | nil => rfl
    | step hne => exact absurd rfl hne
    | fail hne => exact absurd rfl hne
  | step hne hlm _ ih => cases h' with
    | nil => exact absurd rfl hne
    | step _ hlm' hg' => obtain ⟨rfl, rfl⟩ := longestMatch_unique hlm hlm'; rw [ih hg']
    | fail _ hno => exact absurd hlm.2.1 (hno _ _ hlm.1)
  | fail hne hno => cases h' with
    | nil => exact absurd rfl hne
    | step _ hlm' => exact absurd hlm'.2.1 (hno _ _ hlm'.1)
    | fail => rfl

/-- Table files: an even-length string of hexadecimal digits parses to the bytes it spells, and a string with any
other character is rejected. -/
theorem parseHex_even (ds : List (Nat × Nat)) (hd : ∀ d ∈ ds, d.1 < 16 ∧ d.2 < 16) (enc : Nat → Byte)
    (henc : ∀ n, n < 16 → hexDigit (enc n) = some n) :
    parseHexString (ds.flatMap fun d => [enc d.1, enc d.2]) = some (ds.map fun d => BitVec.ofNat 8 (16 * d.1 + d.2)) := by
  induction ds with
  | nil => rfl
  | cons d ds ih =>
    have h := hd d (by simp)
    simp only [List.flatMap_cons, List.cons_append, List.nil_append, parseHexString, henc _ h.1, henc _ h.2,
      ih (fun x hx => hd x (by simp [hx])), List.map_cons, Option.bind_eq_bind, Option.bind_some, pure]
    congr 3
    rw [Nat.shiftLeft_eq, Nat.mul_comm, ← Nat.two_pow_add_eq_or_of_lt (by omega)]

theorem parseHex_reject (s : List Byte) (h : ∃ c ∈ s, hexDigit c = none) : parseHexString s = none := by
  fun_induction parseHexString s with
  | case1 => simp at h
  | case2 a => simp at h; simp [h]
  | case3 a b rest ih =>
    obtain ⟨c, hc, hn⟩ := h
    simp only [List.mem_cons] at hc
    rcases hc with rfl | rfl | hc
    · simp [hn]
    · simp [hn]
    · rw [ih ⟨c, hc, hn⟩]
      cases hexDigit a <;> cases hexDigit b <;> rfl

/-- The hexadecimal digits of a table file: `0`–`9`, `a`–`f` and `A`–`F`, nothing else. -/
theorem hex_digits (c : Byte) (n : Nat) : hexDigit c = some n ↔
    (n < 10 ∧ c.toNat = 48 + n) ∨ (10 ≤ n ∧ n < 16 ∧ (c.toNat = 97 + (n - 10) ∨ c.toNat = 65 + (n - 10))) := by
  have hc : c.toNat < 256 := c.isLt
  unfold hexDigit
  generalize c.toNat = x at hc
  simp only
  by_cases h1 : 65 ≤ x ∧ x ≤ 90
  · rw [if_pos h1]
    split
    · simp only [Option.some.injEq]; omega
    · split
      · omega
      · simp; omega
  · rw [if_neg h1]
    split
    · simp only [Option.some.injEq]; omega
    · split
      · simp only [Option.some.injEq]; omega
      · simp; omega

private theorem digit_plain : ∀ c : Byte, (hexDigit c).isSome → c ≠ 0x2A#8 ∧ c ≠ 0x2F#8 ∧ c ≠ 0x3D#8 := by
  decide +kernel

private theorem takeWhile_ne (h : List Byte) (hh : ∀ c ∈ h, c ≠ 0x3D#8) (v : List Byte) :
    (h ++ 0x3D#8 :: v).takeWhile (· ≠ 0x3D#8) = h := by
  induction h with
  | nil => simp
  | cons c cs ih =>
    rw [List.cons_append, List.takeWhile_cons, ih (fun c hc => hh c (by simp [hc]))]
    simp [hh c (by simp)]

/-- Loading a table file whose lines are `hex=text`, with `hex` spelling 1 to 32 bytes and `text` nonempty without NUL,
defines exactly those texts, with a zero byte as termination. -/
theorem table_load (defs : List (List (Nat × Nat) × List Byte)) (enc : Nat → Byte)
    (henc : ∀ n, n < 16 → hexDigit (enc n) = some n)
    (hd : ∀ d ∈ defs, (∀ x ∈ d.1, x.1 < 16 ∧ x.2 < 16) ∧ d.1 ≠ [] ∧ d.1.length ≤ 32 ∧ d.2 ≠ []) :
    Tbl.empty.load (defs.map fun d => (d.1.flatMap fun x => [enc x.1, enc x.2]) ++ 0x3D#8 :: d.2) =
      buildTable [0#8] (defs.map fun d => (d.2, d.1.map fun x => BitVec.ofNat 8 (16 * x.1 + x.2))) := by
  unfold Tbl.load buildTable
  have e : ({ Tbl.empty with hexData := [], entries := [] } : Tbl) = Tbl.empty := rfl
  rw [e]
  generalize Tbl.empty.setTermination [0#8] = t
  induction defs generalizing t with
  | nil => rfl
  | cons d ds ih =>
    simp only [List.map_cons, List.foldl_cons]
    rw [ih (fun d hd' => hd d (by simp [hd']))]
    obtain ⟨h1, h2, h3, h4⟩ := hd d (by simp)
    congr 1
    have hp := parseHex_even d.1 h1 enc henc
    have hl : (d.1.flatMap fun x => [enc x.1, enc x.2]).length = 2 * d.1.length := by
      generalize d.1 = l
      induction l with
      | nil => rfl
      | cons a l ih => simp [ih]; omega
    have hne : ∀ c ∈ (d.1.flatMap fun x => [enc x.1, enc x.2]), (hexDigit c).isSome := by
      intro c hc
      simp only [List.mem_flatMap] at hc
      obtain ⟨x, hx, hc⟩ := hc
      have := h1 x hx
      simp only [List.mem_cons, List.not_mem_nil, or_false] at hc
      rcases hc with rfl | rfl
      · rw [henc _ this.1]; rfl
      · rw [henc _ this.2]; rfl
    have hpos : 0 < d.1.length := List.length_pos_iff.mpr h2
    generalize (d.1.flatMap fun x => [enc x.1, enc x.2]) = h at hp hl hne
    have htw := takeWhile_ne h (fun c hc => (digit_plain c (hne c hc)).2.2) d.2
    match h, hl, hne, htw, hp with
    | [], hl, _, _, _ => simp at hl; omega
    | c :: cs, hl, hne, htw, hp =>
      have hc := digit_plain c (hne c (by simp))
      rw [List.cons_append] at htw
      simp only [List.cons_append, Tbl.loadLine, hc.1, hc.2.1, if_false, htw]
      have hm : 0x3D#8 ∈ c :: (cs ++ 0x3D#8 :: d.2) := by simp
      have hdrop : (c :: (cs ++ 0x3D#8 :: d.2)).drop ((c :: cs).length + 1) = d.2 := by
        simp
      rw [if_pos hm, hdrop]
      have h4' : d.2.length ≠ 0 := by simpa using h4
      rw [if_neg (by omega), hp]

/-- Loading a second table does not forget the first one's texts: after loading `00=a`, `01=b` and then `00=c` into the
same object, encoding "b" is not an error (as it is for a fresh table) but reads an entry that does not exist. -/
theorem table_reload_stale :
    let first := [[0x30#8, 0x30#8, 0x3D#8, 0x61#8], [0x30#8, 0x31#8, 0x3D#8, 0x62#8]]
    let second := [[0x30#8, 0x30#8, 0x3D#8, 0x63#8]]
    ((Tbl.empty.load first).load second).encodeString [0x62#8] false = .ub ∧
    (Tbl.empty.load second).encodeString [0x62#8] false = .fail := by
  decide +kernel

/-- A line without `=` is accepted as an entry that maps the line to itself read as hexadecimal digits. -/
theorem table_line_without_equals :
    (Tbl.empty.load [[0x34#8, 0x31#8]]).encodeString [0x34#8, 0x31#8] false = .ok [0x41#8] := by
  decide +kernel

-- a non-trivial table and string meeting the hypotheses: "ab" -> 01, "a" -> 02 and the text "aab"
example : GoodKeys [([0x61#8], [2#8]), ([0x61#8, 0x62#8], [1#8])] ∧ 0#8 ∉ [0x61#8, 0x61#8, 0x62#8] ∧
    (buildTable [0#8] [([0x61#8], [2#8]), ([0x61#8, 0x62#8], [1#8])]).encodeString [0x61#8, 0x61#8, 0x62#8] true
      = .ok [2#8, 1#8, 0#8] := by
  refine ⟨by intro d hd; revert d hd; decide, by decide, by decide +kernel⟩

end Armips.Props
