import Verif.Lemmas.PsxLib
/-!
# C75: libraries and object files of the PlayStation are read as what they hold
-/
namespace Armips.Props
open Armips Armips.Psx Armips.Spec.Psx

private theorem drop_lib (x : List Byte) : (libMagic ++ x).drop 4 = x := rfl
private theorem take_lib (x : List Byte) : (libMagic ++ x).take 4 = libMagic := rfl
private theorem drop_obj (x : List Byte) : ([0x4C#8, 0x4E#8, 0x4B#8, 0x02#8, 0x2E#8, 0x07#8] ++ x).drop 6 = x := rfl
private theorem take_obj (x : List Byte) : ([0x4C#8, 0x4E#8, 0x4B#8, 0x02#8, 0x2E#8, 0x07#8] ++ x).take 6 = objMagic := rfl

private theorem inv0 : Inv ⟨[], [], none, -1⟩ [] none false :=
  ⟨rfl, List.nodup_nil, (fun _ h => by cases h), (fun h => by cases h)⟩

private theorem obj_start (l : List Record) (t : List Byte) :
    ¬ (object l ++ t).length < 6 ∧ (object l ++ t).take 6 = objMagic ∧ (object l ++ t).drop 6 = l.flatMap Record.bytes ++ t := by
  refine ⟨?_, ?_, ?_⟩
  · simp [object]
  · rw [object, List.append_assoc]; exact List.take_left' rfl
  · rw [object, List.append_assoc]; exact List.drop_left' rfl

private theorem record_length (r : Record) : 1 ≤ r.bytes.length := by
  cases r <;> simp [Record.bytes]

private theorem records_length (l : List Record) : l.length ≤ (l.flatMap Record.bytes).length := by
  induction l with
  | nil => simp
  | cons r l ih => have := record_length r; rw [List.flatMap_cons, List.length_append, List.length_cons]; omega

private theorem read_then {l : List Record} (h : Valid l) (t : List Byte) :
    ∃ k a z, t.length ≤ k ∧ parseObject (object l ++ t) = objLoop k ⟨(meaning l).segments, (meaning l).symbols, a, z⟩ t := by
  obtain ⟨h1, h2, h3⟩ := obj_start l t
  have hlen : (object l ++ t).length = l.length + ((object l ++ t).length - l.length) := by
    have := records_length l
    simp only [object, List.length_append]; omega
  obtain ⟨a, z, e⟩ := objLoop_records (rest := t) (k := (object l ++ t).length - l.length) h.fits h.ordered inv0
  refine ⟨(object l ++ t).length - l.length, a, z, ?_, ?_⟩
  · have := records_length l
    simp only [object, List.length_append]; omega
  · unfold parseObject
    rw [if_neg h1, if_neg (by rw [h2]; simp), h3]
    conv => lhs; rw [hlen]
    rw [e]
    simp only [List.map_nil, List.nil_append, meaning, fresh]

/-- An object file is read as its segments with their contents and relocations, and its symbols. -/
theorem psx_object_read {l : List Record} (h : Valid l) : parseObject (object l) = .ok (meaning l) := by
  obtain ⟨k, a, z, _, e⟩ := read_then h []
  rw [List.append_nil] at e
  rw [e, objLoop.eq_1]

/-- A library is read as its entries. -/
theorem psx_library_read (name : List Byte) {l : List Member} (h : ∀ m ∈ l, m.Valid) (hl : l ≠ []) :
    loadLibrary name (library l) = .ok (l.map fun m => ⟨m.name, m.data⟩) := by
  obtain ⟨m, l', rfl⟩ := List.exists_cons_of_ne_nil hl
  have hlen := flatMap_members_length h
  have hlen' : 20 ≤ ((m :: l').flatMap Member.bytes).length := by rw [List.length_cons] at hlen; omega
  have e : library (m :: l') = libMagic ++ (m :: l').flatMap Member.bytes := rfl
  unfold loadLibrary
  rw [e]
  rw [if_neg (by simp [libMagic]), if_neg (by rw [List.length_append]; omega), if_neg, if_neg, drop_lib]
  · exact libLoop_members (by rw [List.length_append]; omega) h
  · rw [take_lib]; simp
  · intro hc
    have := congrArg (·[1]?) hc
    simp [libMagic, objMagic] at this

/-- A file that is an object is its own only entry. -/
theorem psx_single_object (name : List Byte) (l : List Record) : loadLibrary name (object l) = .ok [⟨name, object l⟩] := by
  obtain ⟨h1, h2, _⟩ := obj_start l []
  rw [List.append_nil] at h1 h2
  unfold loadLibrary
  rw [if_neg (by simp [object]), if_neg h1, if_pos h2]

private theorem readAll_objects {l : List (List Byte × List Record)} (h : ∀ x ∈ l, Valid x.2) :
    readAll (l.map fun x => ⟨x.1, object x.2⟩) = .ok (l.map fun x => Spec.Psx.ready (meaning x.2)) := by
  induction l with
  | nil => rfl
  | cons x l ih =>
    rw [List.map_cons, readAll, psx_object_read (h x (List.mem_cons_self ..)), Res.bind_ok, ih fun y hy => h y (List.mem_cons_of_mem _ hy),
      Res.bind_ok]
    rfl

/-- Importing a library takes all of its objects, in their order; importing an object takes this one. -/
theorem psx_import_read (name : List Byte) :
    (∀ l : List Record, Valid l → Psx.init name (object l) = .ok [Spec.Psx.ready (meaning l)]) ∧
    ∀ l : List (Member × List Record), l ≠ [] → (∀ x ∈ l, x.1.Valid ∧ x.1.data = object x.2 ∧ Valid x.2) →
      Psx.init name (library (l.map (·.1))) = .ok (l.map fun x => Spec.Psx.ready (meaning x.2)) := by
  refine ⟨fun l hl => ?_, fun l hl hv => ?_⟩
  · unfold Psx.init
    rw [psx_single_object, Res.bind_ok, if_neg (by simp)]
    exact readAll_objects (l := [(name, l)]) (by simpa using hl)
  · unfold Psx.init
    rw [psx_library_read name (l := l.map (·.1)) (fun m hm => by obtain ⟨x, hx, rfl⟩ := List.mem_map.1 hm; exact (hv x hx).1) (by simpa using hl),
      Res.bind_ok, if_neg (by simpa using hl)]
    have e : (l.map (·.1)).map (fun m => (⟨m.name, m.data⟩ : Entry)) = (l.map fun x => (x.1.name, x.2)).map fun x => ⟨x.1, object x.2⟩ := by
      rw [List.map_map, List.map_map]
      exact List.map_congr_left fun x hx => by simp only [Function.comp]; rw [(hv x hx).2.1]
    rw [e, readAll_objects (l := l.map fun x => (x.1.name, x.2)) (fun x hx => by obtain ⟨y, hy, rfl⟩ := List.mem_map.1 hx; exact (hv y hy).2.2), List.map_map]
    rfl

/-- The tags that begin a record. -/
def psxTags : List Byte :=
  [0x10#8, 0x14#8, 0x1C#8, 0x06#8, 0x02#8, 0x08#8, 0x0A#8, 0x12#8, 0x0E#8, 0x30#8, 0x0C#8, 0x4A#8, 0x4C#8, 0x3C#8, 0x00#8, 0x32#8, 0x3A#8]

/-- A byte that begins no record is refused, whatever comes before and after. -/
theorem psx_unknown_record {l : List Record} (h : Valid l) {t : Byte} (ht : t ∉ psxTags) (r : List Byte) :
    parseObject (object l ++ t :: r) = .refused := by
  obtain ⟨k, a, z, hk, e⟩ := read_then h (t :: r)
  obtain ⟨k, rfl⟩ : ∃ j, k = j + 1 := ⟨k - 1, by simp at hk; omega⟩
  rw [e, objLoop]
  simp only [psxTags, List.mem_cons, List.not_mem_nil, or_false, not_or] at ht
  have : ∀ st, readRecord st t r = .refused := by
    intro st
    unfold readRecord
    simp [ht]
  rw [this]
  rfl

/-- A relocation of an unknown kind is refused. -/
theorem psx_unknown_reloc {l : List Record} (h : Valid l) {t : Byte} (ht : ∀ k, t ≠ kindByte k) (r : List Byte) :
    parseObject (object l ++ 0x0A#8 :: t :: r) = .refused := by
  obtain ⟨k, a, z, hk, e⟩ := read_then h (0x0A#8 :: t :: r)
  obtain ⟨k, rfl⟩ : ∃ j, k = j + 1 := ⟨k - 1, by simp at hk; omega⟩
  rw [e, objLoop]
  have hk : kindOf t = none := by
    have h1 : t ≠ 0x10#8 := ht .word
    have h2 : t ≠ 0x4A#8 := ht .call
    have h3 : t ≠ 0x52#8 := ht .upper
    have h4 : t ≠ 0x54#8 := ht .lower
    unfold kindOf
    rw [if_neg h1, if_neg h2, if_neg h3, if_neg h4]
  have : ∀ st, readRecord st 0x0A#8 (t :: r) = .refused := by
    intro st
    rw [readRecord]
    repeat rw [if_neg (by decide)]
    rw [if_pos rfl, readReloc, hk]
  rw [this]
  rfl

/-- Other files are not taken for libraries or objects, and what is not an object in a library is refused. -/
theorem psx_other_files (name : List Byte) {d : List Byte} (hl : 6 ≤ d.length)
    (h1 : d.take 6 ≠ [0x4C#8, 0x4E#8, 0x4B#8, 0x02#8, 0x2E#8, 0x07#8]) :
    parseObject d = .refused ∧ (d.take 4 ≠ [0x4C#8, 0x49#8, 0x42#8, 0x01#8] → Psx.init name d = .refused) := by
  change d.take 6 ≠ objMagic at h1
  refine ⟨?_, fun h2 => ?_⟩
  · unfold parseObject
    rw [if_neg (by omega), if_pos h1]
  · change d.take 4 ≠ libMagic at h2
    unfold Psx.init loadLibrary
    rw [if_neg (by intro hc; rw [hc] at hl; simp at hl), if_neg (by omega), if_neg h1, if_pos h2]
    rfl

/-! ### An object and a library -/

/-- Text in bytes. -/
def psxName (s : String) : List Byte := s.toList.map fun c => BitVec.ofNat 8 c.toNat

/-- `.text`: `lui r4,hi(x+8)`, `lw r5,lo(x+8)(r4)`, `jal f`, `.word .data+4`; `.data`: 4 bytes and 4 zeroes; `x` is external, `f` is here. -/
def psxSample : List Record :=
  [.segment 1 (psxName ".text"), .segment 2 (psxName ".data"), .source [0, 0] (psxName "a.c"), .external 3 (psxName "X"),
   .internalId 4 1 8 (psxName "f"), .select 1, .data (toLE 4 0x3C040000 ++ toLE 4 0x8C850000 ++ toLE 4 0x0C000000 ++ toLE 4 0),
   .reloc .lower 4 (.plus 8) (.symbol 3), .reloc .upper 0 (.plus 8) (.symbol 3), .reloc .call 8 .none (.symbol 4),
   .reloc .word 12 .none (.segment 2 4), .select 2, .data (toLE 4 5), .zeroes 4, .bss 5 2 6 (psxName "b"), .other 0 []]

/-- It is an object file. -/
theorem psxSample_valid : Valid psxSample := by
  refine ⟨?_, ?_⟩
  · intro r hr
    simp only [psxSample, List.mem_cons, List.not_mem_nil, or_false] at hr
    rcases hr with rfl | rfl | rfl | rfl | rfl | rfl | rfl | rfl | rfl | rfl | rfl | rfl | rfl | rfl | rfl | rfl <;>
      simp [Record.Fits, Place.Fits, Shift.Fits, psxName]
  · simp [psxSample, Ordered]

example : parseObject (object psxSample) = .ok
    ⟨[⟨1, psxName ".text", toLE 4 0x3C040000 ++ toLE 4 0x8C850000 ++ toLE 4 0x0C000000 ++ toLE 4 0,
        [⟨.lower, .symbol, 4, 3, 0, 8⟩, ⟨.upper, .symbol, 0, 3, 0, 8⟩, ⟨.call, .symbol, 8, 4, 0, 0⟩, ⟨.word, .segment, 12, 2, 4, 0⟩]⟩,
      ⟨2, psxName ".data", toLE 4 5 ++ [0, 0, 0, 0], []⟩],
     [⟨.external, psxName "X", 0, 0, 3, 0⟩, ⟨.internalId, psxName "f", 1, 8, 4, 0⟩, ⟨.bss, psxName "b", 2, 0, 5, 6⟩]⟩ := by
  rw [psx_object_read psxSample_valid]
  congr 1

/-- A library with this object. -/
def psxMember : Member := ⟨psxName "A", [psxName "f", psxName "b"], object psxSample⟩

example : psxMember.Valid := ⟨by decide, by decide, by decide +kernel⟩

/-! ### What goes wrong -/

/-- A library with an entry of size 0 is read without end. -/
theorem psx_library_endless_wrong (name n r : List Byte) (hn : n.length = 16) :
    Psx.init name (libMagic ++ n ++ toLE 4 0 ++ [0#8] ++ r) = .endless := by
  have e : libMagic ++ n ++ toLE 4 0 ++ [0#8] ++ r = libMagic ++ (n ++ (toLE 4 0 ++ 0#8 :: r)) := by simp [List.append_assoc]
  have hlen : (n ++ (toLE 4 0 ++ 0#8 :: r)).length = 21 + r.length := by simp [hn]; omega
  have hne : n ++ (toLE 4 0 ++ 0#8 :: r) ≠ [] := fun hc => by rw [hc] at hlen; simp at hlen; omega
  unfold Psx.init loadLibrary
  rw [e, if_neg (by simp [libMagic]), if_neg (by rw [List.length_append, hlen]; omega), if_neg, if_neg, drop_lib,
    show (libMagic ++ (n ++ (toLE 4 0 ++ 0#8 :: r))).length = 24 + r.length + 1 by rw [List.length_append, hlen]; simp [libMagic]; omega,
    libLoop.eq_3 _ _ hne, if_neg (by omega), List.drop_left' hn, word32_toLE (by decide), hlen,
    show (n ++ (toLE 4 0 ++ 0#8 :: r)).drop 20 = 0#8 :: r by
      rw [← List.append_assoc]; exact List.drop_left' (by simp [hn]), show 21 + r.length = (20 + r.length) + 1 by omega]
  · have hs : skipNames ((20 + r.length) + 1) (0#8 :: r) = some 1 := by rw [skipNames.eq_def]; simp
    dsimp only
    rw [hs]
    dsimp only
    have hm : ∃ x, mid (n ++ (toLE 4 0 ++ 0#8 :: r)) (20 + 1) (((0 : Nat) : Int) - (20 + ((1 : Nat) : Int))) = some x := by
      unfold mid
      split
      · exact ⟨_, rfl⟩
      · dsimp only
        rw [if_pos (show (((0 : Nat) : Int) - (20 + ((1 : Nat) : Int))) < 0 by decide), if_pos (by omega)]
        exact ⟨_, rfl⟩
    obtain ⟨x, hx⟩ := hm
    rw [hx]
    rfl
  · rw [take_lib]; simp
  · intro hc
    have := congrArg (·[1]?) hc
    simp [libMagic, objMagic] at this

/-- A file that ends where the contents of a segment should begin is accepted; they are missing. -/
theorem psx_truncated_wrong (i n : Nat) (name : List Byte) (hi : i < 2 ^ 16) (hn : n < 2 ^ 16) (hl : name.length < 256) :
    parseObject (object [.segment i name, .select i] ++ 0x02#8 :: toLE 2 n) = .ok ⟨[⟨i, name, [], []⟩], []⟩ := by
  have e : object [.segment i name, .select i] ++ 0x02#8 :: toLE 2 n =
      [0x4C#8, 0x4E#8, 0x4B#8, 0x02#8, 0x2E#8, 0x07#8] ++ 0x10#8 :: (toLE 4 i ++ 8#8 :: (str name ++ 0x06#8 :: (toLE 2 i ++ 0x02#8 :: (toLE 2 n ++ [])))) := by
    simp [object, Record.bytes, List.append_assoc]
  unfold parseObject
  rw [e, if_neg (by simp), if_neg (by rw [take_obj]; simp), drop_obj]
  generalize hL : (_ : List Byte).length = L
  obtain ⟨k, rfl⟩ : ∃ k, L = k + 3 := ⟨L - 3, by simp at hL; omega⟩
  rw [objLoop, readRecord, if_pos rfl, drop_toLE]
  simp only [ne_eq, not_true_eq_false, if_false]
  rw [loadString_str hl, Res.bind_ok, word32_toLE (by omega), Res.bind_ok]
  simp only [List.nil_append]
  rw [objLoop, readRecord]
  repeat rw [if_neg (by decide)]
  rw [if_pos rfl, word16_toLE hi, drop_toLE, Res.bind_ok]
  simp only [List.findIdx?_cons, decide_true, if_true]
  rw [objLoop, readRecord]
  repeat rw [if_neg (by decide)]
  rw [if_pos rfl, word16_toLE hn]
  rw [show mid (toLE 2 n ++ []) 2 (n : Int) = some [] by rw [mid, if_pos (by simp)]]
  dsimp only [St.size, St.edit, List.getElem?_cons_zero, Res.bind_ok, List.set_cons_zero]
  rw [show (toLE 2 n ++ ([] : List Byte)).drop (2 + (n : Int)).toNat = [] by apply List.drop_eq_nil_of_le; simp; omega]
  rw [objLoop.eq_1]
  simp

/-- Of two numbers that are added to an address, only the second counts. -/
theorem psx_two_shifts_wrong (a b i : Nat) (ha : a < 2 ^ 31) (hb : b < 2 ^ 31) (hi : i < 2 ^ 16) (k : Kind) (o : Int) (r : List Byte) (fuel : Nat) :
    readRef (fuel + 3) ⟨k, .symbol, o, 0, 0, 0⟩ ((Shift.plus a).bytes ++ ((Shift.plus b).bytes ++ ((Place.symbol i).bytes ++ r))) =
      .ok (⟨k, .symbol, o, i, 0, b⟩, r) := by
  rw [Shift.bytes, Shift.bytes]
  simp only [List.cons_append, List.nil_append]
  rw [readRef.eq_def]
  dsimp only
  rw [if_neg (by decide), if_pos rfl, if_pos rfl, drop_toLE, readRef.eq_def]
  dsimp only
  rw [if_neg (by decide), if_pos rfl, if_pos rfl, drop_toLE, word32_toLE hb, readRef_place (p := .symbol i) hi _ _ rfl]

/-- Two segments; a relocation of the second one before it has got data. -/
def psxEarly : List Record :=
  [.segment 1 [], .segment 2 [], .select 2, .data (toLE 4 0), .select 1, .data (toLE 4 1), .data (toLE 4 2), .select 2, .reloc .word 0 .none (.segment 1 0)]

/-- A relocation that follows the selection of its segment counts from the last data of the segment that was selected before. -/
theorem psx_part_wrong :
    (∀ r ∈ psxEarly, r.Fits) ∧ ((meaning psxEarly).segments.map (·.relocs)) = [[], [⟨.word, .segment, 0, 1, 0, 0⟩]] ∧
    ∃ f, parseObject (object psxEarly) = .ok f ∧ (f.segments.map (·.relocs)) = [[], [⟨.word, .segment, 4, 1, 0, 0⟩]] := by
  refine ⟨?_, rfl, _, rfl, rfl⟩
  intro r hr
  simp only [psxEarly, List.mem_cons, List.not_mem_nil, or_false] at hr
  rcases hr with rfl | rfl | rfl | rfl | rfl | rfl | rfl | rfl | rfl <;> simp [Record.Fits, Place.Fits, Shift.Fits]

/-- Data without a segment are undefined behaviour. -/
theorem psx_no_segment_undefined {l : List Record} (h : Valid l) (hn : defined l = []) (b t : List Byte) (hb : b.length < 2 ^ 16) :
    parseObject (object l ++ ((Record.data b).bytes ++ t)) = .undef := by
  obtain ⟨k, a, z, hk, e⟩ := read_then h ((Record.data b).bytes ++ t)
  rw [Record.bytes, List.cons_append] at e hk ⊢
  obtain ⟨k, rfl⟩ : ∃ j, k = j + 1 := ⟨k - 1, by simp at hk; omega⟩
  rw [e, objLoop, readRecord]
  repeat rw [if_neg (by decide)]
  rw [if_pos rfl]
  have hs : (meaning l).segments = [] := by unfold meaning; rw [hn]; rfl
  rw [hs]
  split
  · rfl
  · cases a <;> rfl

end Armips.Props
