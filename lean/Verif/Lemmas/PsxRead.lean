import Verif.Spec.Psx
/-! Reading object files of the PlayStation. -/
namespace Armips.Psx
open Armips.Elf (getWord)
open Armips.Spec.Psx (Record Place Shift str contents relocs symbols defined Ordered relocOf kindByte)

@[simp] theorem Res.bind_ok {α β : Type} (a : α) (f : α → Res β) : (Res.ok a).bind f = f a := rfl

theorem toLE2 (n : Nat) : toLE 2 n = [BitVec.ofNat 8 n, BitVec.ofNat 8 (n / 256)] := rfl
theorem toLE4 (n : Nat) : toLE 4 n = [BitVec.ofNat 8 n, BitVec.ofNat 8 (n / 256), BitVec.ofNat 8 (n / 256 / 256), BitVec.ofNat 8 (n / 256 / 256 / 256)] := rfl

theorem word16_toLE {n : Nat} (h : n < 2 ^ 16) (r : List Byte) : word16 (toLE 2 n ++ r) = n := by
  unfold word16
  rw [if_pos (by simp), List.take_left' (by simp), fromLE_toLE]
  omega

theorem word32_toLE {n : Nat} (h : n < 2 ^ 31) (r : List Byte) : word32 (toLE 4 n ++ r) = n := by
  unfold word32 getWord
  rw [if_pos (by simp), List.drop_zero, List.take_left' (by simp)]
  unfold fromBytes
  simp only []
  rw [fromLE_toLE, BitVec.toInt_eq_toNat_cond, BitVec.toNat_ofNat]
  split <;> omega

theorem drop_toLE (k n : Nat) (r : List Byte) : (toLE k n ++ r).drop k = r := List.drop_left' (by simp)

theorem loadString_str {s : List Byte} (h : s.length < 256) (r : List Byte) : loadString (str s ++ r) = .ok (s, r) := by
  unfold str
  rw [List.cons_append, loadString]
  have e : (BitVec.ofNat 8 s.length).toNat = s.length := by rw [BitVec.toNat_ofNat]; omega
  rw [e, if_pos (by simp), List.take_left' rfl, List.drop_left' rfl]

theorem skip_str {n : List Byte} (h : n.length < 256) {k : Nat} {r t : List Byte} (hr : r.length = k) :
    (r ++ (str n ++ t))[k]? = some (BitVec.ofNat 8 n.length) ∧
    (r ++ (str n ++ t)).drop ((BitVec.ofNat 8 n.length).toNat + (k + 1)) = t := by
  have e : (BitVec.ofNat 8 n.length).toNat = n.length := by rw [BitVec.toNat_ofNat]; omega
  refine ⟨by rw [List.getElem?_append_right (by omega), hr]; simp [str], ?_⟩
  rw [e, ← List.append_assoc]
  exact List.drop_left' (by simp [str]; omega)

theorem kindOf_byte (k : Kind) : kindOf (kindByte k) = some k := by cases k <;> decide

theorem readRef_place {p : Place} (h : p.Fits) (fuel : Nat) (x : Reloc) (hx : x.pos = 0) (r : List Byte) :
    readRef (fuel + 1) x (p.bytes ++ r) =
      .ok (match p with
        | .symbol i => { x with ref := .symbol, id := i }
        | .segment i q => { x with ref := .segment, id := i, pos := q }, r) := by
  cases p with
  | symbol i =>
    rw [Place.bytes, List.cons_append, readRef.eq_def]
    dsimp only
    rw [if_pos rfl, word16_toLE h, drop_toLE]
  | segment i q =>
    rw [Place.bytes]
    simp only [List.cons_append, List.nil_append, List.append_assoc]
    rw [readRef.eq_def]
    dsimp only
    rw [if_neg (by decide), if_pos rfl, if_neg (by decide), if_pos rfl, drop_toLE]
    simp only [ne_eq, not_true_eq_false, if_false]
    rw [word16_toLE h.1, word32_toLE h.2, drop_toLE]

theorem Reloc.same (x : Reloc) (i : Int) (p : Int) (k : Ref) (v : Int) :
    ({ x with ref := k, id := i, pos := p, rel := v } : Reloc) = ⟨x.kind, k, x.offset, i, p, v⟩ := rfl

theorem readRef_eq {s : Shift} {p : Place} (hs : s.Fits) (hp : p.Fits) (fuel : Nat) (k : Kind) (o part : Nat) (off : Int)
    (ho : off = part + o) (r : List Byte) :
    readRef (fuel + 2) ⟨k, .symbol, off, 0, 0, 0⟩ (s.bytes ++ (p.bytes ++ r)) = .ok (relocOf k part o s p, r) := by
  subst ho
  cases s with
  | none =>
    rw [Shift.bytes, List.nil_append, readRef_place hp _ _ rfl]
    cases p <;> rfl
  | plus n =>
    rw [Shift.bytes]
    simp only [List.cons_append, List.nil_append]
    rw [readRef.eq_def]
    dsimp only
    rw [if_neg (by decide), if_pos rfl, if_pos rfl, drop_toLE, word32_toLE hs, readRef_place hp _ _ rfl]
    cases p <;> rfl
  | minus n =>
    rw [Shift.bytes]
    simp only [List.cons_append, List.nil_append]
    rw [readRef.eq_def]
    have hn : (n : Int) ≠ -2 ^ 31 := by omega
    dsimp only
    rw [if_neg (by decide), if_neg (by decide), if_pos rfl, if_pos rfl, drop_toLE, word32_toLE hs, if_neg hn, readRef_place hp _ _ rfl]
    cases p <;> rfl

/-- The position of the data does not matter before the segment has got data again. -/
theorem relocs_part {id : Nat} {l : List Record} : ∀ {ids : List Nat} {sel : Option Nat} {fed : Bool} (z p p' : Nat), Ordered ids sel fed l →
    (sel = some id → fed = false) → relocs id sel z p l = relocs id sel z p' l := by
  induction l with
  | nil => intros; rfl
  | cons r l ih =>
    intro ids sel fed z p p' ho hs
    cases r with
    | segment i n => exact ih z p p' ho.2 hs
    | select j => exact ih z p p' ho.2 fun _ => rfl
    | data b =>
      simp only [relocs]
      split
      · rfl
      · rename_i h; exact ih z p p' ho.2 fun h' => absurd h' h
    | zeroes n =>
      simp only [relocs]
      split
      · exact ih _ p p' ho.2 hs
      · exact ih z p p' ho.2 hs
    | reloc k o s x =>
      simp only [relocs]
      split
      · rename_i h; have := hs h; rw [ho.1] at this; cases this
      · exact ih z p p' ho.2 hs
    | _ => exact ih z p p' ho hs

/-- Segments that are defined later have other numbers. -/
theorem defined_fresh {l : List Record} : ∀ {ids : List Nat} {sel : Option Nat} {fed : Bool}, Ordered ids sel fed l → ∀ x ∈ defined l, x.1 ∉ ids := by
  induction l with
  | nil => intro ids sel fed _ x hx; cases hx
  | cons r l ih =>
    intro ids sel fed ho x hx
    cases r with
    | segment i n =>
      rcases List.mem_cons.1 hx with rfl | hx
      · exact ho.1
      · exact fun hm => ih ho.2 x hx (List.mem_append_left _ hm)
    | select j => exact ih ho.2 x hx
    | data b => exact ih ho.2 x hx
    | zeroes n => exact ih ho.2 x hx
    | reloc k o s p => exact ih ho.2 x hx
    | _ => exact ih ho x hx

/-- What the remaining records add to a segment. -/
def grow (sel : Option Nat) (p : Nat) (l : List Record) (s : Segment) : Segment :=
  { s with data := s.data ++ contents s.id.toNat sel l, relocs := s.relocs ++ relocs s.id.toNat sel s.data.length p l }

/-- The segments that are still to come. -/
def fresh (sel : Option Nat) (l k : List Record) : List Segment :=
  (defined k).map fun x => ⟨x.1, x.2, contents x.1 sel l, relocs x.1 sel 0 0 l⟩

/-- The state of reading fits what has been read. -/
structure Inv (st : St) (ids : List Nat) (sel : Option Nat) (fed : Bool) : Prop where
  nums : st.segments.map (·.id) = ids.map fun (i : Nat) => (i : Int)
  nodup : ids.Nodup
  chosen : ∀ j, sel = some j → ∃ i, ids[i]? = some j ∧ st.active = some i
  part : fed = true → sel ≠ none ∧ 0 ≤ st.last

theorem Inv.seg {st ids sel fed} (h : Inv st ids sel fed) {i j : Nat} (hi : ids[i]? = some j) :
    ∃ s, st.segments[i]? = some s ∧ s.id = j := by
  have := congrArg (·[i]?) h.nums
  simp only [List.getElem?_map, hi, Option.map_some] at this
  cases hs : st.segments[i]? with
  | none => rw [hs] at this; cases this
  | some s => rw [hs] at this; exact ⟨s, rfl, Option.some.inj this⟩

theorem Inv.seg' {st ids sel fed} (h : Inv st ids sel fed) {k : Nat} {s : Segment} (hs : st.segments[k]? = some s) :
    ∃ j, ids[k]? = some j ∧ s.id = j := by
  have := congrArg (·[k]?) h.nums
  simp only [List.getElem?_map, hs, Option.map_some] at this
  cases hj : ids[k]? with
  | none => rw [hj] at this; cases this
  | some j => rw [hj] at this; exact ⟨j, rfl, Option.some.inj this⟩

theorem nodup_index {l : List Nat} (h : l.Nodup) {i k j : Nat} (hi : l[i]? = some j) (hk : l[k]? = some j) : i = k := by
  obtain ⟨hi', rfl⟩ := List.getElem?_eq_some_iff.1 hi
  obtain ⟨hk', hk⟩ := List.getElem?_eq_some_iff.1 hk
  exact ((List.getElem_inj h).1 hk).symm

/-- Changing the selected segment. -/
theorem grow_set {st ids sel fed} (h : Inv st ids sel fed) {i j : Nat} (hj : sel = some j) (hi : ids[i]? = some j) {s s' : Segment}
    (hs : st.segments[i]? = some s) {p p' : Nat} {l l' : List Record} (he : grow sel p' l' s' = grow sel p l s)
    (ho : ∀ s2 ∈ st.segments, s2.id ≠ j → grow sel p' l' s2 = grow sel p l s2) :
    (st.segments.set i s').map (grow sel p' l') = st.segments.map (grow sel p l) := by
  apply List.ext_getElem?
  intro k
  rw [List.getElem?_map, List.getElem?_map, List.getElem?_set]
  split
  · rename_i hk
    subst hk
    have hlt : i < st.segments.length := (List.getElem?_eq_some_iff.1 hs).1
    rw [if_pos hlt, hs, Option.map_some, Option.map_some, he]
  · rename_i hk
    cases hk2 : st.segments[k]? with
    | none => rfl
    | some s2 =>
      rw [Option.map_some, Option.map_some]
      rw [ho s2 (List.mem_of_getElem? hk2)]
      intro hid
      obtain ⟨j2, h1, h2⟩ := h.seg' hk2
      rw [hid] at h2
      have : j = j2 := by omega
      subst this
      exact hk (nodup_index h.nodup hi h1)

theorem Inv.set {st ids sel fed} (h : Inv st ids sel fed) {i : Nat} {s s' : Segment} (hs : st.segments[i]? = some s) (hid : s'.id = s.id) :
    (st.segments.set i s').map (·.id) = ids.map fun (i : Nat) => (i : Int) := by
  rw [← h.nums]
  apply List.ext_getElem?
  intro k
  rw [List.getElem?_map, List.getElem?_map, List.getElem?_set]
  split
  · rename_i hk
    subst hk
    rw [if_pos (List.getElem?_eq_some_iff.1 hs).1, hs, Option.map_some, Option.map_some, hid]
  · rfl

theorem Inv.id {st ids sel fed} (h : Inv st ids sel fed) {s : Segment} (hs : s ∈ st.segments) : ∃ j ∈ ids, s.id = (j : Int) := by
  have : s.id ∈ ids.map fun (i : Nat) => (i : Int) := h.nums ▸ List.mem_map_of_mem hs
  obtain ⟨j, h1, h2⟩ := List.mem_map.1 this
  exact ⟨j, h1, h2.symm⟩

/-- Reading records: what has been read, and going on with what follows. -/
theorem objLoop_records {rest : List Byte} {k : Nat} {l : List Record} : ∀ {st : St} {ids : List Nat} {sel : Option Nat} {fed : Bool},
    (∀ r ∈ l, r.Fits) → Ordered ids sel fed l → Inv st ids sel fed →
    ∃ a z, objLoop (l.length + k) st (l.flatMap Record.bytes ++ rest) =
      objLoop k ⟨st.segments.map (grow sel st.last.toNat l) ++ fresh sel l l, st.symbols ++ symbols l, a, z⟩ rest := by
  induction l with
  | nil =>
    intro st ids sel fed _ _ _
    have e : ∀ s, grow sel st.last.toNat [] s = s := fun s => by cases s; simp [grow, contents, relocs]
    refine ⟨st.active, st.last, ?_⟩
    rw [show st.segments.map (grow sel st.last.toNat []) = st.segments by
      conv => rhs; rw [← List.map_id st.segments]
      exact List.map_congr_left fun s _ => e s]
    simp [fresh, defined, symbols]
  | cons r l ih =>
    intro st ids sel fed hf ho hi
    have hf' : ∀ r ∈ l, r.Fits := fun r hr => hf r (List.mem_cons_of_mem _ hr)
    have hr := hf r (List.mem_cons_self ..)
    rw [List.flatMap_cons, List.append_assoc, show (r :: l).length + k = l.length + k + 1 by simp; omega]
    generalize l.length + k = fuel at ih
    generalize hT : l.flatMap Record.bytes ++ rest = T at ih
    cases r with
    | segment i n =>
      have hi' : Inv { st with segments := st.segments ++ [⟨i, n, [], []⟩] } (ids ++ [i]) sel fed := by
        refine ⟨by simp [hi.nums], ?_, fun j hj => ?_, hi.part⟩
        · rw [List.nodup_append]; refine ⟨hi.nodup, by simp, fun a ha b hb => ?_⟩
          rw [List.mem_singleton] at hb; subst hb; exact fun hab => ho.1 (hab ▸ ha)
        · obtain ⟨k, h1, h2⟩ := hi.chosen j hj
          exact ⟨k, by rw [List.getElem?_append_left (List.getElem?_eq_some_iff.1 h1).1]; exact h1, h2⟩
      obtain ⟨a, z, this⟩ := ih hf' ho.2 hi'
      refine ⟨a, z, ?_⟩
      rw [Record.bytes]
      simp only [List.cons_append, List.append_assoc]
      rw [objLoop, readRecord, if_pos rfl, drop_toLE]
      simp only [ne_eq, not_true_eq_false, if_false]
      rw [loadString_str hr.2, word32_toLE hr.1, Res.bind_ok, Res.bind_ok, this]
      have hns : sel ≠ some i := fun hc => by
        obtain ⟨k, h1, _⟩ := hi.chosen i hc
        exact ho.1 (List.mem_of_getElem? h1)
      simp only [List.map_append, List.map_cons, List.map_nil, List.append_assoc, List.singleton_append, fresh, defined]
      have e : grow sel st.last.toNat l ⟨i, n, [], []⟩ =
          ⟨i, n, contents i sel (.segment i n :: l), relocs i sel 0 0 (.segment i n :: l)⟩ := by
        simp only [grow, List.nil_append, Int.toNat_natCast, List.length_nil, contents, relocs]
        rw [relocs_part 0 _ 0 ho.2 fun hc => absurd hc hns]
      rw [e]
      rfl
    | group r n =>
      obtain ⟨a, z, this⟩ := ih hf' ho hi
      refine ⟨a, z, ?_⟩
      rw [Record.bytes]
      simp only [List.cons_append, List.append_assoc]
      obtain ⟨h1, h2⟩ := skip_str hr.2 (t := T) hr.1
      rw [objLoop, readRecord, if_neg (by decide), if_pos rfl, h1]
      simp only []
      rw [h2, Res.bind_ok, this]
      rfl
    | source r n =>
      obtain ⟨a, z, this⟩ := ih hf' ho hi
      refine ⟨a, z, ?_⟩
      rw [Record.bytes]
      simp only [List.cons_append, List.append_assoc]
      obtain ⟨h1, h2⟩ := skip_str hr.2 (t := T) hr.1
      rw [objLoop, readRecord, if_neg (by decide), if_neg (by decide), if_pos rfl, h1]
      simp only []
      rw [h2, Res.bind_ok, this]
      rfl
    | select j =>
      obtain ⟨i, hij⟩ : ∃ i, ids[i]? = some j := List.mem_iff_getElem?.1 ho.1
      have hfind : st.segments.findIdx? (fun s => s.id = (j : Int)) = some i := by
        have h1 : st.segments.findIdx? (fun s => s.id = (j : Int)) = (st.segments.map (·.id)).findIdx? fun a => a = (j : Int) := by
          rw [List.findIdx?_map]; rfl
        rw [h1, hi.nums, List.findIdx?_map, List.findIdx?_eq_some_iff_getElem]
        obtain ⟨hlt, he⟩ := List.getElem?_eq_some_iff.1 hij
        refine ⟨hlt, by simp [he], fun k hk => ?_⟩
        simp only [Function.comp, decide_eq_true_eq]
        intro hc
        have hc : ids[k] = j := by omega
        have := nodup_index hi.nodup hij (List.getElem?_eq_some_iff.2 ⟨by omega, hc⟩)
        omega
      have hi' : Inv { st with active := some i } ids (some j) false :=
        ⟨hi.nums, hi.nodup, fun j' hj => by cases hj; exact ⟨i, hij, rfl⟩, fun h => by cases h⟩
      obtain ⟨a, z, this⟩ := ih hf' ho.2 hi'
      refine ⟨a, z, ?_⟩
      rw [Record.bytes]
      simp only [List.cons_append]
      rw [objLoop, readRecord, if_neg (by decide), if_neg (by decide), if_neg (by decide), if_pos rfl, word16_toLE hr, drop_toLE, hfind,
        Res.bind_ok, this]
      rfl
    | data b =>
      obtain ⟨j, hj⟩ := Option.ne_none_iff_exists'.1 ho.1
      obtain ⟨i, hij, ha⟩ := hi.chosen j hj
      obtain ⟨s, hs, hid⟩ := hi.seg hij
      have hi' : Inv ⟨st.segments.set i { s with data := s.data ++ b }, st.symbols, st.active, s.data.length⟩ ids sel true := by
        refine ⟨hi.set hs rfl, hi.nodup, hi.chosen, fun _ => ⟨ho.1, ?_⟩⟩
        exact Int.natCast_nonneg _
      obtain ⟨a, z, this⟩ := ih hf' ho.2 hi'
      refine ⟨a, z, ?_⟩
      rw [Record.bytes]
      simp only [List.cons_append, List.append_assoc]
      have hmid : mid (toLE 2 b.length ++ (b ++ T)) 2 (word16 (toLE 2 b.length ++ (b ++ T))) = some b := by
        rw [word16_toLE hr]
        unfold mid
        split
        · rename_i h
          simp only [List.length_append, toLE_length] at h
          have : b.length = 0 := by omega
          rw [List.length_eq_zero_iff.1 this]
        · dsimp only
          rw [if_neg (show ¬ (b.length : Int) < 0 by omega), Int.toNat_natCast, if_pos (by simp), drop_toLE, List.take_left' rfl]
      have hrest : (toLE 2 b.length ++ (b ++ T)).drop (2 + word16 (toLE 2 b.length ++ (b ++ T))).toNat = T := by
        rw [word16_toLE hr, show (2 + (b.length : Int)).toNat = 2 + b.length by omega, ← List.append_assoc]
        exact List.drop_left' (by simp)
      rw [objLoop, readRecord, if_neg (by decide), if_neg (by decide), if_neg (by decide), if_neg (by decide), if_pos rfl, hmid, hrest]
      simp only [St.size, St.edit, ha, hs, Res.bind_ok]
      rw [ha] at this
      rw [this]
      have hgrow : ((st.segments.set i { s with data := s.data ++ b }).map (grow sel (s.data.length : Int).toNat l)) =
          st.segments.map (grow sel st.last.toNat (.data b :: l)) := by
        refine grow_set hi hj hij hs ?_ fun s2 hs2 hne => ?_
        · simp only [grow, hid, Int.toNat_natCast, contents, relocs, hj, if_true, List.append_assoc, List.length_append]
        · obtain ⟨j2, h1, h2⟩ := hi.id hs2
          have hne' : sel ≠ some s2.id.toNat := by rw [hj, h2, Int.toNat_natCast]; intro hc; injection hc with hc; subst hc; exact hne h2
          simp only [grow, contents, relocs, hne', if_false, List.nil_append]
          rw [relocs_part _ _ st.last.toNat ho.2 fun hc => absurd hc hne']
      rw [hgrow]
      have hfr : fresh sel l l = fresh sel (.data b :: l) (.data b :: l) := by
        unfold fresh
        apply List.map_congr_left
        intro x hx
        have hx' := defined_fresh ho.2 x hx
        have hne' : sel ≠ some x.1 := by rw [hj]; intro hc; injection hc with hc; subst hc; exact hx' (List.mem_of_getElem? hij)
        simp only [contents, relocs, hne', if_false, List.nil_append]
      rw [hfr]
      rfl
    | zeroes n =>
      obtain ⟨j, hj⟩ := Option.ne_none_iff_exists'.1 ho.1
      obtain ⟨i, hij, ha⟩ := hi.chosen j hj
      obtain ⟨s, hs, hid⟩ := hi.seg hij
      have hi' : Inv ⟨st.segments.set i { s with data := s.data ++ List.replicate n 0#8 }, st.symbols, st.active, st.last⟩ ids sel fed :=
        ⟨hi.set hs rfl, hi.nodup, hi.chosen, hi.part⟩
      obtain ⟨a, z, this⟩ := ih hf' ho.2 hi'
      refine ⟨a, z, ?_⟩
      rw [Record.bytes]
      simp only [List.cons_append]
      rw [objLoop, readRecord, if_neg (by decide), if_neg (by decide), if_neg (by decide), if_neg (by decide), if_neg (by decide),
        if_pos rfl, word16_toLE hr, if_neg (by omega), drop_toLE, Int.toNat_natCast]
      simp only [St.edit, ha, hs, Res.bind_ok]
      rw [ha] at this
      rw [this]
      have hgrow : ((st.segments.set i { s with data := s.data ++ List.replicate n 0#8 }).map (grow sel st.last.toNat l)) =
          st.segments.map (grow sel st.last.toNat (.zeroes n :: l)) := by
        refine grow_set hi hj hij hs ?_ fun s2 hs2 hne => ?_
        · simp only [grow, hid, Int.toNat_natCast, contents, relocs, hj, if_true, List.append_assoc, List.length_append, List.length_replicate]
        · obtain ⟨j2, h1, h2⟩ := hi.id hs2
          have hne' : sel ≠ some s2.id.toNat := by rw [hj, h2, Int.toNat_natCast]; intro hc; injection hc with hc; subst hc; exact hne h2
          simp only [grow, contents, relocs, hne', if_false, List.nil_append]
      rw [hgrow]
      have hfr : fresh sel l l = fresh sel (.zeroes n :: l) (.zeroes n :: l) := by
        unfold fresh
        apply List.map_congr_left
        intro x hx
        have hx' := defined_fresh ho.2 x hx
        have hne' : sel ≠ some x.1 := by rw [hj]; intro hc; injection hc with hc; subst hc; exact hx' (List.mem_of_getElem? hij)
        simp only [contents, relocs, hne', if_false, List.nil_append]
      rw [hfr]
      rfl
    | reloc k o sh p =>
      obtain ⟨hsel, hlast⟩ := hi.part ho.1
      obtain ⟨j, hj⟩ := Option.ne_none_iff_exists'.1 hsel
      obtain ⟨i, hij, ha⟩ := hi.chosen j hj
      obtain ⟨s, hs, hid⟩ := hi.seg hij
      have hi' : Inv ⟨st.segments.set i { s with relocs := s.relocs ++ [relocOf k st.last.toNat o sh p] }, st.symbols, st.active, st.last⟩ ids sel fed :=
        ⟨hi.set hs rfl, hi.nodup, hi.chosen, hi.part⟩
      obtain ⟨a, z, this⟩ := ih hf' ho.2 hi'
      refine ⟨a, z, ?_⟩
      rw [Record.bytes]
      simp only [List.cons_append, List.append_assoc]
      have hlen : ∃ m, (toLE 2 o ++ (sh.bytes ++ (p.bytes ++ T))).length = m + 3 := by
        have : 0 < p.bytes.length := by cases p <;> simp [Place.bytes]
        refine ⟨(toLE 2 o ++ (sh.bytes ++ (p.bytes ++ T))).length - 3, ?_⟩
        simp only [List.length_append, toLE_length]; omega
      obtain ⟨m, hm⟩ := hlen
      rw [objLoop, readRecord, if_neg (by decide), if_neg (by decide), if_neg (by decide), if_neg (by decide), if_neg (by decide),
        if_neg (by decide), if_pos rfl, readReloc, kindOf_byte]
      simp only []
      rw [if_neg (by omega), hm, word16_toLE hr.1, drop_toLE, readRef_eq hr.2.1 hr.2.2 (m + 1) k o st.last.toNat _ (by omega), Res.bind_ok]
      simp only [St.edit, ha, hs, Res.bind_ok]
      rw [ha] at this
      rw [this]
      have hgrow : ((st.segments.set i { s with relocs := s.relocs ++ [relocOf k st.last.toNat o sh p] }).map (grow sel st.last.toNat l)) =
          st.segments.map (grow sel st.last.toNat (.reloc k o sh p :: l)) := by
        refine grow_set hi hj hij hs ?_ fun s2 hs2 hne => ?_
        · simp only [grow, hid, Int.toNat_natCast, contents, relocs, hj, if_true, List.append_assoc, List.singleton_append]
        · obtain ⟨j2, h1, h2⟩ := hi.id hs2
          have hne' : sel ≠ some s2.id.toNat := by rw [hj, h2, Int.toNat_natCast]; intro hc; injection hc with hc; subst hc; exact hne h2
          simp only [grow, contents, relocs, hne', if_false]
      rw [hgrow]
      have hfr : fresh sel l l = fresh sel (.reloc k o sh p :: l) (.reloc k o sh p :: l) := by
        unfold fresh
        apply List.map_congr_left
        intro x hx
        have hx' := defined_fresh ho.2 x hx
        have hne' : sel ≠ some x.1 := by rw [hj]; intro hc; injection hc with hc; subst hc; exact hx' (List.mem_of_getElem? hij)
        simp only [contents, relocs, hne', if_false]
      rw [hfr]
      rfl
    | internal s o n =>
      obtain ⟨a, z, this⟩ := ih (st := { st with symbols := st.symbols ++ [⟨.internal, n, s, o, 0, 0⟩] }) hf' ho ⟨hi.nums, hi.nodup, hi.chosen, hi.part⟩
      refine ⟨a, z, ?_⟩
      rw [Record.bytes]
      simp only [List.cons_append, List.append_assoc]
      rw [objLoop, readRecord]
      repeat rw [if_neg (by decide)]
      rw [if_pos rfl, readSym, show (toLE 2 s ++ (toLE 4 o ++ (str n ++ T))).drop 6 = str n ++ T by
        rw [← List.append_assoc]; exact List.drop_left' (by simp), drop_toLE, word16_toLE hr.1, word32_toLE hr.2.1, loadString_str hr.2.2, Res.bind_ok,
        Res.bind_ok, this]
      simp only [List.append_assoc]
      rfl
    | external i n =>
      obtain ⟨a, z, this⟩ := ih (st := { st with symbols := st.symbols ++ [⟨.external, n, 0, 0, i, 0⟩] }) hf' ho ⟨hi.nums, hi.nodup, hi.chosen, hi.part⟩
      refine ⟨a, z, ?_⟩
      rw [Record.bytes]
      simp only [List.cons_append, List.append_assoc]
      rw [objLoop, readRecord]
      repeat rw [if_neg (by decide)]
      rw [if_pos rfl, readSym, drop_toLE, word16_toLE hr.1, loadString_str hr.2, Res.bind_ok, Res.bind_ok, this]
      simp only [List.append_assoc]
      rfl
    | bss i s sz n =>
      obtain ⟨a, z, this⟩ := ih (st := { st with symbols := st.symbols ++ [⟨.bss, n, s, 0, i, sz⟩] }) hf' ho ⟨hi.nums, hi.nodup, hi.chosen, hi.part⟩
      refine ⟨a, z, ?_⟩
      rw [Record.bytes]
      simp only [List.cons_append, List.append_assoc]
      rw [objLoop, readRecord]
      repeat rw [if_neg (by decide)]
      rw [if_pos rfl, readSym, show (toLE 2 i ++ (toLE 2 s ++ (toLE 4 sz ++ (str n ++ T)))).drop 8 = str n ++ T by
        rw [← List.append_assoc, ← List.append_assoc]; exact List.drop_left' (by simp),
        show (toLE 2 i ++ (toLE 2 s ++ (toLE 4 sz ++ (str n ++ T)))).drop 4 = toLE 4 sz ++ (str n ++ T) by
        rw [← List.append_assoc]; exact List.drop_left' (by simp), drop_toLE, word16_toLE hr.1, word16_toLE hr.2.1, word32_toLE hr.2.2.1,
        loadString_str hr.2.2.2, Res.bind_ok, Res.bind_ok, this]
      simp only [List.append_assoc]
      rfl
    | internalId i s o n =>
      obtain ⟨a, z, this⟩ := ih (st := { st with symbols := st.symbols ++ [⟨.internalId, n, s, o, i, 0⟩] }) hf' ho ⟨hi.nums, hi.nodup, hi.chosen, hi.part⟩
      refine ⟨a, z, ?_⟩
      rw [Record.bytes]
      simp only [List.cons_append, List.append_assoc]
      rw [objLoop, readRecord]
      repeat rw [if_neg (by decide)]
      rw [if_pos rfl, readSym, show (toLE 2 i ++ (toLE 2 s ++ (toLE 4 o ++ (str n ++ T)))).drop 8 = str n ++ T by
        rw [← List.append_assoc, ← List.append_assoc]; exact List.drop_left' (by simp),
        show (toLE 2 i ++ (toLE 2 s ++ (toLE 4 o ++ (str n ++ T)))).drop 4 = toLE 4 o ++ (str n ++ T) by
        rw [← List.append_assoc]; exact List.drop_left' (by simp), drop_toLE, word16_toLE hr.1, word16_toLE hr.2.1, word32_toLE hr.2.2.1,
        loadString_str hr.2.2.2, Res.bind_ok, Res.bind_ok, this]
      simp only [List.append_assoc]
      rfl
    | function s o r n =>
      obtain ⟨a, z, this⟩ := ih (st := { st with symbols := st.symbols ++ [⟨.function, n, s, o, 0, 0⟩] }) hf' ho ⟨hi.nums, hi.nodup, hi.chosen, hi.part⟩
      refine ⟨a, z, ?_⟩
      rw [Record.bytes]
      simp only [List.cons_append, List.append_assoc]
      rw [objLoop, readRecord]
      repeat rw [if_neg (by decide)]
      rw [if_pos rfl, readSym, show (toLE 2 s ++ (toLE 4 o ++ (r ++ (str n ++ T)))).drop 28 = str n ++ T by
        rw [← List.append_assoc, ← List.append_assoc]; exact List.drop_left' (by simp [hr.2.2.1]), drop_toLE, word16_toLE hr.1, word32_toLE hr.2.1,
        loadString_str hr.2.2.2, Res.bind_ok, Res.bind_ok, this]
      simp only [List.append_assoc]
      rfl
    | other t r =>
      obtain ⟨a, z, this⟩ := ih hf' ho hi
      refine ⟨a, z, ?_⟩
      rw [Record.bytes, List.cons_append, objLoop]
      have hrec : readRecord st t (r ++ T) = .ok (st, T) := by
        rcases hr with ⟨rfl, h⟩ | ⟨rfl, h⟩ | ⟨rfl, h⟩ | ⟨rfl, h⟩ | ⟨rfl, h⟩ <;> rw [readRecord] <;> (repeat rw [if_neg (by decide)]) <;>
          rw [if_pos rfl] <;> first | rw [List.drop_left' h] | rw [List.length_eq_zero_iff.1 h, List.nil_append]
      rw [hrec, Res.bind_ok, this]
      rfl

end Armips.Psx
