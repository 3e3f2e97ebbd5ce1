import Verif.Spec.CommandLine
import Verif.Props.SymbolTable
import Verif.Props.StringToInt
/-!
# Lemmas about the command line
-/
namespace Armips.CommandLine
open Spec.CommandLine (Item Says Means walk asBytes OneByOne)

/-- What an item does to the settings. -/
def act (W : World δ) (s : Settings δ) : Item → Result δ
  | .temp f => .ok { s with temp := f }
  | .sym f => .ok { s with sym := f, symVersion := 1 }
  | .sym2 f => .ok { s with sym := f, symVersion := 2 }
  | .errorOnWarning => .ok { s with errorOnWarning := true }
  | .stat => .ok { s with showStats := true }
  | .time => .ok s
  | .root d =>
    match W.enter s.dir d with
    | none => .refused
    | some d => .ok { s with dir := d }
  | .equ n v => if badEqu s (asBytes n) then .refused else .ok { s with equs := s.equs ++ [(asBytes n, v)] }
  | .strequ n v => if badEqu s (asBytes n) then .refused else .ok { s with equs := s.equs ++ [(asBytes n, '"' :: v ++ ['"'])] }
  | .label n v =>
    if badLabel s (asBytes n) then .refused
    else
      match StrInt.stringToInt v 0 v.length with
      | .ub => .ub
      | .reject => .refused
      | .ok x _ => .ok { s with labels := s.labels ++ [(asBytes n, x)] }
  | .file f => if s.input.isEmpty then .ok { s with input := f } else .refused

/-- All items. -/
def acts (W : World δ) (s : Settings δ) : List Item → Result δ
  | [] => .ok s
  | i :: is =>
    match act W s i with
    | .ok s => acts W s is
    | r => r

theorem acts_append (W : World δ) (s : Settings δ) (a b : List Item) :
    acts W s (a ++ b) = match acts W s a with | .ok s => acts W s b | r => r := by
  induction a generalizing s with
  | nil => rfl
  | cons i a ih =>
    rw [List.cons_append, acts, acts]
    cases act W s i with
    | ok s => exact ih s
    | _ => rfl

theorem bytes_eq (l : List Char) : Tokenizer.bytes l = asBytes l := rfl

theorem loop_files (W : World δ) (s : Settings δ) (fs : List Arg) : loop W false s fs = acts W s (fs.map .file) := by
  induction fs generalizing s with
  | nil => rw [loop]; rfl
  | cons f fs ih =>
    rw [loop.eq_def, List.map_cons, acts]
    simp only [Bool.false_and, Bool.false_eq_true, if_false, act]
    split
    · exact ih _
    · rfl

theorem loop_temp (W : World δ) (s : Settings δ) (v : Arg) (rest : List Arg) :
    loop W true s (txt "-temp" :: v :: rest) = loop W true { s with temp := v } rest := by
  rw [loop.eq_def]
  dsimp only
  rw [if_pos (by decide), if_neg (by decide), if_pos rfl]

theorem loop_sym (W : World δ) (s : Settings δ) (v : Arg) (rest : List Arg) :
    loop W true s (txt "-sym" :: v :: rest) = loop W true { s with sym := v, symVersion := 1 } rest := by
  rw [loop.eq_def]
  dsimp only
  rw [if_pos (by decide), if_neg (by decide), if_neg (by decide), if_pos rfl]

theorem loop_sym2 (W : World δ) (s : Settings δ) (v : Arg) (rest : List Arg) :
    loop W true s (txt "-sym2" :: v :: rest) = loop W true { s with sym := v, symVersion := 2 } rest := by
  rw [loop.eq_def]
  dsimp only
  rw [if_pos (by decide), if_neg (by decide), if_neg (by decide), if_neg (by decide), if_pos rfl]

theorem loop_root (W : World δ) (s : Settings δ) (v : Arg) (rest : List Arg) :
    loop W true s (txt "-root" :: v :: rest) = match W.enter s.dir v with | none => .refused | some d => loop W true { s with dir := d } rest := by
  rw [loop.eq_def]
  dsimp only
  rw [if_pos (by decide), if_neg (by decide), if_neg (by decide), if_neg (by decide), if_neg (by decide), if_neg (by decide), if_neg (by decide), if_neg (by decide), if_pos rfl]
  cases W.enter s.dir v <;> rfl

theorem loop_equ (W : World δ) (s : Settings δ) (v w : Arg) (rest : List Arg) :
    loop W true s (txt "-equ" :: v :: w :: rest) = if badEqu s (asBytes v) then .refused else loop W true { s with equs := s.equs ++ [(asBytes v, w)] } rest := by
  rw [loop.eq_def]
  dsimp only
  rw [if_pos (by decide), if_neg (by decide), if_neg (by decide), if_neg (by decide), if_neg (by decide), if_neg (by decide), if_neg (by decide), if_neg (by decide), if_neg (by decide), if_pos rfl]
  rfl

theorem loop_strequ (W : World δ) (s : Settings δ) (v w : Arg) (rest : List Arg) :
    loop W true s (txt "-strequ" :: v :: w :: rest) = if badEqu s (asBytes v) then .refused else loop W true { s with equs := s.equs ++ [(asBytes v, '"' :: w ++ ['"'])] } rest := by
  rw [loop.eq_def]
  dsimp only
  rw [if_pos (by decide), if_neg (by decide), if_neg (by decide), if_neg (by decide), if_neg (by decide), if_neg (by decide), if_neg (by decide), if_neg (by decide), if_neg (by decide), if_neg (by decide), if_pos rfl]
  rfl

theorem loop_label (W : World δ) (s : Settings δ) (v w : Arg) (rest : List Arg) :
    loop W true s (txt "-definelabel" :: v :: w :: rest) = if badLabel s (asBytes v) then .refused else
      match StrInt.stringToInt w 0 w.length with
      | .ub => .ub
      | .reject => .refused
      | .ok n _ => loop W true { s with labels := s.labels ++ [(asBytes v, n)] } rest := by
  rw [loop.eq_def]
  dsimp only
  rw [if_pos (by decide), if_neg (by decide), if_neg (by decide), if_neg (by decide), if_neg (by decide), if_neg (by decide), if_neg (by decide), if_neg (by decide), if_neg (by decide), if_neg (by decide), if_neg (by decide), if_pos rfl]
  cases StrInt.stringToInt w 0 (List.length w) <;> rfl

theorem loop_eow (W : World δ) (s : Settings δ) (rest : List Arg) :
    loop W true s (txt "-erroronwarning" :: rest) = loop W true { s with errorOnWarning := true } rest := by
  rw [loop.eq_def]
  dsimp only
  cases rest with
  | nil =>
    dsimp only
    rw [if_pos (by decide), if_neg (by decide), if_pos rfl, loop.eq_def]
  | cons v rest =>
    dsimp only
    rw [if_pos (by decide), if_neg (by decide), if_neg (by decide), if_neg (by decide), if_neg (by decide), if_pos rfl]

theorem loop_stat (W : World δ) (s : Settings δ) (rest : List Arg) :
    loop W true s (txt "-stat" :: rest) = loop W true { s with showStats := true } rest := by
  rw [loop.eq_def]
  dsimp only
  cases rest with
  | nil =>
    dsimp only
    rw [if_pos (by decide), if_neg (by decide), if_neg (by decide), if_pos rfl, loop.eq_def]
  | cons v rest =>
    dsimp only
    rw [if_pos (by decide), if_neg (by decide), if_neg (by decide), if_neg (by decide), if_neg (by decide), if_neg (by decide), if_pos rfl]

theorem loop_time (W : World δ) (s : Settings δ) (rest : List Arg) :
    loop W true s (txt "-time" :: rest) = loop W true s rest := by
  rw [loop.eq_def]
  dsimp only
  cases rest with
  | nil =>
    dsimp only
    rw [if_pos (by decide), if_neg (by decide), if_neg (by decide), if_neg (by decide), if_pos rfl, loop.eq_def]
  | cons v rest =>
    dsimp only
    rw [if_pos (by decide), if_neg (by decide), if_neg (by decide), if_neg (by decide), if_neg (by decide), if_neg (by decide), if_neg (by decide), if_pos rfl]

theorem loop_item (W : World δ) (s : Settings δ) (i : Item) (hi : i.Plain) (rest : List Arg) :
    loop W true s (i.args ++ rest) = match act W s i with | .ok s => loop W true s rest | r => r := by
  cases i with
  | file f =>
    rw [Item.args, List.singleton_append, loop.eq_def]
    have : (true && f.head? == some '-') = false := by
      simp only [Bool.true_and, beq_eq_false_iff_ne]
      exact hi
    simp only [this, Bool.false_eq_true, if_false, act]
    split <;> rfl
  | temp v => exact loop_temp W s v rest
  | sym v => exact loop_sym W s v rest
  | sym2 v => exact loop_sym2 W s v rest
  | errorOnWarning => exact loop_eow W s rest
  | stat => exact loop_stat W s rest
  | time => exact loop_time W s rest
  | root d =>
    refine (loop_root W s d rest).trans ?_
    rw [act]
    cases W.enter s.dir d <;> rfl
  | equ n v =>
    refine (loop_equ W s n v rest).trans ?_
    rw [act]
    split <;> rfl
  | strequ n v =>
    refine (loop_strequ W s n v rest).trans ?_
    rw [act]
    split <;> rfl
  | label n v =>
    refine (loop_label W s n v rest).trans ?_
    rw [act]
    split
    · rfl
    · cases StrInt.stringToInt v 0 v.length <;> rfl

theorem loop_items (W : World δ) (s : Settings δ) (is : List Item) (hi : ∀ i ∈ is, i.Plain) (rest : List Arg) :
    loop W true s (is.flatMap Item.args ++ rest) = match acts W s is with | .ok s => loop W true s rest | r => r := by
  induction is generalizing s with
  | nil => rfl
  | cons i is ih =>
    rw [List.flatMap_cons, List.append_assoc, loop_item W s i (hi i (by simp)), acts]
    cases act W s i with
    | ok s => exact ih s fun j hj => hi j (by simp [hj])
    | _ => rfl

theorem loop_says {W : World δ} {s : Settings δ} {is : List Item} {args : List Arg} (h : Says is args) : loop W true s args = acts W s is := by
  rcases h with ⟨hp, rfl⟩ | ⟨front, files, rfl, hp, rfl⟩
  · have := loop_items W s is hp []
    rw [List.append_nil] at this
    rw [this]
    cases acts W s is with
    | ok s =>
      dsimp only
      rw [loop.eq_def]
    | _ => rfl
  · rw [loop_items W s front hp, acts_append]
    cases acts W s front with
    | ok s =>
      dsimp only
      rw [loop.eq_def]
      simp only [List.head?_cons, show "--".toList = ['-', '-'] from rfl, show txt "--" = ['-', '-'] from rfl]
      simpa using loop_files W s files
    | _ => rfl

theorem says_cons {i : Item} {is : List Item} {args : List Arg} (hi : i.Plain) (h : Says is args) : Says (i :: is) (i.args ++ args) := by
  rcases h with ⟨hp, rfl⟩ | ⟨front, files, rfl, hp, rfl⟩
  · refine .inl ⟨?_, by rw [List.flatMap_cons]⟩
    intro j hj
    rcases List.mem_cons.mp hj with rfl | hj
    · exact hi
    · exact hp j hj
  · refine .inr ⟨i :: front, files, rfl, ?_, by rw [List.flatMap_cons, List.append_assoc]⟩
    intro j hj
    rcases List.mem_cons.mp hj with rfl | hj
    · exact hi
    · exact hp j hj

/-- Arguments that are not refused for their form say something. -/
theorem loop_ok_says (W : World δ) (args : List Arg) : ∀ (s s' : Settings δ), loop W true s args = .ok s' → ∃ is, Says is args := by
  induction h : args.length using Nat.strongRecOn generalizing args with
  | _ n ih =>
    subst h
    intro s s' h
    have step : ∀ (i : Item) (rest : List Arg), i.Plain → args = i.args ++ rest → ∃ is, Says is args := by
      intro i rest hp e
      rw [e, loop_item W s i hp] at h
      have hl : rest.length < args.length := by
        rw [e, List.length_append]
        have : 0 < i.args.length := by cases i <;> simp [Item.args]
        omega
      cases ha : act W s i with
      | ok t =>
        rw [ha] at h
        obtain ⟨is, hs⟩ := ih _ hl rest rfl _ _ h
        exact ⟨i :: is, e ▸ says_cons hp hs⟩
      | ub => rw [ha] at h; cases h
      | refused => rw [ha] at h; cases h
    cases args with
    | nil => exact ⟨[], .inl ⟨by simp, rfl⟩⟩
    | cons a rest =>
      by_cases hd : a.head? = some '-'
      · by_cases h0 : a = txt "--"
        · exact ⟨rest.map .file, .inr ⟨[], rest, rfl, by simp, by rw [h0]; rfl⟩⟩
        by_cases h1 : a = txt "-erroronwarning"
        · exact step .errorOnWarning rest trivial (by rw [h1]; rfl)
        by_cases h2 : a = txt "-stat"
        · exact step .stat rest trivial (by rw [h2]; rfl)
        by_cases h3 : a = txt "-time"
        · exact step .time rest trivial (by rw [h3]; rfl)
        cases rest with
        | nil =>
          rw [loop.eq_def] at h
          simp [hd, h0, h1, h2, h3] at h
        | cons v rest =>
          by_cases h4 : a = txt "-temp"
          · exact step (.temp v) rest trivial (by rw [h4]; rfl)
          by_cases h5 : a = txt "-sym"
          · exact step (.sym v) rest trivial (by rw [h5]; rfl)
          by_cases h6 : a = txt "-sym2"
          · exact step (.sym2 v) rest trivial (by rw [h6]; rfl)
          by_cases h7 : a = txt "-root"
          · exact step (.root v) rest trivial (by rw [h7]; rfl)
          cases rest with
          | nil =>
            rw [loop.eq_def] at h
            simp [hd, h0, h1, h2, h3, h4, h5, h6, h7] at h
          | cons w rest =>
            by_cases h8 : a = txt "-equ"
            · exact step (.equ v w) rest trivial (by rw [h8]; rfl)
            by_cases h9 : a = txt "-strequ"
            · exact step (.strequ v w) rest trivial (by rw [h9]; rfl)
            by_cases h10 : a = txt "-definelabel"
            · exact step (.label v w) rest trivial (by rw [h10]; rfl)
            rw [loop.eq_def] at h
            simp [hd, h0, h1, h2, h3, h4, h5, h6, h7, h8, h9, h10] at h
      · exact step (.file a) rest hd rfl

/-- The number of a text, as the program reads it. -/
def value (v : List Char) (n : BitVec 64) : Prop := ∃ o, StrInt.stringToInt v 0 v.length = .ok n o

/-- Names are valid, and none is there twice. -/
def Names (l : List Str) : Prop := l.Nodup ∧ ∀ n ∈ l, SymTab.isValidSymbolName n = true

/-- What the items come to. -/
structure After (W : World δ) (items : List Item) (s0 s : Settings δ) : Prop where
  input : ∃ empty, (∀ e ∈ empty, e = []) ∧ s0.input :: items.filterMap Item.fileName = empty ++ [s.input]
  dir : walk W.enter s0.dir (items.filterMap Item.dir) = some s.dir
  temp : s.temp = (items.filterMap Item.tempName).getLast?.getD s0.temp
  sym : (s.sym, s.symVersion) = (items.filterMap Item.symName).getLast?.getD (s0.sym, s0.symVersion)
  errorOnWarning : s.errorOnWarning = (s0.errorOnWarning || decide (Item.errorOnWarning ∈ items))
  stat : s.showStats = (s0.showStats || decide (Item.stat ∈ items))
  equs : s.equs = s0.equs ++ (items.filterMap Item.equation).map fun e => (asBytes e.1, e.2)
  equNames : Names (s.equs.map (·.1))
  labels : ∃ ls, s.labels = s0.labels ++ ls ∧
    OneByOne (fun (d : List Char × List Char) (l : Str × BitVec 64) => l.1 = asBytes d.1 ∧ value d.2 l.2) (items.filterMap Item.definition) ls
  labelNames : Names (s.labels.map (·.1))

theorem badEqu_iff (s : Settings δ) (n : Str) (h : Names (s.equs.map (·.1))) : badEqu s n = false ↔ Names (s.equs.map (·.1) ++ [n]) := by
  unfold badEqu Names at *
  simp only [Bool.or_eq_false_iff, Bool.not_eq_false', List.any_eq_false, decide_eq_true_eq, List.nodup_append, List.mem_append, List.mem_map, List.mem_singleton]
  constructor
  · rintro ⟨h1, h2⟩
    refine ⟨⟨h.1, by simp, ?_⟩, ?_⟩
    · rintro a ⟨e, he, rfl⟩ b rfl hab
      exact h2 e he hab.symm
    · rintro m (hm | rfl)
      · exact h.2 m (List.mem_map.mpr hm)
      · exact h1
  · rintro ⟨⟨-, -, h3⟩, h4⟩
    exact ⟨h4 n (.inr rfl), fun e he hn => h3 e.1 ⟨e, he, rfl⟩ n rfl hn.symm⟩

theorem badLabel_iff (s : Settings δ) (n : Str) (h : Names (s.labels.map (·.1))) : badLabel s n = false ↔ Names (s.labels.map (·.1) ++ [n]) := by
  unfold badLabel Names at *
  simp only [Bool.or_eq_false_iff, Bool.not_eq_false', List.any_eq_false, decide_eq_true_eq, List.nodup_append, List.mem_append, List.mem_map, List.mem_singleton]
  constructor
  · rintro ⟨h1, h2⟩
    refine ⟨⟨h.1, by simp, ?_⟩, ?_⟩
    · rintro a ⟨e, he, rfl⟩ b rfl hab
      exact h2 e he hab.symm
    · rintro m (hm | rfl)
      · exact h.2 m (List.mem_map.mpr hm)
      · exact h1
  · rintro ⟨⟨-, -, h3⟩, h4⟩
    exact ⟨h4 n (.inr rfl), fun e he hn => h3 e.1 ⟨e, he, rfl⟩ n rfl hn.symm⟩

theorem names_prefix {a b : List Str} (h : Names (a ++ b)) : Names a :=
  ⟨(List.nodup_append.mp h.1).1, fun n hn => h.2 n (List.mem_append_left _ hn)⟩

theorem acts_after (W : World δ) (items : List Item) : ∀ (s0 s : Settings δ), Names (s0.equs.map (·.1)) → Names (s0.labels.map (·.1)) →
    (acts W s0 items = .ok s ↔ After W items s0 s) := by
  induction items with
  | nil =>
    intro s0 s h1 h2
    rw [acts]
    constructor
    · rintro ⟨⟩
      exact ⟨⟨[], by simp, rfl⟩, rfl, rfl, rfl, by simp, by simp, by simp, h1, ⟨[], by simp, .nil⟩, h2⟩
    · rintro ⟨⟨es, he, hi⟩, hd, ht, hs, hw, hst, heq, -, ⟨ls, hl, hf⟩, -⟩
      cases s0; cases s
      simp only [List.filterMap_nil, List.getLast?_nil, Option.getD_none, List.not_mem_nil, decide_false, Bool.or_false, List.map_nil, List.append_nil,
        Prod.mk.injEq] at hi ht hs hw hst heq hd
      cases hf
      have : es = [] := by
        cases es with
        | nil => rfl
        | cons x es => simp at hi
      subst this
      simp only [List.nil_append, List.cons.injEq, and_true] at hi
      rw [List.append_nil] at hl
      have : walk W.enter _ [] = some _ := hd
      simp only [walk, List.foldlM_nil] at this
      cases this
      dsimp only at hl ht hs hw hst heq hi
      rw [hi, ht, hs.1, hs.2, hw, hst, heq, hl]
  | cons i items ih =>
    intro s0 s h1 h2
    rw [acts]
    cases i with
    | temp f =>
      rw [act]
      dsimp only
      refine Iff.trans (ih _ s (by exact h1) (by exact h2)) ?_
      constructor <;> rintro ⟨a, b, c, d, e, f, g, h, j, k⟩ <;> refine ⟨a, b, ?_, d, ?_, ?_, g, h, j, k⟩ <;>
        simp_all [List.filterMap_cons, Item.tempName, List.getLast?_cons]
    | sym f =>
      rw [act]
      dsimp only
      refine Iff.trans (ih _ s (by exact h1) (by exact h2)) ?_
      constructor <;> rintro ⟨a, b, c, d, e, f, g, h, j, k⟩ <;> refine ⟨a, b, c, ?_, ?_, ?_, g, h, j, k⟩ <;>
        simp_all [List.filterMap_cons, Item.symName, List.getLast?_cons]
    | sym2 f =>
      rw [act]
      dsimp only
      refine Iff.trans (ih _ s (by exact h1) (by exact h2)) ?_
      constructor <;> rintro ⟨a, b, c, d, e, f, g, h, j, k⟩ <;> refine ⟨a, b, c, ?_, ?_, ?_, g, h, j, k⟩ <;>
        simp_all [List.filterMap_cons, Item.symName, List.getLast?_cons]
    | errorOnWarning =>
      rw [act]
      dsimp only
      refine Iff.trans (ih _ s (by exact h1) (by exact h2)) ?_
      constructor <;> rintro ⟨a, b, c, d, e, f, g, h, j, k⟩ <;> refine ⟨a, b, c, d, ?_, ?_, g, h, j, k⟩ <;> simp_all
    | stat =>
      rw [act]
      dsimp only
      refine Iff.trans (ih _ s (by exact h1) (by exact h2)) ?_
      constructor <;> rintro ⟨a, b, c, d, e, f, g, h, j, k⟩ <;> refine ⟨a, b, c, d, ?_, ?_, g, h, j, k⟩ <;> simp_all
    | time =>
      rw [act]
      dsimp only
      refine Iff.trans (ih _ s (by exact h1) (by exact h2)) ?_
      constructor <;> rintro ⟨a, b, c, d, e, f, g, h, j, k⟩ <;> refine ⟨a, b, c, d, ?_, ?_, g, h, j, k⟩ <;> simp_all
    | root x =>
      rw [act]
      cases hx : W.enter s0.dir x with
      | none =>
        dsimp only
        constructor
        · intro h; cases h
        · rintro ⟨a, b, c, d, e, f, g, h, j, k⟩
          simp [List.filterMap_cons, Item.dir, walk, List.foldlM_cons, hx] at b
      | some y =>
        dsimp only
        refine Iff.trans (ih _ s (by exact h1) (by exact h2)) ?_
        constructor <;> rintro ⟨a, b, c, d, e, f, g, h, j, k⟩ <;> refine ⟨a, ?_, c, d, ?_, ?_, g, h, j, k⟩ <;>
          simp_all [List.filterMap_cons, Item.dir, walk, List.foldlM_cons]
    | file x =>
      rw [act]
      by_cases h0 : s0.input.isEmpty = true
      · rw [if_pos h0]
        rw [List.isEmpty_iff] at h0
        dsimp only
        refine Iff.trans (ih _ s (by exact h1) (by exact h2)) ?_
        constructor
        · rintro ⟨⟨es, he, a⟩, b, c, d, e, f, g, h, j, k⟩
          refine ⟨⟨[] :: es, by simpa using he, ?_⟩, b, c, d, by simpa using e, by simpa using f, g, h, j, k⟩
          rw [h0, List.filterMap_cons]
          simpa [Item.fileName] using a
        · rintro ⟨⟨es, he, a⟩, b, c, d, e, f, g, h, j, k⟩
          refine ⟨?_, b, c, d, by simpa using e, by simpa using f, g, h, j, k⟩
          cases es with
          | nil => simp [List.filterMap_cons, Item.fileName] at a
          | cons z es =>
            refine ⟨es, fun e hm => he e (by simp [hm]), ?_⟩
            simp only [List.filterMap_cons, Item.fileName, List.cons_append, List.cons.injEq] at a
            exact a.2
      · rw [if_neg h0]
        constructor
        · intro h; cases h
        · rintro ⟨⟨es, he, a⟩, b, c, d, e, f, g, h, j, k⟩
          cases es with
          | nil => simp [List.filterMap_cons, Item.fileName] at a
          | cons z es =>
            simp only [List.filterMap_cons, Item.fileName, List.cons_append, List.cons.injEq] at a
            rw [a.1, he z (by simp)] at h0
            exact absurd rfl h0
    | equ n v =>
      rw [act]
      have hb := badEqu_iff s0 (asBytes n) h1
      cases hx : badEqu s0 (asBytes n)
      · rw [hx] at hb
        rw [if_neg (by simp)]
        dsimp only
        refine Iff.trans (ih _ s (by simpa using hb.mp rfl) (by exact h2)) ?_
        constructor <;> rintro ⟨a, b, c, d, e, f, g, h, j, k⟩ <;> refine ⟨a, b, c, d, by simpa using e, by simpa using f, ?_, h, j, k⟩ <;>
          rw [g] <;> simp [List.filterMap_cons, Item.equation]
      · rw [hx] at hb
        rw [if_pos rfl]
        constructor
        · intro h; cases h
        · rintro ⟨a, b, c, d, e, f, g, h, j, k⟩
          rw [g] at h
          simp only [List.filterMap_cons, Item.equation, List.map_cons, List.map_append] at h
          rw [List.append_cons] at h
          exact absurd (hb.mpr (names_prefix h)) (by simp)
    | strequ n v =>
      rw [act]
      have hb := badEqu_iff s0 (asBytes n) h1
      cases hx : badEqu s0 (asBytes n)
      · rw [hx] at hb
        rw [if_neg (by simp)]
        dsimp only
        refine Iff.trans (ih _ s (by simpa using hb.mp rfl) (by exact h2)) ?_
        constructor <;> rintro ⟨a, b, c, d, e, f, g, h, j, k⟩ <;> refine ⟨a, b, c, d, by simpa using e, by simpa using f, ?_, h, j, k⟩ <;>
          rw [g] <;> simp [List.filterMap_cons, Item.equation]
      · rw [hx] at hb
        rw [if_pos rfl]
        constructor
        · intro h; cases h
        · rintro ⟨a, b, c, d, e, f, g, h, j, k⟩
          rw [g] at h
          simp only [List.filterMap_cons, Item.equation, List.map_cons, List.map_append] at h
          rw [List.append_cons] at h
          exact absurd (hb.mpr (names_prefix h)) (by simp)
    | label n v =>
      rw [act]
      have hb := badLabel_iff s0 (asBytes n) h2
      cases hx : badLabel s0 (asBytes n)
      · rw [hx] at hb
        rw [if_neg (by simp)]
        cases hv : StrInt.stringToInt v 0 v.length with
        | ok x o =>
          dsimp only
          refine Iff.trans (ih _ s (by exact h1) (by simpa using hb.mp rfl)) ?_
          constructor
          · rintro ⟨a, b, c, d, e, f, g, h, ⟨ls, j, j'⟩, k⟩
            refine ⟨a, b, c, d, by simpa using e, by simpa using f, g, h, ⟨(asBytes n, x) :: ls, ?_, ?_⟩, k⟩
            · rw [j, List.append_assoc]; rfl
            · exact .cons ⟨rfl, o, hv⟩ j'
          · rintro ⟨a, b, c, d, e, f, g, h, ⟨ls, j, j'⟩, k⟩
            refine ⟨a, b, c, d, by simpa using e, by simpa using f, g, h, ?_, k⟩
            simp only [List.filterMap_cons, Item.definition] at j'
            cases j' with
            | @cons _ y _ ls hy hr =>
              refine ⟨ls, ?_, hr⟩
              obtain ⟨y1, y2⟩ := y
              obtain ⟨h3, o', h4⟩ := hy
              dsimp only at h3 h4
              rw [hv] at h4
              cases h4
              rw [j, h3, List.append_assoc]; rfl
        | ub =>
          constructor
          · intro h; cases h
          · rintro ⟨a, b, c, d, e, f, g, h, ⟨ls, j, j'⟩, k⟩
            simp only [List.filterMap_cons, Item.definition] at j'
            cases j' with
            | cons hy hr =>
              obtain ⟨h3, o', h4⟩ := hy
              dsimp only at h4
              rw [hv] at h4
              cases h4
        | reject =>
          constructor
          · intro h; cases h
          · rintro ⟨a, b, c, d, e, f, g, h, ⟨ls, j, j'⟩, k⟩
            simp only [List.filterMap_cons, Item.definition] at j'
            cases j' with
            | cons hy hr =>
              obtain ⟨h3, o', h4⟩ := hy
              dsimp only at h4
              rw [hv] at h4
              cases h4
      · rw [hx] at hb
        rw [if_pos rfl]
        constructor
        · intro h; cases h
        · rintro ⟨a, b, c, d, e, f, g, h, ⟨ls, j, j'⟩, k⟩
          simp only [List.filterMap_cons, Item.definition] at j'
          cases j' with
          | @cons _ y _ ls hy hr =>
            rw [j, List.map_append, List.map_cons, hy.1, List.append_cons] at k
            exact absurd (hb.mpr (names_prefix k)) (by simp)


/-! ### What is said is said in one way -/

theorem plain_args {i j : Item} (hi : i.Plain) (hj : j.Plain) {r r' : List Arg} (h : i.args ++ r = j.args ++ r') : i = j ∧ r = r' := by
  cases i <;> cases j <;> simp only [Item.args, List.cons_append, List.nil_append, List.cons.injEq] at h <;>
    first
    | (obtain ⟨-, rfl⟩ := h; exact ⟨rfl, rfl⟩)
    | (obtain ⟨-, rfl, rfl⟩ := h; exact ⟨rfl, rfl⟩)
    | (obtain ⟨-, rfl, rfl, rfl⟩ := h; exact ⟨rfl, rfl⟩)
    | (obtain ⟨rfl, rfl⟩ := h; exact ⟨rfl, rfl⟩)
    | (exact absurd h.1 (by decide))
    | (exact absurd (by rw [← h.1]; rfl) hj)
    | (exact absurd (by rw [h.1]; rfl) hi)

theorem plain_dashes {i : Item} (hi : i.Plain) {r r' : List Arg} (h : i.args ++ r = "--".toList :: r') : False := by
  cases i <;> simp only [Item.args, List.cons_append, List.nil_append, List.cons.injEq] at h <;>
    first
    | (exact absurd h.1 (by decide))
    | (exact absurd (by rw [h.1]; rfl) hi)

theorem args_ne_nil (i : Item) (r : List Arg) : i.args ++ r ≠ [] := by cases i <;> simp [Item.args]

theorem says_inv {is : List Item} {args : List Arg} (h : Says is args) : (is = [] ∧ args = []) ∨ (∃ fs, is = fs.map .file ∧ args = "--".toList :: fs) ∨
    ∃ i is' args', i.Plain ∧ is = i :: is' ∧ args = i.args ++ args' ∧ Says is' args' := by
  rcases h with ⟨hp, rfl⟩ | ⟨front, files, rfl, hp, rfl⟩
  · cases is with
    | nil => exact .inl ⟨rfl, rfl⟩
    | cons i is => exact .inr (.inr ⟨i, is, _, hp i (by simp), rfl, List.flatMap_cons, .inl ⟨fun j hj => hp j (by simp [hj]), rfl⟩⟩)
  · cases front with
    | nil => exact .inr (.inl ⟨files, rfl, rfl⟩)
    | cons i front =>
      exact .inr (.inr ⟨i, front ++ files.map .file, front.flatMap Item.args ++ "--".toList :: files, hp i (by simp), rfl, by
        rw [List.flatMap_cons, List.append_assoc], .inr ⟨front, files, rfl, fun j hj => hp j (by simp [hj]), rfl⟩⟩)

theorem says_unique (is : List Item) : ∀ {js : List Item} {args : List Arg}, Says is args → Says js args → is = js := by
  induction is with
  | nil =>
    intro js args h1 h2
    rcases says_inv h1 with ⟨-, rfl⟩ | ⟨fs, e, rfl⟩ | ⟨i, is', args', -, e, -⟩
    · rcases says_inv h2 with ⟨rfl, -⟩ | ⟨fs, -, e⟩ | ⟨i, is', args', -, -, e, -⟩
      · rfl
      · cases e
      · exact absurd e.symm (args_ne_nil _ _)
    · rcases says_inv h2 with ⟨-, e'⟩ | ⟨fs', rfl, e'⟩ | ⟨i, is', args', hp, -, e', -⟩
      · cases e'
      · cases e'; rw [e]
      · exact (plain_dashes hp e'.symm).elim
    · cases e
  | cons i is ih =>
    intro js args h1 h2
    rcases says_inv h1 with ⟨e, -⟩ | ⟨fs, e, rfl⟩ | ⟨i', is', args', hp, e, rfl, h1'⟩
    · cases e
    · rcases says_inv h2 with ⟨-, e'⟩ | ⟨fs', rfl, e'⟩ | ⟨j, js', args', hp, -, e', -⟩
      · cases e'
      · cases e'; rw [e]
      · exact (plain_dashes hp e'.symm).elim
    · cases e
      rcases says_inv h2 with ⟨-, e'⟩ | ⟨fs', -, e'⟩ | ⟨j, js', args'', hp', rfl, e', h2'⟩
      · exact absurd e' (args_ne_nil _ _)
      · exact (plain_dashes hp e').elim
      · obtain ⟨rfl, rfl⟩ := plain_args hp hp' e'
        rw [ih h1' h2']

theorem says_mem {is : List Item} {args : List Arg} (h : Says is args) {i : Item} (hi : i ∈ is) {a : Arg} (ha : a ∈ i.args) : a ∈ args := by
  rcases h with ⟨-, rfl⟩ | ⟨front, files, rfl, -, rfl⟩
  · exact List.mem_flatMap.mpr ⟨i, hi, ha⟩
  · rcases List.mem_append.mp hi with hi | hi
    · exact List.mem_append_left _ (List.mem_flatMap.mpr ⟨i, hi, ha⟩)
    · obtain ⟨f, hf, rfl⟩ := List.mem_map.mp hi
      simp only [Item.args, List.mem_singleton] at ha
      subst ha
      exact List.mem_append_right _ (List.mem_cons_of_mem _ hf)

theorem equation_mem {is : List Item} {args : List Arg} (h : Says is args) {e : List Char × List Char} (he : e ∈ is.filterMap Item.equation) : e.1 ∈ args := by
  obtain ⟨i, hi, h'⟩ := List.mem_filterMap.mp he
  cases i <;> simp only [Item.equation, Option.some.injEq, reduceCtorEq] at h' <;> subst h' <;> exact says_mem h hi (by simp [Item.args])

theorem definition_mem {is : List Item} {args : List Arg} (h : Says is args) {e : List Char × List Char} (he : e ∈ is.filterMap Item.definition) :
    e.1 ∈ args := by
  obtain ⟨i, hi, h'⟩ := List.mem_filterMap.mp he
  cases i <;> simp only [Item.definition, Option.some.injEq, reduceCtorEq] at h'
  subst h'
  exact says_mem h hi (by simp [Item.args])

theorem one_mono {R S : α → β → Prop} {l : List α} {m : List β} (h : ∀ a b, R a b → S a b) (hl : OneByOne R l m) : OneByOne S l m := by
  induction hl with
  | nil => exact .nil
  | cons hr _ ih => exact .cons (h _ _ hr) ih

theorem one_mem {R : α → β → Prop} {l : List α} {m : List β} (hl : OneByOne R l m) {b : β} (hb : b ∈ m) : ∃ a ∈ l, R a b := by
  induction hl with
  | nil => cases hb
  | cons hr _ ih =>
    rcases List.mem_cons.mp hb with rfl | hb
    · exact ⟨_, by simp, hr⟩
    · obtain ⟨a, ha, h⟩ := ih hb
      exact ⟨a, by simp [ha], h⟩

theorem no_zero {l : List Char} (h : ∀ c ∈ l, 0 < c.toNat ∧ c.toNat < 256) : 0#8 ∉ asBytes l := by
  intro hm
  obtain ⟨c, hc, he⟩ := List.mem_map.mp hm
  have h1 := h c hc
  have := congrArg BitVec.toNat he
  rw [BitVec.toNat_ofNat] at this
  have h0 : (0#8).toNat = 0 := rfl
  omega

/-- The program and the specification agree. -/
theorem parse_iff {W : World δ} {dir : δ} {items : List Item} {args : List Arg} (hs : Says items args) (hc : ∀ a ∈ args, ∀ c ∈ a, 0 < c.toNat ∧ c.toNat < 256)
    (s : Settings δ) : parse W dir args = .ok s ↔ Means W dir value items s := by
  have key := acts_after W items { dir := dir } 
  have hn : Names [] := ⟨by simp, by simp⟩
  unfold parse
  rw [loop_says hs]
  constructor
  · intro h
    cases ha : acts W { dir := dir } items with
    | ub => rw [ha] at h; cases h
    | refused => rw [ha] at h; cases h
    | ok t =>
      rw [ha] at h
      dsimp only at h
      split at h
      · cases h
      split at h
      · cases h
      rename_i h1 h2
      cases h
      obtain ⟨⟨es, he, hi⟩, hd, ht, hsy, hw, hst, heq, hen, ⟨ls, hl, hf⟩, hln⟩ := (key t hn hn).mp ha
      cases es with
      | nil =>
        simp only [List.nil_append, List.cons.injEq] at hi
        rw [← hi.1] at h1
        exact absurd rfl h1
      | cons e es =>
        simp only [List.cons_append, List.cons.injEq] at hi
        rw [List.nil_append] at heq hl
        subst hl
        refine ⟨⟨es, t.input, hi.2, fun x hx => he x (by simp [hx]), by simpa using h1, rfl, by simpa using h2⟩, hd, ht, hsy, by simpa using hw, by simpa using hst,
          heq, ⟨hen.1, ?_⟩, hf, ⟨hln.1, ?_⟩⟩
        · intro e' he'
          have hv := hen.2 e'.1 (List.mem_map.mpr ⟨e', he', rfl⟩)
          refine (Props.valid_name _ ?_).mp hv
          dsimp only at he'
          rw [heq] at he'
          obtain ⟨x, hx, rfl⟩ := List.mem_map.mp he'
          exact no_zero (hc _ (equation_mem hs hx))
        · intro l hl
          have hv := hln.2 l.1 (List.mem_map.mpr ⟨l, hl, rfl⟩)
          refine (Props.valid_name _ ?_).mp hv
          obtain ⟨x, hx, h', -⟩ := one_mem hf hl
          rw [h']
          exact no_zero (hc _ (definition_mem hs hx))
  · rintro ⟨⟨es, f, hi, he, hf0, hin, hex⟩, hd, ht, hsy, hw, hst, heq, hen, hf, hln⟩
    have : acts W { dir := dir } items = .ok { s with input := f } := by
      refine (key _ hn hn).mpr ⟨⟨[] :: es, by simpa using he, by rw [hi]; rfl⟩, hd, ht, hsy, by simpa using hw, by simpa using hst, by simpa using heq, ⟨hen.1, ?_⟩,
        ⟨_, (List.nil_append _).symm, hf⟩, ⟨hln.1, ?_⟩⟩
      · intro n hm'
        obtain ⟨e, hm, rfl⟩ := List.mem_map.mp hm'
        refine (Props.valid_name _ ?_).mpr (hen.2 e hm)
        dsimp only at hm
        rw [heq] at hm
        obtain ⟨x, hx, rfl⟩ := List.mem_map.mp hm
        exact no_zero (hc _ (equation_mem hs hx))
      · intro n hm'
        obtain ⟨l, hm, rfl⟩ := List.mem_map.mp hm'
        refine (Props.valid_name _ ?_).mpr (hln.2 l hm)
        obtain ⟨x, hx, h', -⟩ := one_mem hf hm
        rw [h']
        exact no_zero (hc _ (definition_mem hs hx))
    rw [this]
    dsimp only
    rw [if_neg (by simpa using hf0), if_neg (by rw [← hin, hex]; simp), ← hin]

/-! ### No access outside of an argument -/

theorem stringToInt_inside {v : List Char} (h : v ≠ []) : StrInt.stringToInt v 0 v.length ≠ .ub := by
  have hl : 0 < v.length := List.length_pos_iff.mpr h
  have hc : ∀ i ≤ v.length, ∃ x, StrInt.charAt v i = some x := by
    intro i hi
    unfold StrInt.charAt
    split
    · rename_i h1
      rw [List.getElem?_eq_getElem h1]
      exact ⟨_, rfl⟩
    · rw [if_pos (by omega)]
      exact ⟨_, rfl⟩
  have hconv : ∀ b l acc o, StrInt.convert b l acc o ≠ .ub := by
    intro b l
    induction l with
    | nil => intro acc o h; cases h
    | cons c l ih =>
      intro acc o
      rw [StrInt.convert]
      dsimp only
      split
      · intro h; cases h
      · exact ih _ _
  obtain ⟨x0, h0⟩ := hc 0 (by omega)
  obtain ⟨x1, h1⟩ := hc 1 (by omega)
  obtain ⟨xl, hxl⟩ := hc (v.length - 1) (by omega)
  unfold StrInt.stringToInt
  rw [if_neg (by omega)]
  have hp : ∃ b st, StrInt.prefixBase v 0 v.length = some (b, st) := by
    unfold StrInt.prefixBase
    simp only [h0, h1, hxl, Nat.zero_add, bind, Option.bind, pure]
    repeat' split
    all_goals exact ⟨_, _, rfl⟩
  obtain ⟨b, st, hp⟩ := hp
  rw [hp]
  dsimp only
  have hsx : ∃ b' e, StrInt.suffixBase v b v.length = some (b', e) ∧ e ≤ v.length := by
    unfold StrInt.suffixBase
    simp only [hxl, bind, Option.bind, pure]
    repeat' split
    all_goals exact ⟨_, _, rfl, by omega⟩
  obtain ⟨b', e, hsx, he⟩ := hsx
  rw [hsx]
  dsimp only
  rw [if_pos he]
  exact hconv _ _ _ _

theorem act_inside {W : World δ} {s : Settings δ} {i : Item} (h : act W s i = .ub) : ∃ n, i = .label n [] := by
  cases i with
  | label n v =>
    rw [act] at h
    split at h
    · cases h
    · cases hv : StrInt.stringToInt v 0 v.length with
      | ub =>
        refine ⟨n, ?_⟩
        cases v with
        | nil => rfl
        | cons c v => exact absurd hv (stringToInt_inside (by simp))
      | reject => rw [hv] at h; cases h
      | ok x o => rw [hv] at h; cases h
  | root d =>
    rw [act] at h
    cases hx : W.enter s.dir d <;> rw [hx] at h <;> cases h
  | equ n v => rw [act] at h; split at h <;> cases h
  | strequ n v => rw [act] at h; split at h <;> cases h
  | file f => rw [act] at h; split at h <;> cases h
  | _ => rw [act] at h; cases h

theorem loop_inside (W : World δ) (args : List Arg) : ∀ (s : Settings δ), loop W true s args = .ub → [] ∈ args := by
  induction h : args.length using Nat.strongRecOn generalizing args with
  | _ n ih =>
    subst h
    intro s h
    have step : ∀ (i : Item) (rest : List Arg), i.Plain → args = i.args ++ rest → [] ∈ args := by
      intro i rest hp e
      rw [e, loop_item W s i hp] at h
      have hl : rest.length < args.length := by
        rw [e, List.length_append]
        have : 0 < i.args.length := by cases i <;> simp [Item.args]
        omega
      cases ha : act W s i with
      | ok t =>
        rw [ha] at h
        rw [e]
        exact List.mem_append_right _ (ih _ hl rest rfl _ h)
      | ub =>
        obtain ⟨n, rfl⟩ := act_inside ha
        rw [e]
        simp [Item.args]
      | refused => rw [ha] at h; cases h
    cases args with
    | nil => rw [loop.eq_def] at h; cases h
    | cons a rest =>
      by_cases hd : a.head? = some '-'
      · by_cases h0 : a = txt "--"
        · rw [h0, loop.eq_def] at h
          dsimp only at h
          rw [if_pos (by decide), if_pos rfl, loop_files] at h
          clear step ih hd h0
          exfalso
          induction rest generalizing s with
          | nil => cases h
          | cons f rest ih =>
            rw [List.map_cons, acts] at h
            cases ha : act W s (.file f) with
            | ok t => rw [ha] at h; exact ih _ h
            | ub => rw [act] at ha; split at ha <;> cases ha
            | refused => rw [ha] at h; cases h
        by_cases h1 : a = txt "-erroronwarning"
        · exact step .errorOnWarning rest trivial (by rw [h1]; rfl)
        by_cases h2 : a = txt "-stat"
        · exact step .stat rest trivial (by rw [h2]; rfl)
        by_cases h3 : a = txt "-time"
        · exact step .time rest trivial (by rw [h3]; rfl)
        cases rest with
        | nil =>
          rw [loop.eq_def] at h
          simp [hd, h0, h1, h2, h3] at h
        | cons v rest =>
          by_cases h4 : a = txt "-temp"
          · exact step (.temp v) rest trivial (by rw [h4]; rfl)
          by_cases h5 : a = txt "-sym"
          · exact step (.sym v) rest trivial (by rw [h5]; rfl)
          by_cases h6 : a = txt "-sym2"
          · exact step (.sym2 v) rest trivial (by rw [h6]; rfl)
          by_cases h7 : a = txt "-root"
          · exact step (.root v) rest trivial (by rw [h7]; rfl)
          cases rest with
          | nil =>
            rw [loop.eq_def] at h
            simp [hd, h0, h1, h2, h3, h4, h5, h6, h7] at h
          | cons w rest =>
            by_cases h8 : a = txt "-equ"
            · exact step (.equ v w) rest trivial (by rw [h8]; rfl)
            by_cases h9 : a = txt "-strequ"
            · exact step (.strequ v w) rest trivial (by rw [h9]; rfl)
            by_cases h10 : a = txt "-definelabel"
            · exact step (.label v w) rest trivial (by rw [h10]; rfl)
            rw [loop.eq_def] at h
            simp [hd, h0, h1, h2, h3, h4, h5, h6, h7, h8, h9, h10] at h
      · exact step (.file a) rest hd rfl

/-! ### Labels -/

open SymTab in
theorem addLabels_keep {defs : List (Str × Int)} : ∀ {t : SymTab} {s : Int} {k : SymbolKey} {i : Nat}, WF t → t.symbols k = some (.label i) →
    (∀ d ∈ defs, d.1.map lower ≠ k.name) → (t.addLabels 0 s defs).1.labels[i]? = t.labels[i]? := by
  induction defs with
  | nil => intros; rfl
  | cons d defs ih =>
    intro t s k i hw hk hd
    obtain ⟨n, v⟩ := d
    rw [addLabels]
    have hw1 := getLabel_wf hw n 0 s
    have hl1 : (t.getLabel n 0 s).1.labels[i]? = t.labels[i]? := by
      unfold getLabel
      split
      · rfl
      · dsimp only
        split
        · dsimp only
          rw [List.getElem?_append_left (hw.bound k i hk)]
        · rfl
        · rfl
    have hg : ∀ j, (t.getLabel n 0 s).2 = some j → j ≠ i := by
      intro j hj hji
      have h1 := getLabel_some hj
      rw [hji] at h1
      have := hw1.1.inj _ _ _ h1 (hw1.2.1 _ _ hk)
      exact hd (n, v) (by simp) (by rw [← this]; rfl)
    cases he : t.getLabel n 0 s with
    | mk t1 r =>
      rw [he] at hw1 hl1 hg
      cases r with
      | none =>
        dsimp only
        rw [ih hw1.1 (hw1.2.1 _ _ hk) fun d hm => hd d (by simp [hm])]
        exact hl1
      | some j =>
        dsimp only
        have hw2 := modifyLabel_wf hw1.1 j (fun l => { l with defined := true, value := v })
        rw [ih hw2.1 (hw2.2.1 _ _ (hw1.2.1 _ _ hk)) fun d hm => hd d (by simp [hm])]
        rw [modifyLabel]
        dsimp only
        rw [List.getElem?_modify_ne _ _ (hg j rfl)]
        exact hl1

open SymTab in
theorem addLabels_defines {defs : List (Str × Int)} : ∀ {t : SymTab} {s : Int}, WF t → (∀ d ∈ defs, isValidSymbolName d.1 = true) →
    (defs.map fun d => d.1.map lower).Nodup → (∀ d ∈ defs, ∀ s r, t.symbols (key d.1 0 s) ≠ some (.equation r)) →
    ∀ d ∈ defs, ∃ s' i l, (t.addLabels 0 s defs).1.symbols (key d.1 0 s') = some (.label i) ∧ (t.addLabels 0 s defs).1.labels[i]? = some l ∧
      l.defined = true ∧ l.value = d.2 := by
  induction defs with
  | nil => intro t s _ _ _ _ d hd; cases hd
  | cons d0 defs ih =>
    intro t s hw hv hn he
    obtain ⟨n, v⟩ := d0
    have hw1 := getLabel_wf hw n 0 s
    obtain ⟨i, hi⟩ : ∃ i, (t.getLabel n 0 s).2 = some i := by
      cases hg : (t.getLabel n 0 s).2 with
      | some i => exact ⟨i, rfl⟩
      | none =>
        rcases getLabel_none.mp hg with h | ⟨r, h⟩
        · rw [hv (n, v) (by simp)] at h; cases h
        · exact absurd h (he (n, v) (by simp) s r)
    have hk := getLabel_some hi
    have hother : ∀ k, k.name ≠ n.map lower → (t.getLabel n 0 s).1.symbols k = t.symbols k := by
      intro k hk
      unfold getLabel
      split
      · rfl
      · dsimp only
        split
        · rw [setSymbol]
          dsimp only
          rw [if_neg]
          rintro rfl
          exact hk rfl
        · rfl
        · rfl
    rw [addLabels]
    rw [List.map_cons, List.nodup_cons] at hn
    cases hg : t.getLabel n 0 s with
    | mk t1 r =>
      rw [hg] at hw1 hi hk hother
      cases hi
      dsimp only at hw1 hk hother ⊢
      have hw2 := modifyLabel_wf hw1.1 i (fun l => { l with defined := true, value := v })
      intro d hd
      rcases List.mem_cons.mp hd with rfl | hd
      · have hb : i < t1.labels.length := hw1.1.bound _ _ hk
        refine ⟨s, i, { t1.labels[i] with defined := true, value := v }, (addLabels_wf hw2.1 0 _ defs).2.1 _ _ (hw2.2.1 _ _ hk), ?_, rfl, rfl⟩
        rw [addLabels_keep hw2.1 (hw2.2.1 _ _ hk)]
        · rw [modifyLabel]
          dsimp only
          rw [List.getElem?_modify_eq, List.getElem?_eq_getElem hb]
          rfl
        · intro x hx h
          exact hn.1 (List.mem_map.mpr ⟨x, hx, h⟩)
      · refine ih hw2.1 (fun d hm => hv d (by simp [hm])) hn.2 ?_ d hd
        intro d hm s' r
        have : (t1.modifyLabel i fun l => { l with defined := true, value := v }).symbols (key d.1 0 s') = t.symbols (key d.1 0 s') := by
          refine hother _ ?_
          intro h
          exact hn.1 (List.mem_map.mpr ⟨d, hm, h⟩)
        rw [this]
        exact he d (by simp [hm]) s' r

end Armips.CommandLine
