import Verif.Lemmas.DirectiveRead
/-!
# Directives: whole programs
-/
namespace Armips.Directive
open ExprParse (Tok next peek parse)
open Spec.ExprParse (Writes)
open Spec.Directive (Opens OpenText Params SymbolName Local begins closers funcs plain LeafText CondText Text Part Instructions ofLocal selected)

theorem condition_reads {E : Env ι} {b : Bool} {st : St} {k : CondKind} {ts : List Tok} {c : Cond} {r : Option Bool} (h : CondText E b st k ts c r) :
    (∃ t l, ts = t :: l ∧ t ≠ .colon ∧ t ≠ .equ) ∧ ∃ c0 : Cond, c0.valid = true ∧ (∀ s, (ofLocal c → s = st.section_) → c0.at s = c) ∧
      ∀ rest, condition E b st k (ts ++ .separator :: rest) = .ok (c0, r) st (.separator :: rest) := by
  cases h with
  | @if_ e ts hw =>
    obtain ⟨t, l, e1, h1, h2, -⟩ := writes_begin hw
    refine ⟨⟨t, l, e1, h1, h2⟩, .if_ e, rfl, fun _ _ => rfl, fun rest => ?_⟩
    unfold condition
    dsimp only
    rw [read_separator hw rest]
  | @ifdef n hn hl =>
    refine ⟨⟨_, _, rfl, by simp, by simp⟩, .ifdef n 0, name_valid hn, fun s _ => ?_, fun rest => rfl⟩
    show Cond.ifdef n (if isLocal n = true then s else 0) = _
    rw [if_neg fun h => hl ((local_iff n).1 h)]
  | @ifndef n hn hl =>
    refine ⟨⟨_, _, rfl, by simp, by simp⟩, .ifndef n 0, name_valid hn, fun s _ => ?_, fun rest => rfl⟩
    show Cond.ifndef n (if isLocal n = true then s else 0) = _
    rw [if_neg fun h => hl ((local_iff n).1 h)]
  | @ifdefLocal n hn hl =>
    refine ⟨⟨_, _, rfl, by simp, by simp⟩, .ifdef n 0, name_valid hn, fun s hs => ?_, fun rest => rfl⟩
    show Cond.ifdef n (if isLocal n = true then s else 0) = _
    rw [if_pos ((local_iff n).2 hl), hs hl]
  | @ifndefLocal n hn hl =>
    refine ⟨⟨_, _, rfl, by simp, by simp⟩, .ifndef n 0, name_valid hn, fun s hs => ?_, fun rest => rfl⟩
    show Cond.ifndef n (if isLocal n = true then s else 0) = _
    rw [if_pos ((local_iff n).2 hl), hs hl]

theorem leaf_begin {E : Env ι} {st : St} {n : String} {ts : List Tok} {l : Leaf} {st' : St} (h : LeafText E st n ts l st') :
    ts = [] ∨ ∃ t r, ts = t :: r ∧ t ≠ .colon ∧ t ≠ .equ := by
  have key : ∀ {es} {E : ExprParse.Env}, Params E es ts → ts = [] ∨ ∃ t r, ts = t :: r ∧ t ≠ .colon ∧ t ≠ .equ := by
    intro es E hp
    obtain ⟨t, r, e, h1, h2, -⟩ := params_begin hp
    exact Or.inr ⟨t, r, e, h1, h2⟩
  have key2 : ∀ {e} {E : ExprParse.Env}, Writes E 12 e ts → ts = [] ∨ ∃ t r, ts = t :: r ∧ t ≠ .colon ∧ t ≠ .equ := by
    intro es E hp
    obtain ⟨t, r, e, h1, h2, -⟩ := writes_begin hp
    exact Or.inr ⟨t, r, e, h1, h2⟩
  cases h <;> first
    | exact Or.inl rfl
    | exact key (by assumption)
    | exact key2 (by assumption)
    | exact Or.inr ⟨_, _, rfl, (switch_begin (by assumption)).1, (switch_begin (by assumption)).2⟩
    | exact Or.inr ⟨_, _, rfl, by simp, by simp⟩

/-- A directive with a text behind it. -/
theorem begins_directive {E : Env ι} {st : St} {n : Str} {k : Kind} (f : Bool) (hk : kindOf E st n = some k) (hf : f = true → k ≠ .function) {t : Tok}
    {ts : List Tok} (h1 : t ≠ .colon) (h2 : t ≠ .equ) : Begins f (.ident n :: t :: ts) :=
  ⟨n, _, rfl, (kind_begins hk).1, fun h => (kind_begins hk).2 (hf h), fun _ _ => not_definition (kind_begins hk).1 h1 h2⟩

theorem seq_end {E : Env ι} {n : Nat} {tr un : Bool} {terms : List Str} {st : St} {rest : List Tok} (h : Follows terms rest) :
    seq E (n + 1) tr un terms st rest = .ok [] st rest := by
  rcases h with ⟨rfl, rfl⟩ | ⟨z, r, rfl, hz⟩
  · rfl
  · show (if terms.contains z = true then _ else _) = _
    rw [if_pos (by simpa using hz)]

theorem ends_of (l : List String) (h : ∀ z ∈ l, z ∈ closers) (f : Bool) : Ends f (l.map lit) := by
  intro z hz
  obtain ⟨c, hc, rfl⟩ := List.mem_map.1 hz
  exact Or.inl ⟨c, h c hc, rfl⟩

theorem area_reads {E : Env ι} {tr un : Bool} {st : St} {n : String} {sh : Bool} {e : Expr} {g : Option Expr} {ts us : List Tok} {c : List (Stmt ι)} {st' : St}
    {z : String} (f : Bool) (hn : (n, sh) ∈ [(".area", false), (".region", true)]) (hp : Params (E.expr st) (e :: g.toList) ts) (hz : z ∈ [".endarea", ".endregion"])
    (ih : Reads E (.seq false) tr un st us c st') :
    Reads E (.cmd f) tr un st (.ident (lit n) :: (ts ++ .separator :: (us ++ [.ident (lit z), .separator]))) [.area sh e g c] st' := by
  have hk : kindOf E st (lit n) = some (.area sh) := by
    simp only [List.mem_cons, Prod.mk.injEq, List.not_mem_nil, or_false] at hn
    rcases hn with ⟨rfl, rfl⟩ | ⟨rfl, rfl⟩ <;> exact kind_of (by decide)
  obtain ⟨t, r, e1, h1, h2, -⟩ := params_begin hp
  refine ⟨?_, _, rfl, fun m rest hm => ?_⟩
  · rw [e1]
    exact begins_directive f hk (by simp) h1 h2
  · have hs := ih.2 (m - 1) [lit ".endarea", lit ".endregion"] (.ident (lit z) :: .separator :: rest)
      (by simp only [List.length_cons, List.length_append, List.length_nil] at hm; omega) (ends_of [".endarea", ".endregion"] (by decide) false)
      (Or.inr ⟨_, _, rfl, by simp only [List.mem_cons, List.not_mem_nil, or_false] at hz; rcases hz with rfl | rfl <;> simp⟩)
    obtain ⟨m, rfl⟩ : ∃ k, m = k + 1 := ⟨m - 1, by simp only [List.length_cons] at hm; omega⟩
    have hb : body E (seq E (m + 1)) (conditional E (m + 1)) tr un st (.area sh) (ts ++ .separator :: (us ++ [.ident (lit z), .separator]) ++ rest) =
        .ok (.area sh e g c) st' (.separator :: rest) := by
      rw [List.append_assoc, List.cons_append, List.append_assoc]
      unfold body
      dsimp only
      rw [exprs_read hp 1 (some 2) (by simp) (by cases g <;> simp) _]
      dsimp only
      rw [seq_separator]
      simp only [Nat.add_sub_cancel] at hs
      show (match seq E m tr un [lit ".endarea", lit ".endregion"] st (us ++ .ident (lit z) :: .separator :: rest) with
        | .ok c st' r' => R.ok (Stmt.area sh e g.toList[0]? c) st' (next r').2
        | .null a b => .null a b
        | .err => .err
        | .outside => .outside) = _
      rw [hs]
      cases g <;> rfl
    subst e1
    exact command_directive hk (by simp) h1 hb

theorem auto_body {E : Env ι} {tr un : Bool} {st : St} {es : List Expr} {ts us : List Tok} {c : List (Stmt ι)} {st' : St} {m : Nat} {rest : List Tok}
    (h1 : (if peek (ts ++ .separator :: (us ++ [.ident (lit ".endautoregion"), .separator] ++ rest)) = .separator then
        some ([], ts ++ .separator :: (us ++ [.ident (lit ".endautoregion"), .separator] ++ rest))
      else exprs (E.expr st) 0 (some 2) (ts ++ .separator :: (us ++ [.ident (lit ".endautoregion"), .separator] ++ rest))) =
      some (es, .separator :: (us ++ [.ident (lit ".endautoregion"), .separator] ++ rest)))
    (hm : us.length < m) (ih : Reads E (.seq false) tr un st us c st') :
    body E (seq E (m + 1)) (conditional E (m + 1)) tr un st .autoRegion (ts ++ .separator :: (us ++ [.ident (lit ".endautoregion"), .separator]) ++ rest) =
      .ok (.autoRegion es[0]? es[1]? c) st' (.separator :: rest) := by
  have hs := ih.2 m [lit ".endautoregion"] (.ident (lit ".endautoregion") :: .separator :: rest) hm (ends_of [".endautoregion"] (by decide) false)
    (Or.inr ⟨_, _, rfl, by simp⟩)
  rw [List.append_assoc, List.cons_append]
  unfold body
  dsimp only
  rw [h1]
  dsimp only
  rw [seq_separator]
  show (match seq E m tr un [lit ".endautoregion"] st (us ++ [.ident (lit ".endautoregion"), .separator] ++ rest) with
    | .ok c st' r' => R.ok (Stmt.autoRegion es[0]? es[1]? c) st' (next r').2
    | .null a b => .null a b
    | .err => .err
    | .outside => .outside) = _
  rw [List.append_assoc]
  show (match seq E m tr un [lit ".endautoregion"] st (us ++ .ident (lit ".endautoregion") :: .separator :: rest) with
    | .ok c st' r' => R.ok (Stmt.autoRegion es[0]? es[1]? c) st' (next r').2
    | .null a b => .null a b
    | .err => .err
    | .outside => .outside) = _
  rw [hs]
  rfl

theorem kind_auto (E : Env ι) (st : St) : kindOf E st (lit ".autoregion") = some .autoRegion := kind_of (by decide)

theorem auto_reads {E : Env ι} {tr un : Bool} {st : St} {es : List Expr} {ts us : List Tok} {c : List (Stmt ι)} {st' : St} (f : Bool)
    (hp : Params (E.expr st) es ts) (hl : es.length ≤ 2) (ih : Reads E (.seq false) tr un st us c st') :
    Reads E (.cmd f) tr un st (.ident (lit ".autoregion") :: (ts ++ .separator :: (us ++ [.ident (lit ".endautoregion"), .separator])))
      [.autoRegion es[0]? es[1]? c] st' := by
  obtain ⟨t, r, e1, h1, h2, h3⟩ := params_begin hp
  refine ⟨?_, _, rfl, fun m rest hm => ?_⟩
  · rw [e1]
    exact begins_directive f (kind_auto E st) (by simp) h1 h2
  · obtain ⟨m, rfl⟩ : ∃ k, m = k + 1 := ⟨m - 1, by simp only [List.length_cons] at hm; omega⟩
    have hb := auto_body (E := E) (tr := tr) (un := un) (st := st) (es := es) (ts := ts) (us := us) (c := c) (st' := st') (m := m) (rest := rest)
      (by rw [if_neg (by rw [e1]; exact h3), exprs_read hp 0 (some 2) (by omega) (by rintro _ ⟨⟩; exact hl)])
      (by simp only [List.length_cons, List.length_append, List.length_nil] at hm; omega) ih
    subst e1
    exact command_directive (kind_auto E st) (by simp) h1 hb

theorem auto_plain {E : Env ι} {tr un : Bool} {st : St} {us : List Tok} {c : List (Stmt ι)} {st' : St} (f : Bool) (ih : Reads E (.seq false) tr un st us c st') :
    Reads E (.cmd f) tr un st (.ident (lit ".autoregion") :: .separator :: (us ++ [.ident (lit ".endautoregion"), .separator])) [.autoRegion none none c] st' := by
  refine ⟨begins_directive f (kind_auto E st) (by simp) (by simp) (by simp), _, rfl, fun m rest hm => ?_⟩
  obtain ⟨m, rfl⟩ : ∃ k, m = k + 1 := ⟨m - 1, by simp only [List.length_cons] at hm; omega⟩
  exact command_directive (kind_auto E st) (by simp) (by simp)
    (auto_body (ts := []) (es := []) (by rw [List.nil_append, peek_sep, if_pos rfl]) (by simp only [List.length_cons, List.length_append, List.length_nil] at hm; omega) ih)

theorem kind_func (E : Env ι) (st : St) {n : String} (h : n ∈ funcs) : kindOf E st (lit n) = some .function := kind_names h (by decide)

/-- The beginning of a function. -/
theorem function_command {E : Env ι} {sq : SeqP ι} {cd : CondP ι} {tr un : Bool} {st : St} {n : String} {m : Str} {ts : List Tok} (hn : n ∈ funcs) (hm : SymbolName m)
    {c : List (Stmt ι)} {st' : St} {z : Str} {r : List Tok}
    (h : sq tr un [lit ".endfunc", lit ".endfunction", lit ".func", lit ".function"] (begins st m) ts = .ok c st' (.ident z :: r)) :
    command E sq cd tr un st (.ident (lit n) :: .ident m :: .separator :: ts) =
      if z = lit ".endfunc" ∨ z = lit ".endfunction" then
        if peek r = .separator then .ok (.function m (begins st m).section_ c) st' (next r).2 else .err
      else .ok (.function m (begins st m).section_ c) st' (.ident z :: r) := by
  have hk := kind_func E st hn
  unfold command
  dsimp only
  rw [if_neg (show ¬ peek (.ident m :: .separator :: ts) = .colon by simp [peek, next]), hk]
  dsimp only
  unfold directive
  rw [if_pos rfl]
  unfold function
  dsimp only
  rw [name_valid hm, if_pos rfl, bump_eq, h]
  dsimp only
  by_cases hz : z = lit ".endfunc" ∨ z = lit ".endfunction"
  · rw [if_pos (by simpa [peek, next] using hz), if_pos hz]
    rfl
  · rw [if_neg (by simpa [peek, next] using hz), if_neg hz]

theorem func_ends : Ends true [lit ".endfunc", lit ".endfunction", lit ".func", lit ".function"] := by
  intro z hz
  simp only [List.mem_cons, List.not_mem_nil, or_false] at hz
  rcases hz with rfl | rfl | rfl | rfl
  · exact Or.inl ⟨_, by decide, rfl⟩
  · exact Or.inl ⟨_, by decide, rfl⟩
  · exact Or.inr ⟨rfl, _, by decide, rfl⟩
  · exact Or.inr ⟨rfl, _, by decide, rfl⟩

theorem end_not_func : ∀ z ∈ funcs, ¬ (lit z = lit ".endfunc" ∨ lit z = lit ".endfunction") := by decide +kernel

theorem elseNames_eq : elseNames = [".else", ".elseif", ".elseifdef", ".elseifndef", ".endif"].map lit := rfl

theorem decided_selected {c0 c : Cond} {r : Option Bool} {thn els : List (Stmt ι)} {st : St} (ts : List Tok) (hv : c0.valid = true) (hc : c0.at st.section_ = c) :
    decided c0 r thn els st ts = .ok (selected c thn els r) st ts := by
  rcases r with _ | _ | _
  · show (if c0.valid = true then _ else _) = _
    rw [if_pos hv, hc]
    rfl
  · rfl
  · rfl

theorem elseif_reads {E : Env ι} {tr un : Bool} {st : St} {n : String} {k : CondKind} {ts : List Tok} {c : Stmt ι} {st' : St}
    (hn : (n, k) ∈ [(".elseif", CondKind.if_), (".elseifdef", .ifdef), (".elseifndef", .ifndef)]) (ih : Reads E (.cond k) tr un st ts [c] st') :
    Reads E .els tr un st (.ident (lit n) :: ts) [c] st' := by
  obtain ⟨-, c', ec, ih⟩ := ih
  cases ec
  simp only [List.mem_cons, Prod.mk.injEq, List.not_mem_nil, or_false] at hn
  have e1 : lit ".elseif" ≠ lit ".else" := by decide +kernel
  have e2 : lit ".elseifdef" ≠ lit ".else" := by decide +kernel
  have e3 : lit ".elseifdef" ≠ lit ".elseif" := by decide +kernel
  have e4 : lit ".elseifndef" ≠ lit ".else" := by decide +kernel
  have e5 : lit ".elseifndef" ≠ lit ".elseif" := by decide +kernel
  have e6 : lit ".elseifndef" ≠ lit ".elseifdef" := by decide +kernel
  refine ⟨⟨_, _, rfl, ?_⟩, fun m rest hm => ?_⟩
  · rcases hn with ⟨rfl, rfl⟩ | ⟨rfl, rfl⟩ | ⟨rfl, rfl⟩ <;> (unfold elseNames; simp)
  · have hi := ih m rest (by simp only [List.length_cons] at hm; omega)
    unfold elsePart
    simp only [peek, next, List.cons_append, Tok.ident.injEq]
    rcases hn with ⟨rfl, rfl⟩ | ⟨rfl, rfl⟩ | ⟨rfl, rfl⟩
    · rw [if_neg e1, if_pos rfl, hi]
    · rw [if_neg e2, if_neg e3, if_pos rfl, hi]
    · rw [if_neg e4, if_neg e5, if_neg e6, if_pos rfl, hi]

/-- Every part of a program is read as it is written. -/
theorem text_reads {E : Env ι} {I : St → List Tok → ι → St → Prop} (hI : Instructions E I) {p : Part} {tr un : Bool} {st : St} {ts : List Tok} {l : List (Stmt ι)}
    {st' : St} (h : Text E I p tr un st ts l st') : Reads E p tr un st ts l st' := by
  induction h with
  | nil =>
    refine ⟨by simp, fun n terms rest hn _ hf => ?_⟩
    obtain ⟨n, rfl⟩ : ∃ k, n = k + 1 := ⟨n - 1, by omega⟩
    exact seq_end hf
  | sep _ ih =>
    refine ⟨by simp, fun n terms rest hn he hf => ?_⟩
    obtain ⟨n, rfl⟩ : ∃ k, n = k + 1 := ⟨n - 1, by omega⟩
    rw [List.cons_append, seq_separator]
    exact ih.2 n terms rest (by simp only [List.length_cons] at hn; omega) he hf
  | @cons f tr un st ts c st' us l st'' _ _ ih1 ih2 =>
    obtain ⟨⟨name, vs, rfl, h1, h2, h3⟩, c', ec, h4⟩ := ih1
    cases ec
    refine ⟨by simp, fun n terms rest hn he hf => ?_⟩
    obtain ⟨n, rfl⟩ : ∃ k, n = k + 1 := ⟨n - 1, by omega⟩
    simp only [List.length_cons, List.length_append] at hn
    have hh : (us ++ rest).head? ≠ some .equ := by
      cases us with
      | nil => exact follows_head hf
      | cons u us => exact ih2.1
    rw [List.append_assoc]
    exact seq_cmd (begins_not_end h1 h2 he) (h3 _ hh) (h4 n _ (by simp only [List.length_cons]; omega)) (ih2.2 n terms rest (by omega) he hf)
  | @label f tr un st n hn hc =>
    refine ⟨⟨n, _, rfl, fun z hz => hc z (List.mem_append_left _ hz), fun _ z hz => hc z (List.mem_append_right _ hz), fun rest hr => ?_⟩, _, rfl,
      fun m rest _ => ?_⟩
    · have e1 : (n == lit ".expfunc") = false := by simpa using hc ".expfunc" (by decide)
      have e2 : (n == lit ".macro") = false := by simpa using hc ".macro" (by decide)
      unfold isDefinition
      simp only [List.cons_append, List.nil_append, e1, e2, Bool.false_or]
      cases rest with
      | nil => rfl
      | cons t r => cases t <;> first | rfl | exact absurd rfl hr
    · rw [List.cons_append, List.cons_append]
      unfold command
      dsimp only
      rw [if_pos (show peek (.colon :: ([] ++ rest)) = .colon from rfl), if_pos (name_valid hn), bump_eq]
      rfl
  | @op f tr un st ts i st' hi =>
    obtain ⟨⟨n, us, rfl, h1, h2, h3, h4⟩, h5⟩ := hI _ _ _ _ hi
    have hcl : ∀ z ∈ closers ++ funcs, n ≠ lit z := by
      rintro z hz rfl
      exact h1 (plain_not_closer z hz)
    obtain ⟨t, r, e1, e2, e3⟩ : ∃ t r, us ++ [.separator] = t :: r ∧ t ≠ .colon ∧ t ≠ .equ := by
      cases us with
      | nil => exact ⟨_, _, rfl, by simp, by simp⟩
      | cons t r => exact ⟨t, _, rfl, by simpa using h3, by simpa using h4⟩
    refine ⟨⟨n, us ++ [.separator], rfl, fun z hz => hcl z (List.mem_append_left _ hz), fun _ z hz => hcl z (List.mem_append_right _ hz), fun rest _ => ?_⟩,
      _, rfl, fun m rest _ => ?_⟩
    · rw [List.cons_append, e1]
      exact not_definition (fun z hz => hcl z (List.mem_append_left _ hz)) e2 e3
    · have := h5 rest
      rw [List.append_assoc, List.cons_append]
      show (if peek (us ++ .separator :: rest) = .colon then _ else _) = _
      rw [if_neg (show ¬ peek (us ++ .separator :: rest) = .colon by
        rw [show us ++ .separator :: rest = (us ++ [.separator]) ++ rest by simp, e1]
        exact e2), kind_none E st h1 h2]
      show opcode E st _ = _
      unfold opcode
      rw [show Tok.ident n :: (us ++ ([.separator] ++ rest)) = .ident n :: us ++ .separator :: rest from rfl, this]
  | @leaf f tr un st n ts l st' hl ht =>
    obtain ⟨k, h1, h2, h3⟩ := leaf_reads hl
    have hkf : k ≠ .function := by rintro rfl; cases h2
    obtain ⟨t, r, e1, e2, e3⟩ : ∃ t r, ts ++ [.separator] = t :: r ∧ t ≠ .colon ∧ t ≠ .equ := by
      rcases leaf_begin hl with rfl | ⟨t, r, rfl, h⟩
      · exact ⟨_, _, rfl, by simp, by simp⟩
      · exact ⟨t, _, rfl, h⟩
    refine ⟨?_, _, rfl, fun m rest _ => ?_⟩
    · rw [e1]
      exact begins_directive f h1 (fun _ => hkf) e2 e3
    · have hb := body_leaf (sq := seq E m) (cd := conditional E m) (un := un) h2 (h3 tr rest ht)
      rw [show ts ++ .separator :: rest = (ts ++ [.separator]) ++ rest by simp, e1] at hb
      rw [e1]
      exact command_directive h1 hkf e2 hb
  | area hn hp _ hz ih => exact area_reads _ (g := none) hn hp hz ih
  | areaFill hn hp _ hz ih => exact area_reads _ (g := some _) hn hp hz ih
  | auto _ ih => exact auto_plain _ ih
  | autoMin hp _ ih => exact auto_reads _ hp (by simp) ih
  | autoRange hp _ ih => exact auto_reads _ hp (by simp) ih
  | @function tr un st n m us c st' z hn hm _ hz ih =>
    refine ⟨⟨_, _, rfl, func_not_closer n hn, by simp, fun rest _ => not_definition (func_not_closer n hn) (by simp) (by simp)⟩, _, rfl, fun k rest hk => ?_⟩
    have hs := ih.2 k _ (.ident (lit z) :: .separator :: rest) (by simp only [List.length_cons, List.length_append, List.length_nil] at hk; omega) func_ends
      (Or.inr ⟨_, _, rfl, by simp only [List.mem_cons, List.not_mem_nil, or_false] at hz; rcases hz with rfl | rfl <;> simp⟩)
    have hc := function_command (E := E) (cd := conditional E k) hn hm hs
    rw [if_pos (by simp only [List.mem_cons, List.not_mem_nil, or_false] at hz; rcases hz with rfl | rfl <;> simp), if_pos (peek_sep _)] at hc
    simpa [next] using hc
  | @functions tr un st n m us c st' z vs l st'' hn hm _ hz _ ih1 ih2 =>
    refine ⟨by simp, fun k terms rest hk he hf => ?_⟩
    obtain ⟨k, rfl⟩ : ∃ j, k = j + 1 := ⟨k - 1, by omega⟩
    simp only [List.length_cons, List.length_append] at hk
    have hs := ih1.2 k _ (.ident (lit z) :: (vs ++ rest)) (by omega) func_ends
      (Or.inr ⟨_, _, rfl, by simp only [funcs, List.mem_cons, List.not_mem_nil, or_false] at hz; rcases hz with rfl | rfl <;> simp⟩)
    have hc := function_command (E := E) (cd := conditional E k) hn hm hs
    rw [if_neg (end_not_func z hz)] at hc
    have h2 := ih2.2 k terms rest (by simp only [List.length_cons]; omega) he hf
    have hnt : lit n ∉ terms := begins_not_end (f := false) (func_not_closer n hn) (by simp) he
    have := seq_cmd hnt (not_definition (ts := .separator :: (us ++ .ident (lit z) :: (vs ++ rest))) (t := .ident m) (func_not_closer n hn) (by simp) (by simp)) hc h2
    simpa using this
  | @cond f tr un st n k ts c st' hn _ ih =>
    obtain ⟨⟨t, r, e1, e2, e3⟩, c', ec, ih⟩ := ih
    cases ec
    have hk : kindOf E st (lit n) = some (.cond k) := by
      simp only [List.mem_cons, Prod.mk.injEq, List.not_mem_nil, or_false] at hn
      rcases hn with ⟨rfl, rfl⟩ | ⟨rfl, rfl⟩ | ⟨rfl, rfl⟩ <;> exact kind_of (by decide)
    refine ⟨?_, _, rfl, fun m rest hm => ?_⟩
    · rw [e1]
      exact begins_directive f hk (by simp) e2 e3
    · have hb : body E (seq E m) (conditional E m) tr un st (.cond k) (ts ++ [.separator] ++ rest) = .ok c st' (.separator :: rest) := by
        rw [List.append_assoc]
        exact ih m (.separator :: rest) (by simp only [List.length_cons, List.length_append] at hm; omega)
      subst e1
      exact command_directive hk (by simp) e2 hb
  | @condition tr un st k ts c r us thn st' vs els st'' hc hl _ _ ih1 ih2 =>
    obtain ⟨⟨t, q, e1, e2, e3⟩, c0, hv, hat, hcr⟩ := condition_reads hc
    obtain ⟨⟨z, w, ev, hz⟩, ih2⟩ := ih2
    refine ⟨⟨t, q ++ .separator :: (us ++ vs), by rw [e1]; rfl, e2, e3⟩, _, rfl, fun m rest hm => ?_⟩
    obtain ⟨m, rfl⟩ : ∃ j, m = j + 1 := ⟨m - 1, by omega⟩
    simp only [List.length_cons, List.length_append] at hm
    have hvl : 0 < vs.length := by rw [ev]; simp
    have hs := ih1.2 m elseNames (vs ++ rest) (by omega) (elseNames_eq ▸ ends_of _ (by decide) false) (Or.inr ⟨z, w ++ rest, by rw [ev]; rfl, hz⟩)
    have he := ih2 m rest (by omega)
    rw [List.append_assoc, List.cons_append, List.append_assoc]
    unfold conditional
    rw [hcr]
    dsimp only
    rw [if_neg (by simp [peek, next])]
    show (match seq E m _ _ elseNames st (us ++ (vs ++ rest)) with
        | .ok thn st r =>
          match elsePart (seq E m) (conditional E m) _ _ st r with
          | .ok els st r => decided c0 _ thn els st r
          | .null a b => .null a b
          | .err => .err
          | .outside => .outside
        | .null a b => .null a b
        | .err => .err
        | .outside => .outside) = _
    rw [hs]
    dsimp only
    rw [he]
    exact decided_selected rest hv (hat _ hl)
  | endif =>
    refine ⟨⟨_, _, rfl, by unfold elseNames; simp⟩, fun m rest _ => ?_⟩
    have e1 : lit ".endif" ≠ lit ".else" := by decide +kernel
    have e2 : lit ".endif" ≠ lit ".elseif" := by decide +kernel
    have e3 : lit ".endif" ≠ lit ".elseifdef" := by decide +kernel
    have e4 : lit ".endif" ≠ lit ".elseifndef" := by decide +kernel
    unfold elsePart
    simp [peek, next, e1, e2, e3, e4]
  | @else_ tr un st us l st' _ ih =>
    refine ⟨⟨_, _, rfl, by unfold elseNames; simp⟩, fun m rest hm => ?_⟩
    have hs := ih.2 m [lit ".endif"] (.ident (lit ".endif") :: rest) (by simp only [List.length_cons, List.length_append, List.length_nil] at hm; omega)
      (ends_of [".endif"] (by decide) false) (Or.inr ⟨_, _, rfl, by simp⟩)
    unfold elsePart
    simp only [peek, next, List.cons_append, List.append_assoc, List.nil_append]
    rw [if_pos trivial, hs]
  | elseif hn _ ih => exact elseif_reads hn ih

/-! ### What comes behind -/

/-- Behind statements the reader goes on with what follows. -/
def Continues (E : Env ι) : Part → Bool → Bool → St → List Tok → List (Stmt ι) → St → Prop
  | .seq f, tr, un, st, ts, l, st' => ∀ n terms rest, ts.length < n → Ends f terms → rest.head? ≠ some .equ →
      ∃ m, n - ts.length ≤ m ∧ (∀ l2 st2 r2, seq E m tr un terms st' rest = .ok l2 st2 r2 → seq E n tr un terms st (ts ++ rest) = .ok (l ++ l2) st2 r2) ∧
        (seq E m tr un terms st' rest = .err → seq E n tr un terms st (ts ++ rest) = .err)
  | _, _, _, _, _, _, _ => True

theorem seq_cmd_err {E : Env ι} {n : Nat} {tr un : Bool} {terms : List Str} {st : St} {name : Str} {ts : List Tok} {c : Stmt ι} {st' : St} {r : List Tok}
    (h1 : name ∉ terms) (h2 : isDefinition (.ident name :: ts) = false)
    (h3 : command E (seq E n) (conditional E n) tr un st (.ident name :: ts) = .ok c st' r) (h4 : seq E n tr un terms st' r = .err) :
    seq E (n + 1) tr un terms st (.ident name :: ts) = .err := by
  show (if terms.contains name = true then _ else if isDefinition (.ident name :: ts) = true then _ else _) = _
  rw [if_neg (by simpa using h1), h2, if_neg (by simp), h3]
  dsimp only
  rw [h4]

/-- A statement that is refused. -/
theorem seq_cmd_bad {E : Env ι} {n : Nat} {tr un : Bool} {terms : List Str} {st : St} {name : Str} {ts : List Tok}
    (h1 : name ∉ terms) (h2 : isDefinition (.ident name :: ts) = false)
    (h3 : command E (seq E n) (conditional E n) tr un st (.ident name :: ts) = .err) : seq E (n + 1) tr un terms st (.ident name :: ts) = .err := by
  show (if terms.contains name = true then _ else if isDefinition (.ident name :: ts) = true then _ else _) = _
  rw [if_neg (by simpa using h1), h2, if_neg (by simp), h3]

theorem text_continues {E : Env ι} {I : St → List Tok → ι → St → Prop} (hI : Instructions E I) {p : Part} {tr un : Bool} {st : St} {ts : List Tok}
    {l : List (Stmt ι)} {st' : St} (h : Text E I p tr un st ts l st') : Continues E p tr un st ts l st' := by
  induction h with
  | nil => exact fun n terms rest _ _ _ => ⟨n, by simp, fun l2 st2 r2 h => h, fun h => h⟩
  | sep _ ih =>
    intro n terms rest hn he hr
    obtain ⟨n, rfl⟩ : ∃ k, n = k + 1 := ⟨n - 1, by omega⟩
    simp only [List.length_cons] at hn
    obtain ⟨m, hm, h1, h2⟩ := ih n terms rest (by omega) he hr
    exact ⟨m, by simp only [List.length_cons]; omega, h1, h2⟩
  | @cons f tr un st ts c st' us l st'' hc hs _ ih2 =>
    obtain ⟨⟨name, vs, rfl, h1, h2, h3⟩, c', ec, h4⟩ := text_reads hI hc
    cases ec
    have hu := (text_reads hI hs).1
    intro n terms rest hn he hr
    obtain ⟨n, rfl⟩ : ∃ k, n = k + 1 := ⟨n - 1, by omega⟩
    simp only [List.length_cons, List.length_append] at hn
    have hh : (us ++ rest).head? ≠ some .equ := by
      cases us with
      | nil => exact hr
      | cons u us => exact hu
    obtain ⟨m, hm, k1, k2⟩ := ih2 n terms rest (by omega) he hr
    have hcmd := h4 n (us ++ rest) (by simp only [List.length_cons]; omega)
    refine ⟨m, by simp only [List.length_cons, List.length_append]; omega, fun l2 st2 r2 h => ?_, fun h => ?_⟩
    · have := seq_cmd (begins_not_end h1 h2 he) (h3 _ hh) hcmd (k1 l2 st2 r2 h)
      rw [List.append_assoc]
      cases tr <;> exact this
    · rw [List.append_assoc, List.cons_append]
      exact seq_cmd_err (begins_not_end h1 h2 he) (h3 _ hh) hcmd (k2 h)
  | @functions tr un st n m us c st' z vs l st'' hn hm hb hz hs _ ih2 =>
    have ih1 := text_reads hI hb
    intro k terms rest hk he hr
    obtain ⟨k, rfl⟩ : ∃ j, k = j + 1 := ⟨k - 1, by omega⟩
    simp only [List.length_cons, List.length_append] at hk
    have hs := ih1.2 k _ (.ident (lit z) :: (vs ++ rest)) (by omega) func_ends
      (Or.inr ⟨_, _, rfl, by simp only [funcs, List.mem_cons, List.not_mem_nil, or_false] at hz; rcases hz with rfl | rfl <;> simp⟩)
    have hc := function_command (E := E) (cd := conditional E k) hn hm hs
    rw [if_neg (end_not_func z hz)] at hc
    have hnt : lit n ∉ terms := begins_not_end (f := false) (func_not_closer n hn) (by simp) he
    have hd := not_definition (ts := .separator :: (us ++ .ident (lit z) :: (vs ++ rest))) (t := .ident m) (func_not_closer n hn) (by simp) (by simp)
    obtain ⟨j, hj, k1, k2⟩ := ih2 k terms rest (by simp only [List.length_cons]; omega) he hr
    refine ⟨j, by simp only [List.length_cons, List.length_append] at hj ⊢; omega, fun l2 st2 r2 h => ?_, fun h => ?_⟩
    · have := seq_cmd hnt hd hc (k1 l2 st2 r2 h)
      cases tr <;> simpa using this
    · simpa using seq_cmd_err hnt hd hc (k2 h)
  | _ => trivial

/-- At the end of the file a block that is open is refused. -/
theorem unclosed {E : Env ι} {I : St → List Tok → ι → St → Prop} (hI : Instructions E I) {f tr un : Bool} {st : St} {ts : List Tok} {l : List (Stmt ι)} {st' : St}
    (h : Text E I (.seq f) tr un st ts l st') {n : Nat} {terms : List Str} (hn : ts.length < n) (he : Ends f terms) (ht : terms ≠ []) :
    seq E n tr un terms st ts = .err := by
  obtain ⟨m, hm, -, h2⟩ := text_continues hI h n terms [] hn he (by simp)
  rw [List.append_nil] at h2
  obtain ⟨m, rfl⟩ : ∃ k, m = k + 1 := ⟨m - 1, by omega⟩
  exact h2 (by show (if terms = [] then _ else _) = _; rw [if_neg ht])

/-- One step of a block that is read. -/
theorem seq_step {E : Env ι} {n : Nat} {tr un : Bool} {terms : List Str} {st : St} {ts : List Tok} {l : List (Stmt ι)} {st' : St} {r : List Tok}
    (h : seq E (n + 1) tr un terms st ts = .ok l st' r) :
    (ts = [] ∧ terms = [] ∧ l = [] ∧ r = []) ∨ (∃ ts', ts = .separator :: ts' ∧ seq E n tr un terms st ts' = .ok l st' r) ∨
      (∃ z s, ts = .ident z :: s ∧ z ∈ terms ∧ l = [] ∧ r = ts) ∨
      ∃ c s1 r1 l2, command E (seq E n) (conditional E n) tr un st ts = .ok c s1 r1 ∧ seq E n tr un terms s1 r1 = .ok l2 st' r ∧
        l = if tr then c :: l2 else l2 := by
  unfold seq at h
  split at h
  · split at h
    · next hterms => cases h; exact Or.inl ⟨rfl, hterms, rfl, rfl⟩
    · cases h
  · exact Or.inr (Or.inl ⟨_, rfl, h⟩)
  · next t ts' _ =>
    refine Or.inr (Or.inr ?_)
    by_cases hb : isEnd terms t = true
    · rw [if_pos hb] at h
      cases h
      cases t with
      | ident z => exact Or.inl ⟨z, _, rfl, by simpa [isEnd] using hb, rfl, rfl⟩
      | _ => cases hb
    · rw [if_neg hb] at h
      by_cases hd : isDefinition (t :: ts') = true
      · rw [if_pos hd] at h; cases h
      · rw [if_neg hd] at h
        cases hc : command E (seq E n) (conditional E n) tr un st (t :: ts') with
        | ok c s1 r1 =>
          rw [hc] at h
          dsimp only at h
          cases hs : seq E n tr un terms s1 r1 with
          | ok l2 s2 r2 =>
            rw [hs] at h
            cases h
            exact Or.inr ⟨c, s1, r1, l2, rfl, hs, rfl⟩
          | _ => rw [hs] at h; cases h
        | _ => rw [hc] at h; cases h

/-- Blocks that count for nothing give no statements. -/
theorem seq_false (E : Env ι) : ∀ (n : Nat) (un : Bool) (terms : List Str) (st : St) (ts : List Tok) (l : List (Stmt ι)) (st' : St) (r : List Tok),
    seq E n false un terms st ts = .ok l st' r → l = []
  | 0, _, _, _, _, _, _, _, h => by cases h
  | n + 1, un, terms, st, ts, l, st', r, h => by
    rcases seq_step h with ⟨-, -, h, -⟩ | ⟨_, -, h⟩ | ⟨_, _, -, -, h, -⟩ | ⟨_, _, _, _, -, h, rfl⟩
    · exact h
    · exact seq_false E n _ _ _ _ _ _ _ h
    · exact h
    · exact seq_false E n _ _ _ _ _ _ _ h

/-- Without names at which it ends a block ends with the file. -/
theorem seq_all (E : Env ι) : ∀ (n : Nat) (tr un : Bool) (st : St) (ts : List Tok) (l : List (Stmt ι)) (st' : St) (r : List Tok),
    seq E n tr un [] st ts = .ok l st' r → r = []
  | 0, _, _, _, _, _, _, _, h => by cases h
  | n + 1, tr, un, st, ts, l, st', r, h => by
    rcases seq_step h with ⟨-, -, -, h⟩ | ⟨_, -, h⟩ | ⟨_, _, -, h, -, -⟩ | ⟨_, _, _, _, -, h, -⟩
    · exact h
    · exact seq_all E n _ _ _ _ _ _ _ h
    · cases h
    · exact seq_all E n _ _ _ _ _ _ _ h

/-- Otherwise it ends before one of them. -/
theorem seq_closed (E : Env ι) {terms : List Str} (ht : terms ≠ []) : ∀ (n : Nat) (tr un : Bool) (st : St) (ts : List Tok) (l : List (Stmt ι)) (st' : St)
    (r : List Tok), seq E n tr un terms st ts = .ok l st' r → ∃ z s, r = .ident z :: s ∧ z ∈ terms
  | 0, _, _, _, _, _, _, _, h => by cases h
  | n + 1, tr, un, st, ts, l, st', r, h => by
    rcases seq_step h with ⟨-, h, -, -⟩ | ⟨_, -, h⟩ | ⟨z, s, h1, h, -, h2⟩ | ⟨_, _, _, _, -, h, -⟩
    · exact absurd h ht
    · exact seq_closed E ht n _ _ _ _ _ _ _ h
    · exact ⟨z, s, h2.trans h1, h⟩
    · exact seq_closed E ht n _ _ _ _ _ _ _ h

/-! ### Refused programs -/

theorem command_directive_err {E : Env ι} {sq : SeqP ι} {cd : CondP ι} {tr un : Bool} {st : St} {n : Str} {k : Kind} {t : Tok} {ts : List Tok}
    (hk : kindOf E st n = some k) (hf : k ≠ .function) (ht : t ≠ .colon) (hb : body E sq cd tr un st k (t :: ts) = .err) :
    command E sq cd tr un st (.ident n :: t :: ts) = .err := by
  show (if peek (t :: ts) = .colon then _ else _) = _
  rw [if_neg (show ¬ peek (t :: ts) = .colon from ht), hk]
  show (if k = .function then _ else _) = _
  rw [if_neg hf, hb]

theorem opens_length {E : Env ι} {I : St → List Tok → ι → St → Prop} {f tr un : Bool} {st : St} {os : List Tok} {g tr' un' : Bool} {st' : St}
    (h : Opens E I f tr un st os g tr' un' st') : ∃ n us, os = .ident n :: us := by
  cases h <;> exact ⟨_, _, rfl⟩

/-- A block that is refused is refused with what opens it. -/
theorem opens_err {E : Env ι} {I : St → List Tok → ι → St → Prop} (hI : Instructions E I) {f tr un : Bool} {st : St} {os : List Tok} {g tr' un' : Bool} {st' : St}
    (h : Opens E I f tr un st os g tr' un' st') {vs : List Tok} (hh : vs.head? ≠ some .equ)
    (hv : ∀ n terms, vs.length < n → Ends g terms → terms ≠ [] → seq E n tr' un' terms st' vs = .err)
    {n : Nat} {terms : List Str} (hn : os.length + vs.length < n) (he : Ends f terms) : seq E n tr un terms st (os ++ vs) = .err := by
  obtain ⟨n, rfl⟩ : ∃ k, n = k + 1 := ⟨n - 1, by omega⟩
  cases h with
  | @area _ _ _ _ n' es ts hn' hp hl =>
    have hk : ∃ sh, kindOf E st (lit n') = some (.area sh) := by
      simp only [List.mem_cons, List.not_mem_nil, or_false] at hn'
      rcases hn' with rfl | rfl
      · exact ⟨false, kind_of (by decide)⟩
      · exact ⟨true, kind_of (by decide)⟩
    obtain ⟨sh, hk⟩ := hk
    obtain ⟨t, r, e1, h1, h2, -⟩ := params_begin hp
    simp only [List.length_cons, List.length_append, List.length_nil] at hn
    obtain ⟨n, rfl⟩ : ∃ k, n = k + 1 := ⟨n - 1, by omega⟩
    have hb : body E (seq E (n + 1)) (conditional E (n + 1)) tr un st (.area sh) (ts ++ [.separator] ++ vs) = .err := by
      rw [List.append_assoc]
      unfold body
      dsimp only
      rw [show ts ++ ([.separator] ++ vs) = ts ++ .separator :: vs from rfl,
        exprs_read hp 1 (some 2) (by obtain ⟨l, hl, -, rfl, -⟩ := hp; cases l <;> simp_all) (by rintro _ ⟨⟩; exact hl) _]
      cases es with
      | nil => rfl
      | cons e es =>
        dsimp only
        rw [seq_separator, hv n [lit ".endarea", lit ".endregion"] (by omega) (ends_of [".endarea", ".endregion"] (by decide) false) (by simp)]
    subst e1
    exact seq_cmd_bad (begins_not_end (kind_begins hk).1 (fun _ => (kind_begins hk).2 (by simp)) he) (not_definition (kind_begins hk).1 h1 h2)
      (command_directive_err hk (by simp) h1 hb)
  | auto =>
    have hk := kind_auto E st
    simp only [List.length_cons, List.length_nil] at hn
    obtain ⟨n, rfl⟩ : ∃ k, n = k + 1 := ⟨n - 1, by omega⟩
    have hb : body E (seq E (n + 1)) (conditional E (n + 1)) tr un st .autoRegion (.separator :: vs) = .err := by
      unfold body
      dsimp only
      rw [if_pos (peek_sep _)]
      dsimp only
      rw [seq_separator, hv n [lit ".endautoregion"] (by omega) (ends_of [".endautoregion"] (by decide) false) (by simp)]
    exact seq_cmd_bad (begins_not_end (kind_begins hk).1 (fun _ => (kind_begins hk).2 (by simp)) he) (not_definition (kind_begins hk).1 (by simp) (by simp))
      (command_directive_err hk (by simp) (by simp) hb)
  | @autoRange _ _ _ _ es ts hp hl =>
    have hk := kind_auto E st
    obtain ⟨t, r, e1, h1, h2, h3⟩ := params_begin hp
    simp only [List.length_cons, List.length_append, List.length_nil] at hn
    obtain ⟨n, rfl⟩ : ∃ k, n = k + 1 := ⟨n - 1, by omega⟩
    have hb : body E (seq E (n + 1)) (conditional E (n + 1)) tr un st .autoRegion (ts ++ [.separator] ++ vs) = .err := by
      rw [List.append_assoc]
      unfold body
      dsimp only
      rw [show ts ++ ([.separator] ++ vs) = ts ++ .separator :: vs from rfl, if_neg (by rw [e1]; exact h3),
        exprs_read hp 0 (some 2) (by omega) (by rintro _ ⟨⟩; exact hl) _]
      dsimp only
      rw [seq_separator, hv n [lit ".endautoregion"] (by omega) (ends_of [".endautoregion"] (by decide) false) (by simp)]
    subst e1
    exact seq_cmd_bad (begins_not_end (kind_begins hk).1 (fun _ => (kind_begins hk).2 (by simp)) he) (not_definition (kind_begins hk).1 h1 h2)
      (command_directive_err hk (by simp) h1 hb)
  | @function _ _ _ n' m hn' hm =>
    simp only [List.length_cons, List.length_nil] at hn
    refine seq_cmd_bad (begins_not_end (f := false) (func_not_closer n' hn') (by simp) he) (not_definition (func_not_closer n' hn') (by simp) (by simp)) ?_
    have hk := kind_func E st hn'
    show command E _ _ tr un st (.ident (lit n') :: .ident m :: .separator :: vs) = _
    unfold command
    dsimp only
    rw [if_neg (show ¬ peek (.ident m :: .separator :: vs) = .colon by simp [peek, next]), hk]
    dsimp only
    unfold directive
    rw [if_pos rfl]
    unfold function
    dsimp only
    rw [name_valid hm, if_pos rfl, bump_eq, hv n _ (by omega) func_ends (by simp)]
  | @cond _ _ _ _ n' k ts c r hn' hc =>
    have hk : kindOf E st (lit n') = some (.cond k) := by
      simp only [List.mem_cons, Prod.mk.injEq, List.not_mem_nil, or_false] at hn'
      rcases hn' with ⟨rfl, rfl⟩ | ⟨rfl, rfl⟩ | ⟨rfl, rfl⟩ <;> exact kind_of (by decide)
    obtain ⟨⟨t, q, e1, e2, e3⟩, c0, -, -, hcr⟩ := condition_reads hc
    simp only [List.length_cons, List.length_append, List.length_nil] at hn
    obtain ⟨n, rfl⟩ : ∃ k, n = k + 1 := ⟨n - 1, by omega⟩
    have hb : body E (seq E (n + 1)) (conditional E (n + 1)) tr un st (.cond k) (ts ++ [.separator] ++ vs) = .err := by
      rw [List.append_assoc]
      show conditional E (n + 1) tr un st k (ts ++ .separator :: vs) = .err
      unfold conditional
      rw [hcr]
      dsimp only
      rw [if_neg (by simp [peek, next])]
      show (match seq E n _ _ elseNames st vs with
        | .ok thn st r => _
        | .null a b => _
        | .err => R.err
        | .outside => _) = _
      rw [hv n elseNames (by omega) (elseNames_eq ▸ ends_of _ (by decide) false) (by rw [elseNames_eq]; simp)]
    subst e1
    exact seq_cmd_bad (begins_not_end (kind_begins hk).1 (fun _ => (kind_begins hk).2 (by simp)) he) (not_definition (kind_begins hk).1 e2 e3)
      (command_directive_err hk (by simp) e2 hb)
  | @else_ _ _ _ _ n' k ts c r us l st' hn' hc ht =>
    have hk : kindOf E st (lit n') = some (.cond k) := by
      simp only [List.mem_cons, Prod.mk.injEq, List.not_mem_nil, or_false] at hn'
      rcases hn' with ⟨rfl, rfl⟩ | ⟨rfl, rfl⟩ | ⟨rfl, rfl⟩ <;> exact kind_of (by decide)
    obtain ⟨⟨t, q, e1, e2, e3⟩, c0, -, -, hcr⟩ := condition_reads hc
    simp only [List.length_cons, List.length_append, List.length_nil] at hn
    obtain ⟨n, rfl⟩ : ∃ k, n = k + 1 := ⟨n - 1, by omega⟩
    have hs := (text_reads hI ht).2 n elseNames (.ident (lit ".else") :: vs) (by omega) (elseNames_eq ▸ ends_of _ (by decide) false)
      (Or.inr ⟨_, _, rfl, by unfold elseNames; simp⟩)
    have hb : body E (seq E (n + 1)) (conditional E (n + 1)) tr un st (.cond k) (ts ++ .separator :: (us ++ [.ident (lit ".else")]) ++ vs) = .err := by
      rw [List.append_assoc, List.cons_append, List.append_assoc]
      show conditional E (n + 1) tr un st k (ts ++ .separator :: (us ++ .ident (lit ".else") :: vs)) = .err
      unfold conditional
      rw [hcr]
      dsimp only
      rw [if_neg (by simp [peek, next])]
      show (match seq E n _ _ elseNames st (us ++ .ident (lit ".else") :: vs) with
        | .ok thn st r =>
          match elsePart (seq E n) (conditional E n) _ _ st r with
          | .ok els st r => decided c0 _ thn els st r
          | .null a b => .null a b
          | .err => .err
          | .outside => .outside
        | .null a b => .null a b
        | .err => R.err
        | .outside => .outside) = _
      rw [hs]
      dsimp only
      have : elsePart (seq E n) (conditional E n) (tr && r != some true) (un || r.isNone) st' (.ident (lit ".else") :: vs) = .err := by
        unfold elsePart
        simp only [peek, next]
        rw [if_pos trivial, hv n [lit ".endif"] (by omega) (ends_of [".endif"] (by decide) false) (by simp)]
      rw [this]
    subst e1
    exact seq_cmd_bad (begins_not_end (kind_begins hk).1 (fun _ => (kind_begins hk).2 (by simp)) he) (not_definition (kind_begins hk).1 e2 e3)
      (command_directive_err hk (by simp) e2 hb)

theorem opens_head {E : Env ι} {I : St → List Tok → ι → St → Prop} {f tr un : Bool} {st : St} {os : List Tok} {g tr' un' : Bool} {st' : St}
    (h : Opens E I f tr un st os g tr' un' st') (vs : List Tok) : (os ++ vs).head? ≠ some .equ := by
  obtain ⟨n, us, rfl⟩ := opens_length h
  simp

theorem openText_head {E : Env ι} {I : St → List Tok → ι → St → Prop} (hI : Instructions E I) {f tr un : Bool} {st : St} {ts : List Tok}
    (h : OpenText E I f tr un st ts) : ts.head? ≠ some .equ := by
  have key : ∀ {us : List Tok} {l : List (Stmt ι)} {st' : St} {os : List Tok}, Text E I (.seq f) tr un st us l st' → os.head? ≠ some .equ →
      (us ++ os).head? ≠ some .equ := by
    intro us l st' os ht ho
    cases us with
    | nil => exact ho
    | cons u us => exact (text_reads hI ht).1
  cases h with
  | last ht ho _ => exact key ht (opens_head ho _)
  | more ht ho _ => exact key ht (opens_head ho _)

/-- A text with an open block is refused. -/
theorem openText_err {E : Env ι} {I : St → List Tok → ι → St → Prop} (hI : Instructions E I) {f tr un : Bool} {st : St} {ts : List Tok}
    (h : OpenText E I f tr un st ts) : ∀ n terms, ts.length < n → Ends f terms → seq E n tr un terms st ts = .err := by
  induction h with
  | last ht ho hv =>
    intro n terms hn he
    simp only [List.length_append] at hn
    obtain ⟨m, hm, -, h2⟩ := text_continues hI ht n terms _ (by omega) he (opens_head ho _)
    exact h2 (opens_err hI ho (text_reads hI hv).1 (fun n terms hn he ht => unclosed hI hv hn he ht) (by omega) he)
  | more ht ho hv ih =>
    intro n terms hn he
    simp only [List.length_append] at hn
    obtain ⟨m, hm, -, h2⟩ := text_continues hI ht n terms _ (by omega) he (opens_head ho _)
    exact h2 (opens_err hI ho (openText_head hI hv) (fun n terms hn he _ => ih n terms hn he) (by omega) he)

theorem withExprs_refuse {E : Env ι} {st : St} {es : List Expr} {ts : List Tok} (hp : Params (E.expr st) es ts) (min max : Nat)
    (hb : es.length < min ∨ max < es.length) (f : List Expr → Option Leaf) (rest : List Tok) :
    withExprs E st min (some max) (ts ++ .separator :: rest) f = .err := by
  unfold withExprs
  rw [exprs_refuse hp min (some max) (by rcases hb with h | h; exact Or.inl h; exact Or.inr ⟨_, rfl, h⟩) rest]

/-- A wrong number of parameters. -/
theorem arity_err {E : Env ι} (hm : E.memoryMode = false) {st : St} {n : String} {min max : Nat} (hn : (n, min, max) ∈ Spec.Directive.arities)
    {es : List Expr} {ts : List Tok} (hp : Params (E.expr st) es ts) (hb : es.length < min ∨ max < es.length) :
    ∃ k, kindOf E st (lit n) = some k ∧ k ≠ .function ∧ ∀ (sq : SeqP ι) (cd : CondP ι) (tr un : Bool) (rest : List Tok),
      body E sq cd tr un st k (ts ++ .separator :: rest) = .err := by
  have bl : ∀ {k : Kind} (sq : SeqP ι) (cd : CondP ι) (tr un : Bool) (r : List Tok), k.isBlock = false → leaf E tr st k r = .err →
      body E sq cd tr un st k r = .err := by
    intro k sq cd tr un r hk h
    cases k <;> first | cases hk; done | (unfold body; dsimp only; rw [h])
  obtain ⟨t, r, e1, h1, h2, h3⟩ := params_begin hp
  have hr := fun rest => exprs_refuse hp min (some max) (by rcases hb with h | h; exact Or.inl h; exact Or.inr ⟨_, rfl, h⟩) rest
  have hpk : ∀ rest, peek (ts ++ .separator :: rest) ≠ .separator := by
    intro rest; rw [e1]; exact h3
  simp only [Spec.Directive.arities, List.mem_cons, Prod.mk.injEq, List.not_mem_nil, or_false] at hn
  rcases hn with hn | hn | hn | hn | hn | hn | hn | hn | hn | hn | hn | hn | hn | hn | hn | hn | hn | hn | hn | hn <;> obtain ⟨rfl, rfl, rfl⟩ := hn
  · exact ⟨.open_, kind_file st hm (by decide), by simp, fun sq cd tr un rest => bl _ _ _ _ _ rfl (by unfold leaf; exact withExprs_refuse hp _ _ hb _ rest)⟩
  · exact ⟨.open_, kind_file st hm (by decide), by simp, fun sq cd tr un rest => bl _ _ _ _ _ rfl (by unfold leaf; exact withExprs_refuse hp _ _ hb _ rest)⟩
  · exact ⟨.create, kind_file st hm (by decide), by simp, fun sq cd tr un rest => bl _ _ _ _ _ rfl (by unfold leaf; exact withExprs_refuse hp _ _ hb _ rest)⟩
  · exact ⟨.create, kind_file st hm (by decide), by simp, fun sq cd tr un rest => bl _ _ _ _ _ rfl (by unfold leaf; exact withExprs_refuse hp _ _ hb _ rest)⟩
  · exact ⟨.incbin, kind_of (by decide), by simp, fun sq cd tr un rest => bl _ _ _ _ _ rfl (by unfold leaf; exact withExprs_refuse hp _ _ hb _ rest)⟩
  · exact ⟨.incbin, kind_of (by decide), by simp, fun sq cd tr un rest => bl _ _ _ _ _ rfl (by unfold leaf; exact withExprs_refuse hp _ _ hb _ rest)⟩
  · exact ⟨.align .virtual, kind_of (by decide), by simp, fun sq cd tr un rest => bl _ _ _ _ _ rfl (by
      unfold leaf; dsimp only; rw [if_neg fun h => hpk rest h.2]; exact withExprs_refuse hp _ _ hb _ rest)⟩
  · exact ⟨.align .physical, kind_of (by decide), by simp, fun sq cd tr un rest => bl _ _ _ _ _ rfl (by
      unfold leaf; dsimp only; rw [if_neg fun h => hpk rest h.2]; exact withExprs_refuse hp _ _ hb _ rest)⟩
  · exact ⟨.align .fill, kind_of (by decide), by simp, fun sq cd tr un rest => bl _ _ _ _ _ rfl (by
      unfold leaf; dsimp only; rw [if_neg fun h => hpk rest h.2]; exact withExprs_refuse hp _ _ hb _ rest)⟩
  · exact ⟨.align .fill, kind_of (by decide), by simp, fun sq cd tr un rest => bl _ _ _ _ _ rfl (by
      unfold leaf; dsimp only; rw [if_neg fun h => hpk rest h.2]; exact withExprs_refuse hp _ _ hb _ rest)⟩
  · exact ⟨.skip, kind_of (by decide), by simp, fun sq cd tr un rest => bl _ _ _ _ _ rfl (by unfold leaf; exact withExprs_refuse hp _ _ hb _ rest)⟩
  · exact ⟨.table, kind_of (by decide), by simp, fun sq cd tr un rest => bl _ _ _ _ _ rfl (by unfold leaf; dsimp only; rw [hr])⟩
  · exact ⟨.table, kind_of (by decide), by simp, fun sq cd tr un rest => bl _ _ _ _ _ rfl (by unfold leaf; dsimp only; rw [hr])⟩
  · exact ⟨.defineArea true, kind_of (by decide), by simp, fun sq cd tr un rest => bl _ _ _ _ _ rfl (by unfold leaf; exact withExprs_refuse hp _ _ hb _ rest)⟩
  · exact ⟨.importObj, kind_of (by decide), by simp, fun sq cd tr un rest => bl _ _ _ _ _ rfl (by unfold leaf; exact withExprs_refuse hp _ _ hb _ rest)⟩
  · exact ⟨.importObj, kind_of (by decide), by simp, fun sq cd tr un rest => bl _ _ _ _ _ rfl (by unfold leaf; exact withExprs_refuse hp _ _ hb _ rest)⟩
  · exact ⟨.include, kind_of (by decide), by simp, fun sq cd tr un rest => bl _ _ _ _ _ rfl (by unfold leaf; exact withExprs_refuse hp _ _ hb _ rest)⟩
  · exact ⟨.area false, kind_of (by decide), by simp, fun sq cd tr un rest => by unfold body; dsimp only; rw [hr]⟩
  · exact ⟨.area true, kind_of (by decide), by simp, fun sq cd tr un rest => by unfold body; dsimp only; rw [hr]⟩
  · refine ⟨.autoRegion, kind_of (by decide), by simp, fun sq cd tr un rest => ?_⟩
    unfold body; dsimp only
    rw [if_neg (hpk rest), exprs_refuse hp 0 (some 2) (Or.inr ⟨_, rfl, by
      rcases hb with h | h
      · obtain ⟨l, hl, -, rfl, -⟩ := hp; cases l <;> simp_all
      · exact h⟩) rest]

end Armips.Directive
