import Verif.Lemmas.CommandLine
import Verif.Props.Tokenizer
import Verif.Props.Expand
/-!
# C74: the command line means what is written
-/
namespace Armips.Props
open Armips.CommandLine Armips.Spec.CommandLine Armips.Spec
open Armips.ExprParse (Tok)

/-- Arguments as the system passes them: bytes other than 0. -/
def Passed (args : List (List Char)) : Prop := ∀ a ∈ args, ∀ c ∈ a, 0 < c.toNat ∧ c.toNat < 256

/-- The text of a number, and the number modulo 2^64. -/
def Number (v : List Char) (n : BitVec 64) : Prop :=
  v ≠ [] ∧ (∀ c ∈ v, (digitValue c).isSome) ∧ ∃ k, Denotes v k ∧ n = BitVec.ofNat 64 k

theorem number_read {v : List Char} (h0 : v ≠ []) (hd : ∀ c ∈ v, (digitValue c).isSome) {k : Nat} (hk : Denotes v k) :
    StrInt.stringToInt v 0 v.length = .ok (BitVec.ofNat 64 k) (decide (2 ^ 63 ≤ k)) := by
  have := literal_accepted [] v [] k h0 hd (fun c hc => by cases hc) hk
  simpa using this

/-- C74. A command line is taken as what it says: the files, the switches, the equations and the labels. -/
theorem cli_read {W : World δ} {dir : δ} {items : List Item} {args : List (List Char)} {s : Settings δ} (hs : Says items args) (hc : Passed args)
    (hm : Means W dir Number items s) : parse W dir args = .ok s := by
  refine (parse_iff hs hc s).mpr { hm with labels := one_mono ?_ hm.labels }
  rintro d l ⟨h1, h2, h3, k, h4, h5⟩
  exact ⟨h1, _, by rw [h5]; exact number_read h2 h3 h4⟩

/-- C74. Nothing else is accepted: every command line that is accepted says something, and the settings are what it says. Texts of labels that are made
of letters and digits are numbers. -/
theorem cli_only {W : World δ} {dir : δ} {args : List (List Char)} {s : Settings δ} (hc : Passed args) (h : parse W dir args = .ok s) :
    ∃ items, Says items args ∧ Means W dir (fun v n => v ≠ [] ∧ ((∀ c ∈ v, (digitValue c).isSome) → Number v n)) items s := by
  have hl : ∃ t, loop W true { dir := dir } args = .ok t := by
    unfold parse at h
    cases hl : loop W true { dir := dir } args with
    | ok t => exact ⟨t, rfl⟩
    | ub => rw [hl] at h; cases h
    | refused => rw [hl] at h; cases h
  obtain ⟨t, ht⟩ := hl
  obtain ⟨items, hs⟩ := loop_ok_says W args _ _ ht
  have hm := (parse_iff hs hc s).mp h
  refine ⟨items, hs, { hm with labels := one_mono ?_ hm.labels }⟩
  rintro d l ⟨h1, o, h2⟩
  have h0 : d.2 ≠ [] := by
    intro h0
    rw [h0] at h2
    exact absurd h2 (by rw [show ([] : List Char).length = 0 from rfl, literal_empty_ub]; simp)
  refine ⟨h1, h0, fun hd => ⟨h0, hd, ?_⟩⟩
  by_cases hk : ∃ k, Denotes d.2 k
  · obtain ⟨k, hk⟩ := hk
    refine ⟨k, hk, ?_⟩
    rw [number_read h0 hd hk] at h2
    injection h2 with h2
    exact h2.symm
  · have := literal_rejected [] d.2 [] h0 hd (fun c hc => by cases hc) hk
    simp only [List.nil_append, List.append_nil, List.length_nil, Nat.zero_add] at this
    rw [this] at h2
    cases h2

/-- C74. No command line says two things. -/
theorem cli_unique {items items' : List Item} {args : List (List Char)} (h : Says items args) (h' : Says items' args) : items = items' :=
  says_unique items h h'

/-- C74. Without empty arguments nothing is read outside of the arguments. -/
theorem cli_inside {W : World δ} {dir : δ} {args : List (List Char)} (h : [] ∉ args) : parse W dir args ≠ .ub := by
  intro hp
  unfold parse at hp
  cases hl : loop W true { dir := dir } args with
  | ub => exact h (loop_inside W args _ hl)
  | refused => rw [hl] at hp; cases hp
  | ok s =>
    rw [hl] at hp
    dsimp only at hp
    split at hp
    · cases hp
    · split at hp <;> cases hp

/-- C74. The exit status is 0 only if the command line says what to do and doing it succeeds. -/
theorem cli_exit {W : World δ} {dir : δ} {assemble : Settings δ → Bool} {args : List (List Char)} (hc : Passed args)
    (h : exitStatus W dir assemble args = some 0) :
    ∃ items s, Says items args ∧ Means W dir (fun v n => v ≠ [] ∧ ((∀ c ∈ v, (digitValue c).isSome) → Number v n)) items s ∧ assemble s = true := by
  unfold exitStatus at h
  cases hp : parse W dir args with
  | ub => rw [hp] at h; cases h
  | refused => rw [hp] at h; simp at h
  | ok s =>
    rw [hp] at h
    obtain ⟨items, h1, h2⟩ := cli_only hc hp
    refine ⟨items, s, h1, h2, ?_⟩
    dsimp only at h
    cases ha : assemble s with
    | true => rfl
    | false => rw [ha] at h; simp at h

/-! ### Equations and labels -/

/-- The definitions `name equ value`, one after the other at the beginning of the first file. -/
def codeEqus (strtod : List Char → Option F64) (n : Nat) (S : Expand.State) (good : Bool) : List (Str × List Char) → Option (Expand.State × Bool)
  | [] => some (S, good)
  | (name, value) :: rest =>
    match valueToks strtod value with
    | none => none
    | some ts =>
      match Expand.equDirective n S ⟨0, 0⟩ name ts with
      | none => none
      | some none => codeEqus strtod n S false rest
      | some (some S') => codeEqus strtod n S' good rest

theorem small_lower {n : Str} (h : Expand.Small n) : n.map lower = n := by
  refine SymTab.map_lower_id n fun b hb => ?_
  have := h b hb
  unfold lower
  rw [if_neg this]

theorem cli_equs_from {strtod : List Char → Option F64} {n : Nat} (equs : List (Str × List Char)) : ∀ (S : Expand.State) (good : Bool),
    (∀ e ∈ equs, SymTab.isValidSymbolName e.1 = true ∧ Expand.Small e.1) → (equs.map (·.1)).Nodup →
    (∀ e ∈ equs, S.symbols.symbols (SymTab.key e.1 0 0) = none) → addEqus strtod n S good equs = codeEqus strtod n S good equs := by
  induction equs with
  | nil => intros; rfl
  | cons e equs ih =>
    intro S good hv hn hs
    obtain ⟨name, v⟩ := e
    rw [addEqus, codeEqus]
    rw [List.map_cons, List.nodup_cons] at hn
    cases valueToks strtod v with
    | none => rfl
    | some ts =>
      dsimp only
      have h1 := hv (name, v) (by simp)
      have h2 : S.symbols.symbolExists name 0 0 = false := by
        unfold SymTab.symbolExists
        rw [hs (name, v) (by simp)]
        simp
      have h3 : Expand.equDirective n S ⟨0, 0⟩ name ts = Expand.addEquation n S ⟨0, 0⟩ name ts := by
        unfold Expand.equDirective
        dsimp only at h1
        rw [h1.1, if_neg (by simp)]
        dsimp only
        rw [h2, if_neg (by simp)]
      rw [h3]
      have hv' : ∀ e ∈ equs, SymTab.isValidSymbolName e.1 = true ∧ Expand.Small e.1 := fun e he => hv e (by simp [he])
      cases ha : Expand.addEquation n S ⟨0, 0⟩ name ts with
      | none => rfl
      | some r =>
        cases r with
        | none => exact ih S false hv' hn.2 fun e he => hs e (by simp [he])
        | some S' =>
          refine ih S' good hv' hn.2 fun e he => ?_
          unfold Expand.addEquation at ha
          split at ha
          · cases ha
          · simp only [Option.some.injEq] at ha
            rw [← ha]
            dsimp only
            unfold SymTab.addEquation
            dsimp only at h1
            rw [h1.1, if_neg (by simp), h2, if_neg (by simp)]
            dsimp only [SymTab.setSymbol]
            rw [if_neg]
            · exact hs e (by simp [he])
            · intro hk
              have hk' : e.1.map lower = name.map lower := congrArg SymbolKey.name hk
              rw [small_lower (hv' e he).2, small_lower h1.2] at hk'
              exact hn.1 (List.mem_map.mpr ⟨e, he, hk'⟩)
          · cases ha

/-- C74. Equations of the command line are the same as equations at the beginning of the program, if their names have no capital letters. -/
theorem cli_equs_as_code {W : World δ} {dir : δ} {args : List (List Char)} {s : Settings δ} (hp : parse W dir args = .ok s) (hc : Passed args)
    (hsm : ∀ e ∈ s.equs, Expand.Small e.1) (strtod : List Char → Option F64) (n : Nat) :
    addEqus strtod n {} true s.equs = codeEqus strtod n {} true s.equs := by
  obtain ⟨items, hs, hm⟩ := cli_only hc hp
  refine cli_equs_from s.equs {} true (fun e he => ⟨?_, hsm e he⟩) hm.equNames.1 fun e he => rfl
  refine (valid_name _ ?_).mpr (hm.equNames.2 e he)
  have he' := he
  rw [hm.equs] at he'
  obtain ⟨x, hx, rfl⟩ := List.mem_map.mp he'
  exact no_zero (hc _ (equation_mem hs hx))

/-- C74. The value of an equation made with `-strequ` is the text as one string, if there is no quotation mark, backslash or line end in it. -/
theorem cli_strequ {strtod : List Char → Option F64} {v : List Char} (hv : ∀ c ∈ v, c ≠ '"' ∧ c ≠ '\\' ∧ c ≠ '\n') :
    valueToks strtod ('"' :: v ++ ['"']) = some [.str (asBytes v), .separator] := by
  have hq : Tokenizer.Quoted v v := by
    clear strtod
    induction v with
    | nil => exact .nil
    | cons c v ih => exact .plain (hv c (by simp)).1 (hv c (by simp)).2.1 (ih fun x hx => hv x (by simp [hx]))
  have hl : ∀ l : List Char, (∀ c ∈ l, c ≠ '\n') → lines l = [l] := by
    intro l
    induction l with
    | nil => intro _; rfl
    | cons c l ih =>
      intro h
      rw [lines, if_neg (h c (by simp)), ih fun x hx => h x (by simp [hx])]
  have hh : Tokenizer.Holds strtod [('"' :: v ++ ['"'])] [.str (asBytes v), .separator] := by
    refine .line (by simp) ?_
    have := Tokenizer.Reads.token (strtod := strtod) (rest := []) (Tokenizer.Spells.string (l := []) hq) .last
    rw [List.append_nil] at this
    exact this
  unfold valueToks
  rw [hl, tokens_read_partial hh]
  intro c hc
  simp only [List.cons_append, List.mem_cons, List.mem_append, List.not_mem_nil, or_false] at hc
  rcases hc with rfl | hc | rfl
  · decide
  · exact (hv c hc).2.2
  · decide

theorem addEqus_symbols {strtod : List Char → Option F64} {n : Nat} (equs : List (Str × List Char)) : ∀ {S S' : Expand.State} {good good' : Bool},
    addEqus strtod n S good equs = some (S', good') → SymTab.WF S.symbols →
    SymTab.WF S'.symbols ∧ ∀ k r, S'.symbols.symbols k = some (.equation r) → S.symbols.symbols k = some (.equation r) ∨ ∃ e ∈ equs, k.name = e.1.map lower := by
  induction equs with
  | nil =>
    intro S S' good good' h hw
    cases h
    exact ⟨hw, fun k r hk => .inl hk⟩
  | cons e equs ih =>
    intro S S' good good' h hw
    obtain ⟨name, v⟩ := e
    rw [addEqus] at h
    split at h
    · cases h
    · split at h
      · cases h
      · obtain ⟨h1, h2⟩ := ih h hw
        refine ⟨h1, fun k r hk => ?_⟩
        rcases h2 k r hk with hk | ⟨e, he, hk⟩
        · exact .inl hk
        · exact .inr ⟨e, by simp [he], hk⟩
      · rename_i S1 ha
        unfold Expand.addEquation at ha
        split at ha
        · cases ha
        · simp only [Option.some.injEq] at ha
          subst ha
          obtain ⟨h1, h2⟩ := ih h (SymTab.addEquation_wf hw _ _ _ _).1
          refine ⟨h1, fun k r hk => ?_⟩
          rcases h2 k r hk with hk | ⟨e, he, hk⟩
          · dsimp only at hk
            unfold SymTab.addEquation at hk
            split at hk
            · exact .inl hk
            · split at hk
              · exact .inl hk
              · dsimp only [SymTab.setSymbol] at hk
                split at hk
                · rename_i hk'
                  exact .inr ⟨(name, v), by simp, by rw [hk']; rfl⟩
                · exact .inl hk
          · exact .inr ⟨e, by simp [he], hk⟩
        · cases ha

/-- C74. Before the program is read, every label of the command line that is not local is defined with its value, wherever it is looked up in the first
file, if no two names of labels and equations differ only in capital letters. -/
theorem cli_labels_defined {W : World δ} {dir : δ} {args : List (List Char)} {s : Settings δ} (hp : parse W dir args = .ok s) (hc : Passed args)
    {strtod : List Char → Option F64} {n : Nat} {S : Expand.State} {sec : Int} {good : Bool} (h : prepare strtod n s = some (S, sec, good))
    (hd : (s.labels.map fun l => l.1.map lower).Nodup) (he : ∀ l ∈ s.labels, ∀ e ∈ s.equs, l.1.map lower ≠ e.1.map lower)
    {name : Str} {v : BitVec 64} (hl : (name, v) ∈ s.labels) (hk : Sym.kind name ≠ .local_) (section_ : Int) :
    ∃ i l, S.symbols.getLabel name 0 section_ = (S.symbols, some i) ∧ S.symbols.labels[i]? = some l ∧ l.defined = true ∧ l.value = v.toInt := by
  obtain ⟨items, hs, hm⟩ := cli_only hc hp
  have hvalid : ∀ l ∈ s.labels, SymTab.isValidSymbolName l.1 = true := by
    intro l hl
    refine (valid_name _ ?_).mpr (hm.labelNames.2 l hl)
    obtain ⟨x, hx, h', -⟩ := one_mem hm.labels hl
    rw [h']
    exact no_zero (hc _ (definition_mem hs hx))
  unfold prepare at h
  split at h
  · cases h
  · rename_i S0 g hadd
    simp only [Option.some.injEq, Prod.mk.injEq] at h
    obtain ⟨rfl, rfl, rfl⟩ := h
    obtain ⟨hw, heq⟩ := addEqus_symbols _ hadd SymTab.wf_empty
    obtain ⟨s', i, l, h1, h2, h3, h4⟩ := addLabels_defines (s := 0) (defs := s.labels.map fun l => (l.1, l.2.toInt)) hw (by
        intro d hd
        obtain ⟨l, hl, rfl⟩ := List.mem_map.mp hd
        exact hvalid l hl) (by rw [List.map_map]; exact hd) (by
        intro d hd s r hk
        obtain ⟨l, hl, rfl⟩ := List.mem_map.mp hd
        rcases heq _ _ hk with hk | ⟨e, he', hk⟩
        · cases hk
        · exact he l hl e he' hk) (name, v.toInt) (List.mem_map.mpr ⟨(name, v), hl, rfl⟩)
    refine ⟨i, l, ?_, h2, h3, h4⟩
    have hkey : SymTab.key name 0 section_ = SymTab.key name 0 s' := by
      rw [SymTab.key_eq_iff]
      refine ⟨(SymTab.map_lower_eq_iff _ _).mp rfl, ?_⟩
      split
      · trivial
      · rfl
      · rename_i hk'; exact absurd hk' hk
    unfold SymTab.getLabel
    rw [hvalid _ hl]
    dsimp only [Bool.not_true, Bool.false_eq_true, if_false]
    rw [if_neg (by simp), hkey]
    dsimp only at h1
    rw [h1]

/-! ### Examples -/

/-- A file system in which all files are there. -/
def cliWorld : World (List Char) where
  enter d x := if x.isEmpty then none else some (d ++ '/' :: x)
  absolute d x := d ++ '/' :: x
  exists_ _ _ := true

/-- `-root src -sym2 a.sym -equ x 1 -strequ y t -definelabel z 0x10 -- -a.asm` -/
example : Says [.root "src".toList, .sym2 "a.sym".toList, .equ "x".toList "1".toList, .strequ "y".toList "t".toList, .label "z".toList "0x10".toList, .stat, .file "-a.asm".toList]
      (["-root", "src", "-sym2", "a.sym", "-equ", "x", "1", "-strequ", "y", "t", "-definelabel", "z", "0x10", "-stat", "--", "-a.asm"].map String.toList) ∧
    parse cliWorld [] (["-root", "src", "-sym2", "a.sym", "-equ", "x", "1", "-strequ", "y", "t", "-definelabel", "z", "0x10", "-stat", "--", "-a.asm"].map String.toList) =
      .ok { dir := "/src".toList, input := "/src/-a.asm".toList, sym := "a.sym".toList, symVersion := 2, showStats := true,
            equs := [(lit "x", "1".toList), (lit "y", "\"t\"".toList)], labels := [(lit "z", 16)] } := by
  refine ⟨.inr ⟨[.root "src".toList, .sym2 "a.sym".toList, .equ "x".toList "1".toList, .strequ "y".toList "t".toList, .label "z".toList "0x10".toList, .stat],
    ["-a.asm".toList], rfl, ?_, rfl⟩, by decide +kernel⟩
  intro i hi
  simp only [List.mem_cons, List.not_mem_nil, or_false] at hi
  rcases hi with rfl | rfl | rfl | rfl | rfl | rfl <;> trivial

/-- `-definelabel z 0x10 a.asm` and its meaning -/
example : Says [.label "z".toList "0x10".toList, .file "a.asm".toList] (["-definelabel", "z", "0x10", "a.asm"].map String.toList) ∧
    Passed (["-definelabel", "z", "0x10", "a.asm"].map String.toList) ∧
    Means cliWorld [] Number [.label "z".toList "0x10".toList, .file "a.asm".toList] { dir := [], input := "/a.asm".toList, labels := [(lit "z", 16)] } := by
  refine ⟨.inl ⟨?_, rfl⟩, by unfold Passed; decide, ⟨[], "a.asm".toList, rfl, by simp, by decide, rfl, rfl⟩, rfl, rfl, rfl, rfl, rfl, rfl, by simp, ?_, ?_⟩
  · intro i hi
    simp only [List.mem_cons, List.not_mem_nil, or_false] at hi
    rcases hi with rfl | rfl
    · trivial
    · show _ ≠ _; decide
  · refine .cons ⟨by decide, by decide, by decide, 16, ⟨16, ['1', '0'], .hexPrefix (.inl rfl), ?_⟩, rfl⟩ .nil
    exact .snoc (ds := ['1']) (n := 1) (c := '0') (d := 0) (.snoc (ds := []) (n := 0) (c := '1') (d := 1) .nil (by decide) (by decide)) (by decide) (by decide)
  · refine ⟨by simp, ?_⟩
    intro l hl
    simp only [List.mem_singleton] at hl
    subst hl
    exact ⟨[], chr 'z', [], .inl rfl, by decide, .inl (.inr (by decide)), by simp⟩

/-- `-equ x 1 -strequ y t -definelabel z 2 a.asm`: the names are small and differ. -/
example : ∃ s S sec, parse cliWorld [] (["-equ", "x", "1", "-strequ", "y", "t", "-definelabel", "z", "2", "a.asm"].map String.toList) = .ok s ∧
    prepare (fun _ => none) 9 s = some (S, sec, true) ∧ (∀ e ∈ s.equs, Expand.Small e.1) ∧ (s.labels.map fun l => l.1.map lower).Nodup ∧
    (∀ l ∈ s.labels, ∀ e ∈ s.equs, l.1.map lower ≠ e.1.map lower) ∧ (lit "z", 2) ∈ s.labels ∧ Sym.kind (lit "z") ≠ .local_ ∧
    S.values = [[.int 1], [.str (lit "t")]] :=
  ⟨{ dir := [], input := "/a.asm".toList, equs := [(lit "x", "1".toList), (lit "y", "\"t\"".toList)], labels := [(lit "z", 2)] }, _, _, by decide +kernel, rfl,
    by unfold Expand.Small; decide, by decide, by decide, by decide, by decide, rfl⟩

/-! ### Findings -/

/-- A value of `-definelabel` with a sign is taken for another number: -5 is -25. -/
theorem cli_negative_wrong : parse cliWorld [] (["-definelabel", "z", "-5", "a.asm"].map String.toList) =
    .ok { dir := [], input := "/a.asm".toList, labels := [(lit "z", BitVec.ofInt 64 (-25))] } := by decide +kernel

/-- An empty value of `-definelabel` is read outside of the text. -/
theorem cli_empty_value_wrong : parse cliWorld [] ["-definelabel".toList, "z".toList, [], "a.asm".toList] = .ub := by decide +kernel

/-- Names that differ in capital letters only are accepted; of two labels `z` and `Z`, the last value counts for both, without a message. -/
theorem cli_label_case_wrong : ∃ s S sec i l, parse cliWorld [] (["-definelabel", "z", "1", "-definelabel", "Z", "2", "a.asm"].map String.toList) = .ok s ∧
    prepare (fun _ => none) 9 s = some (S, sec, true) ∧ S.symbols.getLabel (lit "z") 0 0 = (S.symbols, some i) ∧ S.symbols.labels[i]? = some l ∧ l.value = 2 :=
  ⟨{ dir := [], input := "/a.asm".toList, labels := [(lit "z", 1), (lit "Z", 2)] }, _, 2, 0, { name := lit "z", value := 2, defined := true, section_ := 1 },
    by decide +kernel, rfl, rfl, rfl, rfl⟩

/-- A label with the name of an equation is dropped without a message. -/
theorem cli_label_equ_wrong : ∃ s S sec, parse cliWorld [] (["-equ", "z", "1", "-definelabel", "z", "2", "a.asm"].map String.toList) = .ok s ∧
    prepare (fun _ => none) 9 s = some (S, sec, true) ∧ S.symbols.labels = [] :=
  ⟨{ dir := [], input := "/a.asm".toList, equs := [(lit "z", "1".toList)], labels := [(lit "z", 2)] }, _, 0, by decide +kernel, rfl, rfl⟩

/-- Of two equations `x` and `X`, the second is dropped without a message; in a program it is refused. -/
theorem cli_equ_case_wrong : ∃ s S, parse cliWorld [] (["-equ", "x", "1", "-equ", "X", "2", "a.asm"].map String.toList) = .ok s ∧
    addEqus (fun _ => none) 9 {} true s.equs = some (S, true) ∧ (codeEqus (fun _ => none) 9 {} true s.equs).map (·.2) = some false ∧
    Expand.ticks S ⟨0, 0⟩ [] 3 (.at [] (Expand.fresh [.ident (lit "x")])) = .at [.int 1] [] :=
  ⟨{ dir := [], input := "/a.asm".toList, equs := [(lit "x", "1".toList), (lit "X", "2".toList)] }, _, by decide +kernel, rfl, by decide +kernel, by decide +kernel⟩

/-- An equation on the command line that comes back to its own name is accepted if the name has capital letters, and its use never ends. -/
theorem cli_equ_loop_wrong : ∃ s S, parse cliWorld [] (["-equ", "X", "x", "a.asm"].map String.toList) = .ok s ∧
    addEqus (fun _ => none) 9 {} true s.equs = some (S, true) ∧
    ∀ n, Expand.ticks S ⟨0, 0⟩ [] n (.at [] (Expand.fresh [.ident (lit "x")])) = .at [] (Expand.fresh [.ident (lit "x")]) := by
  refine ⟨{ dir := [], input := "/a.asm".toList, equs := [(lit "X", "x".toList)] }, _, by decide +kernel, rfl, ?_⟩
  generalize hS : Expand.State.mk _ _ = S
  have h1 : Expand.tick S ⟨0, 0⟩ [] (.at [] (Expand.fresh [.ident (lit "x")])) = .at [] (Expand.fresh [.ident (lit "x")]) := by subst hS; decide +kernel
  intro n
  induction n with
  | zero => rfl
  | succ n ih => rw [Expand.ticks, h1, ih]

/-- A quotation mark in the value of `-strequ` ends the string. -/
theorem cli_strequ_quote_wrong : valueToks (fun _ => none) ('"' :: "a\"b".toList ++ ['"']) = some [.str (lit "a"), .ident (lit "b"), .invalid, .separator] := by
  decide +kernel

/-- Two backslashes in the value of `-strequ` become one. -/
theorem cli_strequ_backslash_wrong : valueToks (fun _ => none) ('"' :: "a\\\\b".toList ++ ['"']) = some [.str (lit "a\\b"), .separator] := by
  decide +kernel

/-- Empty arguments before the name of the file are ignored. -/
theorem cli_empty_argument : parse cliWorld [] [[], "a.asm".toList] = .ok { dir := [], input := "/a.asm".toList } ∧
    parse cliWorld [] ["a.asm".toList, []] = .refused := by decide +kernel

end Armips.Props
