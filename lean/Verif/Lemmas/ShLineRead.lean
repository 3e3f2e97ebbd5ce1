import Verif.Lemmas.ShLine
/-!
# SuperH lines are read as the table says

Mnemonics, operands, and the search through the table.
-/
namespace Armips.ShLine
open ExprParse (Tok)
open Sh (Op Operands)
open ArmLine (goesOn)
open MipsParse (starter)
open Spec.Sh (Operand Entry manual toks)
open Spec.ShLine

/-! ### Mnemonics -/

theorem chr_inj {a b : Char} (ha : a.toNat < 256) (hb : b.toNat < 256) (h : chr a = chr b) : a = b := by
  have := congrArg BitVec.toNat h
  simp only [chr, BitVec.toNat_ofNat] at this
  rw [Nat.mod_eq_of_lt (by omega), Nat.mod_eq_of_lt (by omega)] at this
  exact Char.ext (UInt32.toNat_inj.1 this)

/-- A name of the table that a token fits is that of the token, or it goes on with `/`. -/
theorem decode_name : ∀ (enc a : List Char) (ts r : List Tok), '/' ∉ a → (∀ c ∈ a, c.toNat < 256) → (∀ c ∈ enc, c.toNat < 256) →
    decode enc (a.map chr) ts = some r →
    (enc = a ∧ r = ts) ∨ ∃ enc' n ts', enc = a ++ '/' :: enc' ∧ ts = .div :: .ident n :: ts' ∧ decode enc' n ts' = some r
  | [], [], ts, r, _, _, _, h => by
    simp only [List.map_nil, decode, Option.some.injEq] at h
    exact .inl ⟨rfl, h.symm⟩
  | [], _ :: _, ts, r, _, _, _, h => by simp [decode] at h
  | c :: enc, [], ts, r, _, _, _, h => by
    simp only [List.map_nil, decode] at h
    split at h
    · rename_i hc
      subst hc
      split at h
      · exact .inr ⟨_, _, _, rfl, rfl, h⟩
      · cases h
    · cases h
  | c :: enc, b :: a, ts, r, hs, ha, he, h => by
    simp only [List.map_cons, decode] at h
    split at h
    · cases h
    · split at h
      · rename_i hcb
        have := chr_inj (he c (by simp)) (ha b (by simp)) hcb
        subst this
        rcases decode_name enc a ts r (fun h => hs (by simp [h])) (fun x hx => ha x (by simp [hx])) (fun x hx => he x (by simp [hx])) h with
          ⟨rfl, rfl⟩ | ⟨enc', n, ts', rfl, rfl, h'⟩
        · exact .inl ⟨rfl, rfl⟩
        · exact .inr ⟨enc', n, ts', rfl, rfl, h'⟩
      · cases h

theorem decode_self : ∀ (a enc : List Char) (ts : List Tok), '/' ∉ a → decode (a ++ enc) (a.map chr) ts = decode enc [] ts
  | [], enc, ts, _ => by simp
  | c :: a, enc, ts, h => by
    simp only [List.cons_append, List.map_cons, decode]
    rw [if_neg (fun e => h (by simp [e])), if_pos trivial]
    exact decode_self a enc ts fun h' => h (by simp [h'])

theorem decode_slash (enc : List Char) (n : Str) (ts : List Tok) : decode ('/' :: enc) [] (.div :: .ident n :: ts) = decode enc n ts := by
  simp [decode]

/-- The parts of a mnemonic. -/
def parts (name : String) : List Char × Option (List Char) :=
  match name.toList.span (· ≠ '/') with
  | (a, _ :: b) => (a, some b)
  | (a, []) => (a, none)

theorem mnemonic_parts (name : String) : mnemonic name =
    match parts name with
    | (a, some b) => [.ident (a.map chr), .div, .ident (b.map chr)]
    | (a, none) => [.ident (a.map chr)] := by
  unfold mnemonic parts
  split <;> rename_i h <;> rw [h]

/-- The parts have no `/` and are the name. -/
def partsOk (name : String) : Bool :=
  match parts name with
  | (a, some b) => decide ('/' ∉ a) && decide ('/' ∉ b) && decide (name.toList = a ++ '/' :: b)
  | (a, none) => decide ('/' ∉ a) && decide (name.toList = a)

/-- The instructions with a constant for which there is a row without `#`. -/
def hashed : List Entry := manual.filter fun x => decide (.imm ∈ x.2.1 ∧ x.1 ≠ "trapa")

/-- What can be written: the manual, and constants without `#`. -/
def written : List Entry := manual ++ hashed.map fun x => (x.1, unhash x.2.1, x.2.2)

theorem manual_written {x : Entry} (h : x ∈ manual) : x ∈ written := List.mem_append_left _ h

theorem manual_parts : ∀ x ∈ written, partsOk x.1 = true ∧ ∀ c ∈ x.1.toList, c.toNat < 256 := by decide +kernel

theorem opcodes_ascii : ∀ op ∈ Sh.opcodes, ∀ c ∈ op.name.toList, c.toNat < 256 := by decide +kernel

/-- What is in front of `/` is the name of a branch. -/
theorem slash_rows : ∀ op ∈ Sh.opcodes, ∀ x ∈ written, (parts x.1).2 ≠ none → op.name.toList = (parts x.1).1 →
    op.encoding.toList = ['i', '8'] ∧ op.encoding.length = 2 ∧ op.has .freg = false := by decide +kernel

theorem slash_none (E : ExprParse.Env) {op : Op} (h : op.encoding.toList = ['i', '8'] ∧ op.encoding.length = 2 ∧ op.has .freg = false) (ts : List Tok) :
    parseParams E op (.div :: ts) = none := by
  obtain ⟨h1, h2, h3⟩ := h
  unfold parseParams
  rw [h1, h2, h3]
  simp [parseLoop, item, immediate_none E (t := .div) rfl]

/-- The rows whose name fits the mnemonic. -/
theorem row_fits (E : ExprParse.Env) {x : Entry} (hx : x ∈ written) {op : Op} (ho : op ∈ Sh.opcodes) {t : List Tok} (ht : ∀ l, t ≠ .div :: l) :
    row E (mnemonic x.1 ++ t) op = if op.name = x.1 then (parseParams E op t).map fun r => ((op, r.1), r.2) else none := by
  obtain ⟨hp, hc⟩ := manual_parts x hx
  have ha := opcodes_ascii op ho
  have hsl := slash_rows op ho x hx
  unfold partsOk at hp
  rw [mnemonic_parts]
  rcases hpp : parts x.1 with ⟨a, _ | b⟩
  · rw [hpp] at hp
    simp only [Bool.and_eq_true, decide_eq_true_eq] at hp
    obtain ⟨h1, h2⟩ := hp
    simp only [List.cons_append, List.nil_append, row, decodeOpcode]
    by_cases hn : op.name = x.1
    · rw [if_pos hn, hn, h2]
      have := decode_self a [] t h1
      rw [List.append_nil] at this
      rw [this]
      rfl
    · rw [if_neg hn]
      cases hd : decode op.name.toList (a.map chr) t with
      | none => rfl
      | some r =>
        exfalso
        rcases decode_name _ _ _ _ h1 (fun c h => hc c (by rw [h2]; exact h)) ha hd with ⟨h, -⟩ | ⟨_, _, _, -, h, -⟩
        · exact hn (String.toList_inj.1 (h.trans h2.symm))
        · exact ht _ h
  · rw [hpp] at hp hsl
    simp only [Bool.and_eq_true, decide_eq_true_eq] at hp
    obtain ⟨⟨h1, h2⟩, h3⟩ := hp
    simp only [List.cons_append, List.nil_append, row, decodeOpcode]
    by_cases hn : op.name = x.1
    · rw [if_pos hn, hn, h3, decode_self a _ _ h1, decode_slash]
      have := decode_self b [] t h2
      rw [List.append_nil] at this
      rw [this]
      rfl
    · rw [if_neg hn]
      cases hd : decode op.name.toList (a.map chr) (.div :: .ident (b.map chr) :: t) with
      | none => rfl
      | some r =>
        rcases decode_name _ _ _ _ h1 (fun c h => hc c (by rw [h3]; simp [h])) ha hd with ⟨h, rfl⟩ | ⟨enc', n, ts', he, ht', hd'⟩
        · simp only [slash_none E (hsl (by simp) h)]
          rfl
        · exfalso
          cases ht'
          rcases decode_name _ _ _ _ h2 (fun c h => hc c (by rw [h3]; simp [h])) (fun c h => ha c (by rw [he]; simp [h])) hd' with
            ⟨h, -⟩ | ⟨_, _, _, -, h, -⟩
          · subst h
            exact hn (String.toList_inj.1 (he.trans h3.symm))
          · exact ht _ h

/-! ### Operands -/

/-- Where an operand may stand. -/
def okOperand (im : Bool) (md : Mode) : Operand → Bool
  | .imm | .label => decide (md = .first)
  | .dispPc | .dispRn | .dispRm | .dispGbr | .idxRn | .idxRm | .idxGbr => decide (md = .first ∨ md = .later)
  | .decRn => decide (md = .later)
  | .ctl s => decide (s ∈ special) && decide (md ≠ .inner) && (decide (md ≠ .first) || !im)
  | _ => true

def okOperands (im : Bool) : Mode → List Operand → Bool
  | _, [] => true
  | md, x :: l => okOperand im md x && okOperands im .later l

theorem regName_zero : regName 0 = lit "r0" := by decide +kernel

theorem operand_sim {E : ExprParse.Env} {e : Expr} {es : List Tok} (he : Constant E e es) {n m : Nat} (hn : n < 16) (hm : m < 16) {rest : List Tok} {im : Bool}
    {md : Mode} {x : Operand} (hx : okOperand im md x = true) {a : List Sh.Tok} {h : Tok} {t : List Tok} (hg : goesOn h = false)
    (hs : Sim E rest im .after a (h :: t)) : Sim E rest im md (x.toks n m e ++ a) (operand n m es x ++ h :: t) := by
  have r0 : ∀ {md a t}, Sim E rest im .after a t → Sim E rest im md (.reg false 0 :: a) (.ident (lit "r0") :: t) := fun h => by
    rw [← regName_zero]
    exact .reg (n := 0) false (by omega) h
  have sp : ∀ {s a t}, s ∈ special → Sim E rest im .after a t → Sim E rest im .later (.ident s :: a) (.ident (lit s) :: t) := fun hs h =>
    .name hs (by simp) (by simp) h
  have disp : ∀ {b t'}, Sim E rest im .after b (.comma :: t') → (md = .first ∨ md = .later) →
      Sim E rest im md (.ident "@" :: .lpar :: .imm e :: b) (.ident (lit "@") :: .lparen :: (es ++ .comma :: t')) := fun h hmd =>
    .atParen hmd (.imm he (.inr rfl) rfl h)
  cases x with
  | imm =>
    simp only [okOperand, decide_eq_true_eq] at hx
    subst hx
    exact .hash (.imm he (.inr rfl) hg hs)
  | label =>
    simp only [okOperand, decide_eq_true_eq] at hx
    subst hx
    exact .imm he (.inl rfl) hg hs
  | rn => exact .reg false hn hs
  | rm => exact .reg false hm hs
  | r0 => exact r0 hs
  | atRn => exact .reg true hn hs
  | atRm => exact .reg true hm hs
  | decRn =>
    simp only [okOperand, decide_eq_true_eq] at hx
    subst hx
    exact .atMinus (.reg false hn hs)
  | incRm => exact .reg true hm (.plus hs)
  | incRn => exact .reg true hn (.plus hs)
  | dispPc =>
    simp only [okOperand, decide_eq_true_eq] at hx
    simpa [operand, Operand.toks] using disp (.comma (sp (by decide) (.rpar hs))) hx
  | dispRn =>
    simp only [okOperand, decide_eq_true_eq] at hx
    simpa [operand, Operand.toks, regText] using disp (.comma (.reg false hn (.rpar hs))) hx
  | dispRm =>
    simp only [okOperand, decide_eq_true_eq] at hx
    simpa [operand, Operand.toks, regText] using disp (.comma (.reg false hm (.rpar hs))) hx
  | dispGbr =>
    simp only [okOperand, decide_eq_true_eq] at hx
    simpa [operand, Operand.toks] using disp (.comma (sp (by decide) (.rpar hs))) hx
  | idxRn =>
    simp only [okOperand, decide_eq_true_eq] at hx
    exact .atParen hx (r0 (.comma (.reg false hn (.rpar hs))))
  | idxRm =>
    simp only [okOperand, decide_eq_true_eq] at hx
    exact .atParen hx (r0 (.comma (.reg false hm (.rpar hs))))
  | idxGbr =>
    simp only [okOperand, decide_eq_true_eq] at hx
    exact .atParen hx (r0 (.comma (sp (by decide) (.rpar hs))))
  | ctl s =>
    simp only [okOperand, Bool.and_eq_true, Bool.or_eq_true, decide_eq_true_eq, Bool.not_eq_true'] at hx
    exact .name hx.1.1 hx.1.2 (fun h => hx.2.resolve_left (by simp [h])) hs

theorem operands_sim {E : ExprParse.Env} {e : Expr} {es : List Tok} (he : Constant E e es) {n m : Nat} (hn : n < 16) (hm : m < 16) (rest : List Tok) {im : Bool} :
    ∀ (ops : List Operand) (md : Mode), okOperands im md ops = true → Sim E rest im md (toks n m e ops) (operands n m es ops ++ .separator :: rest)
  | [], _, _ => .stop
  | [x], md, h => by
    simp only [okOperands, Bool.and_true] at h
    have := operand_sim he hn hm (rest := rest) h (a := []) (h := .separator) rfl .stop
    rw [List.append_nil] at this
    exact this
  | x :: y :: l, md, h => by
    rw [okOperands, Bool.and_eq_true] at h
    have := operands_sim he hn hm rest (y :: l) .later h.2
    have := operand_sim he hn hm (rest := rest) h.1 (h := .comma) rfl (.comma this)
    simpa [operands, toks] using this

theorem sim_div {E : ExprParse.Env} {rest : List Tok} {im : Bool} {md : Mode} {ats : List Sh.Tok} {ts : List Tok} (h : Sim E rest im md ats ts) :
    ∀ l, ts ≠ .div :: l := by
  cases h with
  | imm hc =>
    obtain ⟨t, l, rfl, h1, -⟩ := constant_start hc
    intro l' he
    cases he
    cases h1
  | _ => intro l he; cases he

/-! ### The table -/

/-- Rows can have a constant at the start. -/
def hasImm (ops : List Operand) : Bool :=
  match ops with
  | .ctl _ :: _ => false
  | _ => true

theorem manual_ok : ∀ x ∈ written, okOperands (hasImm x.2.1) .first x.2.1 = true := by decide +kernel

theorem rows_ok : ∀ x ∈ written, ∀ op ∈ Sh.opcodes, op.name = x.1 →
    ok (hasImm x.2.1) (op.has .freg) op.encoding.length .first op.encoding.toList = true := by decide +kernel

theorem findSome_rows {α β γ : Type} {p : α → Bool} {f : α → Option β} {g : α → Option γ} {F : γ → β} : ∀ (l : List α),
    (∀ x ∈ l, f x = if p x = true then (g x).map F else none) → l.findSome? f = ((l.filter p).findSome? g).map F
  | [], _ => rfl
  | x :: l, h => by
    have ih := findSome_rows l fun y hy => h y (by simp [hy])
    have hx := h x (by simp)
    by_cases hp : p x = true
    · rw [List.filter_cons_of_pos hp]
      rw [if_pos hp] at hx
      simp only [List.findSome?_cons, hx]
      cases g x with
      | none => exact ih
      | some y => rfl
    · rw [List.filter_cons_of_neg hp]
      rw [if_neg hp] at hx
      simp only [List.findSome?_cons, hx]
      exact ih

/-- A line is read as the parser of `Model/Sh.lean` reads it. -/
theorem line_read {E : ExprParse.Env} (hat : E.isFn (lit "@") = false) {x : Entry} (hx : x ∈ written) {e : Expr} {es : List Tok} (he : Constant E e es)
    {n m : Nat} (hn : n < 16) (hm : m < 16) (rest : List Tok) :
    parseOpcode E (line x.1 x.2.1 n m es ++ .separator :: rest) = (Sh.parseOpcode x.1 (toks n m e x.2.1)).map fun r => (r, rest) := by
  have hs := operands_sim he hn hm rest x.2.1 .first (manual_ok x hx)
  unfold parseOpcode Sh.parseOpcode line
  apply findSome_rows
  intro op ho
  rw [List.append_assoc, row_fits E hx ho (sim_div hs)]
  by_cases hn : op.name = x.1
  · rw [if_pos hn, if_pos (by simp [hn])]
    unfold parseParams Sh.parseParams
    rw [loop_sim hat _ _ _ _ _ _ hs (rows_ok x hx op ho hn)]
    simp [Option.map_map, Function.comp_def]
  · rw [if_neg hn, if_neg (by simp [hn])]

/-! ### Constants without `#` -/

theorem sem_encoding (E : Env) (op : Op) (o : Operands) (s : String) : Sh.sem E { op with encoding := s } o = Sh.sem E op o := rfl

/-- Both rows are the same but for the `#`. -/
def Unhashed (n m : Nat) (e : Expr) (x : Entry) : Prop :=
  ∃ (op : Op) (s : String) (o : Operands), Sh.parseOpcode x.1 (toks n m e x.2.1) = some (op, o) ∧
    Sh.parseOpcode x.1 (toks n m e (unhash x.2.1)) = some ({ op with encoding := s }, o)

theorem hashed_eq : hashed = [
    ("mov", [.imm, .rn], "1110nnnndddddddd"), ("add", [.imm, .rn], "0111nnnndddddddd"), ("cmp/eq", [.imm, .r0], "10001000dddddddd"),
    ("and", [.imm, .r0], "11001001dddddddd"), ("and.b", [.imm, .idxGbr], "11001101dddddddd"), ("or", [.imm, .r0], "11001011dddddddd"),
    ("or.b", [.imm, .idxGbr], "11001111dddddddd"), ("tst", [.imm, .r0], "11001000dddddddd"), ("tst.b", [.imm, .idxGbr], "11001100dddddddd"),
    ("xor", [.imm, .r0], "11001010dddddddd"), ("xor.b", [.imm, .idxGbr], "11001110dddddddd")] := by decide +kernel

theorem unhashed {x : Entry} (hx : x ∈ hashed) (n m : Nat) (e : Expr) : Unhashed n m e x := by
  revert x
  rw [hashed_eq]
  simp only [List.forall_mem_cons, List.not_mem_nil, false_implies, implies_true, and_true]
  refine ⟨?_, ?_, ?_, ?_, ?_, ?_, ?_, ?_, ?_, ?_, ?_⟩
  · exact ⟨_, "i8,t", ⟨15, n, 8, e⟩, by with_unfolding_all rfl, by with_unfolding_all rfl⟩
  · exact ⟨_, "i8,t", ⟨15, n, 8, e⟩, by with_unfolding_all rfl, by with_unfolding_all rfl⟩
  · exact ⟨_, "i8,r0", ⟨15, 15, 8, e⟩, by with_unfolding_all rfl, by with_unfolding_all rfl⟩
  · exact ⟨_, "i8,r0", ⟨15, 15, 8, e⟩, by with_unfolding_all rfl, by with_unfolding_all rfl⟩
  · exact ⟨_, "i8,@(r0,gbr)", ⟨15, 15, 8, e⟩, by with_unfolding_all rfl, by with_unfolding_all rfl⟩
  · exact ⟨_, "i8,r0", ⟨15, 15, 8, e⟩, by with_unfolding_all rfl, by with_unfolding_all rfl⟩
  · exact ⟨_, "i8,@(r0,gbr)", ⟨15, 15, 8, e⟩, by with_unfolding_all rfl, by with_unfolding_all rfl⟩
  · exact ⟨_, "i8,r0", ⟨15, 15, 8, e⟩, by with_unfolding_all rfl, by with_unfolding_all rfl⟩
  · exact ⟨_, "i8,@(r0,gbr)", ⟨15, 15, 8, e⟩, by with_unfolding_all rfl, by with_unfolding_all rfl⟩
  · exact ⟨_, "i8,r0", ⟨15, 15, 8, e⟩, by with_unfolding_all rfl, by with_unfolding_all rfl⟩
  · exact ⟨_, "i8,@(r0,gbr)", ⟨15, 15, 8, e⟩, by with_unfolding_all rfl, by with_unfolding_all rfl⟩

end Armips.ShLine
