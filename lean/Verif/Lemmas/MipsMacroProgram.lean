import Verif.Lemmas.MipsMacroTokens
import Verif.Spec.Directive
/-!
# Lines of MIPS in a program

A line that is an instruction or a macro is not taken for a directive, a label or an `equ`.
-/
namespace Armips.MipsParse
open ExprParse (Tok)
open Mips (Slot ImmType SecType Op Operands Version Flag Parsed MacroRow)
open Spec.MipsParse

/-- The text does not begin with a colon or `equ`. -/
def noLabel (ts : List Token) : Prop := ∀ t ∈ ts.head?, t.1 ≠ .colon ∧ t.1 ≠ .equ

theorem noLabel_append {ts us : List Token} (h1 : noLabel ts) (h2 : noLabel us) : noLabel (ts ++ us) := by
  cases ts with
  | nil => exact h2
  | cons t l => exact h1

theorem noLabel_cons {t : Token} {l : List Token} (h1 : t.1 ≠ .colon) (h2 : t.1 ≠ .equ) : noLabel (t :: l) := by
  intro a ha
  cases ha
  exact ⟨h1, h2⟩

theorem noLabel_nil : noLabel [] := by intro a ha; cases ha

theorem reg_noLabel {c : Cls} {n : Nat} {ts : List Token} (h : Reg c n ts) : noLabel ts := by
  cases h <;> exact noLabel_cons (by simp) (by simp)

theorem imm_noLabel {E : ExprParse.Env} {e : Expr} {ts : List Token} (h : ImmText E e ts) : noLabel ts := by
  obtain ⟨t, l, rfl, h1, -⟩ := imm_shape h
  refine noLabel_cons ?_ ?_ <;> (intro e; rw [e] at h1; cases h1)

theorem joined_noLabel {texts : List (List Token)} {ts : List Token} (h : Joined texts ts) (ht : ∀ t ∈ texts, noLabel t) : noLabel ts := by
  cases h with
  | one => exact ht _ (by simp)
  | more t x _ => exact noLabel_append (ht _ (by simp)) (noLabel_cons (by simp) (by simp))

theorem each_all {α β : Type} {R : α → β → Prop} {l : List α} {l' : List β} (h : Each R l l') : ∀ b ∈ l', ∃ a ∈ l, R a b := by
  induction h with
  | nil => simp
  | cons h1 _ ih =>
    intro b hb
    rcases List.mem_cons.1 hb with rfl | hb
    · exact ⟨_, by simp, h1⟩
    · obtain ⟨a, ha, hr⟩ := ih b hb
      exact ⟨a, by simp [ha], hr⟩

theorem fst_noLabel {ts : List Token} (h : (ts.map Prod.fst).head? ≠ some .colon ∧ (ts.map Prod.fst).head? ≠ some .equ) : noLabel ts := by
  intro t ht
  rw [List.head?_map, ht] at h
  simpa using h

theorem sign_noLabel {neg : Bool} {pre : List Token} (h : Sign neg pre) : noLabel pre := by
  cases h
  · exact noLabel_nil
  · exact noLabel_cons (by simp) (by simp)

theorem arg_noLabel {size : Option Nat} {a : Arg} {n : Nat} {ts : List Token} (h : ArgText size a n ts) : noLabel ts := by
  cases a with
  | source =>
    obtain ⟨-, texts, h1, h2⟩ := h
    refine joined_noLabel h2 fun t ht => ?_
    obtain ⟨s, -, hs⟩ := each_all h1 t ht
    cases hs with
    | cell hg => exact noLabel_append (sign_noLabel hg) (noLabel_cons (by simp) (by simp))
    | abs hg => exact noLabel_append (sign_noLabel hg) (noLabel_cons (by simp) (by simp))
    | const hg hc =>
      refine noLabel_append (sign_noLabel hg) (fst_noLabel ?_)
      have : ∀ c ∈ constants, c.head? ≠ some .colon ∧ c.head? ≠ some .equ := by decide
      exact this _ (List.mem_of_getElem? hc)
  | dest =>
    obtain ⟨-, lanes, texts, -, h1, h2⟩ := h
    refine joined_noLabel h2 fun t ht => ?_
    obtain ⟨s, -, hs⟩ := each_all h1 t ht
    cases hs with
    | plain => exact noLabel_nil
    | masked => exact noLabel_cons (by simp) (by simp)
    | unit h => exact fst_noLabel (by rw [h]; simp)
    | signed h => exact fst_noLabel (by rw [h]; simp)
  | const =>
    have : ∀ c ∈ vcstNames, c.2.head? ≠ some .colon ∧ c.2.head? ≠ some .equ := by decide +kernel
    exact fst_noLabel (this _ h)
  | rot =>
    obtain ⟨k, -, lanes, texts, inner, x, y, -, -, -, -, rfl, -⟩ := h
    exact noLabel_cons (by simp) (by simp)

theorem part_noLabel {E : ExprParse.Env} {op : Op} {size : Option Nat} {p : Elem} {ts : List Token} {o o' : Operands} (h : Part E op size p ts o o') : noLabel ts := by
  cases h with
  | reg hr => exact reg_noLabel hr
  | forced hr => exact reg_noLabel hr
  | imm hi => exact imm_noLabel hi
  | sec hi => exact imm_noLabel hi
  | element h =>
    cases h
    · exact noLabel_nil
    · exact noLabel_cons (by simp) (by simp)
    · exact noLabel_cons (by simp) (by simp)
  | scalar h => cases h; exact noLabel_cons (by simp) (by simp)
  | offset h =>
    cases h
    · exact noLabel_nil
    · exact noLabel_cons (by simp) (by simp)
  | arg h => exact arg_noLabel h
  | _ => exact noLabel_cons (by simp) (by simp)

theorem parts_noLabel {E : ExprParse.Env} {op : Op} {size : Option Nat} {ps : List Elem} {ts : List Token} {o o' : Operands} (h : Parts E op size ps ts o o') :
    noLabel ts := by
  induction h with
  | nil => exact noLabel_nil
  | cons h1 _ _ ih => exact noLabel_append (part_noLabel h1) ih

/-! ### Names -/

/-- Names of directives without a point. -/
def directiveNames : List (List Nat) := Spec.Directive.plain.map fun z => z.toList.map Char.toNat

theorem plain_names : ∀ z ∈ Spec.Directive.plain, ∀ c ∈ z.toList, c.toNat < 128 ∧ c ≠ 'B' ∧ c ≠ 'S' := by decide +kernel

theorem rows_names : (rowTable.all fun r => (match r.1 with | [] => false | c :: _ => c != 46) && directiveNames.all fun z => !overlap r.1 z) = true := by decide +kernel

theorem macros_names : (macroTable.all fun r => (match r.2.1 with | [] => false | c :: _ => c != 46) && directiveNames.all fun z => !overlap r.2.1 z) = true := by
  decide +kernel

theorem head_decode {p : List Char} {n : Str} {x a : Name} (h : decodeName p n x = some a) (hp : plainKey (p.map Char.toNat) = true)
    (hd : (match p.map Char.toNat with | [] => false | c :: _ => c != 46) = true) (ha : ∀ c ∈ p, c.toNat < 128) : n.head? ≠ some (chr '.') := by
  cases p with
  | nil => cases hd
  | cons c p =>
    simp only [List.map_cons, bne_iff_ne, ne_eq] at hd
    unfold plainKey at hp
    simp only [List.map_cons, List.take_succ_cons, List.all_cons, Bool.and_eq_true, bne_iff_ne, ne_eq] at hp
    have hB : c ≠ 'B' := fun e => hp.1.1 (by rw [e]; rfl)
    have hS : c ≠ 'S' := fun e => hp.1.2 (by rw [e]; rfl)
    rw [decodeName.eq_def] at h
    simp only [hB, hS, if_false] at h
    cases n with
    | nil => cases h
    | cons k n =>
      simp only at h
      split at h
      · rename_i e
        intro he
        simp only [List.head?_cons, Option.some.injEq] at he
        have := chr_eq (ha c (by simp)) (by decide) (e.trans he)
        exact hd (by rw [this]; rfl)
      · cases h

theorem names_apart {p : List Char} {n : Str} {x a : Name} (h : decodeName p n x = some a) (ha : ∀ c ∈ p, c.toNat < 128)
    (hd : (directiveNames.all fun z => !overlap (p.map Char.toNat) z) = true) : ∀ z ∈ Spec.Directive.plain, n ≠ lit z := by
  rintro z hz rfl
  have hz' := plain_names z hz
  have := overlap_of h (decodeName_self (l := z.toList) (fun c hc => (hz' c hc).2) ⟨none, none⟩) ha fun c hc => (hz' c hc).1
  have h2 := List.all_eq_true.1 hd (z.toList.map Char.toNat) (List.mem_map_of_mem (f := fun z : String => z.toList.map Char.toNat) hz)
  rw [this] at h2
  cases h2

theorem text_name {E : ExprParse.Env} {op : Op} {name : Str} {ts : List Token} {o : Operands} (hm : op ∈ Mips.opcodes) (h : Text E op name ts o) :
    name.head? ≠ some (chr '.') ∧ (∀ z ∈ Spec.Directive.plain, name ≠ lit z) ∧ noLabel ts := by
  obtain ⟨ps, size, cond, -, hn, hp⟩ := h
  obtain ⟨es, -, -, -, hkey, hasc, -⟩ := row_mem hm
  have h1 : (nameOf op, (elements op.mask.toList).getD []) ∈ rowTable := by
    rw [rowTable_map]
    exact List.mem_map_of_mem (f := fun op : Op => (nameOf op, (elements op.mask.toList).getD [])) hm
  have h2 := List.all_eq_true.1 rows_names _ h1
  rw [Bool.and_eq_true] at h2
  have hd := decodeName_of hn ⟨none, none⟩
  exact ⟨head_decode hd hkey h2.1 hasc, names_apart hd hasc h2.2, parts_noLabel hp⟩

theorem macro_name {E : ExprParse.Env} {m : MacroRow} {ts : List Token} {p : Parsed} (hm : m ∈ Mips.macros) (h : MacroText E m ts p) :
    (lit m.name).head? ≠ some (chr '.') ∧ (∀ z ∈ Spec.Directive.plain, lit m.name ≠ lit z) ∧ noLabel ts := by
  obtain ⟨-, hasc⟩ := macro_mem hm
  have h2 := List.all_eq_true.1 macros_names (macroOf m) (by rw [macroTable_map]; exact List.mem_map_of_mem hm)
  rw [Bool.and_eq_true] at h2
  have hd : decodeName m.name.toList (lit m.name) ⟨none, none⟩ = some ⟨none, none⟩ := decodeName_self (fun c hc => (hasc c hc).2) _
  have hk' : plainKey (m.name.toList.map Char.toNat) = true := by
    unfold plainKey
    rw [List.all_eq_true]
    intro c hc
    obtain ⟨d, hd, rfl⟩ := List.mem_map.1 (List.mem_of_mem_take hc)
    have := (hasc d hd).2
    simp only [Bool.and_eq_true, bne_iff_ne, ne_eq]
    exact ⟨fun e => this.1 (Char.ext (UInt32.toNat_inj.1 e)), fun e => this.2 (Char.ext (UInt32.toNat_inj.1 e))⟩
  refine ⟨head_decode hd hk' h2.1 fun c hc => (hasc c hc).1, names_apart hd (fun c hc => (hasc c hc).1) h2.2, ?_⟩
  have op : Op := Mips.opcodes.head (by decide +kernel)
  obtain ⟨o, ho⟩ := macroParts_parts op none h (blank none none)
  exact parts_noLabel ho

end Armips.MipsParse
