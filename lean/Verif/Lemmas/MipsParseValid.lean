import Verif.Lemmas.MipsParseRows
/-!
# What a line gives meets what the encoder needs
-/
namespace Armips.MipsParse
open ExprParse (Tok)
open Mips (Slot ImmType SecType Op Operands Version Flag)
open Spec.MipsParse

set_option maxRecDepth 100000 in
theorem hidden_masks : ((Mips.opcodes.zip rowTable).all fun r =>
    !(r.2.1 == [109, 117, 108, 116] || r.2.1 == [109, 117, 108, 116, 117]) || r.2.2.head? != some (.forced 0) || r.1.mask == "r\x00,s,t") = true := by
  decide +kernel

theorem hidden_mask {v : Version} {op : Op} (hm : op ∈ Mips.opcodes) (h : hidden v op) :
    v = .ps2 ∧ op.name ∈ ["mult", "multu"] ∧ op.mask = "r\x00,s,t" := by
  obtain ⟨h1, h2, es, h3⟩ := h
  refine ⟨h1, by simpa using h2, ?_⟩
  have := hidden_masks
  rw [zip_rows, List.all_map, List.all_eq_true] at this
  have := this op hm
  simp only [Function.comp_apply, rowOf, h3, Option.getD_some, List.head?_cons, bne_self_eq_false, Bool.or_false, Bool.or_eq_true, Bool.not_eq_true',
    Bool.or_eq_false_iff, beq_iff_eq] at this
  rcases this with h | h
  · rcases h2 with e | e
    · have : nameOf op = [109, 117, 108, 116] := by unfold nameOf; rw [e]; decide
      rw [this] at h
      exact absurd h.1 (by decide)
    · have : nameOf op = [109, 117, 108, 116, 117] := by unfold nameOf; rw [e]; decide
      rw [this] at h
      exact absurd h.2 (by decide)
  · exact h

/-- `patternOk` with numbers for the letters. -/
def patternN : List Nat → Bool
  | [] => true
  | c :: r => if c = 83 then !r.contains 83 && !r.contains 66 else if c = 66 then r.isEmpty else patternN r

theorem rows_pattern : (rowTable.all fun r => patternN r.1) = true := by decide +kernel

theorem toNat_mem {l : List Char} {c : Char} : c.toNat ∈ l.map Char.toNat ↔ c ∈ l := by
  constructor
  · intro h
    obtain ⟨d, hd, e⟩ := List.mem_map.1 h
    have : d = c := Char.ext (UInt32.toNat_inj.1 e)
    exact this ▸ hd
  · exact fun h => List.mem_map_of_mem h

theorem patternN_ok : ∀ {p : List Char}, patternN (p.map Char.toNat) = true → patternOk p = true
  | [], _ => rfl
  | c :: r, h => by
    have hc : ∀ d : Char, (r.map Char.toNat).contains d.toNat = r.contains d := by
      intro d
      rw [Bool.eq_iff_iff, List.contains_iff_mem, List.contains_iff_mem, toNat_mem]
    simp only [List.map_cons, patternN] at h
    by_cases h1 : c = 'S'
    · subst h1
      rw [if_pos (by decide)] at h
      have hS := hc 'S'
      have hB := hc 'B'
      change (r.map Char.toNat).contains 83 = _ at hS
      change (r.map Char.toNat).contains 66 = _ at hB
      rw [hS, hB] at h
      exact h
    · have h1' : ¬ c.toNat = 83 := fun e => h1 (Char.ext (UInt32.toNat_inj.1 e))
      rw [if_neg h1'] at h
      by_cases h2 : c = 'B'
      · subst h2
        rw [if_pos (by decide)] at h
        cases r with
        | nil => rfl
        | cons _ _ => simp at h
      · have h2' : ¬ c.toNat = 66 := fun e => h2 (Char.ext (UInt32.toNat_inj.1 e))
        rw [if_neg h2'] at h
        rw [patternOk.eq_def]
        split
        · rfl
        · rename_i e; cases e; exact absurd rfl h1
        · rfl
        · rename_i e; cases e; exact absurd rfl h2
        · rename_i e; cases e; exact patternN_ok h

theorem row_pattern {op : Op} (hm : op ∈ Mips.opcodes) : patternOk op.name.toList = true := by
  have := rows_pattern
  rw [rowTable_map, List.all_map, List.all_eq_true] at this
  exact patternN_ok (this op hm)

theorem elementText_lt {n : Nat} {ts : List Token} (h : ElementText n ts) : n < 16 := by
  cases h with
  | all => decide
  | name h _ _ _ => exact (List.getElem?_eq_some_iff.1 h).1
  | number h => exact h

theorem offsetText_lt {n : Nat} {ts : List Token} (h : OffsetText n ts) : n < 16 := by
  cases h with
  | first => decide
  | number h => exact h

theorem pow_mono {n a b : Nat} (h : n < 2 ^ a) (hab : a ≤ b) : n < 2 ^ b := Nat.lt_of_lt_of_le h (Nat.pow_le_pow_right (by decide) hab)

/-- What all operands so far are like. -/
structure Inv (six : Bool) (o : Operands) : Prop where
  range : ∀ s n, o.regs s = some n → n < 2 ^ Spec.Mips.regBits six s
  cond : ∀ n, o.cond = some n → n < 16
  sec : o.secValue.toNat ≤ 5

theorem withReg_range {six : Bool} {o : Operands} {s : Slot} {n : Nat} (hi : Inv six o) (hn : n < 2 ^ Spec.Mips.regBits six s) : Inv six (withReg o s n) := by
  refine ⟨fun s' n' h => ?_, hi.cond, hi.sec⟩
  simp only [withReg] at h
  split at h
  · rename_i e
    injection h with h
    rw [e, ← h]
    exact hn
  · exact hi.range s' n' h

theorem vec_bits {six : Bool} {s : Slot} {n : Nat} (h : (s == .vrs || s == .vrt || s == .vrd) = true) (hn : n < 128) (h6 : six = true → n < 64) :
    n < 2 ^ Spec.Mips.regBits six s := by
  cases six <;> cases s <;> simp_all [Spec.Mips.regBits]

theorem part_inv {E : ExprParse.Env} {op : Op} {size : Option Nat} {p : Elem} {ts : List Token} {o o' : Operands} (h : Part E op size p ts o o')
    (hf : fits (op.has .vfpu6bit) p = true) (hi : Inv (op.has .vfpu6bit) o) : Inv (op.has .vfpu6bit) o' := by
  cases h with
  | reg h =>
    simp only [fits, decide_eq_true_eq] at hf
    exact withReg_range hi (pow_mono (b := Spec.Mips.regBits _ _) (a := 5) (Reg.lt h) hf)
  | vec _ _ _ h h6 => exact withReg_range hi (vec_bits hf h.1 h6)
  | vecSingle h h6 => exact withReg_range hi (vec_bits hf h.1 h6)
  | controlName h =>
    have := (List.getElem?_eq_some_iff.1 h).1
    have h16 : controls.length = 16 := rfl
    exact withReg_range hi (vec_bits (by decide) (by omega) (fun _ => by omega))
  | controlNumber h => exact withReg_range hi (vec_bits (by decide) (by omega) (fun _ => by omega))
  | matrix _ _ h _ =>
    simp only [fits, Bool.and_eq_true, Bool.not_eq_true'] at hf
    exact withReg_range hi (vec_bits hf.2 h.1 (by rw [hf.1]; intro h; cases h))
  | mirrored _ _ _ _ h _ =>
    simp only [fits, Bool.and_eq_true, Bool.not_eq_true'] at hf
    exact withReg_range hi (vec_bits hf.2 h (by rw [hf.1]; intro h; cases h))
  | element h => exact withReg_range hi (elementText_lt h)
  | scalar h =>
    simp only [fits, decide_eq_true_eq] at hf
    cases h with
    | mk h => exact withReg_range hi (pow_mono (b := Spec.Mips.regBits _ _) (a := 4) (by omega) hf)
  | offset h => exact withReg_range hi (offsetText_lt h)
  | branchName h _ =>
    have := (List.getElem?_eq_some_iff.1 h).1
    have h16 : branchNames.length = 6 := rfl
    refine ⟨hi.range, hi.cond, ?_⟩
    simp only [BitVec.toNat_ofNat]
    omega
  | branchNumber h =>
    refine ⟨hi.range, hi.cond, ?_⟩
    simp only [BitVec.toNat_ofNat]
    omega
  | cond h =>
    have := (List.getElem?_eq_some_iff.1 h).1
    have h16 : conditions.length = 16 := rfl
    refine ⟨hi.range, fun n e => ?_, hi.sec⟩
    simp only [Option.some.injEq] at e
    omega
  | forced => exact hi
  | wb => exact hi
  | lparen => exact hi
  | rparen => exact hi
  | comma => exact hi
  | imm => exact ⟨hi.range, hi.cond, hi.sec⟩
  | sec => exact ⟨hi.range, hi.cond, hi.sec⟩
  | arg => exact ⟨hi.range, hi.cond, hi.sec⟩

theorem parts_inv {E : ExprParse.Env} {op : Op} {size : Option Nat} {ps : List Elem} {ts : List Token} {o o' : Operands} (h : Parts E op size ps ts o o')
    (hf : ps.all (fits (op.has .vfpu6bit)) = true) (hi : Inv (op.has .vfpu6bit) o) : Inv (op.has .vfpu6bit) o' := by
  induction h with
  | nil => exact hi
  | cons h1 _ _ ih =>
    simp only [List.all_cons, Bool.and_eq_true] at hf
    exact ih hf.2 (part_inv h1 hf.1 hi)

theorem part_named {E : ExprParse.Env} {op : Op} {size : Option Nat} {p : Elem} {ts : List Token} {o o' : Operands} (h : Part E op size p ts o o') :
    (∀ s, (o'.regs s).isSome ↔ (o.regs s).isSome ∨ slotOf p = some s) ∧ o'.size = o.size ∧ (o'.cond.isSome ↔ o.cond.isSome ∨ p = .cond) ∧
      (isSec p = false → o'.sec = o.sec) := by
  have hw : ∀ (s : Slot) (n : Nat), (∀ s', ((withReg o s n).regs s').isSome ↔ (o.regs s').isSome ∨ some s = some s') := by
    intro s n s'
    simp only [withReg]
    split
    · rename_i e; simp [e]
    · rename_i e
      have : s ≠ s' := fun h => e h.symm
      simp [this]
  cases h with
  | reg _ => exact ⟨hw _ _, rfl, by simp [withReg], fun _ => rfl⟩
  | vec _ _ _ _ _ => exact ⟨hw _ _, rfl, by simp [withReg], fun _ => rfl⟩
  | vecSingle _ _ => exact ⟨hw _ _, rfl, by simp [withReg], fun _ => rfl⟩
  | controlName _ => exact ⟨hw _ _, rfl, by simp [withReg], fun _ => rfl⟩
  | controlNumber _ => exact ⟨hw _ _, rfl, by simp [withReg], fun _ => rfl⟩
  | matrix _ _ _ _ => exact ⟨hw _ _, rfl, by simp [withReg], fun _ => rfl⟩
  | mirrored _ _ _ _ _ _ => exact ⟨hw _ _, rfl, by simp [withReg], fun _ => rfl⟩
  | element _ => exact ⟨hw _ _, rfl, by simp [withReg], fun _ => rfl⟩
  | scalar _ => exact ⟨hw _ _, rfl, by simp [withReg], fun _ => rfl⟩
  | offset _ => exact ⟨hw _ _, rfl, by simp [withReg], fun _ => rfl⟩
  | cond _ => exact ⟨by simp [slotOf], rfl, by simp, fun _ => rfl⟩
  | sec _ => exact ⟨by simp [slotOf], rfl, by simp, fun h => by cases h⟩
  | _ => exact ⟨by simp [slotOf], rfl, by simp, fun _ => rfl⟩

theorem parts_named {E : ExprParse.Env} {op : Op} {size : Option Nat} {ps : List Elem} {ts : List Token} {o o' : Operands} (h : Parts E op size ps ts o o') :
    (∀ s, (o'.regs s).isSome ↔ (o.regs s).isSome ∨ s ∈ ps.filterMap slotOf) ∧ o'.size = o.size ∧ (o'.cond.isSome ↔ o.cond.isSome ∨ .cond ∈ ps) ∧
      (ps.any isSec = false → o'.sec = o.sec) := by
  induction h with
  | nil => simp
  | @cons p ps _ _ _ _ _ h1 _ _ ih =>
    obtain ⟨a1, a2, a3, a4⟩ := part_named h1
    obtain ⟨b1, b2, b3, b4⟩ := ih
    refine ⟨fun s => ?_, b2.trans a2, ?_, fun hs => ?_⟩
    · rw [b1, a1, or_assoc]
      simp only [List.filterMap_cons]
      cases hp : slotOf p with
      | none => simp
      | some w => rw [List.mem_cons, Option.some.injEq, eq_comm (a := w)]
    · rw [b3, a3, or_assoc, List.mem_cons, eq_comm (a := p)]
    · simp only [List.any_cons, Bool.or_eq_false_iff] at hs
      rw [b4 hs.2, a4 hs.1]

/-- What is written is what the encoder expects. -/
theorem text_valid {E : ExprParse.Env} {op : Op} {name : Str} {ts : List Token} {o : Operands} (hm : op ∈ Mips.opcodes) (h : Text E op name ts o) :
    Spec.Mips.Valid op o := by
  obtain ⟨ps, size, cond, hmask, hn, hp⟩ := h
  obtain ⟨es, he, hq, -, -, -, hro⟩ := row_mem hm
  have hps : elements op.mask.toList = some ps := by rw [hmask]; exact parts_elements hp (hmask ▸ hq)
  have heq : es = ps := Option.some.inj (he.symm.trans hps)
  subst heq
  have hfit := row_fit hm
  rw [hro] at hfit
  simp only [symsFit, Bool.and_eq_true, List.all_eq_true, beq_iff_eq] at hfit
  obtain ⟨⟨⟨⟨f1, f2⟩, f3⟩, f4⟩, f5⟩ := hfit
  obtain ⟨n1, n2, n3⟩ := named_range hn
  obtain ⟨p1, p2, p3, p4⟩ := parts_named hp
  have hi : Inv (op.has .vfpu6bit) (blank size cond) := by
    refine ⟨fun s n h => by simp [blank] at h, fun n h => by simp [blank] at h, ?_⟩
    simp only [blank, BitVec.toNat_ofNat]
    cases hc : cond with
    | none => simp
    | some k => have := n3 k hc; simp only [Option.getD_some]; omega
  have hinv := parts_inv hp (List.all_eq_true.2 f5) hi
  refine ⟨fun s => ?_, hinv.range, ?_, fun n hs => ?_, ?_, hinv.cond, fun hb => ⟨?_, hinv.sec⟩⟩
  · rw [p1]
    have := f1 s (mem_slots s)
    rw [← List.contains_iff_mem (as := op.syms), this, List.contains_iff_mem]
    simp [blank]
  · rw [p2, ← List.contains_iff_mem (as := op.syms), f2, List.contains_iff_mem]
    show size.isSome = true ↔ _
    rw [n1]
    unfold nameOf
    constructor
    · exact fun h => List.mem_map_of_mem (f := Char.toNat) h
    · intro h
      obtain ⟨c, hc, e⟩ := List.mem_map.1 h
      have : c = 'S' := Char.ext (UInt32.toNat_inj.1 e)
      exact this ▸ hc
  · exact n2 n (p2.symm.trans hs)
  · rw [p3, ← List.contains_iff_mem (as := op.syms), f3, List.contains_iff_mem]
    simp [blank]
  · simp only [Bool.or_eq_true, Bool.not_eq_true'] at f4
    rcases f4 with h | h
    · rw [← List.contains_iff_mem, h] at hb; cases hb
    · exact p4 h

end Armips.MipsParse
