import Verif.Spec.ArmLine
import Verif.Props.ExprParse
import Verif.Props.ArmParse
/-!
# Lemmas about the operands of ARM and THUMB instructions
-/
namespace Armips.ArmLine
open ExprParse (Tok)
open Spec.ArmLine
open Spec.Arm (registerName Item)
open Spec.ExprParse (Writes NoCall Stops)

/-! ### Names -/

theorem lookup_some {n : Str} {t : List (String × Nat)} {k : Nat} (h : lookup n t = some k) : ∃ p ∈ t, lit p.1 = n ∧ p.2 = k := by
  unfold lookup at h
  obtain ⟨p, hp, rfl⟩ := Option.map_eq_some_iff.1 h
  exact ⟨p, List.mem_of_find?_eq_some hp, by simpa using List.find?_some hp, rfl⟩

theorem lt16 {P : Nat → Prop} (h : ∀ i : Fin 16, P i.val) (n : Nat) (hn : n < 16) : P n := h ⟨n, hn⟩

theorem register_lookup {s : String} {k : Nat} (h : registerName s k) : lookup (lit s) ArmParse.armRegisters = some k := by
  rcases h with ⟨h1, rfl⟩ | ⟨rfl, rfl⟩ | ⟨rfl, rfl⟩ | ⟨rfl, rfl⟩
  · exact lt16 (P := fun k => lookup (lit ("r" ++ toString k)) ArmParse.armRegisters = some k) (by decide +kernel) k h1
  all_goals decide +kernel

theorem register_table : ∀ p ∈ ArmParse.armRegisters, p.2 < 16 ∧ (p.1 = "r" ++ toString p.2 ∨ (p.1 = "sp" ∧ p.2 = 13) ∨ (p.1 = "lr" ∧ p.2 = 14) ∨
    (p.1 = "pc" ∧ p.2 = 15)) := by decide +kernel

theorem register_iff {n : Str} {k : Nat} : lookup n ArmParse.armRegisters = some k ↔ Register k (.ident n) := by
  constructor
  · intro h
    obtain ⟨p, hp, rfl, rfl⟩ := lookup_some h
    obtain ⟨h1, h2⟩ := register_table p hp
    refine ⟨p.1, ?_, rfl⟩
    rcases h2 with h2 | h2 | h2 | h2
    · exact .inl ⟨h1, h2⟩
    · exact .inr (.inl h2)
    · exact .inr (.inr (.inl h2))
    · exact .inr (.inr (.inr h2))
  · rintro ⟨s, h, e⟩
    cases e
    exact register_lookup h

theorem cop_lookup : ∀ i : Fin 16, lookup (lit ("c" ++ toString i.val)) copRegisters = some i.val := by decide +kernel
theorem num_lookup : ∀ i : Fin 16, lookup (lit ("p" ++ toString i.val)) copNumbers = some i.val := by decide +kernel
theorem cop_table : ∀ p ∈ copRegisters, p.2 < 16 ∧ p.1 = "c" ++ toString p.2 := by decide +kernel
theorem num_table : ∀ p ∈ copNumbers, p.2 < 16 ∧ p.1 = "p" ++ toString p.2 := by decide +kernel

theorem cop_iff {n : Str} {k : Nat} : lookup n copRegisters = some k ↔ CopRegister k (.ident n) := by
  constructor
  · intro h
    obtain ⟨p, hp, rfl, rfl⟩ := lookup_some h
    obtain ⟨h1, h2⟩ := cop_table p hp
    exact ⟨h1, by rw [← h2]⟩
  · rintro ⟨h, e⟩
    cases e
    exact cop_lookup ⟨k, h⟩

theorem num_iff {n : Str} {k : Nat} : lookup n copNumbers = some k ↔ CopNumber k (.ident n) := by
  constructor
  · intro h
    obtain ⟨p, hp, rfl, rfl⟩ := lookup_some h
    obtain ⟨h1, h2⟩ := num_table p hp
    exact ⟨h1, by rw [← h2]⟩
  · rintro ⟨h, e⟩
    cases e
    exact num_lookup ⟨k, h⟩

theorem register_le {k : Nat} {t : Tok} (h : Register k t) : k ≤ 15 := by
  obtain ⟨s, h, _⟩ := h
  rcases h with ⟨h, _⟩ | ⟨_, rfl⟩ | ⟨_, rfl⟩ | ⟨_, rfl⟩ <;> omega

theorem register_ident {k : Nat} {t : Tok} (h : Register k t) : ∃ n, t = .ident n := by
  obtain ⟨s, _, rfl⟩ := h
  exact ⟨_, rfl⟩

/-! ### Status registers -/

theorem psrBase_length (b : Bool) : (psrBase b).length = 4 := by cases b <;> rfl

theorem psrName_base (b : Bool) (r : Str) : psrName (psrBase b ++ r) = some (b, r) := by
  have h1 : (psrBase b ++ r).take 4 = psrBase b := by rw [← psrBase_length b, List.take_left]
  have h2 : (psrBase b ++ r).drop 4 = r := by rw [← psrBase_length b, List.drop_left]
  unfold psrName
  rw [h1, h2]
  cases b
  · rfl
  · rw [if_neg (by decide)]; exact if_pos rfl

theorem psrName_some {n : Str} {b : Bool} {r : Str} (h : psrName n = some (b, r)) : n = psrBase b ++ r := by
  unfold psrName at h
  split at h
  · rename_i hn
    cases h
    rw [psrBase, ← hn, List.take_append_drop]
  · split at h
    · rename_i hn
      cases h
      rw [psrBase, ← hn, List.take_append_drop]
    · cases h

theorem psrTransfer_reserved {short : Bool} {n : Str} (h : (psrTransfer short n).isSome = true) : Reserved n := by
  unfold psrTransfer at h
  split at h
  · cases h
  · rename_i b r hn
    exact .inr (.inl ⟨b, r, psrName_some hn⟩)

theorem letters_short {l : List (Char × Nat)} (h : ∀ p ∈ l, p ∈ psrFields) (hn : l.Nodup) : l.length ≤ 4 := by
  have key : ∀ a ∈ psrFields, ∀ b ∈ psrFields, ∀ c ∈ psrFields, ∀ d ∈ psrFields, ∀ e ∈ psrFields, ¬ [a, b, c, d, e].Nodup := by decide +kernel
  match l, h, hn with
  | [], _, _ => simp
  | [_], _, _ => simp
  | [_, _], _, _ => simp
  | [_, _, _], _, _ => simp
  | [_, _, _, _], _, _ => simp
  | a :: b :: c :: d :: e :: l, h, hn =>
    have h5 : [a, b, c, d, e].Nodup := List.Nodup.sublist (by simp) hn
    exact absurd h5 (key a (h _ (by simp)) b (h _ (by simp)) c (h _ (by simp)) d (h _ (by simp)) e (h _ (by simp)))

theorem fields_letters : ∀ (l : List (Char × Nat)) (k f : Nat), (∀ p ∈ l, p ∈ psrFields) → l.Nodup → l.length ≤ k → f < 16 →
    (∀ p ∈ l, f &&& p.2 = 0) → fields k f (l.map fun p => chr p.1) = some (f + (l.map (·.2)).foldr (· + ·) 0)
  | [], k, f, _, _, _, _, _ => by cases k <;> simp [fields]
  | p :: l, k, f, hm, hn, hk, hf, hd => by
    match k, hk with
    | k + 1, hk =>
    have h1 : ∀ p ∈ psrFields, fieldBit (chr p.1) = some p.2 ∧ ∀ f : Fin 16, f.val &&& p.2 = 0 →
        (f.val ||| p.2) = f.val + p.2 ∧ f.val + p.2 < 16 ∧ ∀ q ∈ psrFields, p ≠ q → f.val &&& q.2 = 0 → (f.val + p.2) &&& q.2 = 0 := by decide +kernel
    obtain ⟨h2, h3⟩ := h1 p (hm p (by simp))
    obtain ⟨h4, h5, h6⟩ := h3 ⟨f, hf⟩ (hd p (by simp))
    simp only at h4 h5 h6
    rw [List.nodup_cons] at hn
    have ih := fields_letters l k (f + p.2) (fun q hq => hm q (by simp [hq])) hn.2 (by simpa using hk) h5 fun q hq =>
      h6 q (hm q (by simp [hq])) (fun e => hn.1 (e ▸ hq)) (hd q (by simp [hq]))
    simp only [List.map_cons, fields, h2, hd p (by simp), ne_eq, not_true_eq_false, if_false, h4, ih, List.foldr_cons]
    congr 1
    omega

theorem letter_chars : ∀ p ∈ psrFields, chr p.1 ≠ chr 't' ∧ chr p.1 ≠ chr 'l' := by decide +kernel

theorem psrField_reads {f : Nat} {r : Str} (h : Fields f r) : psrField r = some f := by
  cases h with
  | all => rfl
  | control => decide
  | flags => decide
  | letters l hne hm hn =>
    have h3 : ∀ w, w ∈ [lit "ctl", lit "flg"] → (l.map fun p => chr p.1).take 3 ≠ w := by
      intro w hw e
      match l, hne, hm with
      | [a], _, _ =>
        have e := congrArg List.length e
        simp only [List.mem_cons, List.not_mem_nil, or_false] at hw
        rcases hw with rfl | rfl <;> simp [lit] at e
      | a :: b :: l, _, hm =>
        obtain ⟨h1, h2⟩ := letter_chars b (hm b (by simp))
        simp only [List.map_cons, List.take_succ_cons] at e
        simp only [List.mem_cons, List.not_mem_nil, or_false] at hw
        rcases hw with rfl | rfl
        · exact h1 (List.cons.inj (List.cons.inj e).2).1
        · exact h2 (List.cons.inj (List.cons.inj e).2).1
    have := fields_letters l 4 0 hm hn (letters_short hm hn) (by omega) (by simp)
    unfold psrField
    simp only [ne_eq, not_true_eq_false, if_false]
    rw [if_neg (h3 _ (by simp)), if_neg (h3 _ (by simp)), this]
    simp

theorem psrTransfer_fields {b : Bool} {f : Nat} {r : Str} (h : Fields f r) : psrTransfer false (psrBase b ++ r) = some (b, some f) := by
  unfold psrTransfer
  rw [psrName_base]
  simp [psrField_reads h]

theorem psrTransfer_whole (b : Bool) : psrTransfer true (psrBase b) = some (b, none) := by
  have := psrName_base b []
  rw [List.append_nil] at this
  unfold psrTransfer
  rw [this]
  simp

theorem fields_whole (b : Bool) : psrTransfer false (psrBase b) = some (b, some 15) := by
  have := psrTransfer_fields (b := b) Fields.all
  rwa [List.append_nil] at this

/-! ### Shifts -/

theorem isNumber_digit {d : Nat} (h : d < 10) : isNumber (BitVec.ofNat 8 (0x30 + d)) = true := by
  have : ∀ d : Fin 10, isNumber (BitVec.ofNat 8 (0x30 + d.val)) = true := by decide
  exact this ⟨d, h⟩

theorem number_digits {b : Byte} (h : isNumber b = true) : ∃ d < 10, b = BitVec.ofNat 8 (0x30 + d) := by
  unfold isNumber at h
  simp only [Bool.and_eq_true, decide_eq_true_eq] at h
  exact ⟨b.toNat - 0x30, by omega, by apply BitVec.eq_of_toNat_eq; simp; omega⟩

theorem foldl_digits (ds : List Nat) (h : ∀ d ∈ ds, d < 10) (a : Nat) :
    (digitsText ds).foldl (fun a b => a * 10 + (b.toNat - 0x30)) a = ds.foldl (fun a d => a * 10 + d) a := by
  induction ds generalizing a with
  | nil => rfl
  | cons d ds ih =>
    have hd := h d (by simp)
    have := ih (fun x hx => h x (by simp [hx])) (a * 10 + d)
    unfold digitsText at this ⊢
    simp only [List.map_cons, List.foldl_cons]
    rw [show (BitVec.ofNat 8 (0x30 + d)).toNat - 0x30 = d by simp; omega]
    exact this

theorem takeWhile_digits (n : Str) (hn : n.reverse.head?.all (fun b => !isNumber b) = true) (ds : List Nat) (h : ∀ d ∈ ds, d < 10) :
    ((n ++ digitsText ds).reverse.takeWhile isNumber).reverse = digitsText ds := by
  rw [List.reverse_append, List.takeWhile_append_of_pos (by
    intro b hb
    rw [List.mem_reverse] at hb
    obtain ⟨d, hd, rfl⟩ := List.mem_map.1 hb
    exact isNumber_digit (h d hd))]
  have : n.reverse.takeWhile isNumber = [] := by
    match n.reverse, hn with
    | [], _ => rfl
    | b :: l, hn => simp at hn; simp [hn]
  rw [this]
  simp

theorem shift_table : ∀ p ∈ shiftNames, shiftType (lit p.1) = some p.2 ∧ (lit p.1).reverse.head?.all (fun b => !isNumber b) = true ∧ p.2 ≤ 4 := by
  decide +kernel

theorem shiftMode_reads {s : String} {t : Nat} {ds : List Nat} (hs : (s, t) ∈ shiftNames) (hd : ∀ d ∈ ds, d < 10) (hv : digitsValue ds < 2 ^ 63) :
    shiftMode (lit s ++ digitsText ds) = some (t, if ds = [] then none else some (digitsValue ds : Int)) := by
  obtain ⟨h1, h2, _⟩ := shift_table _ hs
  have h3 := takeWhile_digits (lit s) h2 ds hd
  unfold shiftMode
  simp only [h3]
  rw [List.length_append, Nat.add_sub_cancel, List.take_left, h1]
  simp only [Option.map_some]
  congr 2
  cases ds with
  | nil => rfl
  | cons d ds =>
    rw [if_neg (by simp [digitsText]), if_neg (by simp)]
    unfold numberOf
    rw [foldl_digits _ hd]
    congr 1
    show (BitVec.ofNat 64 (digitsValue (d :: ds))).toInt = _
    rw [BitVec.toInt_eq_toNat_cond, BitVec.toNat_ofNat, Nat.mod_eq_of_lt (by omega), if_pos (by omega)]

theorem shiftType_names {n : Str} {t : Nat} (h : shiftType n = some t) : ∃ s, (s, t) ∈ shiftNames ∧ n = lit s := by
  unfold shiftType at h
  split at h
  · rename_i hn
    cases h
    rcases hn with rfl | rfl
    · exact ⟨"lsl", by simp [shiftNames], rfl⟩
    · exact ⟨"asl", by simp [shiftNames], rfl⟩
  · split at h
    · rename_i hn; cases h; exact ⟨"lsr", by simp [shiftNames], hn⟩
    · split at h
      · rename_i hn; cases h; exact ⟨"asr", by simp [shiftNames], hn⟩
      · split at h
        · rename_i hn; cases h; exact ⟨"ror", by simp [shiftNames], hn⟩
        · split at h
          · rename_i hn; cases h; exact ⟨"rrx", by simp [shiftNames], hn⟩
          · cases h

theorem digits_of_numbers : ∀ (w : Str), (∀ b ∈ w, isNumber b = true) → ∃ ds : List Nat, (∀ d ∈ ds, d < 10) ∧ w = digitsText ds
  | [], _ => ⟨[], by simp, rfl⟩
  | b :: w, h => by
    obtain ⟨d, hd, rfl⟩ := number_digits (h b (by simp))
    obtain ⟨ds, hds, rfl⟩ := digits_of_numbers w fun x hx => h x (by simp [hx])
    exact ⟨d :: ds, by simpa using ⟨hd, hds⟩, rfl⟩

theorem shiftMode_reserved {n : Str} {r : Nat × Option Int} (h : shiftMode n = some r) : Reserved n := by
  unfold shiftMode at h
  obtain ⟨t, ht, -⟩ := Option.map_eq_some_iff.1 h
  obtain ⟨s, hs, he⟩ := shiftType_names ht
  obtain ⟨ds, hds, hw⟩ := digits_of_numbers (n.reverse.takeWhile isNumber).reverse (by
    intro b hb
    rw [List.mem_reverse] at hb
    exact List.all_eq_true.1 (List.all_takeWhile ..) b hb)
  refine .inr (.inr ⟨s, t, ds, hs, hds, ?_⟩)
  rw [← he, ← hw]
  have : n = (n.reverse.dropWhile isNumber).reverse ++ (n.reverse.takeWhile isNumber).reverse := by
    rw [← List.reverse_append, List.takeWhile_append_dropWhile, List.reverse_reverse]
  have h2 : n.take (n.length - (n.reverse.takeWhile isNumber).reverse.length) = (n.reverse.dropWhile isNumber).reverse := by
    conv => lhs; rw [this]
    rw [List.take_left']
    simp
  rw [h2]
  exact this

end Armips.ArmLine
