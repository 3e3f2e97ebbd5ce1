import Verif.Model.StringToInt
import Verif.Spec.Literal
/-!
# C43: integer literals

`stringToInt` is called on the alphanumeric token `tok` inside a line `pre ++ tok ++ post`; the tokenizer ends a
number token at the first character that is not alphanumeric.
-/
namespace Armips.Props
open Armips.StrInt Armips.Spec

private def horner (b : Nat) : Nat → List Char → Option Nat
  | n, [] => some n
  | n, c :: cs => match digitValue c with
    | some d => if d < b then horner b (n * b + d) cs else none
    | none => none

private theorem horner_snoc (b n : Nat) (ds : List Char) (c : Char) :
    horner b n (ds ++ [c]) = (horner b n ds).bind fun m => horner b m [c] := by
  induction ds generalizing n with
  | nil => rfl
  | cons x xs ih =>
    simp only [List.cons_append, horner]
    split
    · split
      · exact ih _
      · rfl
    · rfl

private theorem digits_horner {b ds n} (h : Digits b ds n) : horner b 0 ds = some n := by
  induction h with
  | nil => rfl
  | snoc _ h1 h2 ih => rw [horner_snoc, ih]; simp [horner, h1, h2]

private theorem horner_digits {b m n} (pre ds : List Char) (hp : Digits b pre m) (h : horner b m ds = some n) :
    Digits b (pre ++ ds) n := by
  induction ds generalizing pre m with
  | nil => simp [horner] at h; subst h; simpa using hp
  | cons c cs ih =>
    simp only [horner] at h
    split at h
    · rename_i d hd
      split at h
      · rename_i hlt
        have := ih (pre ++ [c]) (Digits.snoc hp hd hlt) h
        simpa using this
      · simp at h
    · simp at h

private theorem digitValue_range {c : Char} {d : Nat} (h : digitValue c = some d) :
    (48 ≤ c.toNat ∧ c.toNat ≤ 57 ∧ d = c.toNat - 48) ∨ (97 ≤ c.toNat ∧ c.toNat ≤ 122 ∧ d = c.toNat - 87) ∨
    (65 ≤ c.toNat ∧ c.toNat ≤ 90 ∧ d = c.toNat - 55) := by
  unfold digitValue at h
  have e1 : ('0' ≤ c) ↔ 48 ≤ c.toNat := Iff.rfl
  have e2 : (c ≤ '9') ↔ c.toNat ≤ 57 := Iff.rfl
  have e3 : ('a' ≤ c) ↔ 97 ≤ c.toNat := Iff.rfl
  have e4 : (c ≤ 'z') ↔ c.toNat ≤ 122 := Iff.rfl
  have e5 : ('A' ≤ c) ↔ 65 ≤ c.toNat := Iff.rfl
  have e6 : (c ≤ 'Z') ↔ c.toNat ≤ 90 := Iff.rfl
  simp only [e1, e2, e3, e4, e5, e6] at h
  have z : '0'.toNat = 48 := rfl
  have a : 'a'.toNat = 97 := rfl
  have A : 'A'.toNat = 65 := rfl
  simp only [z, a, A] at h
  split at h
  · simp at h; omega
  · split at h
    · simp at h; omega
    · split at h
      · simp at h; omega
      · simp at h

private theorem digit_eq {c : Char} {d : Nat} (h : digitValue c = some d) : digit (tolower (code c)) = d := by
  unfold digit tolower code
  rcases digitValue_range h with h | h | h <;> grind

private theorem char_eq_iff (c x : Char) : c = x ↔ c.toNat = x.toNat := Char.toNat_inj.symm

private theorem low_eq {c : Char} (h : (digitValue c).isSome) (x X : Char) (hx : X.toNat + 32 = x.toNat)
    (hX : 65 ≤ X.toNat ∧ X.toNat ≤ 90) : tolower (code c) = (x.toNat : Int) ↔ (c = x ∨ c = X) := by
  obtain ⟨d, hd⟩ := Option.isSome_iff_exists.mp h
  rw [char_eq_iff, char_eq_iff]
  unfold tolower code
  rcases digitValue_range hd with h | h | h <;> grind

private theorem low_zero {c : Char} (h : (digitValue c).isSome) : tolower (code c) = 48 ↔ c = '0' := by
  obtain ⟨d, hd⟩ := Option.isSome_iff_exists.mp h
  rw [char_eq_iff]
  have : '0'.toNat = 48 := rfl
  unfold tolower code
  rcases digitValue_range hd with h | h | h <;> grind

private theorem convert_ok (b : Nat) (hb : 2 ≤ b ∧ b ≤ 16) (ds : List Char) (hds : ∀ c ∈ ds, (digitValue c).isSome)
    (n : Nat) :
    convert b ds (BitVec.ofNat 64 n) (decide (2 ^ 63 ≤ n)) =
      match horner b n ds with
      | some m => .ok (BitVec.ofNat 64 m) (decide (2 ^ 63 ≤ m))
      | none => .reject := by
  induction ds generalizing n with
  | nil => rfl
  | cons c cs ih =>
    obtain ⟨d, hd⟩ := Option.isSome_iff_exists.mp (hds c (by simp))
    have ih' := ih (fun x hx => hds x (by simp [hx])) (n * b + d)
    simp only [convert, digit_eq hd, horner, hd]
    by_cases hlt : d < b
    · rw [if_neg (by omega), if_pos hlt, ← ih']
      congr 1
      · rw [BitVec.ofInt_add, BitVec.ofInt_mul, BitVec.ofInt_toInt]
        simp [BitVec.ofNat_add, BitVec.ofNat_mul]
      · by_cases hn : 2 ^ 63 ≤ n
        · have : 2 ^ 63 ≤ n * b + d := by
            have : n * 1 ≤ n * b := Nat.mul_le_mul_left _ (by omega)
            omega
          simp [hn, this]
        · have hto : (BitVec.ofNat 64 n).toInt = n := by
            rw [BitVec.toInt_eq_toNat_of_lt] <;> simp <;> omega
          rw [hto]
          have e1 : (n : Int) * (b : Int) = ((n * b : Nat) : Int) := by simp
          rw [e1]
          rw [Bool.eq_iff_iff]
          simp only [Bool.or_eq_true, Bool.not_eq_true', decide_eq_true_eq, decide_eq_false_iff_not]
          generalize n * b = p
          omega
    · rw [if_pos (by omega), if_neg hlt]

private theorem charAt_mid (pre tok post : List Char) (i : Nat) (h : i < tok.length) :
    charAt (pre ++ tok ++ post) (pre.length + i) = some (tolower (code tok[i])) := by
  unfold charAt
  rw [if_pos (by simp; omega), List.append_assoc, List.getElem?_append_right (by omega)]
  simp [List.getElem?_append_left h, List.getElem?_eq_getElem h]

/-- The character after the token. -/
private theorem charAt_post (pre tok post : List Char) (h : ∀ c, post.head? = some c → c.toNat < 256 ∧ digitValue c = none) :
    ∃ x, charAt (pre ++ tok ++ post) (pre.length + tok.length) = some x ∧ x ≠ 120 ∧ x ≠ 111 ∧ x ≠ 98 := by
  cases post with
  | nil =>
    refine ⟨0, ?_, by decide, by decide, by decide⟩
    unfold charAt; simp
  | cons c cs =>
    obtain ⟨hb, hc⟩ := h c rfl
    refine ⟨tolower (code c), ?_, ?_⟩
    · unfold charAt; simp
    · unfold digitValue at hc
      have e1 : ('0' ≤ c) ↔ 48 ≤ c.toNat := Iff.rfl
      have e2 : (c ≤ '9') ↔ c.toNat ≤ 57 := Iff.rfl
      have e3 : ('a' ≤ c) ↔ 97 ≤ c.toNat := Iff.rfl
      have e4 : (c ≤ 'z') ↔ c.toNat ≤ 122 := Iff.rfl
      have e5 : ('A' ≤ c) ↔ 65 ≤ c.toNat := Iff.rfl
      have e6 : (c ≤ 'Z') ↔ c.toNat ≤ 90 := Iff.rfl
      simp only [e1, e2, e3, e4, e5, e6] at hc
      unfold tolower code
      grind


private theorem take_eq (pre tok post : List Char) (k : Nat) (hk : k ≤ tok.length) :
    (pre ++ tok ++ post).take (pre.length + k) = pre ++ tok.take k := by
  rw [List.append_assoc, List.take_length_add_append, List.take_append_of_le_length hk]

private theorem slice_eq (pre tok post : List Char) (i k : Nat) (hk : k ≤ tok.length) :
    ((pre ++ tok ++ post).take (pre.length + k)).drop (pre.length + i) = (tok.take k).drop i := by
  rw [take_eq _ _ _ _ hk, List.drop_length_add_append]

/-- The hypothesis on the surrounding line: the token is not followed by another alphanumeric byte. -/
def TokenEnd (post : List Char) : Prop := ∀ c, post.head? = some c → c.toNat < 256 ∧ digitValue c = none

section
variable (pre tok post : List Char) (ht : tok ≠ []) (hd : ∀ c ∈ tok, (digitValue c).isSome) (hp : TokenEnd post)
include ht hd hp

private theorem last_char : charAt (pre ++ tok ++ post) (pre.length + tok.length - 1) =
    some (tolower (code (tok.getLast ht))) := by
  have hl : 0 < tok.length := List.length_pos_iff.mpr ht
  have := charAt_mid pre tok post (tok.length - 1) (by omega)
  rw [show pre.length + tok.length - 1 = pre.length + (tok.length - 1) by omega, this, List.getLast_eq_getElem]

private theorem hasSuffix (x X : Char) (hx : X.toNat + 32 = x.toNat) (hX : 65 ≤ X.toNat ∧ X.toNat ≤ 90) :
    tolower (code (tok.getLast ht)) = (x.toNat : Int) ↔ (tok.getLast ht = x ∨ tok.getLast ht = X) :=
  low_eq (hd _ (List.getLast_mem ht)) x X hx hX

private theorem suffix_eq : suffixBase (pre ++ tok ++ post) 10 (pre.length + tok.length) =
    some (if tok.getLast ht = 'h' ∨ tok.getLast ht = 'H' then (16, pre.length + tok.length - 1)
      else if tok.getLast ht = 'b' ∨ tok.getLast ht = 'B' then (2, pre.length + tok.length - 1)
      else if tok.getLast ht = 'o' ∨ tok.getLast ht = 'O' then (8, pre.length + tok.length - 1)
      else (10, pre.length + tok.length)) := by
  have h1 := hasSuffix tok post ht hd hp 'h' 'H' rfl (by decide)
  have h2 := hasSuffix tok post ht hd hp 'b' 'B' rfl (by decide)
  have h3 := hasSuffix tok post ht hd hp 'o' 'O' rfl (by decide)
  rw [show (('h'.toNat : Nat) : Int) = 104 from rfl] at h1
  rw [show (('b'.toNat : Nat) : Int) = 98 from rfl] at h2
  rw [show (('o'.toNat : Nat) : Int) = 111 from rfl] at h3
  unfold suffixBase
  rw [if_pos rfl, last_char pre tok post ht hd hp]
  simp only [Option.bind_eq_bind, Option.bind_some, h1, h2, h3]
  split
  · rfl
  · split
    · rfl
    · split <;> rfl

end

private theorem prefix_one (pre post : List Char) (c : Char) (hd : (digitValue c).isSome) (hp : TokenEnd post) :
    prefixBase (pre ++ [c] ++ post) pre.length (pre.length + 1) = some (10, pre.length) := by
  have h0 := charAt_mid pre [c] post 0 (by simp)
  obtain ⟨x, hx, n1, n2, n3⟩ := charAt_post pre [c] post hp
  simp only [Nat.add_zero, List.getElem_cons_zero, List.length_singleton] at h0 hx
  unfold prefixBase
  rw [h0, hx, Nat.add_sub_cancel, h0]
  simp [n1, n2, n3]

private theorem prefix_two (pre post : List Char) (c c1 : Char) (rest : List Char)
    (hd : ∀ x ∈ c :: c1 :: rest, (digitValue x).isSome) (hp : TokenEnd post) :
    prefixBase (pre ++ (c :: c1 :: rest) ++ post) pre.length (pre.length + (c :: c1 :: rest).length) =
      some (if c = '0' then
        if c1 = 'x' ∨ c1 = 'X' then (16, pre.length + 2)
        else if c1 = 'o' ∨ c1 = 'O' then (8, pre.length + 2)
        else if (c1 = 'b' ∨ c1 = 'B') ∧
            ¬ ((c :: c1 :: rest).getLast (by simp) = 'h' ∨ (c :: c1 :: rest).getLast (by simp) = 'H')
          then (2, pre.length + 2)
        else (10, pre.length)
      else (10, pre.length)) := by
  have h0 := charAt_mid pre (c :: c1 :: rest) post 0 (by simp)
  have h1 := charAt_mid pre (c :: c1 :: rest) post 1 (by simp)
  have hl := last_char pre (c :: c1 :: rest) post (by simp) hd hp
  have hc1 := hd c1 (by simp)
  have e1 := low_eq hc1 'x' 'X' rfl (by decide)
  have e2 := low_eq hc1 'o' 'O' rfl (by decide)
  have e3 := low_eq hc1 'b' 'B' rfl (by decide)
  have e4 := hasSuffix (c :: c1 :: rest) post (by simp) hd hp 'h' 'H' rfl (by decide)
  rw [show (('x'.toNat : Nat) : Int) = 120 from rfl] at e1
  rw [show (('o'.toNat : Nat) : Int) = 111 from rfl] at e2
  rw [show (('b'.toNat : Nat) : Int) = 98 from rfl] at e3
  rw [show (('h'.toNat : Nat) : Int) = 104 from rfl] at e4
  simp only [Nat.add_zero, List.getElem_cons_zero, List.getElem_cons_succ] at h0 h1
  unfold prefixBase
  rw [h0, h1, hl]
  simp only [Option.bind_eq_bind, Option.bind_some, low_zero (hd c (by simp)), e1, e2, e3, ne_eq, e4]
  split
  · split
    · rfl
    · split
      · rfl
      · split <;> rfl
  · rfl

/-- What the parser does with a token, in terms of the token alone. -/
private theorem model_eq (pre tok post : List Char) (ht : tok ≠ []) (hd : ∀ c ∈ tok, (digitValue c).isSome)
    (hp : TokenEnd post) :
    ∃ b ds, (2 ≤ b ∧ b ≤ 16) ∧ (∀ c ∈ ds, (digitValue c).isSome) ∧ Reading tok b ds ∧
      stringToInt (pre ++ tok ++ post) pre.length (pre.length + tok.length) = convert b ds 0#64 false := by
  have hl : 0 < tok.length := List.length_pos_iff.mpr ht
  have hsplit : tok.dropLast ++ [tok.getLast ht] = tok := List.dropLast_concat_getLast ht
  have hlast : tok.getLast? = some (tok.getLast ht) := List.getLast?_eq_some_getLast ht
  -- the suffix part, common to all tokens without prefix
  have suf : (∀ p rest, tok = '0' :: p :: rest → p ≠ 'x' ∧ p ≠ 'X' ∧ p ≠ 'o' ∧ p ≠ 'O' ∧
        (p = 'b' ∨ p = 'B' → tok.getLast ht = 'h' ∨ tok.getLast ht = 'H')) →
      prefixBase (pre ++ tok ++ post) pre.length (pre.length + tok.length) = some (10, pre.length) →
      ∃ b ds, (2 ≤ b ∧ b ≤ 16) ∧ (∀ c ∈ ds, (digitValue c).isSome) ∧ Reading tok b ds ∧
      stringToInt (pre ++ tok ++ post) pre.length (pre.length + tok.length) = convert b ds 0#64 false := by
    intro hnp hpre
    have hs := suffix_eq pre tok post ht hd hp
    have hslice := slice_eq pre tok post 0 (tok.length - 1) (by omega)
    have hslice' := slice_eq pre tok post 0 tok.length (by omega)
    simp only [Nat.add_zero, List.drop_zero, ← List.dropLast_eq_take, List.take_length] at hslice hslice'
    rw [show pre.length + (tok.length - 1) = pre.length + tok.length - 1 by omega] at hslice
    have hdd : ∀ c ∈ tok.dropLast, (digitValue c).isSome := fun c hc => hd c ((List.dropLast_sublist _).subset hc)
    have hle : pre.length + tok.length ≤ (pre ++ tok ++ post).length := by simp
    unfold stringToInt
    rw [if_neg (by omega), hpre]
    simp only
    rw [hs]
    by_cases c1 : tok.getLast ht = 'h' ∨ tok.getLast ht = 'H'
    · refine ⟨16, tok.dropLast, by decide, hdd, ?_, ?_⟩
      · have := Reading.hexSuffix (ds := tok.dropLast) (x := tok.getLast ht) c1 (by
          intro p rest he; rw [hsplit] at he; have := hnp p rest he; exact ⟨this.1, this.2.1, this.2.2.1, this.2.2.2.1⟩)
        rwa [hsplit] at this
      · rw [if_pos c1]; simp only; rw [if_pos (by omega), hslice]; rfl
    · rw [if_neg c1]
      have hnp' : ∀ p rest, tok = '0' :: p :: rest → p ≠ 'x' ∧ p ≠ 'X' ∧ p ≠ 'o' ∧ p ≠ 'O' ∧ p ≠ 'b' ∧ p ≠ 'B' := by
        intro p rest he
        obtain ⟨q1, q2, q3, q4, q5⟩ := hnp p rest he
        exact ⟨q1, q2, q3, q4, fun h => c1 (q5 (Or.inl h)), fun h => c1 (q5 (Or.inr h))⟩
      by_cases c2 : tok.getLast ht = 'b' ∨ tok.getLast ht = 'B'
      · refine ⟨2, tok.dropLast, by decide, hdd, ?_, ?_⟩
        · have := Reading.binSuffix (ds := tok.dropLast) (x := tok.getLast ht) c2 (by
            intro p rest he; rw [hsplit] at he; exact hnp' p rest he)
          rwa [hsplit] at this
        · rw [if_pos c2]; simp only; rw [if_pos (by omega), hslice]; rfl
      · rw [if_neg c2]
        by_cases c3 : tok.getLast ht = 'o' ∨ tok.getLast ht = 'O'
        · refine ⟨8, tok.dropLast, by decide, hdd, ?_, ?_⟩
          · have := Reading.octSuffix (ds := tok.dropLast) (x := tok.getLast ht) c3 (by
              intro p rest he; rw [hsplit] at he; exact hnp' p rest he)
            rwa [hsplit] at this
          · rw [if_pos c3]; simp only; rw [if_pos (by omega), hslice]; rfl
        · refine ⟨10, tok, by decide, hd, Reading.decimal ht ?_ hnp', ?_⟩
          · intro x hx; rw [hlast] at hx; injection hx with hx; subst hx
            simp only [not_or] at c1 c2 c3
            exact ⟨c1.1, c1.2, c3.1, c3.2, c2.1, c2.2⟩
          · rw [if_neg c3]; simp only; rw [if_pos hle, hslice']; rfl
  match tok, ht, hd, hl, hsplit, hlast, suf with
  | [c], ht, hd, hl, hsplit, hlast, suf =>
    exact suf (by simp) (prefix_one pre post c (hd c (by simp)) hp)
  | c :: c1 :: rest, ht, hd, hl, hsplit, hlast, suf =>
    have hpre := prefix_two pre post c c1 rest hd hp
    have hslice := slice_eq pre (c :: c1 :: rest) post 2 (c :: c1 :: rest).length (by omega)
    simp only [List.take_length, List.drop_succ_cons, List.drop_zero] at hslice
    have hle : pre.length + (c :: c1 :: rest).length ≤ (pre ++ (c :: c1 :: rest) ++ post).length := by simp
    have hdr : ∀ x ∈ rest, (digitValue x).isSome := fun x hx => hd x (by simp [hx])
    have fin : ∀ b : Nat, b ≠ 10 →
        prefixBase (pre ++ (c :: c1 :: rest) ++ post) pre.length (pre.length + (c :: c1 :: rest).length) =
          some ((b : Int), pre.length + 2) →
        stringToInt (pre ++ (c :: c1 :: rest) ++ post) pre.length (pre.length + (c :: c1 :: rest).length) =
          convert b rest 0#64 false := by
      intro b hb h
      unfold stringToInt
      rw [if_neg (by simp), h]
      simp only [suffixBase]
      rw [if_neg (by omega)]
      simp only [pure]
      rw [if_pos hle, hslice]
    by_cases hc : c = '0'
    · subst hc
      rw [if_pos rfl] at hpre
      by_cases k1 : c1 = 'x' ∨ c1 = 'X'
      · rw [if_pos k1] at hpre
        exact ⟨16, rest, by decide, hdr, Reading.hexPrefix k1, fin 16 (by decide) hpre⟩
      · rw [if_neg k1] at hpre
        by_cases k2 : c1 = 'o' ∨ c1 = 'O'
        · rw [if_pos k2] at hpre
          exact ⟨8, rest, by decide, hdr, Reading.octPrefix k2, fin 8 (by decide) hpre⟩
        · rw [if_neg k2] at hpre
          by_cases k3 : (c1 = 'b' ∨ c1 = 'B') ∧
            ¬ (('0' :: c1 :: rest).getLast (by simp) = 'h' ∨ ('0' :: c1 :: rest).getLast (by simp) = 'H')
          · rw [if_pos k3] at hpre
            refine ⟨2, rest, by decide, hdr, Reading.binPrefix k3.1 ?_, fin 2 (by decide) hpre⟩
            intro x hx
            have hx' : ('0' :: c1 :: rest).getLast? = some x := by rw [List.getLast?_cons_cons]; exact hx
            rw [hlast] at hx'; injection hx' with hx'; subst hx'
            have := k3.2
            simp only [not_or] at this
            exact this
          · rw [if_neg k3] at hpre
            refine suf ?_ hpre
            intro p r he
            injection he with _ he
            injection he with he _
            subst he
            simp only [not_or] at k1 k2
            refine ⟨k1.1, k1.2, k2.1, k2.2, fun h => ?_⟩
            exact Classical.byContradiction fun hh => k3 ⟨h, hh⟩
    · rw [if_neg hc] at hpre
      exact suf (by intro p r he; injection he with h _; exact absurd h hc) hpre

/-- A token has only one reading. -/
theorem literal_reading_unique {tok b ds b' ds'} (h : Reading tok b ds) (h' : Reading tok b' ds') :
    b = b' ∧ ds = ds' := by
  have snoc : ∀ {xs ys : List Char} {x y}, xs ++ [x] = ys ++ [y] → xs = ys ∧ x = y := by
    intro xs ys x y h
    have := List.append_inj' h rfl
    exact ⟨this.1, by simpa using this.2⟩
  have lastCons : ∀ {a b : Char} {r ds x}, a :: b :: r = ds ++ [x] → (b :: r).getLast? = some x := by
    intro a b r ds x h
    have : (a :: b :: r).getLast? = some x := by rw [h]; simp
    rwa [List.getLast?_cons_cons] at this
  cases h with
  | hexPrefix hx =>
    generalize ht : '0' :: _ :: ds = t at h'
    cases h' <;> grind
  | octPrefix hx =>
    generalize ht : '0' :: _ :: ds = t at h'
    cases h' <;> grind
  | binPrefix hx hl =>
    generalize ht : '0' :: _ :: ds = t at h'
    cases h' with
    | hexSuffix => have := lastCons ht; grind
    | decimal => grind
    | _ => grind
  | hexSuffix hx hl =>
    generalize ht : ds ++ [_] = t at h'
    cases h' with
    | binPrefix => have := lastCons ht.symm; grind
    | decimal _ h2 => subst ht; have := h2 _ List.getLast?_concat; grind
    | _ => grind
  | octSuffix hx hl =>
    generalize ht : ds ++ [_] = t at h'
    cases h' with
    | decimal _ h2 => subst ht; have := h2 _ List.getLast?_concat; grind
    | _ => grind
  | binSuffix hx hl =>
    generalize ht : ds ++ [_] = t at h'
    cases h' with
    | decimal _ h2 => subst ht; have := h2 _ List.getLast?_concat; grind
    | _ => grind
  | decimal hn hl hp =>
    cases h' with
    | hexSuffix => have := hl _ List.getLast?_concat; grind
    | octSuffix => have := hl _ List.getLast?_concat; grind
    | binSuffix => have := hl _ List.getLast?_concat; grind
    | _ => grind

/-- A token that denotes a number is accepted with that number modulo `2^64`; the accumulator leaves the range
of `int64_t` exactly when the number is `2^63` or more. -/
theorem literal_accepted (pre tok post : List Char) (n : Nat) (ht : tok ≠ [])
    (hd : ∀ c ∈ tok, (digitValue c).isSome) (hp : TokenEnd post) (hn : Denotes tok n) :
    stringToInt (pre ++ tok ++ post) pre.length (pre.length + tok.length) =
      .ok (BitVec.ofNat 64 n) (decide (2 ^ 63 ≤ n)) := by
  obtain ⟨b, ds, hb, hds, hr, he⟩ := model_eq pre tok post ht hd hp
  obtain ⟨b', ds', hr', hdig⟩ := hn
  obtain ⟨rfl, rfl⟩ := literal_reading_unique hr hr'
  have := convert_ok b hb ds hds 0
  simp only [Nat.not_le.mpr (Nat.two_pow_pos 63), decide_false] at this
  rw [he, show (0#64) = BitVec.ofNat 64 0 from rfl, this, digits_horner hdig]

/-- A token that denotes no number (it contains a digit that is invalid in its base) is rejected. -/
theorem literal_rejected (pre tok post : List Char) (ht : tok ≠ [])
    (hd : ∀ c ∈ tok, (digitValue c).isSome) (hp : TokenEnd post) (hn : ¬ ∃ n, Denotes tok n) :
    stringToInt (pre ++ tok ++ post) pre.length (pre.length + tok.length) = .reject := by
  obtain ⟨b, ds, hb, hds, hr, he⟩ := model_eq pre tok post ht hd hp
  have := convert_ok b hb ds hds 0
  simp only [Nat.not_le.mpr (Nat.two_pow_pos 63), decide_false] at this
  rw [he, show (0#64) = BitVec.ofNat 64 0 from rfl, this]
  cases h : horner b 0 ds with
  | none => rfl
  | some m => exact absurd ⟨m, b, ds, hr, by simpa using horner_digits [] ds .nil h⟩ hn

/-- Outside alphanumeric tokens the digit check is incomplete: the command line option `-definelabel name -5`
passes the argument unchecked, and it is accepted as -25. -/
theorem literal_minus_accepted : stringToInt ['-', '5'] 0 2 = .ok (BitVec.ofInt 64 (-25)) false := by decide +kernel

/-- An empty command line value reads outside the string. -/
theorem literal_empty_ub : stringToInt [] 0 0 = .ub := by decide +kernel

-- concrete instances of the hypotheses
example : Denotes ['0', 'x', '1', 'F'] 31 ∧ TokenEnd [' ', 'a'] ∧ ∀ c ∈ ['0', 'x', '1', 'F'], (digitValue c).isSome :=
  ⟨⟨16, ['1', 'F'], .hexPrefix (Or.inl rfl),
    .snoc (ds := ['1']) (n := 1) (d := 15) (.snoc (ds := []) (n := 0) (d := 1) .nil rfl (by decide)) rfl (by decide)⟩,
   by intro c h; simp at h; subst h; decide, by decide⟩

end Armips.Props
