import Verif.Lemmas.CtorText
import Verif.Props.Ctor
import Verif.Spec.Literal
/-!
# C80: The text of the function for constructors

For any number of sections and all names of labels.
-/
namespace Armips.Props
open Armips.Spec Armips.Ctor

private theorem hexChar_value {n : Nat} (h : n < 16) : digitValue (Nat.digitChar n).toUpper = some n := by
  have : ∀ n : Fin 16, digitValue (Nat.digitChar n).toUpper = some n.val := by decide
  exact this ⟨n, h⟩

private theorem hex_digits (n : Nat) : Digits 16 ((Nat.toDigits 16 n).map Char.toUpper) n := by
  induction n using Nat.strongRecOn with
  | ind n ih =>
    rw [Nat.toDigits_eq_if (by omega)]
    split
    · rename_i h
      have := Digits.snoc (b := 16) .nil (hexChar_value h) h
      simpa using this
    · have := Digits.snoc (ih (n / 16) (by omega)) (hexChar_value (Nat.mod_lt n (by omega))) (Nat.mod_lt n (by omega))
      rw [Nat.div_add_mod'] at this
      simpa using this

private theorem zeros_digits (k : Nat) : Digits 16 (List.replicate k '0') 0 := by
  induction k with
  | zero => exact .nil
  | succ k ih =>
    have := Digits.snoc (c := '0') (d := 0) ih (by decide) (by decide)
    rwa [← List.replicate_succ'] at this

private theorem digits_append {b n m : Nat} {x y : List Char} (hx : Digits b x n) (h0 : n = 0) (hy : Digits b y m) : Digits b (x ++ y) m := by
  induction hy with
  | nil => subst h0; simpa using hx
  | snoc _ h1 h2 ih =>
    have := Digits.snoc ih h1 h2
    rwa [List.append_assoc] at this

/-- The number that is written behind the name of a section denotes the size of the section. -/
theorem ctor_size_text (n : Nat) : Denotes (hex8 n) n := by
  refine ⟨16, List.replicate (8 - (Nat.toDigits 16 n).length) '0' ++ (Nat.toDigits 16 n).map Char.toUpper, .hexPrefix (Or.inl rfl), ?_⟩
  exact digits_append (zeros_digits _) rfl (hex_digits n)

private theorem digits_chars {b n : Nat} {x : List Char} (h : Digits b x n) : ∀ c ∈ x, digitValue c ≠ none := by
  induction h with
  | nil => simp
  | snoc _ h1 _ ih =>
    intro c hc
    rcases List.mem_append.mp hc with hc | hc
    · exact ih c hc
    · rw [List.mem_singleton.mp hc, h1]; simp

/-- The parts of a text between commas. -/
def commaParts : List Char → List (List Char)
  | [] => [[]]
  | c :: s =>
    if c = ',' then [] :: commaParts s
    else match commaParts s with
      | [] => [[c]]
      | l :: ls => (c :: l) :: ls

private theorem commaParts_ne (s : List Char) : commaParts s ≠ [] := by
  cases s with
  | nil => simp [commaParts]
  | cons c s =>
    simp only [commaParts]
    split
    · simp
    · split <;> simp

private theorem commaParts_part {x : List Char} (h : ',' ∉ x) (s : List Char) : commaParts (x ++ ',' :: s) = x :: commaParts s := by
  induction x with
  | nil => simp [commaParts]
  | cons c x ih =>
    have hc : c ≠ ',' := fun he => h (by rw [he]; exact List.mem_cons_self)
    simp only [List.cons_append, commaParts, hc, if_false, ih fun hm => h (List.mem_cons_of_mem _ hm)]

private theorem commaParts_last {x : List Char} (h : ',' ∉ x) : commaParts x = [x] := by
  induction x with
  | nil => rfl
  | cons c x ih =>
    have hc : c ≠ ',' := fun he => h (by rw [he]; exact List.mem_cons_self)
    simp only [commaParts, hc, if_false, ih fun hm => h (List.mem_cons_of_mem _ hm)]

private theorem hex8_chars {c : Char} (hc : c ∈ hex8 n) : c = 'x' ∨ digitValue c ≠ none := by
  unfold hex8 at hc
  rw [List.append_assoc] at hc
  rcases List.mem_append.mp hc with hc | hc
  · simp only [List.mem_cons, List.not_mem_nil, or_false] at hc
    rcases hc with rfl | rfl
    · exact Or.inr (by decide)
    · exact Or.inl rfl
  · exact Or.inr (digits_chars (digits_append (zeros_digits _) rfl (hex_digits n)) c hc)

/-- The table has two entries for each section, in the order of the sections: its label, and its label plus its size. -/
theorem mips_ctor_entries {ctors : List (List Char × Nat)} (hne : ctors ≠ []) (hn : ∀ c ∈ ctors, ',' ∉ c.1) :
    commaParts (tableText ctors) = ctors.flatMap fun c => [c.1, c.1 ++ '+' :: hex8 c.2] := by
  have hend : ∀ c ∈ ctors, ',' ∉ c.1 ++ '+' :: hex8 c.2 := by
    intro c hc hm
    rcases List.mem_append.mp hm with hm | hm
    · exact hn c hc hm
    · rcases List.mem_cons.mp hm with hm | hm
      · exact absurd hm (by decide)
      · rcases hex8_chars hm with h | h
        · exact absurd h (by decide)
        · exact h (by decide)
  induction ctors with
  | nil => exact absurd rfl hne
  | cons c l ih =>
    have h1 := hn c List.mem_cons_self
    have h2 := hend c List.mem_cons_self
    cases l with
    | nil =>
      have e : tableText [c] = c.1 ++ ',' :: (c.1 ++ '+' :: hex8 c.2) := by simp [tableText]
      rw [e, commaParts_part h1, commaParts_last h2]
      rfl
    | cons d l =>
      have e : tableText (c :: d :: l) = c.1 ++ ',' :: ((c.1 ++ '+' :: hex8 c.2) ++ ',' :: tableText (d :: l)) := by simp [tableText]
      rw [e, commaParts_part h1, commaParts_part h2, ih (by simp) (fun x hx => hn x (List.mem_cons_of_mem _ hx)) fun x hx => hend x (List.mem_cons_of_mem _ hx)]
      rfl

private theorem table_free {ctors : List (List Char × Nat)} (hn : ∀ c ∈ ctors, '%' ∉ c.1) : '%' ∉ tableText ctors := by
  have hend : ∀ n, '%' ∉ hex8 n := by
    intro n hm
    rcases hex8_chars hm with h | h
    · exact absurd h (by decide)
    · exact h (by decide)
  induction ctors with
  | nil => simp [tableText]
  | cons c l ih =>
    have h1 := hn c List.mem_cons_self
    have h2 := hend c.2
    cases l with
    | nil => simp [tableText, h1, h2]
    | cons d l =>
      have h3 := ih fun x hx => hn x (List.mem_cons_of_mem _ hx)
      simp [tableText, h1, h2] at h3 ⊢
      exact h3

private theorem repr_free (n : Nat) : '%' ∉ (Nat.repr n).toList := by
  intro h
  have : (Nat.repr n).toList = Nat.toDigits 10 n := by simp [Nat.repr]
  rw [this] at h
  exact absurd (Nat.isDigit_of_mem_toDigits (by omega) (by omega) h) (by decide)

/-- The whole text of the function: for all names of labels without percent signs, every variable is replaced by its name, the size of the table is
eight times the number of sections, and nothing else changes. -/
theorem mips_ctor_text {table outer inner : List Char} {ctors : List (List Char × Nat)} (hc : ctors ≠ []) (h1 : '%' ∉ table) (h2 : '%' ∉ outer)
    (h3 : '%' ∉ inner) (h4 : ∀ c ∈ ctors, '%' ∉ c.1) : mipsText table outer inner ctors = List.flatten [
      "\n\taddiu\tsp,-32\n\tsw\t\tra,0(sp)\n\tsw\t\ts0,4(sp)\n\tsw\t\ts1,8(sp)\n".toList,
      "\tsw\t\ts2,12(sp)\n\tsw\t\ts3,16(sp)\n\tli\t\ts0,".toList, table,
      "\n\tli\t\ts1,".toList, table, ['+'], (Nat.repr (ctors.length * 8)).toList, "\n\t".toList, outer,
      ":\n\tlw\t\ts2,(s0)\n\tlw\t\ts3,4(s0)\n\taddiu\ts0,8\n\t".toList, inner,
      ":\n\tlw\t\ta0,(s2)\n\tjalr\ta0\n\taddiu\ts2,4h\n\tbne\t\ts2,s3,".toList, inner,
      "\n\tnop\n\tbne\t\ts0,s1,".toList, outer,
      "\n\tnop\n\tlw\t\tra,0(sp)\n\tlw\t\ts0,4(sp)\n\tlw\t\ts1,8(sp)\n".toList,
      "\tlw\t\ts2,12(sp)\n\tlw\t\ts3,16(sp)\n\tjr\t\tra\n\taddiu\tsp,32\n\t".toList,
      table, ":\n\t.word\t".toList, tableText ctors, ['\n']] := by
  rw [mipsText_eq hc h1 h2 h3 (repr_free _) (table_free h4)]
  have k : ∀ a b : String, a ≠ b → a.toList ≠ b.toList := fun a b h he => h (String.toList_inj.mp he)
  simp only [mipsPieces, List.map_cons, List.map_nil, Piece.subst, if_true,
    if_neg (k "ctorTableSize" "ctorTable" (by decide)), if_neg (k "outerLoopLabel" "ctorTable" (by decide)),
    if_neg (k "innerLoopLabel" "ctorTable" (by decide)), if_neg (k "ctorContent" "ctorTable" (by decide)),
    if_neg (k "outerLoopLabel" "ctorTableSize" (by decide)),
    if_neg (k "innerLoopLabel" "ctorTableSize" (by decide)), if_neg (k "ctorContent" "ctorTableSize" (by decide)),
    if_neg (k "innerLoopLabel" "outerLoopLabel" (by decide)), if_neg (k "ctorContent" "outerLoopLabel" (by decide)),
    if_neg (k "ctorContent" "innerLoopLabel" (by decide))]
  simp only [List.flatMap_def, List.map_cons, List.map_nil, Piece.chars]

/-- Without constructors the function returns at once: its text is read as the two instructions `jr ra` and `nop`, which call nothing, change nothing and
return to the caller. -/
theorem mips_ctor_none (table outer inner : List Char) :
    lineTokens (mipsText table outer inner []) = (do some ((← lineTokens "jr ra".toList) ++ (← lineTokens "nop".toList))) ∧
    (∀ v ∈ ctorVersions, ∀ labels va, lineWord v labels va "jr ra".toList = some 0x03e00008#32 ∧ lineWord v labels va "nop".toList = some 0#32) ∧
    ∀ be base call m, Spec.Calls.Runs be [0x03e00008#32, 0#32] base call m [] (m.reg 31) m := by
  refine ⟨?_, ?_, fun be base call m => ⟨1, Spec.Calls.go_jr (m := m) (w := 0x03e00008#32) (d := 0#32) rfl rfl (by decide) (p_nop be m)⟩⟩
  · show lineTokens "jr ra :: nop".toList = _
    decide +kernel
  · have h : ∀ v ∈ ctorVersions, (lineWord v (fun _ => none) 0 "jr ra".toList = some 0x03e00008#32 ∧ isFixed v "jr ra".toList = true) ∧
        lineWord v (fun _ => none) 0 "nop".toList = some 0#32 ∧ isFixed v "nop".toList = true := by decide +kernel
    intro v hv labels va
    exact ⟨lineWord_fixed (h v hv).1.1 (h v hv).1.2 labels va, lineWord_fixed (h v hv).2.1 (h v hv).2.2 labels va⟩

/-- Names as they are generated. -/
example : commaParts (tableText [("a_1".toList, 8), ("a_2".toList, 0x1C)]) =
    ["a_1".toList, "a_1+0x00000008".toList, "a_2".toList, "a_2+0x0000001C".toList] := by
  rw [mips_ctor_entries (by simp) (by decide +kernel)]
  decide +kernel

end Armips.Props
