import Verif.Spec.MipsParse
import Verif.Props.ExprParse
/-!
# Lemmas about the reading of MIPS operands: registers and names
-/
namespace Armips.MipsParse
open ExprParse (Tok)
open Mips (Slot ImmType SecType Op Operands Version Flag)
open Spec.MipsParse

theorem lookup_some {s : Str} {t : List (String × Nat)} {n : Int} (h : lookup s t = some n) : ∃ x ∈ t, lit x.1 = s ∧ n = (x.2 : Int) := by
  unfold lookup at h
  cases hf : t.find? (fun x => lit x.1 = s) with
  | none => rw [hf] at h; cases h
  | some x =>
    rw [hf] at h
    refine ⟨x, List.mem_of_find?_eq_some hf, ?_, ?_⟩
    · simpa using List.find?_some hf
    · simp only [Option.map_some, Option.some.injEq] at h; exact h.symm

def allCls : List Cls := [.cpu, .fpu, .fpuControl, .cop0, .ps2, .gteData, .gteControl, .rspCop0, .rspControl, .rspVector]

theorem mem_allCls (c : Cls) : c ∈ allCls := by cases c <;> simp [allCls]

theorem names_sound : (allCls.all fun c => c.names.all fun x => decide (x.2 < 32) && (names c x.2).contains x.1) = true := by decide +kernel

theorem names_complete : (allCls.all fun c => (List.range 32).all fun n => (names c n).all fun k => lookup (lit k) c.names == some (n : Int)) = true := by
  decide +kernel

theorem lookup_names {c : Cls} {s : Str} {n : Nat} : lookup s c.names = some (n : Int) ↔ n < 32 ∧ ∃ k ∈ names c n, s = lit k := by
  constructor
  · intro h
    obtain ⟨x, hx, rfl, h2⟩ := lookup_some h
    have h2 : n = x.2 := by omega
    subst h2
    have := List.all_eq_true.1 (List.all_eq_true.1 names_sound c (mem_allCls c)) x hx
    simp only [Bool.and_eq_true, decide_eq_true_eq, List.contains_iff_mem] at this
    exact ⟨this.1, x.1, this.2, rfl⟩
  · rintro ⟨h1, k, h2, rfl⟩
    have := List.all_eq_true.1 (List.all_eq_true.1 (List.all_eq_true.1 names_complete c (mem_allCls c)) n (List.mem_range.2 h1)) k h2
    simpa using this

theorem lookup_nonneg {s : Str} {t : List (String × Nat)} {n : Int} (h : lookup s t = some n) : 0 ≤ n := by
  obtain ⟨x, _, _, rfl⟩ := lookup_some h; omega

theorem numbered_iff (c : Cls) : c.numbered = true ↔ c ≠ .ps2 ∧ c ≠ .rspVector := by cases c <;> simp [Cls.numbered]

theorem registerNumber_some {b : Int} {ts rest : List Token} {v : Int} (h : registerNumber b ts = some (v, rest)) :
    ∃ x y, ts = (.dollar, x) :: (.int v, y) :: rest ∧ v < b := by
  unfold registerNumber at h
  split at h
  · rename_i x v' y ts
    split at h
    · rename_i hv
      cases h
      exact ⟨x, y, rfl, hv⟩
    · cases h
  · cases h

theorem registerTable_some {t : List (String × Nat)} {ts rest : List Token} {v : Int} (h : registerTable t ts = some (v, rest)) :
    ∃ n x, lookup n t = some v ∧ (ts = (.ident n, x) :: rest ∨ ∃ y, ts = (.dollar, y) :: (.ident n, x) :: rest) := by
  unfold registerTable at h
  split at h
  · rename_i x n y ts
    cases hl : lookup n t with
    | none => rw [hl] at h; cases h
    | some k => rw [hl] at h; cases h; exact ⟨n, y, hl, .inr ⟨x, rfl⟩⟩
  · rename_i n x ts
    cases hl : lookup n t with
    | none => rw [hl] at h; cases h
    | some k => rw [hl] at h; cases h; exact ⟨n, x, hl, .inl rfl⟩
  · cases h

theorem register_cases {c : Cls} {ts rest : List Token} {v : Int} (h : register c ts = some (v, rest)) :
    (c.numbered = true ∧ ∃ x y, ts = (.dollar, x) :: (.int v, y) :: rest ∧ v < 32) ∨
    (∃ n x, lookup n c.names = some v ∧ (ts = (.ident n, x) :: rest ∨ ∃ y, ts = (.dollar, y) :: (.ident n, x) :: rest)) := by
  unfold register at h
  split at h
  · rename_i hn
    split at h
    · rename_i r hr
      cases h
      exact .inl ⟨hn, registerNumber_some hr⟩
    · exact .inr (registerTable_some h)
  · exact .inr (registerTable_some h)

theorem register_ident (c : Cls) (n : Str) (x : Str) (ts : List Token) :
    register c ((.ident n, x) :: ts) = (lookup n c.names).map (·, ts) := by
  unfold register
  split <;> rfl

theorem register_dollar_ident (c : Cls) (n : Str) (x y : Str) (ts : List Token) :
    register c ((.dollar, x) :: (.ident n, y) :: ts) = (lookup n c.names).map (·, ts) := by
  unfold register
  split <;> rfl

theorem register_dollar_int {c : Cls} (hc : c.numbered = true) {n : Int} (hn : n < 32) (x y : Str) (ts : List Token) :
    register c ((.dollar, x) :: (.int n, y) :: ts) = some (n, ts) := by
  unfold register
  rw [if_pos hc]
  simp [registerNumber, hn]

theorem register_iff {c : Cls} {ts rest : List Token} {n : Nat} :
    register c ts = some ((n : Int), rest) ↔ ∃ pre, Reg c n pre ∧ ts = pre ++ rest := by
  constructor
  · intro h
    rcases register_cases h with ⟨hc, x, y, rfl, hn⟩ | ⟨k, x, hl, h⟩
    · have := (numbered_iff c).1 hc
      exact ⟨_, .number (by omega) this.1 this.2, rfl⟩
    · obtain ⟨h1, s, h2, rfl⟩ := lookup_names.1 hl
      rcases h with rfl | ⟨y, rfl⟩
      · exact ⟨_, .name h1 h2, rfl⟩
      · exact ⟨_, .dollar h1 h2, rfl⟩
  · rintro ⟨pre, hr, rfl⟩
    cases hr with
    | name h1 h2 => rw [List.cons_append, register_ident, lookup_names.2 ⟨h1, _, h2, rfl⟩]; rfl
    | dollar h1 h2 => rw [List.cons_append, List.cons_append, register_dollar_ident, lookup_names.2 ⟨h1, _, h2, rfl⟩]; rfl
    | number h1 h2 h3 => exact register_dollar_int ((numbered_iff c).2 ⟨h2, h3⟩) (by omega) _ _ _

theorem Reg.lt {c : Cls} {n : Nat} {ts : List Token} (h : Reg c n ts) : n < 32 := by cases h <;> assumption

/-- A register of a kind begins with a name or with `$`. -/
theorem register_first {c : Cls} {t : Token} {ts : List Token} (h1 : ∀ n, t.1 ≠ .ident n) (h2 : t.1 ≠ .dollar) : register c (t :: ts) = none := by
  cases h : register c (t :: ts) with
  | none => rfl
  | some r =>
    obtain ⟨v, rest⟩ := r
    rcases register_cases h with ⟨_, x, y, h, _⟩ | ⟨k, x, _, h | ⟨y, h⟩⟩ <;> cases h
    · exact absurd rfl h2
    · exact absurd rfl (h1 k)
    · exact absurd rfl h2

theorem register_nil (c : Cls) : register c [] = none := by
  cases h : register c [] with
  | none => rfl
  | some r =>
    obtain ⟨v, rest⟩ := r
    rcases register_cases h with ⟨_, x, y, h, _⟩ | ⟨k, x, _, h | ⟨y, h⟩⟩ <;> cases h

theorem reg_shape {c : Cls} {n : Nat} {ts : List Token} (h : Reg c n ts) : ∃ t r, ts = t :: r ∧ ((∃ k, t.1 = .ident k) ∨ t.1 = .dollar) := by
  cases h
  · exact ⟨_, _, rfl, .inl ⟨_, rfl⟩⟩
  · exact ⟨_, _, rfl, .inr rfl⟩
  · exact ⟨_, _, rfl, .inr rfl⟩

/-! ### Names of rows -/

theorem branch_sound : (branchConditions.all fun x => ((branchNames[x.2]?).getD []).contains x.1) = true := by decide +kernel

theorem branch_complete : ((List.range 6).all fun n => ((branchNames[n]?).getD []).all fun k => lookup (lit k) branchConditions == some (n : Int)) = true := by
  decide +kernel

theorem lookup_branch {s : Str} {n : Nat} : lookup s branchConditions = some (n : Int) ↔ ∃ l k, branchNames[n]? = some l ∧ k ∈ l ∧ s = lit k := by
  constructor
  · intro h
    obtain ⟨x, hx, rfl, h2⟩ := lookup_some h
    have h2 : n = x.2 := by omega
    subst h2
    have := List.all_eq_true.1 branch_sound x hx
    rw [List.contains_iff_mem] at this
    cases hb : branchNames[x.2]? with
    | none => rw [hb] at this; cases this
    | some l => rw [hb] at this; exact ⟨l, x.1, rfl, this, rfl⟩
  · rintro ⟨l, k, h1, h2, rfl⟩
    have hn : n < 6 := (List.getElem?_eq_some_iff.1 h1).1
    have := List.all_eq_true.1 branch_complete n (List.mem_range.2 hn)
    rw [h1] at this
    simpa using List.all_eq_true.1 this k h2

theorem vfpuType_iff {b : Byte} {k : Nat} : vfpuType b = some k ↔ ∃ l, ['s', 'p', 't', 'q'][k]? = some l ∧ b = chr l := by
  unfold vfpuType
  constructor
  · intro h
    repeat' split at h
    all_goals first
      | cases h
      | skip
    · rename_i h; exact ⟨'s', rfl, h⟩
    · rename_i h; exact ⟨'p', rfl, h⟩
    · rename_i h; exact ⟨'t', rfl, h⟩
    · rename_i h; exact ⟨'q', rfl, h⟩
  · rintro ⟨l, hl, rfl⟩
    have hk : k < 4 := (List.getElem?_eq_some_iff.1 hl).1
    match k, hk with
    | 0, _ => cases hl; decide
    | 1, _ => cases hl; decide
    | 2, _ => cases hl; decide
    | 3, _ => cases hl; decide

theorem decodeName_of {p : List Char} {n : Str} {s b : Option Nat} (h : Named p n s b) (x : Name) :
    decodeName p n x = some ⟨s.or x.size, b.or x.sec⟩ := by
  induction h generalizing x with
  | nil => simp [decodeName]
  | letter h1 h2 _ ih => rw [decodeName.eq_def]; simp [h1, h2, ih]
  | size hl _ ih =>
    rw [decodeName.eq_def]
    simp [vfpuType_iff.2 ⟨_, hl, rfl⟩, ih]
  | cond h1 h2 =>
    rw [decodeName.eq_def]
    simp [lookup_branch.2 ⟨_, _, h1, h2, rfl⟩, decodeName]

/-- The patterns in names: at most one size, and a condition only at the end. -/
def patternOk : List Char → Bool
  | [] => true
  | 'S' :: r => !r.contains 'S' && !r.contains 'B'
  | ['B'] => true
  | 'B' :: _ => false
  | _ :: r => patternOk r

theorem decodeName_plain : ∀ {p : List Char} {n : Str} {x y : Name}, p.contains 'S' = false → p.contains 'B' = false → decodeName p n x = some y →
    y = x ∧ Named p n none none
  | [], [], x, y, _, _, h => by simp only [decodeName, Option.some.injEq] at h; exact ⟨h.symm, .nil⟩
  | [], _ :: _, x, y, _, _, h => by simp [decodeName] at h
  | c :: p, n, x, y, hs, hb, h => by
    simp only [List.contains_cons, Bool.or_eq_false_iff, beq_eq_false_iff_ne, ne_eq] at hs hb
    have h1 : c ≠ 'S' := fun e => hs.1 e.symm
    have h2 : c ≠ 'B' := fun e => hb.1 e.symm
    rw [decodeName.eq_def] at h
    simp only [h1, h2, if_false] at h
    match n, h with
    | [], h => cases h
    | k :: n, h =>
      simp only at h
      split at h
      · rename_i hk
        obtain ⟨e, hn⟩ := decodeName_plain hs.2 hb.2 h
        exact ⟨e, hk ▸ .letter h1 h2 hn⟩
      · cases h

theorem decodeName_named : ∀ {p : List Char} {n : Str} {y : Name}, patternOk p = true → decodeName p n ⟨none, none⟩ = some y → Named p n y.size y.sec
  | [], [], y, _, h => by simp only [decodeName, Option.some.injEq] at h; subst h; exact .nil
  | [], _ :: _, y, _, h => by simp [decodeName] at h
  | c :: p, n, y, hp, h => by
    by_cases h1 : c = 'S'
    · subst h1
      simp only [patternOk, Bool.and_eq_true, Bool.not_eq_true'] at hp
      rw [decodeName.eq_def] at h
      simp only [if_true] at h
      match n, h with
      | [], h => cases h
      | k :: n, h =>
        simp only at h
        cases hk : vfpuType k with
        | none => rw [hk] at h; cases h
        | some s =>
          rw [hk] at h
          obtain ⟨e, hn⟩ := decodeName_plain hp.1 hp.2 h
          subst e
          obtain ⟨l, hl, rfl⟩ := vfpuType_iff.1 hk
          exact .size hl hn
    · by_cases h2 : c = 'B'
      · subst h2
        match p, hp with
        | [], _ =>
          rw [decodeName.eq_def] at h
          simp only [h1, if_false, if_true] at h
          cases hl : lookup n branchConditions with
          | none => rw [hl] at h; cases h
          | some k =>
            rw [hl] at h
            simp only [decodeName, Option.some.injEq] at h
            subst h
            have hk : lookup n branchConditions = some (k.toNat : Int) := by rw [hl, Int.toNat_of_nonneg (lookup_nonneg hl)]
            obtain ⟨l, s, h3, h4, rfl⟩ := lookup_branch.1 hk
            exact .cond h3 h4
        | _ :: _, hp => cases hp
      · have hp : patternOk p = true := by
          rw [patternOk.eq_def] at hp
          split at hp
          · contradiction
          · rename_i h; cases h; exact absurd rfl h1
          · rename_i h; cases h; exact absurd rfl h2
          · rename_i h; cases h; exact absurd rfl h2
          · rename_i h; cases h; exact hp
        rw [decodeName.eq_def] at h
        simp only [h1, h2, if_false] at h
        match n, h with
        | [], h => cases h
        | k :: n, h =>
          simp only at h
          split at h
          · rename_i hk
            exact hk ▸ .letter h1 h2 (decodeName_named hp h)
          · cases h

end Armips.MipsParse
