import Verif.Lemmas.ArmLineSound
import Verif.Lemmas.MipsParseRows
import Verif.Props.ArmParse
/-!
# The rows of ARM and THUMB by pairs
-/
namespace Armips.ArmLine
open ExprParse (Tok)
open Spec.ArmLine
open MipsParse (allPairs allPairs_append findSome_first)

/-- A name as a number. -/
def code (s : String) : Nat := s.toList.foldl (fun a c => a * 256 + c.toNat) 0

/-- The same for bytes. -/
def codeOf (s : Str) : Nat := s.foldl (fun a c => a * 256 + c.toNat) 0

/-- Two names with the same mnemonic have the same number. -/
def merge (k : Nat) : Nat := if Nat.beq k 470021456723 then 1836021315 else if Nat.beq k 1651275843 then 6450296 else k

theorem merge_codes : merge (code "movCS") = merge (code "movC") ∧ merge (code "blxC") = merge (code "blx") := by decide +kernel

/-- A row. -/
structure Row where
  group : Nat
  elems : List Elem
  strange : Bool

/-- The rows of ARM; a row is strange if some of its texts are hidden. -/
def armRowOf (op : Arm.Op) : Row :=
  ⟨merge (code op.name), (armElements op.mask.toList).getD [], decide (op.name = "strC") && decide (op.mask = "d0,[n0],vm1S1")⟩

/-- Tokens of a class are one. -/
def Abs.single : Abs → Bool
  | .imm | .any => false
  | _ => true

/-- An earlier row does not fit. -/
def armApart (a b : Row) : Bool :=
  !Nat.beq a.group b.group || (shapesAll false b.elems).all fun s => !may a.elems s || (b.strange && Nat.beq s.length 8 && s.all Abs.single)

set_option maxRecDepth 100000 in
theorem arm_apart : allPairs armApart (Arm.opcodes.map armRowOf) = true := by decide +kernel

set_option maxRecDepth 100000 in
theorem arm_ok : ∀ op ∈ Arm.opcodes, (armElements op.mask.toList).any ok = true := by decide +kernel

/-- The rows of THUMB. -/
def thumbRowOf (op : Thumb.Op) : Nat × List Elem × Bool × Bool :=
  (codeOf (lit op.name), (thumbElements op.mask.toList).getD [], decide (op.mask = "D,S"), decide (op.mask = "/#I\x16") && decide (op.encoding = 0xF800#32))

/-- Two low registers. -/
def lowPair : List Abs → Bool
  | [.reg 0 7, .tok .comma, .reg 0 7] => true
  | _ => false

/-- An earlier row does not fit. -/
def thumbApart (a b : Nat × List Elem × Bool × Bool) : Bool :=
  !Nat.beq a.1 b.1 || b.2.2.2 || (shapesAll true b.2.1).all fun s => !may a.2.1 s || (b.2.2.1 && lowPair s)

set_option maxRecDepth 100000 in
theorem thumb_apart : allPairs thumbApart (Thumb.opcodes.map thumbRowOf) = true := by decide +kernel

set_option maxRecDepth 100000 in
theorem thumb_ok : ∀ op ∈ Thumb.opcodes, (thumbElements op.mask.toList).any ok = true ∧ ∀ c ∈ op.mask.toList, c.toNat < 256 := by decide +kernel

theorem conc_length {E : ExprParse.Env} {a : List Abs} {ts : List Tok} (h : ConcL E a ts) (hs : a.all Abs.single = true) : ts.length = a.length := by
  induction h with
  | nil => rfl
  | cons h1 _ ih =>
    simp only [List.all_cons, Bool.and_eq_true] at hs
    have := ih hs.2
    cases h1 with
    | imm _ => cases hs.1
    | any => cases hs.1
    | _ => simp [this]

theorem merge_of {op op' : Arm.Op} (h : op ∈ Arm.opcodes) (h' : op' ∈ Arm.opcodes) {n : List Char} {v v' : ArmParse.Vars}
    (hd : ArmParse.decode op.name.toList n ArmParse.Vars.start = some v) (hd' : ArmParse.decode op'.name.toList n ArmParse.Vars.start = some v') :
    merge (code op.name) = merge (code op'.name) := by
  have e : ∀ o : Arm.Op, ArmParse.decodeOpcode (String.ofList n) o = ArmParse.decode o.name.toList n ArmParse.Vars.start := by
    intro o; simp [ArmParse.decodeOpcode]
  have := Props.arm_mnemonic_unique h h' ((e op).trans hd) ((e op').trans hd')
  obtain ⟨m1, m2⟩ := merge_codes
  rcases this with ⟨h1, -⟩ | ⟨h1, h2, -⟩ | ⟨-, h1, h2⟩
  · rw [h1]
  · simp only [List.mem_cons, List.not_mem_nil, or_false] at h1 h2
    rcases h1 with h1 | h1 <;> rcases h2 with h2 | h2 <;> rw [h1, h2] <;> simp [m1]
  · rcases h1 with h1 | ⟨h1, -⟩ <;> rcases h2 with h2 | ⟨h2, -⟩ <;> rw [h1, h2] <;> simp [m2]

/-- The rows before the one that is written do not fit. -/
theorem arm_first {E : ExprParse.Env} {version : Arm.Version} {op : Arm.Op} {s t : List Arm.Op} (hst : Arm.opcodes = s ++ op :: t) {name : Str} {m : ArmParse.Vars}
    (hd : ArmParse.decode op.name.toList (text name) ArmParse.Vars.start = some m) {es : List Elem} (he : armElements op.mask.toList = some es)
    {ts : List Tok} {v v' : Vars} (hp : Parts E es ts v v') (hh : ¬ ArmHidden op ts) {op' : Arm.Op} (hop' : op' ∈ s) (old : Vars) (rest : List Tok) :
    armRow E version old name (ts ++ .separator :: rest) op' = none := by
  have hmem : op ∈ Arm.opcodes := by rw [hst]; simp
  have hmem' : op' ∈ Arm.opcodes := by rw [hst]; simp [hop']
  unfold armRow
  split
  · rfl
  cases hd' : ArmParse.decode op'.name.toList (text name) ArmParse.Vars.start with
  | none => rfl
  | some m' =>
    simp only
    cases he' : armElements op'.mask.toList with
    | none => rfl
    | some es' =>
      have hpair := arm_apart
      rw [hst, List.map_append, List.map_cons] at hpair
      have := allPairs_append hpair (armRowOf op') (List.mem_map_of_mem hop')
      have hg : Nat.beq (armRowOf op').group (armRowOf op).group = true := by rw [Nat.beq_eq]; exact merge_of hmem' hmem hd' hd
      obtain ⟨a, ha, hc⟩ := parts_shape false hp
      simp only [armApart, hg, Bool.not_true, Bool.false_or, List.all_eq_true, Bool.or_eq_true, Bool.and_eq_true, Bool.not_eq_true', Nat.beq_eq] at this
      have hes : (armRowOf op).elems = es := by simp [armRowOf, he]
      have hes' : (armRowOf op').elems = es' := by simp [armRowOf, he']
      rw [hes, hes'] at this
      rcases this a ha with h1 | ⟨⟨h1, h2⟩, h3⟩
      · simp only [may_sound h1 hc]
        rfl
      · refine absurd ?_ hh
        simp only [armRowOf, Bool.and_eq_true, decide_eq_true_eq] at h1
        exact ⟨h1.1, h1.2, by rw [conc_length hc (List.all_eq_true.2 h3), h2]⟩

theorem register_unique {k k' : Nat} {t : Tok} (h : Register k t) (h' : Register k' t) : k = k' := by
  obtain ⟨n, rfl⟩ := register_ident h
  have h1 := register_iff.2 h
  rw [register_iff.2 h'] at h1
  exact (Option.some.inj h1).symm

theorem pair_low {E : ExprParse.Env} {ts : List Tok} {v v' : Vars} (h : Parts E [.reg .rd 15, .sym ',' false, .reg .rs 15] ts v v')
    (hc : ConcL E [.reg 0 7, .tok .comma, .reg 0 7] ts) : v'.rd ≤ 7 ∧ v'.rs ≤ 7 := by
  have inv : ∃ k1 t1 k2 t2, ts = [t1, .comma, t2] ∧ Register k1 t1 ∧ Register k2 t2 ∧ v'.rd = k1 ∧ v'.rs = k2 := by
    cases h with
    | cons h1 h =>
    cases h with
    | cons h2 h =>
    cases h with
    | cons h3 h =>
    cases h
    cases h1 with
    | reg r1 _ =>
    cases h2 with
    | sym h2 =>
    cases h2
    cases h3 with
    | reg r3 _ => exact ⟨_, _, _, _, rfl, r1, r3, rfl, rfl⟩
  have low : ∀ {t : Tok} {l : List Tok} {a : List Abs} {ts : List Tok}, ConcL E (.reg 0 7 :: a) ts → ts = t :: l → (∃ k, Register k t ∧ k ≤ 7) ∧ ConcL E a l := by
    intro t l a ts h e
    cases h with
    | cons h1 h2 =>
      cases h1 with
      | reg r _ l1 => cases e; exact ⟨⟨_, r, l1⟩, h2⟩
  obtain ⟨k1, t1, k2, t2, rfl, r1, r2, e1, e2⟩ := inv
  obtain ⟨⟨k, h1, h2⟩, hc⟩ := low hc rfl
  have hc : ConcL E [.reg 0 7] [t2] := by
    generalize hx : [Tok.comma, t2] = x at hc
    cases hc with
    | cons h1 h2 =>
      cases h1 with
      | tok _ _ => cases hx; exact h2
  obtain ⟨⟨k', h3, h4⟩, -⟩ := low hc rfl
  rw [e1, e2, register_unique r1 h1, register_unique r2 h3]
  exact ⟨h2, h4⟩

/-- The same for THUMB. -/
theorem thumb_first {E : ExprParse.Env} {version : Arm.Version} {op : Thumb.Op} {s t : List Thumb.Op} (hst : Thumb.opcodes = s ++ op :: t)
    {es : List Elem} (he : thumbElements op.mask.toList = some es) {ts : List Tok} {v v' : Vars} (hp : Parts E es ts v v') {imm : BitVec 32}
    (hh : ¬ ThumbHidden op (toThumb imm v')) {op' : Thumb.Op} (hop' : op' ∈ s) (old : Vars) (old' : BitVec 32) (rest : List Tok) :
    thumbRow E version old old' (lit op.name) (ts ++ .separator :: rest) op' = none := by
  unfold thumbRow
  split
  · rfl
  split
  · rfl
  rename_i hn
  have hn : lit op.name = lit op'.name := by simpa using hn
  cases he' : thumbElements op'.mask.toList with
  | none => rfl
  | some es' =>
    have hpair := thumb_apart
    rw [hst, List.map_append, List.map_cons] at hpair
    have := allPairs_append hpair (thumbRowOf op') (List.mem_map_of_mem hop')
    have hg : Nat.beq (thumbRowOf op').1 (thumbRowOf op).1 = true := by rw [Nat.beq_eq]; simp only [thumbRowOf]; rw [hn]
    obtain ⟨a, ha, hc⟩ := parts_shape true hp
    simp only [thumbApart, hg, Bool.not_true, Bool.false_or, List.all_eq_true, Bool.or_eq_true, Bool.and_eq_true, Bool.not_eq_true'] at this
    have hes : (thumbRowOf op).2.1 = es := by simp [thumbRowOf, he]
    have hes' : (thumbRowOf op').2.1 = es' := by simp [thumbRowOf, he']
    rw [hes, hes'] at this
    rcases this with h1 | h1
    · simp only [thumbRowOf, Bool.and_eq_true, decide_eq_true_eq] at h1
      exact absurd (.inr h1) hh
    rcases h1 a ha with h1 | ⟨h1, h2⟩
    · simp only [may_sound h1 hc]
      rfl
    · refine absurd (.inl ?_) hh
      simp only [thumbRowOf, decide_eq_true_eq] at h1
      refine ⟨h1, ?_⟩
      rw [h1] at he
      have hx : thumbElements "D,S".toList = some [.reg .rd 15, .sym ',' false, .reg .rs 15] := by decide +kernel
      rw [hx] at he
      cases he
      unfold lowPair at h2
      split at h2
      · exact pair_low hp hc
      · cases h2

end Armips.ArmLine
