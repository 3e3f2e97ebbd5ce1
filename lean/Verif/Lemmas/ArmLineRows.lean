import Verif.Lemmas.ArmLineRead
/-!
# Earlier rows do not fit

A text is described by shapes: lists of classes of tokens. `may` says whether the pieces of a row may read a shape. It is enough to look at the shapes of
each row and at the rows before it with the same mnemonic.
-/
namespace Armips.ArmLine
open ExprParse (Tok)
open Spec.ArmLine
open Spec.Arm (registerName Item)
open Spec.ExprParse (Writes NoCall Stops)
open MipsParse (starter writes_start)

/-- A class of tokens: a register between two numbers, a register or the number of a coprocessor, a status register, a shift with or without a number,
a constant, a symbol, anything. -/
inductive Abs
  | reg (lo hi : Nat)
  | cop
  | copNum
  | psr
  | mode (number : Bool)
  | imm
  | tok (t : Tok)
  | any
  deriving DecidableEq

/-- The tokens of a class. -/
inductive Conc (E : ExprParse.Env) : Abs → List Tok → Prop
  | reg {lo hi k t} : Register k t → lo ≤ k → k ≤ hi → Conc E (.reg lo hi) [t]
  | cop {k t} : CopRegister k t → Conc E .cop [t]
  | copNum {k t} : CopNumber k t → Conc E .copNum [t]
  | psr {n} : (psrTransfer false n).isSome = true → Conc E .psr [.ident n]
  | mode {n b r} : shiftMode n = some r → r.2.isSome = b → Conc E (.mode b) [.ident n]
  | imm {e ts} : Constant E e ts → Conc E .imm ts
  | tok {t} : isIdent t = false → t ≠ .separator → Conc E (.tok t) [t]
  | any {ts} : Conc E .any ts

/-- The tokens of a shape. -/
inductive ConcL (E : ExprParse.Env) : List Abs → List Tok → Prop
  | nil : ConcL E [] []
  | cons {a as t ts} : Conc E a t → ConcL E as ts → ConcL E (a :: as) (t ++ ts)

/-- The shapes of a piece. -/
def shapes (split : Bool) : Elem → List (List Abs)
  | .reg _ max => if split && max == 15 then [[.reg 0 7], [.reg 8 15]] else [[.reg 0 max]]
  | .forced n => [[.reg n n]]
  | .cop _ => [[.cop]]
  | .copNumber => [[.copNum]]
  | .writeback => [[], [.tok .exclamation]]
  | .psr => [[], [.tok .caret]]
  | .transfer _ => [[.psr]]
  | .list _ => [[.any]]
  | .shift _ => [[], [.tok .comma, .mode true], [.tok .comma, .mode false, .reg 0 15], [.tok .comma, .mode false, .imm],
      [.tok .comma, .mode false, .tok .hash, .imm]]
  | .imm _ | .cpop | .cpinf => [[.imm]]
  | .pseudo _ => [[.reg 0 15], [.imm], [.tok .hash, .imm]]
  | .sign => [[], [.tok .plus], [.tok .minus]]
  | .sym c b =>
    match symbolTok c with
    | some t => if b then [[], [.tok t]] else [[.tok t]]
    | none => []

/-- The shapes of all pieces. -/
def shapesAll (split : Bool) : List Elem → List (List Abs)
  | [] => [[]]
  | e :: es => (shapes split e).flatMap fun a => (shapesAll split es).map (a ++ ·)

theorem conc_append {E : ExprParse.Env} {a b : List Abs} {ts us : List Tok} (h : ConcL E a ts) (h' : ConcL E b us) : ConcL E (a ++ b) (ts ++ us) := by
  induction h with
  | nil => exact h'
  | cons h1 _ ih => rw [List.append_assoc]; exact .cons h1 ih

theorem conc_one {E : ExprParse.Env} {a : Abs} {ts : List Tok} (h : Conc E a ts) : ConcL E [a] ts := by
  have := ConcL.cons h .nil
  rwa [List.append_nil] at this

theorem symbol_notIdent {c : Char} {t : Tok} (h : symbolTok c = some t) : isIdent t = false := by
  unfold symbolTok at h
  split at h <;> cases h <;> rfl

theorem symbol_sep {c : Char} {t : Tok} (h : symbolTok c = some t) : t ≠ .separator := by
  unfold symbolTok at h
  split at h <;> cases h <;> simp

theorem amount_shape {E : ExprParse.Env} {k : Nat} {sh : Arm.Shift} {ts : List Tok} (h : Amount E k sh ts) :
    ∃ a ∈ [[Abs.reg 0 15], [.imm], [.tok .hash, .imm]], ConcL E a ts := by
  cases h with
  | reg h => exact ⟨[.reg 0 15], by simp, conc_one (.reg h (by omega) (register_le h))⟩
  | const h => exact ⟨[.imm], by simp, conc_one (.imm h)⟩
  | hash h => exact ⟨[.tok .hash, .imm], by simp, .cons (t := [_]) (.tok rfl (by simp)) (conc_one (.imm h))⟩

theorem part_shape {E : ExprParse.Env} (split : Bool) {e : Elem} {ts : List Tok} {v v' : Vars} (h : Part E e ts v v') : ∃ a ∈ shapes split e, ConcL E a ts := by
  cases h with
  | @reg s max k t v h hk =>
    simp only [shapes]
    split
    · by_cases hk' : k ≤ 7
      · exact ⟨[.reg 0 7], by simp, conc_one (.reg h (by omega) hk')⟩
      · exact ⟨[.reg 8 15], by simp, conc_one (.reg h (by omega) (register_le h))⟩
    · exact ⟨[.reg 0 max], by simp, conc_one (.reg h (by omega) hk)⟩
  | @forced k t v h => exact ⟨[.reg k k], by simp [shapes], conc_one (.reg h (Nat.le_refl _) (Nat.le_refl _))⟩
  | cop h => exact ⟨[.cop], by simp [shapes], conc_one (.cop h)⟩
  | copNumber h => exact ⟨[.copNum], by simp [shapes], conc_one (.copNum h)⟩
  | writeback => exact ⟨[.tok .exclamation], by simp [shapes], conc_one (.tok rfl (by simp))⟩
  | noWriteback => exact ⟨[], by simp [shapes], .nil⟩
  | psr => exact ⟨[.tok .caret], by simp [shapes], conc_one (.tok rfl (by simp))⟩
  | noPsr => exact ⟨[], by simp [shapes], .nil⟩
  | fields h => exact ⟨[.psr], by simp [shapes], conc_one (.psr (by rw [psrTransfer_fields h]; rfl))⟩
  | whole => exact ⟨[.psr], by simp [shapes], conc_one (.psr (by rw [fields_whole]; rfl))⟩
  | list h => exact ⟨[.any], by simp [shapes], conc_one .any⟩
  | shift h =>
    cases h with
    | none => exact ⟨[], by simp [shapes], .nil⟩
    | number hs hn hd hv =>
      exact ⟨[.tok .comma, .mode true], by simp [shapes], .cons (t := [_]) (.tok rfl (by simp)) (conc_one (.mode (shiftMode_reads hs hd hv) (by simp [hn])))⟩
    | amount hs ha hi =>
      have := shiftMode_reads (ds := []) hs (by simp) (by decide)
      rw [show lit _ ++ digitsText [] = lit _ from List.append_nil _] at this
      obtain ⟨a, h1, h2⟩ := amount_shape ha
      refine ⟨.tok .comma :: .mode false :: a, ?_, .cons (t := [_]) (.tok rfl (by simp)) (.cons (t := [_]) (.mode this rfl) h2)⟩
      simp only [List.mem_cons, List.not_mem_nil, or_false] at h1
      rcases h1 with rfl | rfl | rfl <;> simp [shapes]
  | imm h | cpop h | cpinf h => exact ⟨[.imm], by simp [shapes], conc_one (.imm h)⟩
  | pseudo h => exact amount_shape h
  | plus => exact ⟨[.tok .plus], by simp [shapes], conc_one (.tok rfl (by simp))⟩
  | minus => exact ⟨[.tok .minus], by simp [shapes], conc_one (.tok rfl (by simp))⟩
  | unsigned => exact ⟨[], by simp [shapes], .nil⟩
  | @sym c b t v h => exact ⟨[.tok t], by cases b <;> simp [shapes, h], conc_one (.tok (symbol_notIdent h) (symbol_sep h))⟩
  | noSym h => exact ⟨[], by simp [shapes, h], .nil⟩

theorem parts_shape {E : ExprParse.Env} (split : Bool) {es : List Elem} {ts : List Tok} {v v' : Vars} (h : Parts E es ts v v') :
    ∃ a ∈ shapesAll split es, ConcL E a ts := by
  induction h with
  | nil => exact ⟨[], by simp [shapesAll], .nil⟩
  | cons h1 _ ih =>
    obtain ⟨a, ha, hc⟩ := ih
    obtain ⟨b, hb, hc'⟩ := part_shape split h1
    exact ⟨b ++ a, List.mem_flatMap.2 ⟨b, hb, List.mem_map.2 ⟨a, ha, rfl⟩⟩, conc_append hc' hc⟩

/-! ### Reading of shapes -/

/-- What a piece does with a shape: it does not fit, it leaves the rest if it fits, or this is not known. -/
inductive Res
  | fail
  | next (r : List Abs)
  | unknown

/-- A constant ends before this. -/
def endsImm : List Abs → Bool
  | [] => true
  | .tok t :: _ => !goesOn t
  | _ => false

/-- A piece that has to be a name of class `p`. -/
def nameStep (p : Abs → Bool) : List Abs → Res
  | .any :: _ => .unknown
  | a :: r => if p a then .next r else .fail
  | [] => .fail

/-- Constants. -/
def immStep : List Abs → Res
  | [] => .fail
  | .imm :: r => if endsImm r then .next r else .unknown
  | .reg _ _ :: _ => .fail
  | .cop :: _ => .fail
  | .copNum :: _ => .fail
  | .psr :: _ => .fail
  | .tok t :: .reg _ _ :: r => if (t == .plus || t == .minus) && endsImm r then .next r else if starter t then .unknown else .fail
  | .tok t :: _ => if starter t then .unknown else .fail
  | _ => .unknown

/-- A symbol. -/
def symStep (t : Tok) (optional : Bool) : List Abs → Res
  | [] => if optional then .next [] else .fail
  | .tok t' :: r => if t' = t then .next r else if optional then .next (.tok t' :: r) else .fail
  | .any :: _ => .unknown
  | .imm :: r => if starter t then .unknown else if optional then .next (.imm :: r) else .fail
  | a :: r => if optional then .next (a :: r) else .fail

/-- One piece. -/
def step : Elem → List Abs → Res
  | .reg _ max, a => nameStep (fun | .reg lo _ => decide (lo ≤ max) | _ => false) a
  | .forced n, a => nameStep (fun | .reg lo hi => decide (lo ≤ n) && decide (n ≤ hi) | _ => false) a
  | .cop _, a => nameStep (fun a => a == .cop) a
  | .copNumber, a => nameStep (fun a => a == .copNum) a
  | .transfer _, a => nameStep (fun a => a == .psr) a
  | .imm _, a => immStep a
  | .cpop, a => immStep a
  | .cpinf, a => immStep a
  | .sym c b, a =>
    match symbolTok c with
    | none => .fail
    | some t => symStep t b a
  | .shift _, [] => .next []
  | .shift _, .tok .comma :: .imm :: _ => .fail
  | .shift _, .tok .comma :: .tok _ :: _ => .fail
  | .shift _, .tok .comma :: _ => .unknown
  | .shift _, .any :: _ => .unknown
  | .shift _, a :: r => .next (a :: r)
  | .sign, [] => .next []
  | .sign, .tok .plus :: r => .next r
  | .sign, .tok .minus :: r => .next r
  | .sign, .tok t :: r => .next (.tok t :: r)
  | .sign, .any :: _ => .unknown
  | .sign, .imm :: _ => .unknown
  | .sign, a :: r => .next (a :: r)
  | .writeback, [] => .next []
  | .writeback, .tok .exclamation :: r => .next r
  | .writeback, .tok t :: r => .next (.tok t :: r)
  | .writeback, _ => .unknown
  | .pseudo _, .reg _ _ :: r => .next r
  | _, _ => .unknown

/-- `false` if the pieces cannot read the shape. -/
def may : List Elem → List Abs → Bool
  | [], [] => true
  | [], .any :: _ => true
  | [], _ :: _ => false
  | .sign :: .reg _ _ :: _, .imm :: _ => false
  | e :: es, a =>
    match step e a with
    | .fail => false
    | .unknown => true
    | .next r => may es r

/-! ### Names of different classes -/

theorem reg_apart : ∀ p ∈ ArmParse.armRegisters,
    lookup (lit p.1) copRegisters = none ∧ lookup (lit p.1) copNumbers = none ∧ psrName (lit p.1) = none ∧ shiftMode (lit p.1) = none := by decide +kernel
theorem cop_apart : ∀ p ∈ copRegisters,
    lookup (lit p.1) ArmParse.armRegisters = none ∧ lookup (lit p.1) copNumbers = none ∧ psrName (lit p.1) = none ∧ shiftMode (lit p.1) = none := by decide +kernel
theorem num_apart : ∀ p ∈ copNumbers,
    lookup (lit p.1) ArmParse.armRegisters = none ∧ lookup (lit p.1) copRegisters = none ∧ psrName (lit p.1) = none ∧ shiftMode (lit p.1) = none := by decide +kernel

theorem mode_psr {n : Str} {r : Nat × Option Int} (h : shiftMode n = some r) : psrName n = none := by
  unfold shiftMode at h
  obtain ⟨t, ht, -⟩ := Option.map_eq_some_iff.1 h
  obtain ⟨s, hs, he⟩ := shiftType_names ht
  have key : ∀ p ∈ shiftNames, (lit p.1).head?.all (fun b => decide (b ≠ chr 'c' ∧ b ≠ chr 's')) = true ∧ lit p.1 ≠ [] := by decide +kernel
  have k := key _ hs
  simp only at k
  rw [← he] at k
  cases hp : psrName n with
  | none => rfl
  | some x =>
    obtain ⟨b, r'⟩ := x
    have hn := psrName_some hp
    have : n.head? = some (chr 'c') ∨ n.head? = some (chr 's') := by rw [hn]; cases b <;> simp [psrBase, lit, chr]
    have h2 : ∀ m, n.take m ≠ [] → (n.take m).head? = n.head? := by
      intro m hm
      cases n with
      | nil => simp at hm
      | cons b n => cases m with
        | zero => simp at hm
        | succ m => rfl
    rw [h2 _ k.2] at k
    rcases this with h3 | h3 <;> rw [h3] at k <;> simp at k

/-- The class of a name. -/
inductive Class | reg | cop | copNum | psr | mode
  deriving DecidableEq

/-- The name is in the class. -/
def Class.Has : Class → Str → Prop
  | .reg, n => (lookup n ArmParse.armRegisters).isSome = true
  | .cop, n => (lookup n copRegisters).isSome = true
  | .copNum, n => (lookup n copNumbers).isSome = true
  | .psr, n => (psrName n).isSome = true
  | .mode, n => (shiftMode n).isSome = true

theorem isSome_none {α : Type} {o : Option α} (h : o = none) : ¬ (o.isSome = true) := by rw [h]; simp

/-- No name is in two classes. -/
theorem class_unique {c c' : Class} {n : Str} (h : c.Has n) (h' : c'.Has n) : c = c' := by
  have hr : Class.reg.Has n → ∀ c' : Class, c'.Has n → c' = .reg := by
    intro h c' h'
    obtain ⟨k, hk⟩ := Option.isSome_iff_exists.1 h
    obtain ⟨p, hp, rfl, -⟩ := lookup_some hk
    obtain ⟨h1, h2, h3, h4⟩ := reg_apart p hp
    cases c'
    · rfl
    · exact absurd h' (isSome_none h1)
    · exact absurd h' (isSome_none h2)
    · exact absurd h' (isSome_none h3)
    · exact absurd h' (isSome_none h4)
  have hc : Class.cop.Has n → ∀ c' : Class, c'.Has n → c' = .cop := by
    intro h c' h'
    obtain ⟨k, hk⟩ := Option.isSome_iff_exists.1 h
    obtain ⟨p, hp, rfl, -⟩ := lookup_some hk
    obtain ⟨h1, h2, h3, h4⟩ := cop_apart p hp
    cases c'
    · exact absurd h' (isSome_none h1)
    · rfl
    · exact absurd h' (isSome_none h2)
    · exact absurd h' (isSome_none h3)
    · exact absurd h' (isSome_none h4)
  have hm : Class.copNum.Has n → ∀ c' : Class, c'.Has n → c' = .copNum := by
    intro h c' h'
    obtain ⟨k, hk⟩ := Option.isSome_iff_exists.1 h
    obtain ⟨p, hp, rfl, -⟩ := lookup_some hk
    obtain ⟨h1, h2, h3, h4⟩ := num_apart p hp
    cases c'
    · exact absurd h' (isSome_none h1)
    · exact absurd h' (isSome_none h2)
    · rfl
    · exact absurd h' (isSome_none h3)
    · exact absurd h' (isSome_none h4)
  have hs : Class.mode.Has n → ¬ Class.psr.Has n := by
    intro h h'
    obtain ⟨k, hk⟩ := Option.isSome_iff_exists.1 h
    exact absurd h' (isSome_none (mode_psr hk))
  cases c with
  | reg => exact (hr h c' h').symm
  | cop => exact (hc h c' h').symm
  | copNum => exact (hm h c' h').symm
  | psr =>
    cases c' with
    | reg => exact hr h' _ h
    | cop => exact hc h' _ h
    | copNum => exact hm h' _ h
    | psr => rfl
    | mode => exact absurd h (hs h')
  | mode =>
    cases c' with
    | reg => exact hr h' _ h
    | cop => exact hc h' _ h
    | copNum => exact hm h' _ h
    | psr => exact absurd h' (hs h)
    | mode => rfl

theorem class_reserved {c : Class} {n : Str} (h : c.Has n) : Reserved n := by
  obtain ⟨x, hx⟩ := Option.isSome_iff_exists.1 (show Option.isSome (match c with | .reg => (lookup n ArmParse.armRegisters).map fun _ => () | .cop => (lookup n copRegisters).map fun _ => () | .copNum => (lookup n copNumbers).map fun _ => () | .psr => (psrName n).map fun _ => () | .mode => (shiftMode n).map fun _ => ()) = true by
    cases c <;> simpa [Class.Has] using h)
  cases c with
  | reg => obtain ⟨k, hk, -⟩ := Option.map_eq_some_iff.1 hx; exact .inl ⟨k, .inl (register_iff.1 hk)⟩
  | cop => obtain ⟨k, hk, -⟩ := Option.map_eq_some_iff.1 hx; exact .inl ⟨k, .inr (.inl (cop_iff.1 hk))⟩
  | copNum => obtain ⟨k, hk, -⟩ := Option.map_eq_some_iff.1 hx; exact .inl ⟨k, .inr (.inr (num_iff.1 hk))⟩
  | psr => obtain ⟨k, hk, -⟩ := Option.map_eq_some_iff.1 hx; exact .inr (.inl ⟨k.1, k.2, psrName_some hk⟩)
  | mode => obtain ⟨k, hk, -⟩ := Option.map_eq_some_iff.1 hx; exact shiftMode_reserved hk

theorem transfer_class {b : Bool} {n : Str} (h : (psrTransfer b n).isSome = true) : Class.psr.Has n := by
  unfold psrTransfer at h
  show (psrName n).isSome = true
  cases hp : psrName n with
  | none => rw [hp] at h; cases h
  | some => rfl

/-- The class of names of a class of tokens. -/
def Abs.cls : Abs → Option Class
  | .reg _ _ => some .reg
  | .cop => some .cop
  | .copNum => some .copNum
  | .psr => some .psr
  | .mode _ => some .mode
  | _ => none

theorem conc_class {E : ExprParse.Env} {a : Abs} {ts : List Tok} (h : Conc E a ts) {c : Class} (hc : a.cls = some c) : ∃ n, ts = [.ident n] ∧ c.Has n := by
  cases h with
  | reg h _ _ =>
    cases hc
    obtain ⟨n, rfl⟩ := register_ident h
    exact ⟨n, rfl, by rw [Class.Has, register_iff.2 h]; rfl⟩
  | cop h =>
    cases hc
    obtain ⟨n, rfl⟩ : ∃ n, _ = Tok.ident n := ⟨_, h.2⟩
    exact ⟨n, rfl, by rw [Class.Has, cop_iff.2 h]; rfl⟩
  | copNum h =>
    cases hc
    obtain ⟨n, rfl⟩ : ∃ n, _ = Tok.ident n := ⟨_, h.2⟩
    exact ⟨n, rfl, by rw [Class.Has, num_iff.2 h]; rfl⟩
  | psr h => cases hc; exact ⟨_, rfl, transfer_class h⟩
  | mode h _ => cases hc; exact ⟨_, rfl, by rw [Class.Has, h]; rfl⟩
  | imm h => cases hc
  | tok h _ => cases hc
  | any => cases hc

/-- The first token. -/
theorem conc_first {E : ExprParse.Env} {a : Abs} {ts : List Tok} (h : Conc E a ts) (ha : a ≠ .any) :
    ∃ t l, ts = t :: l ∧ (∀ n, t = .ident n → ∀ c : Class, c.Has n → a.cls = some c) ∧ ((∃ n, t = .ident n) ∨ a = .tok t ∨ (a = .imm ∧ starter t = true)) := by
  cases hc : a.cls with
  | some c =>
    obtain ⟨n, rfl, h1⟩ := conc_class h hc
    refine ⟨_, _, rfl, fun m e c' h2 => ?_, .inl ⟨n, rfl⟩⟩
    cases e
    rw [class_unique h1 h2]
  | none =>
    cases h with
    | imm h =>
      obtain ⟨t, l, rfl, h1, h2⟩ := constant_start h
      exact ⟨t, l, rfl, fun n e c hc => absurd (class_reserved hc) (h2 n e), .inr (.inr ⟨rfl, h1⟩)⟩
    | tok h _ => exact ⟨_, _, rfl, fun n e => by rw [e] at h; (cases h), .inr (.inl rfl)⟩
    | any => exact absurd rfl ha
    | _ => cases hc

/-! ### Soundness -/

/-- What `Res` says about a piece. -/
def Res.Says (E : ExprParse.Env) (f : List Tok → Option (Vars × List Tok)) (ts rest : List Tok) : Res → Prop
  | .fail => f (ts ++ .separator :: rest) = none
  | .unknown => True
  | .next r => f (ts ++ .separator :: rest) = none ∨ ∃ v us, ConcL E r us ∧ f (ts ++ .separator :: rest) = some (v, us ++ .separator :: rest)

/-- A piece that reads a name. -/
theorem name_says {E : ExprParse.Env} (f : List Tok → Option (Vars × List Tok)) (p : Abs → Bool) (c : Class)
    (hf : ∀ t l, (∀ n, t ≠ .ident n) → f (t :: l) = none) (hn : ∀ n l, ¬ c.Has n → f (.ident n :: l) = none)
    (hr : ∀ n l v r, f (.ident n :: l) = some (v, r) → r = l)
    (hp : ∀ a, p a = true → a.cls = some c) (hq : ∀ a n l, p a = false → a.cls = some c → Conc E a [.ident n] → f (.ident n :: l) = none)
    {a : List Abs} {ts : List Tok} (h : ConcL E a ts) (rest : List Tok) : (nameStep p a).Says E f ts rest := by
  cases h with
  | nil => exact hf _ _ (by simp)
  | @cons a as t us h1 h2 =>
    by_cases ha : a = .any
    · subst ha; trivial
    · rw [show nameStep p (a :: as) = if p a then .next as else .fail by cases a <;> first | rfl | exact absurd rfl ha]
      split
      · rename_i hpa
        obtain ⟨n, rfl, h3⟩ := conc_class h1 (hp a hpa)
        cases hx : f (.ident n :: (us ++ .separator :: rest)) with
        | none => exact .inl hx
        | some x =>
          obtain ⟨v, r⟩ := x
          exact .inr ⟨v, us, h2, by rw [← hr _ _ _ _ hx]; exact hx⟩
      · rename_i hpa
        have hpa : p a = false := by simpa using hpa
        obtain ⟨t', l, rfl, h3, h4⟩ := conc_first h1 ha
        show f (t' :: l ++ us ++ _) = none
        by_cases hi : ∃ n, t' = .ident n
        · obtain ⟨n, rfl⟩ := hi
          by_cases hcn : c.Has n
          · have hac := h3 n rfl c hcn
            obtain ⟨m, e, -⟩ := conc_class h1 hac
            cases e
            exact hq a n _ hpa hac h1
          · exact hn _ _ hcn
        · exact hf _ _ fun n e => hi ⟨n, e⟩

theorem fromTable_notIdent {t : Tok} (h : ∀ n, t ≠ .ident n) (table : List (String × Nat)) (ts : List Tok) : fromTable table (t :: ts) = none := by
  unfold fromTable
  split
  · rename_i heq; cases heq; exact absurd rfl (h _)
  · rfl

theorem not_some {α : Type} {o : Option α} (h : ¬ (o.isSome = true)) : o = none := by cases o <;> simp_all

theorem reg_says {E : ExprParse.Env} (v : Vars) (s : Slot) (max : Nat) {a : List Abs} {ts : List Tok} (h : ConcL E a ts) (rest : List Tok) :
    (step (.reg s max) a).Says E (elem E v (.reg s max)) ts rest := by
  rw [step]
  apply name_says (elem E v (.reg s max)) _ .reg _ _ _ _ _ h rest
  · intro t l ht; simp [elem, register_notIdent ht]
  · intro n l hn; simp [elem, register, fromTable, not_some hn]
  · intro n l v' r hx
    simp only [elem, register, fromTable] at hx
    obtain ⟨⟨k, r'⟩, h1, h2⟩ := Option.map_eq_some_iff.1 hx
    cases h2
    cases hl : lookup n ArmParse.armRegisters <;> rw [hl] at h1 <;> simp at h1
    exact h1.2.2.symm
  · intro a ha; cases a <;> first | rfl | cases ha
  · intro a n l h1 h2 h3
    cases h3 with
    | @reg lo hi k t h lo hi =>
      simp only [decide_eq_false_iff_not] at h1
      have : ¬ k ≤ max := by omega
      simp [elem, register, fromTable, register_iff.2 h, this]
    | _ => cases h2

theorem forced_says {E : ExprParse.Env} (v : Vars) (m : Nat) {a : List Abs} {ts : List Tok} (h : ConcL E a ts) (rest : List Tok) :
    (step (.forced m) a).Says E (elem E v (.forced m)) ts rest := by
  rw [step]
  apply name_says (elem E v (.forced m)) _ .reg _ _ _ _ _ h rest
  · intro t l ht; simp [elem, register_notIdent ht]
  · intro n l hn; simp [elem, register, fromTable, not_some hn]
  · intro n l v' r hx
    simp only [elem, register, fromTable] at hx
    cases hl : lookup n ArmParse.armRegisters with
    | none => rw [hl] at hx; simp at hx
    | some k =>
      have := register_le (register_iff.1 hl)
      simp [hl, this] at hx
      exact hx.2.2.symm
  · intro a ha; cases a <;> first | rfl | cases ha
  · intro a n l h1 h2 h3
    cases h3 with
    | @reg lo hi k t h lo hi =>
      simp only [Bool.and_eq_false_iff, decide_eq_false_iff_not] at h1
      have : ¬ k = m := by omega
      simp [elem, register, fromTable, register_iff.2 h, this, register_le h]
    | _ => cases h2

theorem cop_says {E : ExprParse.Env} (v : Vars) (s : Slot) {a : List Abs} {ts : List Tok} (h : ConcL E a ts) (rest : List Tok) :
    (step (.cop s) a).Says E (elem E v (.cop s)) ts rest := by
  rw [step]
  apply name_says (elem E v (.cop s)) _ .cop _ _ _ _ _ h rest
  · intro t l ht; simp [elem, fromTable_notIdent ht]
  · intro n l hn; simp [elem, fromTable, not_some hn]
  · intro n l v' r hx
    simp only [elem, fromTable] at hx
    obtain ⟨⟨k, r'⟩, h1, h2⟩ := Option.map_eq_some_iff.1 hx
    cases h2
    obtain ⟨k', -, h3⟩ := Option.map_eq_some_iff.1 h1
    cases h3
    rfl
  · intro a ha; cases a <;> first | rfl | cases ha
  · intro a n l h1 h2 h3
    cases h3 with
    | cop => cases h1
    | _ => cases h2

theorem copNumber_says {E : ExprParse.Env} (v : Vars) {a : List Abs} {ts : List Tok} (h : ConcL E a ts) (rest : List Tok) :
    (step .copNumber a).Says E (elem E v .copNumber) ts rest := by
  rw [step]
  apply name_says (elem E v .copNumber) _ .copNum _ _ _ _ _ h rest
  · intro t l ht; simp [elem, fromTable_notIdent ht]
  · intro n l hn; simp [elem, fromTable, not_some hn]
  · intro n l v' r hx
    simp only [elem, fromTable] at hx
    obtain ⟨⟨k, r'⟩, h1, h2⟩ := Option.map_eq_some_iff.1 hx
    cases h2
    obtain ⟨k', -, h3⟩ := Option.map_eq_some_iff.1 h1
    cases h3
    rfl
  · intro a ha; cases a <;> first | rfl | cases ha
  · intro a n l h1 h2 h3
    cases h3 with
    | copNum => cases h1
    | _ => cases h2

theorem transfer_says {E : ExprParse.Env} (v : Vars) (b : Bool) {a : List Abs} {ts : List Tok} (h : ConcL E a ts) (rest : List Tok) :
    (step (.transfer b) a).Says E (elem E v (.transfer b)) ts rest := by
  rw [step]
  apply name_says (elem E v (.transfer b)) _ .psr _ _ _ _ _ h rest
  · intro t l ht
    unfold elem
    split <;> simp_all
  · intro n l hn
    have : psrTransfer b n = none := not_some fun h => hn (transfer_class h)
    simp [elem, this]
  · intro n l v' r hx
    simp only [elem] at hx
    obtain ⟨k, h1, h2⟩ := Option.map_eq_some_iff.1 hx
    cases h2
    rfl
  · intro a ha; cases a <;> first | rfl | cases ha
  · intro a n l h1 h2 h3
    cases h3 with
    | psr => cases h1
    | _ => cases h2

end Armips.ArmLine
