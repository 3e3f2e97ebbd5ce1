import Verif.Lemmas.ArmLine
import Verif.Lemmas.MipsParseLine
/-!
# The operands of a row are read
-/
namespace Armips.ArmLine
open ExprParse (Tok)
open Spec.ArmLine
open Spec.Arm (registerName Item)
open Spec.ExprParse (Writes NoCall Stops)
open MipsParse (starter writes_start)

/-! ### Constants -/

theorem isOperand_false {n : Str} (h : ¬ Reserved n) (ts : List Tok) : isOperand (.ident n :: ts) = false := by
  have h1 : (psrTransfer false n).isSome = false := by
    cases h' : (psrTransfer false n).isSome
    · rfl
    · exact absurd (psrTransfer_reserved h') h
  have h2 : lookup n ArmParse.armRegisters = none := by
    cases h' : lookup n ArmParse.armRegisters
    · rfl
    · exact absurd (.inl ⟨_, .inl (register_iff.1 h')⟩) h
  have h3 : lookup n copRegisters = none := by
    cases h' : lookup n copRegisters
    · rfl
    · exact absurd (.inl ⟨_, .inr (.inl (cop_iff.1 h'))⟩) h
  have h4 : lookup n copNumbers = none := by
    cases h' : lookup n copNumbers
    · rfl
    · exact absurd (.inl ⟨_, .inr (.inr (num_iff.1 h'))⟩) h
  simp [isOperand, h1, h2, h3, h4]

theorem constant_start {E : ExprParse.Env} {e : Expr} {ts : List Tok} (h : Constant E e ts) :
    ∃ t l, ts = t :: l ∧ starter t = true ∧ ∀ n, t = .ident n → ¬ Reserved n := by
  obtain ⟨t, l, rfl, h1, -⟩ := writes_start h.1
  exact ⟨t, l, rfl, h1, fun n e => h.2 n (by simp [e])⟩

theorem constant_operand {E : ExprParse.Env} {e : Expr} {ts : List Tok} (h : Constant E e ts) (rest : List Tok) : isOperand (ts ++ rest) = false := by
  obtain ⟨t, l, rfl, -, h2⟩ := constant_start h
  cases t <;> first | rfl | exact isOperand_false (h2 _ rfl) _

/-- The tokens that go on with an expression. -/
def goesOn : Tok → Bool
  | .mult | .div | .mod | .plus | .minus | .leftShift | .rightShift | .less | .greater | .lessEqual | .greaterEqual | .equal | .notEqual | .bitAnd | .caret
  | .bitOr | .logAnd | .logOr | .question | .lparen => true
  | _ => false

theorem stops_of {t : Tok} {l : List Tok} (h : goesOn t = false) : Stops 12 (t :: l) := by
  constructor
  · intro op ho
    simp only [List.head?_cons, Option.some.injEq] at ho
    subst ho
    cases op <;> simp [Spec.ExprParse.symbol, goesOn] at h
  · intro _ ho
    simp only [List.head?_cons, Option.some.injEq] at ho
    subst ho
    cases h

theorem noCall_of {E : ExprParse.Env} {ts : List Tok} {t : Tok} {l : List Tok} (h : goesOn t = false) : NoCall E ts (t :: l) := by
  intro _ _ _ _ ho
  simp only [List.head?_cons, Option.some.injEq] at ho
  subst ho
  cases h

theorem immediate_reads {E : ExprParse.Env} {e : Expr} {ts : List Tok} (h : Constant E e ts) {t : Tok} (l : List Tok) (ht : goesOn t = false) :
    immediate E (ts ++ t :: l) = some (e, t :: l) := by
  unfold immediate
  rw [constant_operand h, Props.expr_read h.1 (stops_of ht) (noCall_of ht)]
  simp

theorem unary_none (E : ExprParse.Env) (rec : ExprParse.Parser) {t : Tok} (ht : starter t = false) (ts : List Tok) : (ExprParse.unary E rec (t :: ts)).1 = none := by
  have h : ExprParse.postfixExpr E rec (t :: ts) = (none, t :: ts) := by cases t <;> first | rfl | cases ht
  rw [ExprParse.unary, h]
  simp only
  rcases hs : ExprParse.postfixExpr E rec (ExprParse.next (t :: ts)).2 with ⟨_ | e, r⟩
  · simp only
  · simp only
    cases t <;> first | rfl | cases ht

theorem parse_none (E : ExprParse.Env) {t : Tok} (ht : starter t = false) (ts : List Tok) : (ExprParse.parse E (t :: ts)).1 = none := by
  have h : (ExprParse.expr E ((t :: ts).length + 2) (t :: ts)).1 = none := by
    rw [ExprParse.expr]
    unfold ExprParse.conditional
    have hl : (ExprParse.logicalOr E (ExprParse.expr E ((t :: ts).length + 1)) (t :: ts)).1 = none := by
      unfold ExprParse.logicalOr ExprParse.logicalAnd ExprParse.inclusiveOr ExprParse.exclusiveOr ExprParse.and ExprParse.equality ExprParse.relational ExprParse.shift
        ExprParse.additive ExprParse.multiplicative
      open MipsParse in
      exact chain_none (chain_none (chain_none (chain_none (chain_none (chain_none (chain_none (chain_none (chain_none (chain_none (ArmLine.unary_none _ _ ht _))))))))))
    rcases hs : ExprParse.logicalOr E (ExprParse.expr E ((t :: ts).length + 1)) (t :: ts) with ⟨_ | e, r⟩
    · rfl
    · rw [hs] at hl; cases hl
  unfold ExprParse.parse
  rcases hs : ExprParse.expr E ((t :: ts).length + 2) (t :: ts) with ⟨_ | e, r⟩
  · rfl
  · rw [hs] at h; cases h

theorem immediate_none (E : ExprParse.Env) {t : Tok} (ht : starter t = false) (ts : List Tok) : immediate E (t :: ts) = none := by
  have := parse_none E ht ts
  unfold immediate
  split
  · rfl
  · rcases hs : ExprParse.parse E (t :: ts) with ⟨_ | e, r⟩
    · rfl
    · rw [hs] at this; cases this

/-! ### Registers and shifts -/

theorem register_reads {k max : Nat} {t : Tok} (h : Register k t) (hk : k ≤ max) (ts : List Tok) : register max (t :: ts) = some (k, ts) := by
  obtain ⟨n, rfl⟩ := register_ident h
  simp [register, fromTable, register_iff.2 h, hk]

theorem register_none {n : Str} (h : ∀ k, ¬ Register k (.ident n)) (max : Nat) (ts : List Tok) : register max (.ident n :: ts) = none := by
  have : lookup n ArmParse.armRegisters = none := by
    cases h' : lookup n ArmParse.armRegisters
    · rfl
    · exact absurd (register_iff.1 h') (h _)
  simp [register, fromTable, this]

theorem register_notIdent {t : Tok} (h : ∀ n, t ≠ .ident n) (max : Nat) (ts : List Tok) : register max (t :: ts) = none := by
  have : fromTable ArmParse.armRegisters (t :: ts) = none := by
    unfold fromTable
    split
    · rename_i heq; cases heq; exact absurd rfl (h _)
    · rfl
  simp [register, this]

theorem register_constant {E : ExprParse.Env} {e : Expr} {ts : List Tok} (h : Constant E e ts) (max : Nat) (rest : List Tok) :
    register max (ts ++ rest) = none := by
  obtain ⟨t, l, rfl, -, h2⟩ := constant_start h
  by_cases hi : ∃ n, t = .ident n
  · obtain ⟨n, rfl⟩ := hi
    exact register_none (fun k hk => h2 n rfl (.inl ⟨k, .inl hk⟩)) _ _
  · exact register_notIdent (fun n e => hi ⟨n, e⟩) _ _

theorem skipHash_starter {t : Tok} (h : starter t = true) (l : List Tok) : skipHash (t :: l) = t :: l := by cases t <;> first | rfl | cases h

theorem skipHash_constant {E : ExprParse.Env} {e : Expr} {ts : List Tok} (h : Constant E e ts) (rest : List Tok) : skipHash (ts ++ rest) = ts ++ rest := by
  obtain ⟨t, l, rfl, h1, -⟩ := constant_start h
  exact skipHash_starter h1 _

theorem amount_reads {E : ExprParse.Env} {type : Nat} {sh : Arm.Shift} {ts : List Tok} (h : Amount E type sh ts) {immOnly : Bool}
    (hi : immOnly = true → sh.byRegister = false) {t : Tok} (l : List Tok) (ht : goesOn t = false) :
    shiftAmount E immOnly type (ts ++ t :: l) = some (sh, t :: l) := by
  unfold shiftAmount
  cases h with
  | reg hr =>
    rw [List.cons_append, List.nil_append, register_reads hr (register_le hr)]
    cases immOnly
    · rfl
    · cases hi rfl
  | const hc => rw [register_constant hc, skipHash_constant hc, immediate_reads hc l ht]; rfl
  | hash hc =>
    rw [List.cons_append, register_notIdent (by simp)]
    show (immediate E (_ ++ t :: l)).map _ = _
    rw [immediate_reads hc l ht]
    rfl

theorem shift_reads {E : ExprParse.Env} {immOnly : Bool} {sh : Option Arm.Shift} {ts : List Tok} (h : ShiftText E immOnly sh ts)
    {t : Tok} (l : List Tok) (ht : goesOn t = false) (hc : t ≠ .comma) : parseShift E immOnly (ts ++ t :: l) = some (sh, t :: l) := by
  cases h with
  | none =>
    rw [List.nil_append]
    unfold parseShift
    split
    · rename_i heq; cases heq; exact absurd rfl hc
    · rename_i heq; cases heq; exact absurd rfl hc
    · rfl
  | number hs hn hd hv =>
    simp only [List.cons_append, List.nil_append, parseShift, shiftMode_reads hs hd hv, hn, if_false]
  | amount hs ha hi =>
    have := shiftMode_reads (ds := []) hs (by simp) (by decide)
    rw [show lit _ ++ digitsText [] = lit _ from List.append_nil _] at this
    simp only [List.cons_append, parseShift, this, if_true, amount_reads ha hi l ht, Option.map_some]

/-! ### Lists -/

theorem name_text {s : String} {k : Nat} (h : registerName s k) : String.ofList (text (lit s)) = s := by
  rcases h with ⟨h1, rfl⟩ | ⟨rfl, rfl⟩ | ⟨rfl, rfl⟩ | ⟨rfl, rfl⟩
  · exact lt16 (P := fun k => String.ofList (text (lit ("r" ++ toString k))) = "r" ++ toString k) (by decide +kernel) k h1
  all_goals decide +kernel

theorem itemText_tok {i : Item} (h : i.Ok) : (itemText i).map listTok = i.tokens := by
  cases i with
  | one s n => simp [itemText, Item.tokens, listTok, name_text h]
  | range s t a b => simp [itemText, Item.tokens, listTok, name_text h.1, name_text h.2.1]

theorem listText_tok : ∀ (items : List Item), (∀ i ∈ items, i.Ok) → (listText items).map listTok = Spec.Arm.listTokens items
  | [], _ => rfl
  | [i], h => by rw [listText, Spec.Arm.listTokens]; exact itemText_tok (h i (by simp))
  | i :: j :: is, h => by
    have ih := listText_tok (j :: is) fun x hx => h x (by simp [hx])
    simp only [listText, Spec.Arm.listTokens, List.map_append, List.map_cons, itemText_tok (h i (by simp))] at ih ⊢
    rw [ih]
    rfl

theorem list_reads {mask mask' m : Nat} {ts : List Tok} (h : RegList mask m ts) (hm : ∀ i, mask.testBit i = true → mask'.testBit i = true)
    {t : Tok} (l : List Tok) (h1 : t ≠ .comma) (h2 : t ≠ .minus) : registerList mask' (ts ++ t :: l) = some (m, t :: l) := by
  obtain ⟨items, hne, hok, rfl, hb, hmask⟩ := h
  obtain ⟨m', h3, h4⟩ := Props.arm_list_parses hne hok (rest := (t :: l).map listTok) (by
    constructor
    · simp only [List.map_cons, List.head?_cons, ne_eq, Option.some.injEq]
      intro e; apply h1; cases t <;> first | rfl | cases e
    · simp only [List.map_cons, List.head?_cons, ne_eq, Option.some.injEq]
      intro e; apply h2; cases t <;> first | rfl | cases e) mask' (fun it hit i hi => hm i (hmask it hit i hi))
  have hmm : m' = m := Nat.eq_of_testBit_eq fun i => by
    rw [Bool.eq_iff_iff, h4, hb]
  subst hmm
  unfold registerList
  rw [List.map_append, listText_tok items hok, h3]
  simp only [Option.map_some, List.length_append, List.length_map, Nat.add_sub_cancel, List.drop_left]

/-! ### One operand -/

/-- `Part E e ts v v'`: the text `ts` writes the piece `e`. -/
inductive Part (E : ExprParse.Env) : Elem → List Tok → Vars → Vars → Prop
  | reg {s max k t v} : Register k t → k ≤ max → Part E (.reg s max) [t] v (v.set s k)
  | forced {k t v} : Register k t → Part E (.forced k) [t] v v
  | cop {s k t v} : CopRegister k t → Part E (.cop s) [t] v (v.set s k)
  | copNumber {k t v} : CopNumber k t → Part E .copNumber [t] v { v with pn := k }
  | writeback {v} : Part E .writeback [.exclamation] v { v with writeback := true }
  | noWriteback {v} : Part E .writeback [] v { v with writeback := false }
  | psr {v} : Part E .psr [.caret] v { v with psr := true }
  | noPsr {v} : Part E .psr [] v { v with psr := false }
  | fields {b f r v} : Fields f r → Part E (.transfer false) [.ident (psrBase b ++ r)] v { v with spsr := b, field := f }
  | whole {b v} : Part E (.transfer true) [.ident (psrBase b)] v { v with spsr := b }
  | list {mask mask' m ts v} : RegList mask m ts → (∀ i, mask.testBit i = true → mask'.testBit i = true) → Part E (.list mask') ts v { v with rlist := m }
  | shift {b sh ts v} : ShiftText E b sh ts → Part E (.shift b) ts v { v with shift := sh }
  | imm {k e ts v} : Constant E e ts → Part E (.imm k) ts v { v with imm := e, bitLen := k }
  | cpop {e ts v} : Constant E e ts → Part E .cpop ts v { v with cpop := e, bitLen := 4 }
  | cpinf {e ts v} : Constant E e ts → Part E .cpinf ts v { v with cpinf := e, bitLen := 3 }
  | pseudo {k sh ts v} : Amount E k sh ts → Part E (.pseudo k) ts v { v with shift := some sh }
  | plus {v} : Part E .sign [.plus] v { v with signPlus := true }
  | minus {v} : Part E .sign [.minus] v { v with signPlus := false }
  | unsigned {v} : Part E .sign [] v { v with signPlus := true }
  | sym {c b t v} : symbolTok c = some t → Part E (.sym c b) [t] v v
  | noSym {c t v} : symbolTok c = some t → Part E (.sym c true) [] v v

/-- The pieces one after the other. -/
inductive Parts (E : ExprParse.Env) : List Elem → List Tok → Vars → Vars → Prop
  | nil {v} : Parts E [] [] v v
  | cons {e es ts us v v' v''} : Part E e ts v v' → Parts E es us v' v'' → Parts E (e :: es) (ts ++ us) v v''

theorem symbols_tok : ∀ p ∈ symbols, symbolTok p.1 = some p.2 := by decide

theorem arm_sym : ∀ p ∈ symbols, ∀ r, armElements (p.1 :: r) = (armElements r).map (.sym p.1 false :: ·) := by
  intro p hp r
  simp only [symbols, List.mem_cons, List.not_mem_nil, or_false] at hp
  rcases hp with rfl | rfl | rfl | rfl | rfl | rfl | rfl | rfl | rfl <;> rw [armElements] <;> simp

theorem thumb_sym : ∀ p ∈ symbols, ∀ r, thumbElements (p.1 :: r) = (thumbElements r).map (.sym p.1 false :: ·) := by
  intro p hp r
  simp only [symbols, List.mem_cons, List.not_mem_nil, or_false] at hp
  rcases hp with rfl | rfl | rfl | rfl | rfl | rfl | rfl | rfl | rfl <;> rw [thumbElements] <;> simp

theorem arm_piece {E : ExprParse.Env} {p : List Char} {ts : List Tok} {v v' : Vars} (h : ArmPiece E p ts v v') :
    ∃ e, (∀ r, armElements (p ++ r) = (armElements r).map (e :: ·)) ∧ Part E e ts v v' := by
  cases h with
  | rd h1 h2 => exact ⟨.reg .rd _, fun r => by rw [List.cons_append, List.cons_append, List.nil_append, armElements]; rfl, .reg h1 h2⟩
  | rs h1 h2 => exact ⟨.reg .rs _, fun r => by rw [List.cons_append, List.cons_append, List.nil_append, armElements]; rfl, .reg h1 h2⟩
  | rn h1 h2 => exact ⟨.reg .rn _, fun r => by rw [List.cons_append, List.cons_append, List.nil_append, armElements]; rfl, .reg h1 h2⟩
  | rm h1 h2 => exact ⟨.reg .rm _, fun r => by rw [List.cons_append, List.cons_append, List.nil_append, armElements]; rfl, .reg h1 h2⟩
  | cd h => exact ⟨.cop .cd, fun r => by rw [List.cons_append, List.nil_append, armElements], .cop h⟩
  | cn h => exact ⟨.cop .cn, fun r => by rw [List.cons_append, List.nil_append, armElements], .cop h⟩
  | cm h => exact ⟨.cop .cm, fun r => by rw [List.cons_append, List.nil_append, armElements], .cop h⟩
  | pn h => exact ⟨_, fun r => by rw [List.cons_append, List.nil_append, armElements], .copNumber h⟩
  | writeback => exact ⟨_, fun r => by rw [List.cons_append, List.nil_append, armElements], .writeback⟩
  | noWriteback => exact ⟨_, fun r => by rw [List.cons_append, List.nil_append, armElements], .noWriteback⟩
  | psr => exact ⟨_, fun r => by rw [List.cons_append, List.nil_append, armElements], .psr⟩
  | noPsr => exact ⟨_, fun r => by rw [List.cons_append, List.nil_append, armElements], .noPsr⟩
  | fields h => exact ⟨_, fun r => by rw [List.cons_append, List.cons_append, List.nil_append, armElements]; rfl, .fields h⟩
  | whole => exact ⟨_, fun r => by rw [List.cons_append, List.cons_append, List.nil_append, armElements]; rfl, .whole⟩
  | list h => exact ⟨_, fun r => by rw [List.cons_append, List.nil_append, armElements], .list h fun _ h => h⟩
  | shift h => exact ⟨_, fun r => by rw [List.cons_append, List.cons_append, List.nil_append, armElements], .shift h⟩
  | imm h => exact ⟨_, fun r => by rw [List.cons_append, List.nil_append, armElements], .imm h⟩
  | address h => exact ⟨_, fun r => by rw [List.cons_append, List.nil_append, armElements], .imm h⟩
  | bits h => exact ⟨_, fun r => by rw [List.cons_append, List.cons_append, List.nil_append, armElements], .imm h⟩
  | cpop h => exact ⟨_, fun r => by rw [List.cons_append, List.nil_append, armElements], .cpop h⟩
  | cpinf h => exact ⟨_, fun r => by rw [List.cons_append, List.nil_append, armElements], .cpinf h⟩
  | pseudo h => exact ⟨_, fun r => by rw [List.cons_append, List.cons_append, List.nil_append, armElements], .pseudo h⟩
  | plus => exact ⟨_, fun r => by rw [List.cons_append, List.nil_append, armElements], .plus⟩
  | minus => exact ⟨_, fun r => by rw [List.cons_append, List.nil_append, armElements], .minus⟩
  | unsigned => exact ⟨_, fun r => by rw [List.cons_append, List.nil_append, armElements], .unsigned⟩
  | sym h => exact ⟨_, arm_sym _ h, .sym (symbols_tok _ h)⟩
  | opt h => exact ⟨_, fun r => by rw [List.cons_append, List.cons_append, List.nil_append, armElements], .sym (symbols_tok _ h)⟩
  | noOpt h => exact ⟨_, fun r => by rw [List.cons_append, List.cons_append, List.nil_append, armElements], .noSym (symbols_tok _ h)⟩

theorem testBit_all {i : Nat} (h : i < 32) : (0xFFFFFFFF : Nat).testBit i = true := by
  have : ∀ i : Fin 32, (0xFFFFFFFF : Nat).testBit i.val = true := by decide
  exact this ⟨i, h⟩

theorem has_lt {it : Item} (h : it.Ok) {i : Nat} (hi : it.Has i) : i < 32 := by
  have key : ∀ {s n}, registerName s n → n ≤ 15 := fun h => register_le ⟨_, h, rfl⟩
  cases it with
  | one s n => have := key h; simp only [Item.Has] at hi; omega
  | range s t a b => have := key h.2.1; simp only [Item.Has] at hi; omega

theorem reglist_mask {a b : Char} {m : Nat} {ts : List Tok} (h : RegList (a.toNat + 256 * b.toNat) m ts) (ha : a.toNat < 256) :
    RegList (listMask a b) m ts := by
  obtain ⟨items, h1, h2, h3, h4, h5⟩ := h
  refine ⟨items, h1, h2, h3, h4, fun it hit i hi => ?_⟩
  unfold listMask
  split
  · exact testBit_all (has_lt (h2 it hit) hi)
  · have := h5 it hit i hi
    have e : a.toNat + 256 * b.toNat = a.toNat ||| b.toNat <<< 8 := by
      rw [Nat.shiftLeft_eq, Nat.mul_comm, Nat.or_comm, ← Nat.shiftLeft_eq, ← Nat.shiftLeft_add_eq_or_of_lt (show a.toNat < 2 ^ 8 by omega), Nat.shiftLeft_eq]
      omega
    rwa [e] at this

theorem thumb_piece {E : ExprParse.Env} {p : List Char} {ts : List Tok} {v v' : Vars} (h : ThumbPiece E p ts v v') (hp : ∀ c ∈ p, c.toNat < 256) :
    ∃ e, (∀ r, thumbElements (p ++ r) = (thumbElements r).map (e :: ·)) ∧ Part E e ts v v' := by
  cases h with
  | rd h1 h2 => exact ⟨.reg .rd _, fun r => by rw [List.cons_append, List.nil_append, thumbElements], .reg h1 h2⟩
  | rs h1 h2 => exact ⟨.reg .rs _, fun r => by rw [List.cons_append, List.nil_append, thumbElements], .reg h1 h2⟩
  | rn h1 h2 => exact ⟨.reg .rn _, fun r => by rw [List.cons_append, List.nil_append, thumbElements], .reg h1 h2⟩
  | ro h1 h2 => exact ⟨.reg .ro _, fun r => by rw [List.cons_append, List.nil_append, thumbElements], .reg h1 h2⟩
  | rD h1 => exact ⟨.reg .rd _, fun r => by rw [List.cons_append, List.nil_append, thumbElements], .reg h1 (register_le h1)⟩
  | rS h1 => exact ⟨.reg .rs _, fun r => by rw [List.cons_append, List.nil_append, thumbElements], .reg h1 (register_le h1)⟩
  | forced h => exact ⟨_, fun r => by rw [List.cons_append, List.cons_append, List.nil_append, thumbElements], .forced h⟩
  | list h =>
    exact ⟨.list (listMask _ _), fun r => by rw [List.cons_append, List.cons_append, List.cons_append, List.nil_append, thumbElements],
      .list (reglist_mask h (hp _ (by simp))) fun _ h => h⟩
  | imm h => exact ⟨_, fun r => by rw [List.cons_append, List.cons_append, List.nil_append, thumbElements], .imm h⟩
  | address h => exact ⟨_, fun r => by rw [List.cons_append, List.cons_append, List.nil_append, thumbElements], .imm h⟩
  | sym h => exact ⟨_, thumb_sym _ h, .sym (symbols_tok _ h)⟩
  | opt h => exact ⟨_, fun r => by rw [List.cons_append, List.cons_append, List.nil_append, thumbElements], .sym (symbols_tok _ h)⟩
  | noOpt h => exact ⟨_, fun r => by rw [List.cons_append, List.cons_append, List.nil_append, thumbElements], .noSym (symbols_tok _ h)⟩

theorem arm_parts {E : ExprParse.Env} {p : List Char} {ts : List Tok} {v v' : Vars} (h : Pieces (ArmPiece E) p ts v v') :
    ∃ es, armElements p = some es ∧ Parts E es ts v v' := by
  induction h with
  | nil => exact ⟨[], rfl, .nil⟩
  | cons h1 _ ih =>
    obtain ⟨es, h2, h3⟩ := ih
    obtain ⟨e, h4, h5⟩ := arm_piece h1
    exact ⟨e :: es, by rw [h4, h2]; rfl, .cons h5 h3⟩

theorem thumb_parts {E : ExprParse.Env} {p : List Char} {ts : List Tok} {v v' : Vars} (h : Pieces (ThumbPiece E) p ts v v') (hp : ∀ c ∈ p, c.toNat < 256) :
    ∃ es, thumbElements p = some es ∧ Parts E es ts v v' := by
  induction h with
  | nil => exact ⟨[], rfl, .nil⟩
  | cons h1 _ ih =>
    obtain ⟨es, h2, h3⟩ := ih fun c hc => hp c (by simp [hc])
    obtain ⟨e, h4, h5⟩ := thumb_piece h1 fun c hc => hp c (by simp [hc])
    exact ⟨e :: es, by rw [h4, h2]; rfl, .cons h5 h3⟩

/-! ### All operands -/

/-- A name. -/
def isIdent : Tok → Bool
  | .ident _ => true
  | _ => false

/-- The tokens that the text of the pieces, with the separator after it, can begin with. -/
def starts : List Elem → Tok → Bool
  | [], t => t == .separator
  | .reg _ _ :: _, t | .forced _ :: _, t | .cop _ :: _, t | .copNumber :: _, t | .transfer _ :: _, t | .list _ :: _, t => isIdent t
  | .writeback :: es, t => t == .exclamation || starts es t
  | .psr :: es, t => t == .caret || starts es t
  | .shift _ :: es, t => t == .comma || starts es t
  | .imm _ :: _, t | .cpop :: _, t | .cpinf :: _, t => starter t
  | .pseudo _ :: _, t => t == .hash || starter t
  | .sign :: es, t => t == .plus || t == .minus || starts es t
  | .sym c b :: es, t => symbolTok c == some t || (b && starts es t)

/-- The tokens of `goesOn`. -/
def goers : List Tok := [.mult, .div, .mod, .plus, .minus, .leftShift, .rightShift, .less, .greater, .lessEqual, .greaterEqual, .equal, .notEqual,
  .bitAnd, .caret, .bitOr, .logAnd, .logOr, .question, .lparen]

theorem goers_iff (t : Tok) : goesOn t = true → t ∈ goers := by
  cases t <;> intro h <;> first | cases h; done | simp [goers]

/-- The pieces can follow the first one. -/
def okElem (es : List Elem) : Elem → Bool
  | .writeback => !starts es .exclamation
  | .psr => !starts es .caret
  | .list _ => !starts es .comma && !starts es .minus
  | .shift _ => !starts es .comma && goers.all fun t => !starts es t
  | .imm _ | .cpop | .cpinf | .pseudo _ => goers.all fun t => !starts es t
  | .sign => !starts es .plus && !starts es .minus
  | .sym c true => (symbolTok c).all fun t => !starts es t
  | _ => true

/-- The pieces can follow each other. -/
def ok : List Elem → Bool
  | [] => true
  | e :: es => ok es && okElem es e

theorem amount_first {E : ExprParse.Env} {k : Nat} {sh : Arm.Shift} {ts : List Tok} (h : Amount E k sh ts) :
    ∃ t l, ts = t :: l ∧ (t = .hash ∨ starter t = true) := by
  cases h with
  | reg h => obtain ⟨n, rfl⟩ := register_ident h; exact ⟨_, _, rfl, .inr rfl⟩
  | const h => obtain ⟨t, l, rfl, h, -⟩ := constant_start h; exact ⟨_, _, rfl, .inr h⟩
  | hash h => exact ⟨_, _, rfl, .inl rfl⟩

theorem listText_first : ∀ (items : List Item), items ≠ [] → ∃ n l, listText items = .ident n :: l
  | [.one s n], _ => ⟨_, _, rfl⟩
  | [.range s t a b], _ => ⟨_, _, rfl⟩
  | .one s n :: j :: is, _ => ⟨_, _, rfl⟩
  | .range s t a b :: j :: is, _ => ⟨_, _, rfl⟩

theorem parts_first {E : ExprParse.Env} {es : List Elem} {ts : List Tok} {v v' : Vars} (h : Parts E es ts v v') (rest : List Tok) :
    ∃ t l, ts ++ .separator :: rest = t :: l ∧ starts es t = true := by
  induction h with
  | nil => exact ⟨_, _, rfl, rfl⟩
  | cons hp _ ih =>
    obtain ⟨t, l, h1, h2⟩ := ih
    cases hp with
    | reg h | forced h => obtain ⟨n, rfl⟩ := register_ident h; exact ⟨_, _, rfl, rfl⟩
    | cop h => obtain ⟨_, rfl⟩ := h; exact ⟨_, _, rfl, rfl⟩
    | copNumber h => obtain ⟨_, rfl⟩ := h; exact ⟨_, _, rfl, rfl⟩
    | fields h => exact ⟨_, _, rfl, rfl⟩
    | whole => exact ⟨_, _, rfl, rfl⟩
    | list h =>
      obtain ⟨items, hne, -, rfl, -, -⟩ := h
      obtain ⟨n, l', e⟩ := listText_first items hne
      rw [e]
      exact ⟨_, _, rfl, rfl⟩
    | imm h | cpop h | cpinf h => obtain ⟨t, l, rfl, h, -⟩ := constant_start h; exact ⟨_, _, rfl, h⟩
    | pseudo h =>
      obtain ⟨t, l, rfl, h'⟩ := amount_first h
      refine ⟨_, _, rfl, ?_⟩
      rcases h' with h' | h' <;> simp [starts, h']
    | writeback => exact ⟨_, _, rfl, by simp [starts]⟩
    | psr => exact ⟨_, _, rfl, by simp [starts]⟩
    | plus => exact ⟨_, _, rfl, by simp [starts]⟩
    | minus => exact ⟨_, _, rfl, by simp [starts]⟩
    | sym h => exact ⟨_, _, rfl, by simp [starts, h]⟩
    | noWriteback => exact ⟨t, l, h1, by simp [starts, h2]⟩
    | noPsr => exact ⟨t, l, h1, by simp [starts, h2]⟩
    | unsigned => exact ⟨t, l, h1, by simp [starts, h2]⟩
    | noSym h => exact ⟨t, l, h1, by simp [starts, h2]⟩
    | shift h =>
      cases h with
      | none => exact ⟨t, l, h1, by simp [starts, h2]⟩
      | number => exact ⟨_, _, rfl, by simp [starts]⟩
      | amount => exact ⟨_, _, rfl, by simp [starts]⟩

theorem goes_false {es : List Elem} {t : Tok} (h : goers.all (fun t => !starts es t) = true) (ht : starts es t = true) : goesOn t = false := by
  cases hg : goesOn t
  · rfl
  · have := List.all_eq_true.1 h t (goers_iff t hg)
    simp [ht] at this

theorem ne_of_starts {es : List Elem} {t t' : Tok} (h : (!starts es t') = true) (ht : starts es t = true) : t ≠ t' := by
  rintro rfl
  simp [ht] at h

theorem params_reads {E : ExprParse.Env} {es : List Elem} {ts : List Tok} {v v' : Vars} (h : Parts E es ts v v') (rest : List Tok) (hok : ok es = true) :
    params E es (ts ++ .separator :: rest) v = some (v', rest) := by
  induction h with
  | nil => rfl
  | @cons e es ts us v v1 v2 hp hps ih =>
    rw [ok, Bool.and_eq_true] at hok
    obtain ⟨hok1, hok2⟩ := hok
    have ih := ih hok1
    obtain ⟨t, l, h1, h2⟩ := parts_first hps rest
    rw [List.append_assoc, params]
    suffices hs : elem E v e (ts ++ (us ++ .separator :: rest)) = some (v1, us ++ .separator :: rest) by
      rw [hs]; exact ih
    rw [h1]
    cases hp with
    | reg hr hk => simp only [elem, List.cons_append, List.nil_append, register_reads hr hk, Option.map_some]
    | forced hr => simp only [elem, List.cons_append, List.nil_append, register_reads hr (register_le hr), Option.bind_some, if_true]
    | cop hr =>
      obtain ⟨n, rfl⟩ : ∃ n, _ = Tok.ident n := ⟨_, hr.2⟩
      simp only [elem, List.cons_append, List.nil_append, fromTable, cop_iff.2 hr, Option.map_some]
    | copNumber hr =>
      obtain ⟨n, rfl⟩ : ∃ n, _ = Tok.ident n := ⟨_, hr.2⟩
      simp only [elem, List.cons_append, List.nil_append, fromTable, num_iff.2 hr, Option.map_some]
    | writeback => rfl
    | noWriteback =>
      simp only [okElem] at hok2
      have := ne_of_starts hok2 h2
      rw [List.nil_append]
      unfold elem
      split <;> simp_all
    | psr => rfl
    | noPsr =>
      simp only [okElem] at hok2
      have := ne_of_starts hok2 h2
      rw [List.nil_append]
      unfold elem
      split <;> simp_all
    | fields h => simp only [elem, List.cons_append, List.nil_append, psrTransfer_fields h, Option.map_some, Option.getD_some]
    | whole => simp only [elem, List.cons_append, List.nil_append, psrTransfer_whole, Option.map_some, Option.getD_none]
    | list h hm =>
      simp only [okElem] at hok2
      rw [Bool.and_eq_true] at hok2
      simp only [elem, list_reads h hm l (ne_of_starts hok2.1 h2) (ne_of_starts hok2.2 h2), Option.map_some]
    | shift h =>
      simp only [okElem] at hok2
      rw [Bool.and_eq_true] at hok2
      simp only [elem, shift_reads h l (goes_false hok2.2 h2) (ne_of_starts hok2.1 h2), Option.map_some]
    | imm h | cpop h | cpinf h =>
      simp only [okElem] at hok2
      simp only [elem, immediate_reads h l (goes_false hok2 h2), Option.map_some]
    | pseudo h =>
      simp only [okElem] at hok2
      simp only [elem, amount_reads h (immOnly := false) (by simp) l (goes_false hok2 h2), Option.map_some]
    | plus => rfl
    | minus => rfl
    | unsigned =>
      simp only [okElem] at hok2
      rw [Bool.and_eq_true] at hok2
      have h3 := ne_of_starts hok2.1 h2
      have h4 := ne_of_starts hok2.2 h2
      have : parseSign (t :: l) = (true, t :: l) := by
        unfold parseSign
        split <;> simp_all
      simp only [elem, List.nil_append, this]
    | sym h => simp only [elem, List.cons_append, List.nil_append, h, matchToken, if_true, Option.map_some]
    | noSym h =>
      simp only [okElem] at hok2
      simp only [h, Option.all_some] at hok2
      simp only [elem, List.nil_append, h, matchToken, ne_of_starts hok2 h2, if_false, if_true, Option.map_some]

end Armips.ArmLine
