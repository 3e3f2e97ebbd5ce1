import Verif.Lemmas.ArmLineTable
import Verif.Spec.ArmOperands
/-!
# What is written can be written

Operands that are written for a row are those of `Spec.Arm.Valid` and `Spec.Thumb.Valid`.
-/
namespace Armips.ArmLine
open ExprParse (Tok)
open Spec.ArmLine
open Spec.Arm (Reads Item)

/-! ### The mnemonic -/

theorem conditions_le : ∀ p ∈ Spec.Arm.conditions, p.2 ≤ 14 := by decide

theorem reads_valid {e n : List Char} {v v' : ArmParse.Vars} (h : Reads e n v v') :
    (v.c ≤ 14 → v'.c ≤ 14) ∧ ('C' ∉ e → v'.c = v.c) ∧ (v'.s = true → v.s = true ∨ 'S' ∈ e) ∧ (v.a ≤ 7 → v'.a ≤ 7) := by
  induction h with
  | done v => exact ⟨id, fun _ => rfl, .inl, id⟩
  | @cond e n v v' suffix k h1 _ ih =>
    have := conditions_le _ h1
    exact ⟨fun _ => ih.1 this, fun h => absurd (by simp) h, fun h => (ih.2.2.1 h).imp id (by simp +contextual), ih.2.2.2⟩
  | always _ ih => exact ⟨fun _ => ih.1 (by simp), fun h => absurd (by simp) h, fun h => (ih.2.2.1 h).imp id (by simp +contextual), ih.2.2.2⟩
  | flags _ ih => exact ⟨ih.1, fun h => ih.2.1 (by simp_all), fun _ => .inr (by simp), ih.2.2.2⟩
  | noFlags _ ih => exact ⟨ih.1, fun h => ih.2.1 (by simp_all), fun _ => .inr (by simp), ih.2.2.2⟩
  | mode s k h1 h2 _ ih =>
    exact ⟨ih.1, fun h => ih.2.1 (by simp_all), fun h => (ih.2.2.1 h).imp id (by simp +contextual), fun _ => ih.2.2.2 (by simp; omega)⟩
  | top _ ih | bottom _ ih | top' _ ih | bottom' _ ih | itself _ _ _ ih =>
    exact ⟨ih.1, fun h => ih.2.1 (by simp_all), fun h => (ih.2.2.1 h).imp id (by simp +contextual), ih.2.2.2⟩

/-! ### The operands -/

theorem parts_inv {E : ExprParse.Env} (P : Vars → Prop) (sets : Elem → Prop) {es : List Elem} {ts : List Tok} {v v' : Vars} (h : Parts E es ts v v')
    (hkeep : ∀ e ∈ es, ∀ ts v v', Part E e ts v v' → P v → P v') (hset : ∀ e ∈ es, ∀ ts v v', sets e → Part E e ts v v' → P v')
    (h0 : P v ∨ ∃ e ∈ es, sets e) : P v' := by
  induction h with
  | nil =>
    rcases h0 with h | ⟨e, h, -⟩
    · exact h
    · simp at h
  | cons h1 _ ih =>
    refine ih (fun e he => hkeep e (by simp [he])) (fun e he => hset e (by simp [he])) ?_
    rcases h0 with h | ⟨e, h, hs⟩
    · exact .inl (hkeep _ (by simp) _ _ _ h1 h)
    · rcases List.mem_cons.1 h with rfl | h
      · exact .inl (hset _ (by simp) _ _ _ hs h1)
      · exact .inr ⟨e, h, hs⟩

/-- The register of a slot. -/
def Vars.get (v : Vars) : Slot → Nat
  | .rd => v.rd
  | .rs => v.rs
  | .rn => v.rn
  | .rm => v.rm
  | .ro => v.ro
  | .cd => v.cd
  | .cn => v.cn
  | .cm => v.cm

theorem get_set (v : Vars) (s s' : Slot) (k : Nat) : (v.set s k).get s' = if s = s' then k else v.get s' := by cases s <;> cases s' <;> rfl

/-- The highest number a piece stores in the slot. -/
def slotMax (s : Slot) : Elem → Option Nat
  | .reg s' m => if s' = s then some m else none
  | .cop s' => if s' = s then some 15 else none
  | _ => none

/-- The slot is stored, never with more than `n`. -/
def bounded (s : Slot) (n : Nat) (es : List Elem) : Bool := es.any (fun e => (slotMax s e).isSome) && es.all fun e => ((slotMax s e).getD 0).ble n

theorem slot_le {E : ExprParse.Env} {s : Slot} {n : Nat} {es : List Elem} {ts : List Tok} {v v' : Vars} (h : Parts E es ts v v') (hb : bounded s n es = true) :
    v'.get s ≤ n := by
  simp only [bounded, Bool.and_eq_true, List.any_eq_true, List.all_eq_true, Nat.ble_eq] at hb
  refine parts_inv (fun v => v.get s ≤ n) (fun e => (slotMax s e).isSome = true) h ?_ ?_ (.inr hb.1)
  · intro e he ts v v' hp hv
    have hm := hb.2 e he
    cases hp with
    | @reg s' max k t v h1 h2 =>
      rw [get_set]
      split
      · rename_i hs
        rw [slotMax, if_pos hs] at hm
        simp at hm
        omega
      · exact hv
    | @cop s' k t v h1 =>
      rw [get_set]
      split
      · rename_i hs
        rw [slotMax, if_pos hs] at hm
        have := h1.1
        simp at hm
        omega
      · exact hv
    | _ => exact hv
  · intro e he ts v v' hs hp
    have hm := hb.2 e he
    cases hp with
    | @reg s' max k t v h1 h2 =>
      simp only [slotMax] at hs hm
      split at hs
      · rename_i hs'
        rw [if_pos hs'] at hm
        rw [get_set, if_pos hs']
        simp at hm
        omega
      · cases hs
    | @cop s' k t v h1 =>
      simp only [slotMax] at hs hm
      split at hs
      · rename_i hs'
        rw [if_pos hs'] at hm
        rw [get_set, if_pos hs']
        have := h1.1
        simp at hm
        omega
      · cases hs
    | _ => cases hs

theorem set_pn (v : Vars) (s : Slot) (k : Nat) : (v.set s k).pn = v.pn ∧ (v.set s k).field = v.field ∧ (v.set s k).rlist = v.rlist ∧
    (v.set s k).writeback = v.writeback ∧ (v.set s k).psr = v.psr ∧ (v.set s k).bitLen = v.bitLen ∧ (v.set s k).shift = v.shift := by
  cases s <;> exact ⟨rfl, rfl, rfl, rfl, rfl, rfl, rfl⟩

theorem pn_le {E : ExprParse.Env} {es : List Elem} {ts : List Tok} {v v' : Vars} (h : Parts E es ts v v') (hb : Elem.copNumber ∈ es) : v'.pn ≤ 15 := by
  refine parts_inv (fun v => v.pn ≤ 15) (fun e => e = .copNumber) h ?_ ?_ (.inr ⟨_, hb, rfl⟩)
  · intro e he ts v v' hp hv
    cases hp with
    | reg => rw [(set_pn _ _ _).1]; exact hv
    | cop => rw [(set_pn _ _ _).1]; exact hv
    | copNumber h1 => have := h1.1; show _ ≤ _; simp; omega
    | _ => exact hv
  · intro e he ts v v' hs hp
    subst hs
    cases hp with
    | copNumber h1 => have := h1.1; show _ ≤ _; simp; omega

theorem or_le {a b : Nat} (ha : a ≤ 15) (hb : b ≤ 15) : a ||| b ≤ 15 := by
  have := Nat.or_lt_two_pow (n := 4) (x := a) (y := b) (by omega) (by omega)
  omega

theorem fields_le : ∀ (k f : Nat) (r : Str) {x : Nat}, fields k f r = some x → f ≤ 15 → x ≤ 15
  | 0, f, _, x, h, hf => by simp only [fields, Option.some.injEq] at h; omega
  | k + 1, f, [], x, h, hf => by simp only [fields, Option.some.injEq] at h; omega
  | k + 1, f, b :: r, x, h, hf => by
    rw [fields] at h
    split at h
    · cases h
    · rename_i m hm
      split at h
      · cases h
      · refine fields_le k _ r h (or_le hf ?_)
        unfold fieldBit at hm
        repeat' split at hm
        all_goals first | cases hm | skip
        all_goals first | omega | cases hm

theorem psrField_le {r : Str} {f : Nat} (h : psrField r = some f) : f ≤ 15 := by
  unfold psrField at h
  split at h
  · cases h; omega
  · split at h
    · cases h
    · split at h
      · split at h <;> cases h; omega
      · split at h
        · split at h <;> cases h; omega
        · exact fields_le _ _ _ h (by omega)

theorem field_le {E : ExprParse.Env} {es : List Elem} {ts : List Tok} {v v' : Vars} (h : Parts E es ts v v') (hb : Elem.transfer false ∈ es) : v'.field ≤ 15 := by
  have key : ∀ {b : Bool} {f : Nat} {r : Str}, Fields f r → f ≤ 15 := by
    intro b f r hf
    have := psrTransfer_fields (b := b) hf
    unfold psrTransfer at this
    split at this
    · cases this
    · simp only [Bool.false_eq_true, if_false] at this
      obtain ⟨f', h1, h2⟩ := Option.map_eq_some_iff.1 this
      cases h2
      exact psrField_le h1
  refine parts_inv (fun v => v.field ≤ 15) (fun e => e = .transfer false) h ?_ ?_ (.inr ⟨_, hb, rfl⟩)
  · intro e he ts v v' hp hv
    cases hp with
    | reg => rw [(set_pn _ _ _).2.1]; exact hv
    | cop => rw [(set_pn _ _ _).2.1]; exact hv
    | @fields b f r v h1 => exact key (b := b) h1
    | _ => exact hv
  · intro e he ts v v' hs hp
    subst hs
    cases hp with
    | @fields b f r v h1 => exact key (b := b) h1

theorem item_le {it : Item} (h : it.Ok) {i : Nat} (hi : it.Has i) : i ≤ 15 := by
  have key : ∀ {s n}, Spec.Arm.registerName s n → n ≤ 15 := fun h => register_le ⟨_, h, rfl⟩
  cases it with
  | one s n => have := key h; simp only [Item.Has] at hi; omega
  | range s t a b => have := key h.2.1; simp only [Item.Has] at hi; omega

theorem list_lt {mask m : Nat} {ts : List Tok} (h : RegList mask m ts) : m < 2 ^ 16 := by
  obtain ⟨items, -, h2, -, h4, -⟩ := h
  apply Nat.lt_pow_two_of_testBit
  intro i hi
  cases hb : m.testBit i with
  | false => rfl
  | true =>
    obtain ⟨it, h5, h6⟩ := (h4 i).1 hb
    have := item_le (h2 it h5) h6
    omega

theorem rlist_lt {E : ExprParse.Env} {es : List Elem} {ts : List Tok} {v v' : Vars} (h : Parts E es ts v v') {m : Nat} (hb : Elem.list m ∈ es) :
    v'.rlist < 2 ^ 16 := by
  refine parts_inv (fun v => v.rlist < 2 ^ 16) (fun e => ∃ m, e = .list m) h ?_ ?_ (.inr ⟨_, hb, _, rfl⟩)
  · intro e he ts v v' hp hv
    cases hp with
    | reg => rw [(set_pn _ _ _).2.2.1]; exact hv
    | cop => rw [(set_pn _ _ _).2.2.1]; exact hv
    | list h1 _ => exact list_lt h1
    | _ => exact hv
  · intro e he ts v v' hs hp
    obtain ⟨m, rfl⟩ := hs
    cases hp with
    | list h1 _ => exact list_lt h1

theorem writeback_false {E : ExprParse.Env} {es : List Elem} {ts : List Tok} {v v' : Vars} (h : Parts E es ts v v') (hb : Elem.writeback ∉ es)
    (hv : v.writeback = false) : v'.writeback = false := by
  refine parts_inv (fun v => v.writeback = false) (fun _ => False) h ?_ ?_ (.inl hv)
  · intro e he ts v v' hp hv
    cases hp with
    | reg => rw [(set_pn _ _ _).2.2.2.1]; exact hv
    | cop => rw [(set_pn _ _ _).2.2.2.1]; exact hv
    | writeback => exact absurd he hb
    | noWriteback => rfl
    | _ => exact hv
  · intro e he ts v v' hs hp; exact hs.elim

theorem psr_false {E : ExprParse.Env} {es : List Elem} {ts : List Tok} {v v' : Vars} (h : Parts E es ts v v') (hb : Elem.psr ∉ es)
    (hv : v.psr = false) : v'.psr = false := by
  refine parts_inv (fun v => v.psr = false) (fun _ => False) h ?_ ?_ (.inl hv)
  · intro e he ts v v' hp hv
    cases hp with
    | reg => rw [(set_pn _ _ _).2.2.2.2.1]; exact hv
    | cop => rw [(set_pn _ _ _).2.2.2.2.1]; exact hv
    | psr => exact absurd he hb
    | noPsr => rfl
    | _ => exact hv
  · intro e he ts v v' hs hp; exact hs.elim

/-- The width that is stored. -/
def width : Elem → Option Nat
  | .imm k => some k
  | .cpop => some 4
  | .cpinf => some 3
  | _ => none

theorem width_eq {E : ExprParse.Env} {es : List Elem} {ts : List Tok} {v v' : Vars} {n : Nat} (h : Parts E es ts v v')
    (h1 : es.any (fun e => (width e).isSome) = true) (h2 : es.all (fun e => (width e).all (Nat.beq n)) = true) : v'.bitLen = n := by
  simp only [List.any_eq_true, List.all_eq_true] at h1 h2
  have key : ∀ e ∈ es, ∀ k, width e = some k → n = k := by
    intro e he k hk
    have := h2 e he
    rw [hk] at this
    simpa using this
  refine parts_inv (fun v => v.bitLen = n) (fun e => (width e).isSome = true) h ?_ ?_ (.inr h1)
  · intro e he ts v v' hp hv
    cases hp with
    | reg => rw [(set_pn _ _ _).2.2.2.2.2.1]; exact hv
    | cop => rw [(set_pn _ _ _).2.2.2.2.2.1]; exact hv
    | imm => exact (key _ he _ rfl).symm
    | cpop => exact (key _ he _ rfl).symm
    | cpinf => exact (key _ he _ rfl).symm
    | _ => exact hv
  · intro e he ts v v' hs hp
    cases hp with
    | imm => exact (key _ he _ rfl).symm
    | cpop => exact (key _ he _ rfl).symm
    | cpinf => exact (key _ he _ rfl).symm
    | _ => cases hs

/-- A shift is stored. -/
def isShift : Elem → Bool
  | .shift _ => true
  | .pseudo _ => true
  | _ => false

theorem shift_none {E : ExprParse.Env} {es : List Elem} {ts : List Tok} {v v' : Vars} (h : Parts E es ts v v') (hb : es.any isShift = false)
    (hv : v.shift = none) : v'.shift = none := by
  refine parts_inv (fun v => v.shift = none) (fun _ => False) h ?_ ?_ (.inl hv)
  · intro e he ts v v' hp hv
    have := List.any_eq_false.1 hb e he
    cases hp with
    | reg => rw [(set_pn _ _ _).2.2.2.2.2.2]; exact hv
    | cop => rw [(set_pn _ _ _).2.2.2.2.2.2]; exact hv
    | shift => exact absurd rfl this
    | pseudo => exact absurd rfl this
    | _ => exact hv
  · intro e he ts v v' hs hp; exact hs.elim

theorem amount_type {E : ExprParse.Env} {k : Nat} {sh : Arm.Shift} {ts : List Tok} (h : Amount E k sh ts) : sh.type = k ∧ (sh.byRegister = true → sh.reg ≤ 15) := by
  cases h with
  | reg h => exact ⟨rfl, fun _ => register_le h⟩
  | const => exact ⟨rfl, fun h => by cases h⟩
  | hash => exact ⟨rfl, fun h => by cases h⟩

theorem shiftNames_le : ∀ p ∈ shiftNames, p.2 ≤ 4 := by decide

theorem shiftText_le {E : ExprParse.Env} {b : Bool} {sh : Option Arm.Shift} {ts : List Tok} (h : ShiftText E b sh ts) :
    ∀ s, sh = some s → s.type ≤ 4 ∧ (s.byRegister = true → s.reg ≤ 15) := by
  intro s hs
  cases h with
  | none => cases hs
  | number h1 _ _ _ => cases hs; exact ⟨shiftNames_le _ h1, fun h => by cases h⟩
  | amount h1 h2 _ =>
    cases hs
    obtain ⟨h3, h4⟩ := amount_type h2
    exact ⟨by rw [h3]; exact shiftNames_le _ h1, h4⟩

/-- The type of a shift that is written as an instruction. -/
def pseudoType : Elem → Option Nat
  | .pseudo k => some k
  | _ => none

theorem shift_le {E : ExprParse.Env} {es : List Elem} {ts : List Tok} {v v' : Vars} (h : Parts E es ts v v')
    (h2 : es.all (fun e => (pseudoType e).all (Nat.ble · 4)) = true) (hv : v.shift = none) :
    ∀ s, v'.shift = some s → s.type ≤ 4 ∧ (s.byRegister = true → s.reg ≤ 15) := by
  refine parts_inv (fun v => ∀ s, v.shift = some s → s.type ≤ 4 ∧ (s.byRegister = true → s.reg ≤ 15)) (fun _ => False) h ?_ ?_ (.inl ?_)
  · intro e he ts v v' hp hv
    have := List.all_eq_true.1 h2 e he
    cases hp with
    | reg => rw [(set_pn _ _ _).2.2.2.2.2.2]; exact hv
    | cop => rw [(set_pn _ _ _).2.2.2.2.2.2]; exact hv
    | shift h => exact shiftText_le h
    | pseudo h =>
      intro s hs
      cases hs
      obtain ⟨h3, h4⟩ := amount_type h
      rw [h3]
      simp only [pseudoType, Option.all_some, Nat.ble_eq] at this
      exact ⟨this, h4⟩
    | _ => exact hv
  · intro e he ts v v' hs hp; exact hs.elim
  · rw [hv]; simp

theorem pseudo_type {E : ExprParse.Env} {es : List Elem} {ts : List Tok} {v v' : Vars} {n : Nat} (h : Parts E es ts v v')
    (h1 : es.any (fun e => (pseudoType e).isSome) = true) (h2 : es.all (fun e => (pseudoType e).all (Nat.beq n)) = true)
    (h3 : ∀ b, Elem.shift b ∉ es) : ∃ s, v'.shift = some s ∧ s.type = n := by
  simp only [List.any_eq_true, List.all_eq_true] at h1 h2
  have key : ∀ e ∈ es, ∀ k, pseudoType e = some k → k = n := by
    intro e he k hk
    have := h2 e he
    rw [hk] at this
    have e : n = k := by simpa using this
    exact e.symm
  refine parts_inv (fun v => ∃ s, v.shift = some s ∧ s.type = n) (fun e => (pseudoType e).isSome = true) h ?_ ?_ (.inr h1)
  · intro e he ts v v' hp hv
    cases hp with
    | reg => rw [(set_pn _ _ _).2.2.2.2.2.2]; exact hv
    | cop => rw [(set_pn _ _ _).2.2.2.2.2.2]; exact hv
    | shift => exact absurd he (h3 _)
    | pseudo h => exact ⟨_, rfl, by rw [(amount_type h).1]; exact key _ he _ rfl⟩
    | _ => exact hv
  · intro e he ts v v' hs hp
    cases hp with
    | pseudo h => exact ⟨_, rfl, by rw [(amount_type h).1]; exact key _ he _ rfl⟩
    | _ => cases hs

/-! ### The table -/

/-- The letters and the pieces of ARM. -/
def armLetters (op : Arm.Op) (m : List Char) (es : List Elem) : Bool :=
  (!m.contains 'd' || bounded .rd 15 es) && (!m.contains 'n' || bounded .rn 15 es) && (!m.contains 'm' || bounded .rm 15 es) &&
  (!m.contains 's' || bounded .rs 15 es) && (!m.contains 'D' || bounded .cd 15 es) && (!m.contains 'N' || bounded .cn 15 es) &&
  (!m.contains 'M' || bounded .cm 15 es) && (!m.contains 'X' || es.contains .copNumber) && (!(m.take 2 == ['P', '0']) || es.contains (.transfer false)) &&
  (!m.contains 'R' || es.contains (.list 0xFFFF)) && (!es.contains .writeback || m.contains 'W') && (!es.contains .psr || m.contains 'p') &&
  (!op.has .immediate || (es.any (fun e => (width e).isSome) && es.all fun e => (width e).all (Nat.beq (Spec.Arm.immediateBits m)))) &&
  (m.contains 'S' || m.contains 'z' || !es.any isShift) &&
  (!m.contains 'z' || (es.any (fun e => (pseudoType e).isSome) && es.all (fun e => (pseudoType e).all (Nat.beq (Spec.Arm.pseudoShift m))) &&
    !es.contains (.shift true) && !es.contains (.shift false))) &&
  es.all fun e => (pseudoType e).all (Nat.ble · 4)

set_option maxRecDepth 100000 in
theorem arm_letters : ∀ op ∈ Arm.opcodes, (armElements op.mask.toList).all (armLetters op op.mask.toList) = true := by decide +kernel

/-- The letters and the pieces of THUMB. -/
def thumbLetters (op : Thumb.Op) (m : List Char) (es : List Elem) : Bool :=
  (!m.contains 'd' || bounded .rd 7 es) && (!m.contains 's' || bounded .rs 7 es) && (!m.contains 'n' || bounded .rn 7 es) &&
  (!m.contains 'o' || bounded .ro 7 es) && (!m.contains 'D' || bounded .rd 15 es) && (!m.contains 'S' || bounded .rs 15 es) &&
  (!m.contains 'R' || es.any fun | .list _ => true | _ => false) &&
  (!op.has .immediate || (es.any (fun e => (width e).isSome) && es.all fun e => (width e).all (Nat.beq (Spec.Thumb.constantBits m))))

set_option maxRecDepth 100000 in
theorem thumb_letters : ∀ op ∈ Thumb.opcodes, (thumbElements op.mask.toList).all (thumbLetters op op.mask.toList) = true := by decide +kernel

theorem arm_valid {E : ExprParse.Env} {op : Arm.Op} (hop : op ∈ Arm.opcodes) {name : List Char} {m : ArmParse.Vars} (hr : Reads op.name.toList name ArmParse.Vars.start m)
    {es : List Elem} (he : armElements op.mask.toList = some es) {ts : List Tok} {v v' : Vars} (hp : Parts E es ts (fresh v) v') :
    Spec.Arm.Valid op (toArm m v') := by
  obtain ⟨n1, n2, n3, n4⟩ := reads_valid hr
  have ht := arm_letters op hop
  rw [he] at ht
  simp only [Option.all_some, armLetters, Bool.and_eq_true, Bool.or_eq_true, Bool.not_eq_true', List.contains_iff_mem, beq_eq_false_iff_ne, ne_eq,
    ← Bool.not_eq_true, ← Decidable.imp_iff_not_or] at ht
  obtain ⟨⟨⟨⟨⟨⟨⟨⟨⟨⟨⟨⟨⟨⟨⟨t1, t2⟩, t3⟩, t4⟩, t5⟩, t6⟩, t7⟩, t8⟩, t9⟩, t10⟩, t11⟩, t12⟩, t13⟩, t14⟩, t15⟩, t16⟩ := ht
  exact {
    c := n1 (by decide)
    noC := fun h => n2 h
    s := fun h => (n3 h).resolve_left (by decide)
    a := n4 (by decide)
    rd := fun h => slot_le (s := .rd) hp (t1 h)
    rn := fun h => slot_le (s := .rn) hp (t2 h)
    rm := fun h => slot_le (s := .rm) hp (t3 h)
    rs := fun h => slot_le (s := .rs) hp (t4 h)
    cd := fun h => slot_le (s := .cd) hp (t5 h)
    cn := fun h => slot_le (s := .cn) hp (t6 h)
    cm := fun h => slot_le (s := .cm) hp (t7 h)
    pn := fun h => pn_le hp (t8 h)
    field := fun h => field_le hp (t9 (by simpa using h))
    rlist := fun h => rlist_lt hp (t10 h)
    writeback := fun h => by
      by_cases hw : Elem.writeback ∈ es
      · exact t11 hw
      · have := writeback_false hp hw rfl
        rw [show (toArm m v').writeback = v'.writeback from rfl, this] at h
        cases h
    psr := fun h => by
      by_cases hw : Elem.psr ∈ es
      · exact t12 hw
      · have := psr_false hp hw rfl
        rw [show (toArm m v').psr = v'.psr from rfl, this] at h
        cases h
    bits := fun h => width_eq hp (t13 h).1 (t13 h).2
    noShift := fun h1 h2 => shift_none hp (by
      rcases t14 with (h | h) | h
      · exact absurd h h1
      · exact absurd h h2
      · simpa using h) rfl
    pseudo := fun h => pseudo_type hp (t15 h).1.1.1 (t15 h).1.1.2 (by
      intro b
      cases b
      · exact (t15 h).2
      · exact (t15 h).1.2)
    shift := shift_le hp t16 rfl }

theorem thumb_valid {E : ExprParse.Env} {op : Thumb.Op} (hop : op ∈ Thumb.opcodes) {es : List Elem} (he : thumbElements op.mask.toList = some es)
    {ts : List Tok} {v v' : Vars} (hp : Parts E es ts v v') (imm : BitVec 32) : Spec.Thumb.Valid op (toThumb imm v') := by
  have ht := thumb_letters op hop
  rw [he] at ht
  simp only [Option.all_some, thumbLetters, Bool.and_eq_true, Bool.or_eq_true, Bool.not_eq_true', List.contains_iff_mem,
    ← Bool.not_eq_true, ← Decidable.imp_iff_not_or] at ht
  obtain ⟨⟨⟨⟨⟨⟨⟨t1, t2⟩, t3⟩, t4⟩, t5⟩, t6⟩, t7⟩, t8⟩ := ht
  exact {
    rd := fun h => slot_le (s := .rd) hp (t1 h)
    rs := fun h => slot_le (s := .rs) hp (t2 h)
    rn := fun h => slot_le (s := .rn) hp (t3 h)
    ro := fun h => slot_le (s := .ro) hp (t4 h)
    rD := fun h => slot_le (s := .rd) hp (t5 h)
    rS := fun h => slot_le (s := .rs) hp (t6 h)
    rlist := fun h => by
      obtain ⟨e, h1, h2⟩ := List.any_eq_true.1 (t7 h)
      split at h2
      · exact rlist_lt hp h1
      · cases h2
    bits := fun h => width_eq hp (t8 h).1 (t8 h).2 }

end Armips.ArmLine
