import Verif.Props.ThumbWords
import Verif.Props.ThumbBranch
import Verif.Spec.ThumbSample
/-!
# C25, C58: THUMB shifts and block transfers; what the assembler gets wrong; concrete instructions
-/
namespace Armips.Props
open Armips.Thumb Spec Spec.Thumb Spec.Instr
open Arm (fld orIf field_fld field_fld_ne hasFields_cons hasFields_nil)
open Spec.Arm (compute addWithCarry shiftBy decodeShift ShiftOp)

/-- The shift of a row. -/
def shiftKind : Nat → ShiftOp
  | 0 => .lsl | 1 => .lsr | _ => .asr

set_option maxRecDepth 10000 in
set_option synthInstance.maxSize 1000 in
set_option synthInstance.maxHeartbeats 0 in
theorem shift_table : ∀ op ∈ opcodes, ∀ t ∈ [0, 1, 2], format op.name op.mask = some (.shift t) →
    op.has .immediate = true ∧ op.has .branch = false ∧ op.has .word = false ∧ op.has .halfword = false ∧
      op.has .pool = false ∧ op.has .pcr = false ∧ op.has .addsub = false ∧ op.has .rightshift = decide (t ≠ 0) := by
  decide +kernel

set_option maxRecDepth 10000 in
set_option synthInstance.maxSize 1000 in
set_option synthInstance.maxHeartbeats 0 in
theorem shift_types : ∀ op ∈ opcodes, ∀ f ∈ (format op.name op.mask).toList, formatType f = 1 →
    f = .shift 0 ∨ f = .shift 1 ∨ f = .shift 2 := by decide +kernel

theorem shift_immediate {op : Op} {t : Nat} (h : op ∈ opcodes) (ht : t ∈ [0, 1, 2])
    (hf : format op.name op.mask = some (.shift t)) (v : Int) (b : Nat) (a : Int) :
    (0 ≤ int32 v ∧ int32 v ≤ (if t = 0 then 31 else 32) →
      immediate op b (BitVec.ofInt 32 v) a = .ok { value := fld (int32 v).toNat 0 }) ∧
    (¬ (0 ≤ int32 v ∧ int32 v ≤ (if t = 0 then 31 else 32)) →
      immediate op b (BitVec.ofInt 32 v) a = .error "Shift amount out of range") := by
  obtain ⟨t1, t2, t3, t4, t5, t6, t7, t8⟩ := shift_table op h t ht hf
  have ty : op.type = 1 := (row_table op h (.shift t) (by simp [hf])).1.type
  have hr : (if op.has .rightshift then (32 : Int) else 31) = if t = 0 then 31 else 32 := by
    rw [t8]; by_cases h0 : t = 0 <;> simp [h0]
  constructor
  · intro hn
    have hn' : ¬ (int32 v < 0 ∨ int32 v > if op.has .rightshift then 32 else 31) := by rw [hr]; omega
    have hv : BitVec.ofInt 32 v = fld (int32 v).toNat 0 := fld_of_toInt (by rw [toInt_int32]; omega)
    have : checkRange op b (BitVec.ofInt 32 v) = .ok (BitVec.ofInt 32 v) := by
      rw [checkRange, if_pos ty, toInt_int32, if_neg hn']
    simp only [immediate, immCases, t2, t3, t4, t5, t6, addSub, t7, Bool.false_and, Bool.and_false, Bool.false_eq_true,
      if_false, this]
    rw [← hv]
  · intro hn
    have hn' : (int32 v < 0 ∨ int32 v > if op.has .rightshift then 32 else 31) := by rw [hr]; omega
    have : checkRange op b (BitVec.ofInt 32 v) = .error "Shift amount out of range" := by
      rw [checkRange, if_pos ty, toInt_int32, if_pos hn']
    simp only [immediate, immCases, t2, t3, t4, t5, t6, addSub, t7, Bool.false_and, Bool.and_false, Bool.false_eq_true,
      if_false, this]

theorem fld_and5 {n : Nat} (h : n < 2 ^ 32) : fld n 0 &&& 0x1F#32 = fld (n % 32) 0 := by
  apply BitVec.eq_of_toNat_eq
  have h1 : (fld n 0).toNat = n := by simp [fld]; omega
  have h2 : (fld (n % 32) 0).toNat = n % 32 := by simp [fld]; omega
  rw [BitVec.toNat_and, h1, h2]
  exact Nat.and_two_pow_sub_one_eq_mod n 5

theorem shift_exists {k : Nat} (hk : k ∈ [0, 1, 2]) (n : Int) (x : BitVec 32) (carry : Bool) :
    (shiftBy (shiftKind k) n x carry).isSome = decide (0 ≤ n ∧ n ≤ (if k = 0 then 31 else 32)) := by
  simp only [List.mem_cons, List.not_mem_nil, or_false] at hk
  rcases hk with rfl | rfl | rfl <;> simp only [shiftKind, shiftBy] <;> split <;> (try split) <;>
    simp only [Option.isSome_some, Option.isSome_none, Bool.true_eq, Bool.false_eq, decide_eq_true_eq, decide_eq_false_iff_not,
      if_true, Nat.reduceEqDiff, if_false] <;> omega

/-- C25. A shift by a constant: if the shift exists the instruction is accepted, and what its type and amount fields make the
processor compute is that shift. -/
theorem thumb_shift_word {E : Env} {op : Op} {o : Operands} {c : Ctx} {st : ArchState} {t : Nat} {v : Int}
    (h : op ∈ opcodes) (hf : format op.name op.mask = some (.shift t)) (hv : Valid op o)
    (hval : Evaluates E .arm c o.imm (.int v)) (hs : ∀ x carry, shiftBy (shiftKind t) (int32 v) x carry ≠ none) :
    ∃ w t' k, Emits (sem E op o) c st w ∧ HasFields w ((Format.shift t').layout (args op o k)) ∧
      ∀ x carry, decodeShift t' k x carry = shiftBy (shiftKind t) (int32 v) x carry := by
  have ht : t ∈ [0, 1, 2] := by
    rcases shift_types op h (.shift t) (by simp [hf]) rfl with h | h | h <;> cases h <;> simp
  obtain ⟨r, hfields⟩ := row_table op h (.shift t) (by simp [hf])
  obtain ⟨t1, -, -, -, -, -, -, t8⟩ := shift_table op h t ht hf
  have hn : 0 ≤ int32 v ∧ int32 v ≤ (if t = 0 then 31 else 32) := by
    have h1 := shift_exists ht (int32 v) 0#32 false
    have h2 := hs 0#32 false
    rw [← Option.isSome_iff_ne_none, h1] at h2
    simpa using h2
  have hm := final_of t1 hval ((shift_immediate h ht hf v o.bitLen c.virtualAddress).1 hn)
  have hn32 : int32 v ≤ 32 := by split at hn <;> omega
  generalize hi : int32 v = n at *
  obtain ⟨n, rfl⟩ := Int.eq_ofNat_of_zero_le hn.1
  simp only [Int.toNat_natCast] at hm
  obtain ⟨a1, a2, a3, a4⟩ := row_regs r hv
  have ty := r.type
  rw [ty] at a4
  simp [needs, formatType] at a1 a4
  have hand := fld_and5 (n := n) (by omega)
  have hlt : n % 32 < 2 ^ 5 := Nat.mod_lt _ (by decide)
  have k1 : ∀ sh, sh + 5 ≤ 32 → field (fld (n % 32) sh) sh 5 = n % 32 := fun sh h => field_fld hlt h
  have k2 : ∀ sh lo len, (sh + 5 ≤ lo ∨ lo + len ≤ sh) → field (fld (n % 32) sh) lo len = 0 := fun sh lo len h =>
    field_fld_ne hlt h
  have hz : ((fld n 0 == 0#32) = true) ↔ n = 0 := by
    rw [beq_iff_eq, ← BitVec.toNat_inj]
    have : (fld n 0).toNat = n := by simp [fld]; omega
    rw [this]; simp
  by_cases h0 : t ≠ 0 ∧ n = 0
  · refine ⟨_, 0, 0, emits_of hm rfl (encode_one r (by simp)), hasFields_setWidth (layout_small _ _) ?_, ?_⟩
    · have c1 : (op.has .rightshift && fld n 0 == 0#32) = true := by
        rw [Bool.and_eq_true]; exact ⟨by simp [t8, h0.1], hz.2 h0.2⟩
      have hnn : n % 32 = 0 := by omega
      rw [hnn] at hand k1 k2
      simp only [encodeType, ty, formatType, c1, if_true, hand, fld_shift]
      have := a4.2
      simp only [hasFields_cons, hasFields_nil, Format.layout, args, this, and_true]
      generalize rsOf op o = rs at a4
      simp [field_or, f3, f3_ne, a1, a4.1, k1, k2]
    · intro x carry
      obtain ⟨h0, rfl⟩ := h0
      simp only [List.mem_cons, List.not_mem_nil, or_false] at ht
      rcases ht with rfl | rfl | rfl
      · exact absurd rfl h0
      · rfl
      · rfl
  · refine ⟨_, t, n % 32, emits_of hm rfl (encode_one r (by simp)), hasFields_setWidth (layout_small _ _) ?_, ?_⟩
    · have c1 : (op.has .rightshift && fld n 0 == 0#32) = false := by
        rw [Bool.and_eq_false_iff]
        by_cases h1 : t = 0
        · left; simp [t8, h1]
        · right
          have : n ≠ 0 := fun h2 => h0 ⟨h1, h2⟩
          have := mt hz.1 this
          simpa using this
      simp only [encodeType, ty, formatType, c1, if_false, hand, fld_shift, Bool.false_eq_true]
      have := a4.2
      simp [Format.layout, hasFields_cons, hasFields_nil] at hfields
      simp only [hasFields_cons, hasFields_nil, Format.layout, args, this, and_true, Option.getD_none]
      generalize rsOf op o = rs at a4
      simp [field_or, f3, f3_ne, a1, a4.1, k1, k2, hfields]
    · intro x carry
      simp only [List.mem_cons, List.not_mem_nil, or_false] at ht
      rcases ht with rfl | rfl | rfl
      · have : n % 32 = n := by simp at hn; omega
        simp only [decodeShift, this, shiftKind]
      · have hn0 : n ≠ 0 := fun h => h0 ⟨by decide, h⟩
        simp only [decodeShift, shiftKind]
        by_cases h32 : n = 32
        · subst h32; rfl
        · have e : n % 32 = n := by omega
          rw [e, if_neg hn0]
      · have hn0 : n ≠ 0 := fun h => h0 ⟨by decide, h⟩
        simp only [decodeShift, shiftKind]
        by_cases h32 : n = 32
        · subst h32; rfl
        · have e : n % 32 = n := by omega
          rw [e, if_neg hn0]

/-- C25. A shift that does not exist is reported as an error. -/
theorem thumb_shift_rejects {E : Env} {op : Op} {o : Operands} {c : Ctx} {st : ArchState} {t : Nat} {v : Int}
    (h : op ∈ opcodes) (hf : format op.name op.mask = some (.shift t)) (hval : Evaluates E .arm c o.imm (.int v))
    (hs : ∃ x carry, shiftBy (shiftKind t) (int32 v) x carry = none) : Rejects (sem E op o) c st := by
  have ht : t ∈ [0, 1, 2] := by
    rcases shift_types op h (.shift t) (by simp [hf]) rfl with h | h | h <;> cases h <;> simp
  obtain ⟨t1, -, -, -, -, -, -, t8⟩ := shift_table op h t ht hf
  obtain ⟨x, carry, hs⟩ := hs
  have hn : ¬ (0 ≤ int32 v ∧ int32 v ≤ (if t = 0 then 31 else 32)) := by
    have h1 := shift_exists ht (int32 v) x carry
    rw [hs] at h1
    simpa using h1.symm
  exact rejects_of t1 hval ((shift_immediate h ht hf v o.bitLen c.virtualAddress).2 hn)

/-! ### Block transfers -/

/-- C58. `stmia`, `ldmia` with registers r0 to r7: the list is stored as it is.

Partial: other registers are accepted as well and dropped, see `thumb_block_drops`. -/
theorem thumb_multiple_word_partial {E : Env} {op : Op} {o : Operands} {c : Ctx} {st : ArchState} {l : Nat} (h : op ∈ opcodes)
    (hf : format op.name op.mask = some (.multiple l)) (hv : Valid op o) (hi : op.has .immediate = false)
    (hl : o.rlist < 256) : ∃ w, Emits (sem E op o) c st w ∧ HasFields w ((Format.multiple l).layout (args op o 0)) := by
  obtain ⟨r, hfields⟩ := row_table op h _ (by simp [hf]; rfl)
  have hm : FinalFor E op o c { value := o.stale } := ⟨fun _ => rfl, by simp [hi]⟩
  exact ⟨_, emits_of hm rfl (encode_one r (by simp)), hasFields_setWidth (layout_small _ _) (multiple_fields r hv hfields hl)⟩

/-- C58. `push` with registers r0 to r7 and lr, `pop` with r0 to r7 and pc: the list is stored, the eighth bit stands for
lr or pc.

Partial: other registers are accepted as well, see `thumb_block_drops` and `thumb_push_pc_wrong`. -/
theorem thumb_stack_word_partial {E : Env} {op : Op} {o : Operands} {c : Ctx} {st : ArchState} {l : Nat} (h : op ∈ opcodes)
    (hf : format op.name op.mask = some (.stack l)) (hl1 : l ≤ 1) (hi : op.has .immediate = false)
    (hl : o.rlist < 256 ∨ ∃ n < 256, o.rlist = n + (if l = 1 then 0x8000 else 0x4000)) :
    ∃ w, Emits (sem E op o) c st w ∧ HasFields w ((Format.stack l).layout (args op o 0)) := by
  obtain ⟨r, hfields⟩ := row_table op h _ (by simp [hf]; rfl)
  have hm : FinalFor E op o c { value := o.stale } := ⟨fun _ => rfl, by simp [hi]⟩
  refine ⟨_, emits_of hm rfl (encode_one r (by simp)), hasFields_setWidth (layout_small _ _) (stack_fields r hfields hl1 ?_)⟩
  have hbit : ∀ x : Nat, x &&& 0xC000 ≠ 0 ↔ x / 2 ^ 15 % 2 = 1 ∨ x / 2 ^ 14 % 2 = 1 := by
    intro x
    have e : (x &&& 0xC000) / 2 ^ 14 = (x / 2 ^ 14) % 4 := by
      rw [Nat.and_div_two_pow]; exact Nat.and_two_pow_sub_one_eq_mod (x / 2 ^ 14) 2
    have e2 : (x &&& 0xC000) % 2 ^ 14 = 0 := by
      rw [Nat.and_mod_two_pow]; simp
    omega
  rcases hl with hl | ⟨n, hn, hl⟩
  · have h1 := mt (hbit o.rlist).1 (by omega)
    rw [decide_eq_false h1]
    split <;> simp only [Bool.toNat_false] <;> omega
  · have h1 := (hbit o.rlist).2 (by split at hl <;> omega)
    rw [decide_eq_true h1]
    split at hl <;> rename_i hc <;> simp only [Bool.toNat_true, hc, if_true, if_false] <;> omega

/-- Not C58: `push {r8}` is accepted and stores an empty list; `push {r0,r9}` stores r0 alone. -/
theorem thumb_block_drops :
    Emits (sem Sample.env (Sample.trow "push" "/{R\xff\x40/}") { Sample.tplain with rlist := 0x100 }) Sample.ctx Sample.idle 0xB400#16 ∧
    Emits (sem Sample.env (Sample.trow "push" "/{R\xff\x40/}") { Sample.tplain with rlist := 0x201 }) Sample.ctx Sample.idle 0xB401#16 :=
  ⟨⟨_, ⟨_, [], rfl, fun _ h => by cases h⟩, fun p => (outcome_words rfl p).trans rfl⟩,
    ⟨_, ⟨_, [], rfl, fun _ h => by cases h⟩, fun p => (outcome_words rfl p).trans rfl⟩⟩

/-- Not C58: `push {pc}` is the same as `push {lr}` and `pop {lr}` the same as `pop {pc}`. -/
theorem thumb_push_pc_wrong :
    Emits (sem Sample.env (Sample.trow "push" "/{R\xff\x40/}") { Sample.tplain with rlist := 0x8000 }) Sample.ctx Sample.idle 0xB500#16 ∧
    Emits (sem Sample.env (Sample.trow "push" "/{R\xff\x40/}") { Sample.tplain with rlist := 0x4000 }) Sample.ctx Sample.idle 0xB500#16 ∧
    Emits (sem Sample.env (Sample.trow "pop" "/{R\xff\x80/}") { Sample.tplain with rlist := 0x4000 }) Sample.ctx Sample.idle 0xBD00#16 ∧
    Emits (sem Sample.env (Sample.trow "pop" "/{R\xff\x80/}") { Sample.tplain with rlist := 0x8000 }) Sample.ctx Sample.idle 0xBD00#16 :=
  ⟨⟨_, ⟨_, [], rfl, fun _ h => by cases h⟩, fun p => (outcome_words rfl p).trans rfl⟩,
    ⟨_, ⟨_, [], rfl, fun _ h => by cases h⟩, fun p => (outcome_words rfl p).trans rfl⟩,
    ⟨_, ⟨_, [], rfl, fun _ h => by cases h⟩, fun p => (outcome_words rfl p).trans rfl⟩,
    ⟨_, ⟨_, [], rfl, fun _ h => by cases h⟩, fun p => (outcome_words rfl p).trans rfl⟩⟩

/-! ### Other deviations -/

/-- Not C25: `ldr rd,[pc]` uses a member nobody has set. Here it happens to hold 0x1234 and changes the instruction. -/
theorem thumb_ldr_pc_wrong :
    Emits (sem Sample.env (Sample.trow "ldr" "d,[r\x0f]") { Sample.tplain with rd := 1 }) Sample.ctx Sample.idle 0x5B34#16 :=
  ⟨_, ⟨_, [], rfl, fun _ h => by cases h⟩, fun p => (outcome_words rfl p).trans rfl⟩

/-- Not C24: `blx` at an address that is no multiple of 4, to a target 4 MiB ahead: accepted, but the processor jumps back
4 MiB. -/
theorem thumb_blx_wraps :
    ∃ w1 w2, Emits2 (sem Sample.env ((longRow "blx").getD ⟨"", "", 0#32, 0, []⟩) { Sample.tplain with imm := .int 0x8400014, bitLen := 22 })
        { Sample.ctx with file := some (0x8000012, 0, lit "out") } Sample.idle w1 w2 ∧
      exchangeTarget w1 w2 0x8000012 = 0x7C00014 :=
  ⟨0xF400#16, 0xE800#16, ⟨_, ⟨_, [], rfl, fun _ h => by cases h⟩, fun p => (outcome_words rfl p).trans rfl⟩, by decide +kernel⟩

/-- C25. `nop` is `mov r8,r8`. -/
theorem thumb_nop {E : Env} {o : Operands} {c : Ctx} {st : ArchState} :
    ∃ w, Emits (sem E (Sample.trow "nop" "") o) c st w ∧
      HasFields w ((Format.high 2).layout { rd := 8, rs := 8 }) := by
  refine ⟨0x46C0#16, emits_of (m := { value := o.stale }) (W := 0x46C0#32) ⟨fun _ => rfl, fun h => ?_⟩ rfl rfl, ?_⟩
  · exact absurd h (by decide +kernel)
  · decide +kernel

/-! ### Concrete instructions -/

section
open Sample (env ctx idle trow tplain tadd tldr tmov tlsr tbeq tbl tpc tpool tpush tstm)

/-- Evaluation of a literal. -/
theorem evaluates_int {E : Env} {a : ArchId} {c : Ctx} {v : Int} : Evaluates E a c (.int v) (.int v) :=
  ⟨[], rfl, fun _ h => by cases h⟩

macro "tvalid" : tactic => `(tactic|
  (constructor <;> first | decide +kernel | simp [tadd, tldr, tmov, tlsr, tbeq, tbl, tpc, tpool, tpush, tstm, tplain]))

/-- `thumb_register_word`: `mov r8,r3`. -/
example : ∃ w, Emits (sem env (trow "mov" "D,S") tmov) ctx idle w ∧ HasFields w ((Format.high 2).layout { rd := 8, rs := 3 }) := by
  obtain ⟨w, h1, h2⟩ := thumb_register_word (E := env) (op := trow "mov" "D,S") (o := tmov) (c := ctx) (st := idle)
    (f := .high 2) (by decide +kernel) (by decide +kernel) (by tvalid) (by decide +kernel) (by simp) (by simp)
  exact ⟨w, h1, h2⟩

/-- `thumb_constant_word`: `add r1,r2,-3` is `sub r1,r2,3`. -/
example : ∃ w, Emits (sem env (trow "add" "d,s,/#i\x03") tadd) ctx idle w ∧
    HasFields w ((Format.addSmall 1).layout (args (trow "add" "d,s,/#i\x03") tadd 3)) :=
  thumb_constant_word (f := .addSmall 0) (v := -3) (by decide +kernel) (by decide +kernel) (by tvalid) (by decide +kernel)
    evaluates_int ⟨by decide, .inr ⟨rfl, by decide, by decide⟩⟩

/-- `thumb_constant_word`: `ldr r1,[r2,124]`. -/
example : ∃ w, Emits (sem env (trow "ldr" "d,[s,/#i\x05]") tldr) ctx idle w ∧
    HasFields w ((Format.offset5 0 1).layout (args (trow "ldr" "d,[s,/#i\x05]") tldr 31)) :=
  thumb_constant_word (f := .offset5 0 1) (v := 124) (by decide +kernel) (by decide +kernel) (by tvalid) (by decide +kernel)
    evaluates_int ⟨by decide, .inl ⟨rfl, by decide⟩⟩

/-- `thumb_constant_rejects`: `ldr r1,[r2,128]`. -/
example : Rejects (sem env (trow "ldr" "d,[s,/#i\x05]") { tldr with imm := .int 128 }) ctx idle :=
  thumb_constant_rejects (f := .offset5 0 1) (v := 128) (by decide +kernel) (by decide +kernel) (by tvalid) (by decide +kernel)
    evaluates_int (by
      rintro ⟨f', k, h1, ⟨-, h2⟩ | ⟨h2, -⟩⟩
      · have : (int32 128 : Int) = 128 := by decide
        simp only [Format.bits, Format.scale] at h1 h2
        rw [this] at h2
        simp at h2
        omega
      · simp [Format.opposite] at h2)

/-- `thumb_shift_word`: `lsr r1,32`. -/
example : ∃ w t' k, Emits (sem env (trow "lsr" "d,/#i\x05") tlsr) ctx idle w ∧
    HasFields w ((Format.shift t').layout (args (trow "lsr" "d,/#i\x05") tlsr k)) ∧
      ∀ x carry, decodeShift t' k x carry = shiftBy .lsr 32 x carry :=
  thumb_shift_word (t := 1) (v := 32) (by decide +kernel) (by decide +kernel) (by tvalid) evaluates_int (by
    have : int32 32 = 32 := by decide
    simp [this, shiftKind, shiftBy])

/-- `thumb_shift_rejects`: `lsl r1,32`. -/
example : Rejects (sem env (trow "lsl" "d,/#i\x05") tlsr) ctx idle :=
  thumb_shift_rejects (t := 0) (v := 32) (by decide +kernel) (by decide +kernel) evaluates_int ⟨0#32, false, by decide⟩

/-- `thumb_stack_word_partial`: `push {r1,r4,lr}`. -/
example : ∃ w, Emits (sem env (trow "push" "/{R\xff\x40/}") tpush) ctx idle w ∧
    HasFields w ((Format.stack 0).layout (args (trow "push" "/{R\xff\x40/}") tpush 0)) :=
  thumb_stack_word_partial (by decide +kernel) (by decide +kernel) (by decide) (by decide +kernel)
    (.inr ⟨0x12, by decide, rfl⟩)

/-- `thumb_multiple_word_partial`: `stmia [r0]!,{r1,r4}`. -/
example : ∃ w, Emits (sem env (trow "stmia" "/[d/]!,/{R\xff\x00/}") tstm) ctx idle w ∧
    HasFields w ((Format.multiple 0).layout (args (trow "stmia" "/[d/]!,/{R\xff\x00/}") tstm 0)) :=
  thumb_multiple_word_partial (by decide +kernel) (by decide +kernel) (by tvalid) (by decide +kernel) (by decide)

theorem thumb_address_sample : ctx.virtualAddress = 0x8000010 := by decide +kernel

/-- `thumb_branch_reaches`: `beq 0x8000000`. -/
example : ∃ w off, Emits (sem env (trow "beq" "/#I\x08") tbeq) ctx idle w ∧
    HasFields w ((Format.conditional 0).layout (args (trow "beq" "/#I\x08") tbeq off)) ∧
    BitVec.ofInt 32 (conditionalTarget w ctx.virtualAddress) = 0x8000000#32 := by
  have := thumb_branch_reaches (E := env) (op := trow "beq" "/#I\x08") (o := tbeq) (c := ctx) (st := idle) (f := .conditional 0)
    (v := 0x8000000) (by decide +kernel) (by decide +kernel) (.inr ⟨0, rfl⟩) (by tvalid) evaluates_int (by decide +kernel)
    (by decide +kernel) (by decide +kernel) (by decide +kernel)
  simpa using this

/-- `thumb_branch_rejects`: `beq 0x8001000`. -/
example : Rejects (sem env (trow "beq" "/#I\x08") { tbeq with imm := .int 0x8001000 }) ctx idle :=
  thumb_branch_rejects (f := .conditional 0) (v := 0x8001000) (by decide +kernel) (by decide +kernel) (.inr ⟨0, rfl⟩) (by tvalid)
    evaluates_int (by decide +kernel)

/-- `thumb_bl_reaches`, `thumb_blx_reaches_partial`: `bl 0x8100000`, `blx 0x8100000`. -/
example : ∃ op, longRow "bl" = some op ∧ ∃ w1 w2 hi lo, Emits2 (sem env op tbl) ctx idle w1 w2 ∧ HasFields w1 (linkHigh hi) ∧
    HasFields w2 (Format.linkLow.layout { imm := lo }) ∧ BitVec.ofInt 32 (linkTarget w1 w2 ctx.virtualAddress) = 0x8100000#32 :=
  ⟨_, rfl, thumb_bl_reaches (v := 0x8100000) rfl (by tvalid) evaluates_int (by decide +kernel) (by decide +kernel)
    (by decide +kernel) (by decide +kernel)⟩

example : ∃ op, longRow "blx" = some op ∧ ∃ w1 w2 hi lo, Emits2 (sem env op tbl) ctx idle w1 w2 ∧ HasFields w1 (linkHigh hi) ∧
    HasFields w2 (exchangeLow lo) ∧ BitVec.ofInt 32 (exchangeTarget w1 w2 ctx.virtualAddress) = 0x8100000#32 :=
  ⟨_, rfl, thumb_blx_reaches_partial (v := 0x8100000) rfl (by tvalid) evaluates_int (by decide +kernel) (by decide +kernel)
    (by decide +kernel) (by decide +kernel)⟩

/-- `thumb_literal_reaches`: `ldr r1,[0x8000020]`. -/
example : ∃ w off, Emits (sem env (trow "ldr" "d,[/#I\x20]") tpc) ctx idle w ∧
    HasFields w (Format.literal.layout (args (trow "ldr" "d,[/#I\x20]") tpc off)) ∧
    BitVec.ofInt 32 (literalAddress w ctx.virtualAddress) = 0x8000020#32 :=
  thumb_literal_reaches (v := 0x8000020) (by decide +kernel) (by decide +kernel) (.inl (by decide +kernel)) (by tvalid)
    evaluates_int (by decide +kernel) (by decide +kernel) (by decide +kernel) (by decide +kernel)

/-- `thumb_literal_rejects`: `ldr r1,[0x8000000]`. -/
example : Rejects (sem env (trow "ldr" "d,[/#I\x20]") { tpc with imm := .int 0x8000000 }) ctx idle :=
  thumb_literal_rejects (v := 0x8000000) (f := .literal) (by decide +kernel) (by decide +kernel) (.inl (by decide +kernel))
    evaluates_int (by decide +kernel) (by decide +kernel)

/-- `thumb_pool_reaches`: `ldr r1,=0x12345678` with the pool at 0x8000100. -/
example : ∃ out, Accepts (sem env (trow "ldr" "d,=/#I\x20") tpool) ctx idle out ∧ out.pool = some 0x12345678 ∧
    ∃ w : BitVec 16, out.words (some 0x8000100) = [(Width.w16, (w.toNat : Int))] ∧
      BitVec.ofInt 32 (literalAddress w ctx.virtualAddress) = 0x8000100#32 := by
  have ha : Accepts (sem env (trow "ldr" "d,=/#I\x20") tpool) ctx idle _ := ⟨_, [], rfl, fun _ h => by cases h⟩
  refine ⟨_, ha, ?_⟩
  obtain ⟨h1, h2⟩ := thumb_pool_reaches (v := 0x12345678) (p := 0x8000100) (by decide +kernel) (by decide +kernel)
    (by decide +kernel) (by tvalid) evaluates_int (by decide +kernel) ha
  refine ⟨h1.trans (by decide +kernel), ?_⟩
  obtain ⟨w, off, e1, -, e2⟩ := h2 (by decide +kernel) (by decide)
  exact ⟨w, e1, e2⟩

end

end Armips.Props
