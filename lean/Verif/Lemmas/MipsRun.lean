import Verif.Spec.Mips
import Verif.Lemmas.MipsTable
import Verif.Lemmas.MipsWord
import Verif.Lemmas.Clean
import Verif.Lemmas.ArmRun
/-! What an accepted MIPS instruction has gone through. -/
namespace Armips.Mips
open Spec Spec.Instr Spec.Mips
open Armips.Arm (fld failWith not_clean_failWith)

theorem toInt_ofInt32 (v : Int) : (BitVec.ofInt 32 v).toInt = int32 v := by
  rw [BitVec.toInt_ofInt, int32, Int.bmod_def]
  split <;> omega

theorem int32_bounds (v : Int) : -2147483648 ≤ int32 v ∧ int32 v < 2147483648 := by
  unfold int32; omega

theorem int32_id {v : Int} (h : -2147483648 ≤ v) (h' : v < 2147483648) : int32 v = v := by
  unfold int32; omega

theorem int32_mod (v : Int) : ∃ q, int32 v = v + 4294967296 * q := by
  refine ⟨-((v + 2147483648) / 4294967296), ?_⟩
  unfold int32; omega

theorem int32_toInt (v : BitVec 32) : int32 v.toInt = v.toInt := by
  have h1 := BitVec.toInt_lt (x := v)
  have h2 := BitVec.le_toInt (x := v)
  simp only [Nat.reduceSub, Int.reducePow] at h1 h2
  exact int32_id h2 h1

theorem intMin_iff {v : BitVec 32} : v = BitVec.intMin 32 ↔ v.toInt = -2147483648 := by
  constructor
  · rintro rfl; rfl
  · intro h
    apply BitVec.eq_of_toInt_eq
    rw [h]; rfl

/-- The low bits of a number. -/
theorem and_mask (v : BitVec 32) {b : Nat} (hb : b ≤ 31) :
    ((v &&& BitVec.ofNat 32 (2 ^ b - 1)).toNat : Int) = v.toInt % 2 ^ b := by
  have hlt : 2 ^ b ≤ 2 ^ 31 := Nat.pow_le_pow_right (by decide) hb
  have hm : (BitVec.ofNat 32 (2 ^ b - 1)).toNat = 2 ^ b - 1 := by
    rw [BitVec.toNat_ofNat, Nat.mod_eq_of_lt]
    omega
  rw [BitVec.toNat_and, hm, Nat.and_two_pow_sub_one_eq_mod, Int.natCast_emod]
  have hd : ((2 : Int) ^ b) ∣ 2 ^ 32 := by
    refine ⟨2 ^ (32 - b), ?_⟩
    rw [← Int.pow_add]
    congr 1
    omega
  rw [BitVec.toInt_eq_toNat_bmod, Int.bmod_def]
  have hc : ((2 ^ b : Nat) : Int) = 2 ^ b := by simp
  rw [hc]
  split
  · rw [Int.emod_emod_of_dvd _ (by simpa using hd)]
  · obtain ⟨k, hk⟩ := hd
    have h32 : ((2 ^ 32 : Nat) : Int) = 2 ^ b * k := by rw [← hk]; rfl
    rw [h32, Int.sub_mul_emod_self_left, Int.emod_emod_of_dvd _ ⟨k, rfl⟩]

theorem bits_le (t : ImmType) : t.bits ≤ 31 := by cases t <;> decide

theorem checkBits_ok {b : Nat} {v r : BitVec 32} (hb : b ≤ 31) (h : checkBits b v = .ok r) :
    (r.toNat : Int) = v.toInt % 2 ^ b ∧ v.toInt.natAbs < 2 ^ b := by
  unfold checkBits at h
  split at h
  · cases h
  · split at h
    · cases h
    · rename_i h1 h2
      cases h
      refine ⟨and_mask v hb, ?_⟩
      have := Nat.two_pow_pos b
      omega

theorem checkBits_small {b : Nat} {v : BitVec 32} (hb : b ≤ 31) (h : v.toInt.natAbs < 2 ^ b) :
    checkBits b v = .ok (v &&& BitVec.ofNat 32 (2 ^ b - 1)) := by
  have hlt : 2 ^ b ≤ 2 ^ 31 := Nat.pow_le_pow_right (by decide) hb
  unfold checkBits
  rw [if_neg, if_neg (by omega)]
  rw [intMin_iff]
  intro he
  rw [he] at h
  simp at h
  omega

theorem checkBits_large {b : Nat} {v : BitVec 32} (h : 2 ^ b ≤ v.toInt.natAbs) (hm : v.toInt ≠ -2147483648) :
    checkBits b v = .error (some "Immediate value out of range") := by
  unfold checkBits
  have := Nat.two_pow_pos b
  rw [if_neg (by rw [intMin_iff]; exact hm), if_pos (by omega)]

theorem clean_orFail {α} {x : Except (Option String) α} {r : Except Bool α} (h : Clean (orFail x) r) : ∃ a, x = .ok a ∧ r = .ok a := by
  unfold orFail at h
  split at h
  · exact ⟨_, rfl, (clean_pure.1 h).symm⟩
  · exact absurd h clean_ub
  · exact absurd h not_clean_failWith

theorem half_lt (d : Half.Dbl) : Half.toHalfFloat d < 65536 := by
  have m : ∀ n : Nat, n % 65536 < 65536 := fun n => Nat.mod_lt _ (by decide)
  unfold Half.toHalfFloat
  split
  · exact m _
  · split
    · exact m _
    · split
      · exact m _
      · exact m _

theorem half_toInt (d : Half.Dbl) :
    Half.toHalfFloat d = ((BitVec.ofNat 32 (Half.toHalfFloat d)).toInt % 2 ^ 16).toNat := by
  have h := half_lt d
  generalize Half.toHalfFloat d = n at *
  rw [BitVec.toInt_eq_toNat_of_lt (by simp; omega)]
  simp
  omega

/-- The value that is processed as primary immediate. -/
def PrimSource (E : Env) (op : Op) (o : Operands) (c : Ctx) (t : ImmType) (v : BitVec 32) : Prop :=
  (t ≠ .half → ∃ x, ImmValue E c o x ∧ v = BitVec.ofInt 32 x) ∧
    (t = .half → ∃ h, HalfValue E c o h ∧ h = (v.toInt % 2 ^ 16).toNat)

theorem clean_immValue {E : Env} {c : Ctx} {t : ImmType} {e : Expr} {v : BitVec 32} (h : Clean (immValue E c t e) (some v)) :
    (∃ x, Evaluates E .mips c e (.int x) ∧
      v = if t = .half then BitVec.ofNat 32 (Half.toHalfFloat (dbl (E.host.ofInt x))) else BitVec.ofInt 32 x) ∨
    (∃ x, t = .half ∧ Evaluates E .mips c e (.float x) ∧ v = BitVec.ofNat 32 (Half.toHalfFloat (dbl x))) := by
  unfold immValue at h
  rw [clean_bind] at h
  obtain ⟨x, h1, h2⟩ := h
  cases x with
  | int x =>
    simp only [clean_pure, Option.some.injEq] at h2
    exact Or.inl ⟨x, h1, h2.symm⟩
  | float x =>
    simp only [clean_pure] at h2
    split at h2
    · rename_i ht
      cases h2
      exact Or.inr ⟨x, ht, h1, rfl⟩
    · cases h2
  | str _ => simp at h2
  | invalid => simp at h2

theorem clean_vPrimary {E : Env} {op : Op} {o : Operands} {c : Ctx} {r : Except Bool (BitVec 32)}
    (h : Clean (vPrimary E op o c) r) :
    ∃ p, r = .ok p ∧ match primType op.syms with
      | none => p = 0#32
      | some t => ∃ v, PrimSource E op o c t v ∧ primary op t v c.virtualAddress = .ok p := by
  unfold vPrimary at h
  cases ht : primType op.syms with
  | none =>
    rw [ht] at h
    exact ⟨_, (clean_pure.1 h).symm, rfl⟩
  | some t =>
    rw [ht] at h
    simp only at h
    cases he : o.imm with
    | none =>
      rw [he] at h
      obtain ⟨a, h1, h2⟩ := clean_orFail h
      refine ⟨a, h2, _, ⟨fun _ => ⟨o.immValue.toInt, by simp [ImmValue, he], by simp⟩,
        fun _ => ⟨_, by simp only [HalfValue, he], rfl⟩⟩, h1⟩
    | some e =>
      rw [he] at h
      simp only [clean_bind] at h
      obtain ⟨v, h1, h2⟩ := h
      cases v with
      | none => exact absurd h2 not_clean_failWith
      | some v =>
        obtain ⟨a, h3, h4⟩ := clean_orFail h2
        refine ⟨a, h4, v, ⟨fun hne => ?_, fun heq => ?_⟩, h3⟩
        · rcases clean_immValue h1 with ⟨x, hx, hv⟩ | ⟨x, hh, _⟩
          · exact ⟨x, by simp only [ImmValue, he]; exact hx, by simpa [hne] using hv⟩
          · exact absurd hh hne
        · rcases clean_immValue h1 with ⟨x, hx, hv⟩ | ⟨x, _, hx, hv⟩
          · exact ⟨_, by simp only [HalfValue, he]; exact Or.inr ⟨x, hx, rfl⟩, by rw [hv, if_pos heq]; exact half_toInt _⟩
          · exact ⟨_, by simp only [HalfValue, he]; exact Or.inl ⟨x, hx, rfl⟩, by rw [hv]; exact half_toInt _⟩

theorem clean_vSecondary {E : Env} {op : Op} {o : Operands} {c : Ctx} {prim : BitVec 32} {r : Except Bool (BitVec 32)}
    (h : Clean (vSecondary E op o c prim) r) :
    ∃ p, r = .ok p ∧ match secType op.syms with
      | none => p = 0#32
      | some t => ∃ x, SecValue E c o x ∧ secondary t (BitVec.ofInt 32 x) prim = .ok p := by
  unfold vSecondary at h
  cases ht : secType op.syms with
  | none =>
    rw [ht] at h
    exact ⟨_, (clean_pure.1 h).symm, rfl⟩
  | some t =>
    rw [ht] at h
    simp only at h
    cases he : o.sec with
    | none =>
      rw [he] at h
      obtain ⟨a, h1, h2⟩ := clean_orFail h
      exact ⟨a, h2, o.secValue.toInt, by simp [SecValue, he], by simpa using h1⟩
    | some e =>
      rw [he] at h
      simp only [clean_bind] at h
      obtain ⟨v, h1, h2⟩ := h
      cases v with
      | none => exact absurd h2 not_clean_failWith
      | some v =>
        obtain ⟨a, h3, h4⟩ := clean_orFail h2
        unfold secValue at h1
        rw [clean_bind] at h1
        obtain ⟨x, hx, h5⟩ := h1
        cases x <;> simp at h5
        subst h5
        exact ⟨a, h4, _, by simp only [SecValue, he]; exact hx, h3⟩

/-- The instruction is in a delay slot where it must not be. -/
def SlotError (cfg : Config) (op : Op) (st : ArchState) : Prop :=
  op.has .nodelayslot = true ∧ st.delaySlot = true ∧ cfg.ignoreDelay = false

theorem clean_unit {x : Ev Unit} : (∃ a, Clean x a) ↔ Clean x () := ⟨fun ⟨_, h⟩ => h, fun h => ⟨_, h⟩⟩

theorem clean_vDelay {cfg : Config} {op : Op} {r : Slot → Option Nat} {st : ArchState} :
    Clean (vDelay cfg op r st) () ↔ ¬ SlotError cfg op st := by
  unfold vDelay SlotError
  cases h1 : hazard cfg op r st <;> cases h2 : cfg.fixLoadDelay <;> cases h3 : op.has .nodelayslot <;>
    cases h4 : st.delaySlot <;> cases h5 : cfg.ignoreDelay <;>
    simp [clean_bind, clean_queue, clean_unit]

/-- What `Validate` has established. -/
structure CheckedFor (E : Env) (op : Op) (o : Operands) (c : Ctx) (prim sec : BitVec 32) : Prop where
  align : c.virtualAddress % 4 = 0
  primOk : match primType op.syms with
      | none => prim = 0#32
      | some t => ∃ v, PrimSource E op o c t v ∧ primary op t v c.virtualAddress = .ok prim
  secOk : match secType op.syms with
      | none => sec = 0#32
      | some t => ∃ x, SecValue E c o x ∧ secondary t (BitVec.ofInt 32 x) prim = .ok sec

theorem clean_validate {E : Env} {cfg : Config} {op : Op} {o : Operands} {c : Ctx} {st : ArchState} {r : Except Bool Checked}
    (h : Clean (validate E cfg op o c st) r) :
    ∃ prim sec, r = .ok ⟨hazard cfg op (omitted op o.regs) st && cfg.fixLoadDelay, prim, sec⟩ ∧
      CheckedFor E op o c prim sec ∧ ¬ SlotError cfg op st := by
  unfold validate at h
  split at h
  · exact absurd h not_clean_failWith
  · rename_i ha
    simp only [clean_bind] at h
    obtain ⟨p, h1, h2⟩ := h
    obtain ⟨p', rfl, hp⟩ := clean_vPrimary h1
    simp only [clean_bind] at h2
    obtain ⟨q, h3, h4⟩ := h2
    obtain ⟨q', rfl, hq⟩ := clean_vSecondary h3
    simp only [clean_bind, clean_pure] at h4
    obtain ⟨_, h5, h6⟩ := h4
    exact ⟨p', q', h6.symm, ⟨by simpa using ha, hp, hq⟩, clean_vDelay.1 h5⟩

theorem accepts_mips {E : Env} {cfg : Config} {op : Op} {o : Operands} {c : Ctx} {st : ArchState} {out : InstrOut}
    (h : Accepts (sem E cfg op o) c st out) :
    ∃ prim sec, out = outcome op o (.ok ⟨hazard cfg op (omitted op o.regs) st && cfg.fixLoadDelay, prim, sec⟩) ∧
      CheckedFor E op o c prim sec ∧ ¬ SlotError cfg op st := by
  obtain ⟨st', h⟩ := h
  unfold sem at h
  simp only [clean_bind, clean_pure] at h
  obtain ⟨r, h1, h2⟩ := h
  obtain ⟨prim, sec, rfl, hc, hs⟩ := clean_validate h1
  exact ⟨prim, sec, (congrArg Prod.fst h2).symm, hc, hs⟩

/-! ## What is stored -/

theorem emod_pow {x q : Int} {b : Nat} (hb : b ≤ 32) : (x + 4294967296 * q) % 2 ^ b = x % 2 ^ b := by
  have : (4294967296 : Int) = 2 ^ b * 2 ^ (32 - b) := by
    rw [← Int.pow_add, show b + (32 - b) = 32 by omega]
    rfl
  rw [this, Int.mul_assoc, Int.add_mul_emod_self_left]

theorem int32_emod (x : Int) {b : Nat} (hb : b ≤ 32) : int32 x % 2 ^ b = x % 2 ^ b := by
  obtain ⟨q, hq⟩ := int32_mod x
  rw [hq, emod_pow hb]

theorem nat_of_int {n : Nat} {z : Int} (h : (n : Int) = z) : n = z.toNat := by omega

theorem contains_true {l : List String} {s : String} : l.contains s = true ↔ s ∈ l := by simp

/-- What the flags of a row say about its mnemonic. -/
structure Names (op : Op) : Prop where
  ipcr : op.has .ipcr = true ↔ op.name ∈ branches
  ipca : op.has .ipca = true ↔ op.name ∈ jumps
  negimm : op.has .negimm = true ↔ op.name ∈ subtractions
  immaligned : op.has .immaligned = true ↔ op.name ∈ aligned ∧ (primType op.syms).isSome
  rsp : (op.has .rspHw || op.has .rspW || op.has .rspDw || op.has .rspQw) = true ↔ (rspScale op.name).isSome
  scale : ∀ k, rspScale op.name = some k → k = rspShift op
  branchType : op.has .ipcr = true → primType op.syms = some .i16 ∧ op.has .vfpu = false ∧ op.has .vfpuMixed = false
  jumpType : op.has .ipca = true → primType op.syms = some .i26 ∧ op.has .vfpu = false ∧ op.has .vfpuMixed = false
  subType : op.has .negimm = true → primType op.syms = some .i16
  half : (rspScale op.name).isSome → primType op.syms ≠ some .half

theorem names {op : Op} (hm : op ∈ opcodes) : Names op := by
  obtain ⟨_, _, _, _, h, _⟩ := rowFacts hm
  unfold namesOk at h
  simp only [Bool.and_eq_true] at h
  obtain ⟨⟨⟨⟨⟨⟨⟨⟨⟨⟨a, b⟩, c⟩, d⟩, e⟩, f⟩, g⟩, i⟩, j⟩, k⟩, l⟩ := h
  simp only [beq_iff_eq] at a b c d e
  refine ⟨?_, ?_, ?_, ?_, ?_, ?_, ?_, ?_, ?_, ?_⟩
  · rw [a, contains_true]
  · rw [b, contains_true]
  · rw [c, contains_true]
  · rw [d, Bool.and_eq_true, contains_true]
  · rw [e]
  · intro x hx
    rw [hx] at f
    simpa using f
  · intro x
    rw [x] at g
    simpa [and_assoc] using g
  · intro x
    rw [x] at i
    simpa [and_assoc] using i
  · intro x
    rw [x] at l
    simpa using l
  · intro x hx
    rw [hx] at k
    cases hr : rspScale op.name
    · rw [hr] at x; cases x
    · rw [hr] at k; simp at k

/-- The jumps and branches are different, and so are the others. -/
theorem lists_apart : (∀ s ∈ branches, s ∉ jumps ∧ s ∉ subtractions ∧ rspScale s = none) ∧
    (∀ s ∈ jumps, s ∉ subtractions ∧ rspScale s = none) ∧ (∀ s ∈ subtractions, rspScale s = none) := by decide

theorem toInt_neg_of {v : BitVec 32} (h : v ≠ BitVec.intMin 32) : (-v).toInt = -v.toInt := by
  apply BitVec.toInt_neg_of_ne_intMin h

theorem toInt_shr (v : BitVec 32) (k : Nat) : (v.sshiftRight k).toInt = v.toInt / 2 ^ k := by
  rw [BitVec.toInt_sshiftRight, Int.shiftRight_eq_div_pow]
  simp

theorem shift_mod {x q : Int} {k b : Nat} (hk : k ≤ 4) (hb : b ≤ 28) :
    (x + 4294967296 * q) / 2 ^ k % 2 ^ b = x / 2 ^ k % 2 ^ b := by
  have e : (4294967296 : Int) = 2 ^ k * 2 ^ (32 - k) := by
    rw [← Int.pow_add, show k + (32 - k) = 32 by omega]
    rfl
  have e2 : (2 : Int) ^ (32 - k) = 2 ^ b * 2 ^ (32 - k - b) := by
    rw [← Int.pow_add]
    congr 1
    omega
  rw [e, Int.mul_assoc, Int.add_mul_ediv_left _ _ (Int.ne_of_gt (Int.pow_pos (by decide))), e2, Int.mul_assoc,
    Int.add_mul_emod_self_left]

theorem rspShift_le (op : Op) : rspShift op ≤ 4 := by
  unfold rspShift
  repeat (split <;> try omega)

/-- The adjusted value, and the number it is modulo the field. -/
theorem primary_stored {op : Op} (hn : Names op) {t : ImmType} (ht : primType op.syms = some t) {x a : Int} {p : BitVec 32}
    (h : primary op t (BitVec.ofInt 32 x) a = .ok p) : p.toNat = stored op.name t.bits x a := by
  unfold primary at h
  split at h
  · cases h
  · have hb : t.bits ≤ 28 := by cases t <;> decide
    have hx := toInt_ofInt32 x
    obtain ⟨q, hq⟩ := int32_mod x
    generalize BitVec.ofInt 32 x = v at *
    unfold adjust at h
    unfold stored
    split at h
    · cases h
    · rename_i v' hv'
      obtain ⟨h1, -⟩ := checkBits_ok (bits_le t) h
      split at hv'
      · rename_i hneg
        have hs := hn.negimm.1 hneg
        have e1 : op.name ∉ branches := fun h => (lists_apart.1 _ h).2.1 hs
        have e2 : op.name ∉ jumps := fun h => (lists_apart.2.1 _ h).1 hs
        rw [if_neg e1, if_neg e2, if_pos hs]
        split at hv'
        · cases hv'
        · rename_i hne
          cases hv'
          apply nat_of_int
          rw [h1, toInt_neg_of hne, hx, hq, show -(x + 4294967296 * q) = -x + 4294967296 * -q by omega, emod_pow (by omega)]
      · rename_i hneg
        have e3 : op.name ∉ subtractions := fun h => hneg (hn.negimm.2 h)
        split at hv'
        · rename_i hj
          cases hv'
          have hs := hn.ipca.1 hj
          have e1 : op.name ∉ branches := fun h => (lists_apart.1 _ h).1 hs
          rw [if_neg e1, if_pos hs]
          obtain rfl : t = .i26 := by
            have := (hn.jumpType hj).1
            rw [ht] at this
            exact Option.some.inj this
          apply nat_of_int
          rw [h1]
          have := and_mask (v.sshiftRight 2) (b := 26) (by decide)
          simp only [Nat.reducePow, Nat.reduceSub] at this
          rw [BitVec.toInt_eq_toNat_of_lt, this]
          · rw [toInt_shr, hx, hq]
            simp only [ImmType.bits]
            omega
          · rw [toInt_shr] at this
            omega
        · rename_i hj
          have e2 : op.name ∉ jumps := fun h => hj (hn.ipca.2 h)
          split at hv'
          · rename_i hr
            have hs := hn.ipcr.1 hr
            rw [if_pos hs]
            dsimp only at hv'
            split at hv'
            · cases hv'
            · cases hv'
              apply nat_of_int
              rw [h1, toInt_shr, toInt_ofInt32, hx, hq]
              obtain ⟨q', hq'⟩ := int32_mod (x + 4294967296 * q - a - 4)
              rw [hq']
              have := shift_mod (x := x - (a + 4)) (q := q + q') (k := 2) (b := t.bits) (by decide) hb
              rw [show x + 4294967296 * q - a - 4 + 4294967296 * q' = x - (a + 4) + 4294967296 * (q + q') by omega, this]
              rfl
          · rename_i hr
            have e1 : op.name ∉ branches := fun h => hr (hn.ipcr.2 h)
            rw [if_neg e1, if_neg e2, if_neg e3]
            split at hv'
            · rename_i hs
              have hs' := hn.rsp.1 hs
              obtain ⟨k, hk⟩ := Option.isSome_iff_exists.1 hs'
              rw [hk]
              have := hn.scale k hk
              split at hv'
              · cases hv'
              · cases hv'
                apply nat_of_int
                rw [h1, toInt_shr, hx, hq, this]
                exact shift_mod (rspShift_le op) hb
            · rename_i hs
              have hs' : rspScale op.name = none := by
                cases hk : rspScale op.name
                · rfl
                · exact absurd (hn.rsp.2 (by simp [hk])) hs
              rw [hs']
              cases hv'
              apply nat_of_int
              rw [h1, hx, hq, emod_pow (by omega)]

/-- A half precision number is stored as it is. -/
theorem primary_half {op : Op} (hn : Names op) (ht : primType op.syms = some .half) {v p : BitVec 32} {a : Int}
    (h : primary op .half v a = .ok p) : (p.toNat : Int) = v.toInt % 2 ^ 16 := by
  unfold primary at h
  split at h
  · cases h
  · split at h
    · cases h
    · rename_i v' hv'
      obtain ⟨h1, -⟩ := checkBits_ok (bits_le _) h
      have n1 : ¬ op.has .negimm = true := fun h => by have := hn.subType h; rw [ht] at this; cases this
      have n2 : ¬ op.has .ipca = true := fun h => by have := (hn.jumpType h).1; rw [ht] at this; cases this
      have n3 : ¬ op.has .ipcr = true := fun h => by have := (hn.branchType h).1; rw [ht] at this; cases this
      have n4 : ¬ (op.has .rspHw || op.has .rspW || op.has .rspDw || op.has .rspQw) = true :=
        fun h => hn.half (hn.rsp.1 h) ht
      unfold adjust at hv'
      rw [if_neg n1, if_neg n2, if_neg n3, if_neg n4] at hv'
      cases hv'
      exact h1

theorem primary_lt {op : Op} {t : ImmType} {v p : BitVec 32} {a : Int} (h : primary op t v a = .ok p) :
    p.toNat < 2 ^ t.bits := by
  unfold primary at h
  split at h
  · cases h
  · split at h
    · cases h
    · obtain ⟨h1, -⟩ := checkBits_ok (bits_le _) h
      have h2 := Int.emod_lt_of_pos (b := 2 ^ t.bits) (BitVec.toInt (by assumption)) (Int.pow_pos (by decide))
      have hc : ((2 ^ t.bits : Nat) : Int) = 2 ^ t.bits := by simp
      rw [← h1, ← hc] at h2
      exact Int.ofNat_lt.1 h2

/-- The rows with a split offset, and those of `ins`, are plain. -/
def plainOk (op : Op) : Bool :=
  (!op.has .vfpuMixed || (!op.has .negimm && !op.has .ipca && !op.has .ipcr &&
    !(op.has .rspHw || op.has .rspW || op.has .rspDw || op.has .rspQw) && (primType op.syms == none || (op.has .immaligned && primType op.syms == some .i16)))) &&
  (secType op.syms != some .ins || (!op.has .negimm && !op.has .ipca && !op.has .ipcr &&
    !(op.has .rspHw || op.has .rspW || op.has .rspDw || op.has .rspQw) && primType op.syms == some .i5))

set_option maxRecDepth 10000 in
theorem plain_table : ∀ op ∈ opcodes, plainOk op = true := by decide +kernel

theorem adjust_plain {op : Op} (h : op.has .negimm = false ∧ op.has .ipca = false ∧ op.has .ipcr = false ∧
    (op.has .rspHw || op.has .rspW || op.has .rspDw || op.has .rspQw) = false) (v : BitVec 32) (a : Int) :
    adjust op v a = .ok v := by
  unfold adjust
  rw [h.1, h.2.1, h.2.2.1, h.2.2.2]
  simp

theorem primFits {op : Op} (hm : op ∈ opcodes) {E : Env} {o : Operands} {c : Ctx} {prim sec : BitVec 32}
    (h : CheckedFor E op o c prim sec) : PrimFits op prim := by
  intro t ht
  have hp := h.primOk
  rw [ht] at hp
  obtain ⟨v, -, hv⟩ := hp
  refine ⟨primary_lt hv, fun hx => ?_⟩
  have htab := plain_table op hm
  unfold plainOk at htab
  rw [hx, ht] at htab
  simp at htab
  obtain ⟨⟨⟨⟨⟨n1, n2⟩, n3⟩, n4⟩, n5, rfl⟩, -⟩ := htab
  unfold primary at hv
  rw [n5, adjust_plain ⟨n1, n2, n3, by simp [n4]⟩] at hv
  split at hv
  · cases hv
  · rename_i hal
    simp at hal
    have := (checkBits_ok (bits_le _) hv).1
    simp only [ImmType.bits] at this
    omega

theorem toInt_nonneg_toNat {v : BitVec 32} (h : 0 ≤ v.toInt) : (v.toNat : Int) = v.toInt := by
  have := BitVec.toInt_eq_toNat_cond v
  have h2 := v.isLt
  split at this <;> omega

theorem secStored {op : Op} (hm : op ∈ opcodes) {E : Env} {o : Operands} (hv : Valid op o) {c : Ctx} {prim sec : BitVec 32}
    (h : CheckedFor E op o c prim sec) (hi : FieldInside E c op o) :
    StoresSec E c op o prim.toNat sec.toNat ∧ SecFits op sec := by
  unfold StoresSec SecFits
  have hs := h.secOk
  cases ht : secType op.syms with
  | none =>
    rw [ht] at hs
    simp only at hs
    subst hs
    exact ⟨rfl, fun t h => by cases h⟩
  | some t =>
    rw [ht] at hs
    obtain ⟨x, hx, hs⟩ := hs
    have hx2 := toInt_ofInt32 x
    simp only [Option.some.injEq, forall_eq']
    cases t with
    | cacheOp =>
      simp only [secondary] at hs
      split at hs
      · cases hs
      · cases hs
        generalize BitVec.ofInt 32 x = v at *
        rename_i hle
        refine ⟨⟨x, hx, ?_, by omega⟩, by simp [secLen]; omega⟩
        rw [← hx2, BitVec.toInt_eq_toNat_of_lt]
        omega
    | branchType =>
      simp only [secondary] at hs
      cases hs
      have hmem : .sec .branchType ∈ op.syms := by
        obtain ⟨_, _, hi, _, _, _⟩ := rowFacts hm
        have := (mem_sec hi).2 ht
        simpa [allSyms] using this
      obtain ⟨h1, h2⟩ := hv.branchType hmem
      simp only [SecValue, h1] at hx
      subst hx
      have e : BitVec.ofInt 32 o.secValue.toInt = o.secValue := by simp
      rw [e]
      refine ⟨⟨o.secValue.toInt, by simp only [SecValue, h1], ?_, h2⟩, by simp [secLen]; omega⟩
      rw [BitVec.toInt_eq_toNat_of_lt]
      omega
    | ext =>
      have hin := hi.1 ht x hx
      simp only [secondary] at hs
      split at hs
      · cases hs
      · split at hs
        · cases hs
        · rename_i hle _
          simp only [reduceCtorEq, if_false] at hs
          cases hs
          have e : ((BitVec.ofInt 32 x - 1#32).toNat : Int) = int32 x - 1 := by
            have h3 := toInt_nonneg_toNat (v := BitVec.ofInt 32 x) (by omega)
            generalize BitVec.ofInt 32 x = v at *
            rw [BitVec.toNat_sub]
            simp
            omega
          refine ⟨⟨x, hx, by omega⟩, ?_⟩
          simp only [secLen]
          rw [hx2] at hle
          omega
    | ins =>
      have htab := plain_table op hm
      unfold plainOk at htab
      rw [ht] at htab
      simp at htab
      obtain ⟨-, ⟨⟨⟨n1, n2⟩, n3⟩, n4⟩, n5⟩ := htab
      have hp := h.primOk
      rw [n5] at hp
      obtain ⟨v, hsrc, hpv⟩ := hp
      obtain ⟨y, hy, rfl⟩ := hsrc.1 (by decide)
      obtain ⟨i1, i2, i3⟩ := hi.2 ht x y hx hy
      have hst := (names hm)
      have hpn : (prim.toNat : Int) = int32 y := by
        unfold primary at hpv
        split at hpv
        · cases hpv
        · rw [adjust_plain ⟨n1, n2, n3, by simp [n4]⟩] at hpv
          have := (checkBits_ok (bits_le _) hpv).1
          rw [toInt_ofInt32] at this
          simp only [ImmType.bits] at this
          omega
      simp only [secondary] at hs
      split at hs
      · cases hs
      · split at hs
        · cases hs
        · rename_i hle _
          simp only [if_true] at hs
          cases hs
          have e : ((BitVec.ofInt 32 x - 1#32 + prim).toNat : Int) = int32 x - 1 + int32 y := by
            have h3 := toInt_nonneg_toNat (v := BitVec.ofInt 32 x) (by omega)
            generalize BitVec.ofInt 32 x = v at *
            rw [BitVec.toNat_add, BitVec.toNat_sub]
            simp
            omega
          refine ⟨⟨x, hx, by omega⟩, ?_⟩
          simp only [secLen]
          omega

theorem immStored {op : Op} (hm : op ∈ opcodes) {E : Env} {o : Operands} {c : Ctx} {prim sec : BitVec 32}
    (h : CheckedFor E op o c prim sec) : StoresImm E c op o prim.toNat := by
  have hp := h.primOk
  unfold StoresImm
  cases ht : primType op.syms with
  | none =>
    rw [ht] at hp
    simp only at hp
    subst hp
    rfl
  | some t =>
    rw [ht] at hp
    obtain ⟨v, hsrc, hv⟩ := hp
    have gen : t ≠ .half → ∃ x, ImmValue E c o x ∧ prim.toNat = stored op.name t.bits x c.virtualAddress := by
      intro hne
      obtain ⟨x, hx, rfl⟩ := hsrc.1 hne
      exact ⟨x, hx, primary_stored (names hm) ht hv⟩
    cases t with
    | half =>
      obtain ⟨hv', h1, h2⟩ := hsrc.2 rfl
      have := nat_of_int (primary_half (names hm) ht hv)
      rw [this, ← h2]
      exact h1
    | _ => exact gen (by decide)

end Armips.Mips
