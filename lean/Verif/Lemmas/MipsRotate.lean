import Verif.Lemmas.MipsCompare
/-! The texts of the rotating macros and of `abs`. -/
namespace Armips.MacroProof
open Spec Spec.Instr Spec.Macro Spec.Isa
open Armips.Mips hiding validate encode names

theorem rotl (x : BitVec 32) (v : Int) : x <<< (v % 32).toNat ||| x >>> ((-v) % 32).toNat = x.rotateLeft (v % 32).toNat := by
  rw [BitVec.rotateLeft_def]
  by_cases h : v % 32 = 0
  · have h2 : -v % 32 = 0 := by omega
    have h3 : x >>> 32 = 0#32 := by
      apply BitVec.eq_of_toNat_eq
      rw [BitVec.toNat_ushiftRight, Nat.shiftRight_eq_div_pow]
      have := x.isLt
      rw [Nat.div_eq_of_lt this]; rfl
    simp [h, h2, h3]
  · have h1 : (v % 32).toNat % 32 = (v % 32).toNat := by omega
    have h2 : (-v % 32).toNat = 32 - (v % 32).toNat := by omega
    rw [h1, h2]

theorem rotr (x : BitVec 32) (v : Int) : x >>> (v % 32).toNat ||| x <<< ((-v) % 32).toNat = x.rotateRight (v % 32).toNat := by
  rw [BitVec.rotateRight_def]
  by_cases h : v % 32 = 0
  · have h2 : -v % 32 = 0 := by omega
    simp [h, h2]
  · have h1 : (v % 32).toNat % 32 = (v % 32).toNat := by omega
    have h2 : (-v % 32).toNat = 32 - (v % 32).toNat := by omega
    rw [h1, h2]

theorem rotl_right (x : BitVec 32) (v : Int) : x.rotateRight ((-v) % 32).toNat = x.rotateLeft (v % 32).toNat := by
  rw [← rotr, ← rotl, BitVec.or_comm, Int.neg_neg]

theorem neg_mod (t : BitVec 32) : (0#32 - t).toNat % 32 = (-(t.toNat : Int) % 32).toNat := by
  have := t.isLt
  simp only [BitVec.toNat_sub, BitVec.toNat_ofNat]
  omega

theorem pos_mod (n : Nat) : ((n : Int) % 32).toNat = n % 32 := by omega

theorem abs_value (x : BitVec 32) : (x ^^^ x.sshiftRight 31) - x.sshiftRight 31 = if x.toInt < 0 then -x else x := by
  have h1 := x.toInt_lt
  have h2 := x.le_toInt
  rw [BitVec.sshiftRight_eq, Int.shiftRight_eq_div_pow]
  split
  · have : x.toInt / (2 ^ 31 : Nat) = -1 := by omega
    rw [this]
    have : BitVec.ofInt 32 (-1) = BitVec.allOnes 32 := by decide
    rw [this, BitVec.xor_allOnes, BitVec.neg_eq_not_add, BitVec.sub_eq_add_neg]
    have : -BitVec.allOnes 32 = 1#32 := by decide
    rw [this]
  · have : x.toInt / (2 ^ 31 : Nat) = 0 := by omega
    rw [this]
    simp

section
variable {P : ParseEnv} {d k₀ : Nat} {st : St}

/-- What a shift by a constant does. -/
def shiftBy (name : String) (x : BitVec 32) (n : Nat) : BitVec 32 :=
  if name = "sll" then x <<< n else if name = "srl" then x >>> n else if name = "sra" then x.sshiftRight n else x.rotateRight n

theorem tgood_shift {name : String} (hn : name ∈ ["sra", "srl", "sll", "rotr"]) {a b : Nat} {e : Expr} {x : Int} (ha : a < 32) (hb : b < 32)
    (he : Evaluates P.env .mips (st.ctx P.env) e (.int x)) :
    TGood P d k₀ (rri name a b e) st fun ws st' =>
      (∀ be m, exec be ws m = some (m.set a (shiftBy name (m.get b) (x % 32).toNat))) := by
  have : ∃ f, Spec.Mips.number Spec.Mips.shiftC name = some f ∧
      ∀ {be : Bool} {w : BitVec 32} (_ : IsR (if name = "rotr" then 1 else 0) b a (x % 2 ^ 5).toNat f w) (m : Machine),
        step be w m = some (m.set a (shiftBy name (m.get b) (x % 32).toNat)) := by
    have e32 : (2 : Int) ^ 5 = 32 := rfl
    rw [e32]
    simp only [List.mem_cons, List.not_mem_nil, or_false] at hn
    rcases hn with rfl | rfl | rfl | rfl
    · exact ⟨3, rfl, fun h m => by rw [step_R h]; simp [Isa.special, shiftBy]⟩
    · exact ⟨2, rfl, fun h m => by rw [step_R h]; simp [Isa.special, shiftBy]⟩
    · exact ⟨0, rfl, fun h m => by rw [step_R h]; simp [Isa.special, shiftBy]⟩
    · exact ⟨2, rfl, fun h m => by rw [step_R h]; simp [Isa.special, shiftBy]⟩
  obtain ⟨f, hf, hs⟩ := this
  refine TGood.mono (tgood_line fun k k' cm h => good_sh (List.mem_append_left ["dsra32"] hn) hf ha hb he h) ?_
  rintro ws st' - - ⟨hw, -⟩ be m
  rw [exec_writes hw fun w hw m => hs hw m]

/-- What a shift by a register does. -/
def shiftByV (name : String) (x : BitVec 32) (n : Nat) : BitVec 32 :=
  if name = "sllv" then x <<< n else if name = "srlv" then x >>> n else x.rotateRight n

theorem tgood_shiftv {name : String} (hn : name ∈ shvNames) {a b c : Nat} (ha : a < 32) (hb : b < 32) (hc : c < 32) :
    TGood P d k₀ (rrr name a b c) st fun ws st' =>
      (∀ be m, exec be ws m = some (m.set a (shiftByV name (m.get b) ((m.get c).toNat % 32)))) := by
  have : ∃ f, Spec.Mips.number Spec.Mips.shiftV name = some f ∧
      ∀ {be : Bool} {w : BitVec 32} (_ : IsR c b a (if name = "rotrv" then 1 else 0) f w) (m : Machine),
        step be w m = some (m.set a (shiftByV name (m.get b) ((m.get c).toNat % 32))) := by
    simp only [shvNames, List.mem_cons, List.not_mem_nil, or_false] at hn
    rcases hn with rfl | rfl | rfl
    · exact ⟨6, rfl, fun h m => by rw [step_R h]; simp [Isa.special, shiftByV]⟩
    · exact ⟨6, rfl, fun h m => by rw [step_R h]; simp [Isa.special, shiftByV]⟩
    · exact ⟨4, rfl, fun h m => by rw [step_R h]; simp [Isa.special, shiftByV]⟩
  obtain ⟨f, hf, hs⟩ := this
  refine TGood.mono (tgood_line fun k k' cm h => good_shv hn hf ha hb hc h) ?_
  rintro ws st' - - ⟨hw, -⟩ be m
  rw [exec_writes hw fun w hw m => hs hw m]

theorem tgood_or {a b x : Nat} (ha : a < 32) (hb : b < 32) (hx : x < 32) :
    TGood P d k₀ (rrr "or" a b x) st fun ws _ => (∀ be m, exec be ws m = some (m.set a (m.get b ||| m.get x))) := by
  refine TGood.mono (tgood_line fun k k' cm h => good_rrr (f := 37) (by decide) rfl ha hb hx h) ?_
  rintro ws st' - - ⟨hw, -⟩ be m
  exact exec_writes (F := fun m => m.set a (m.get b ||| m.get x)) hw (fun w hw m => by rw [step_R hw]; simp [Isa.special]) m

theorem tgood_subu {a b x : Nat} (ha : a < 32) (hb : b < 32) (hx : x < 32) :
    TGood P d k₀ (rrr "subu" a b x) st fun ws _ => (∀ be m, exec be ws m = some (m.set a (m.get b - m.get x))) := by
  refine TGood.mono (tgood_line fun k k' cm h => good_rrr (f := 35) (by decide) rfl ha hb hx h) ?_
  rintro ws st' - - ⟨hw, -⟩ be m
  exact exec_writes (F := fun m => m.set a (m.get b - m.get x)) hw (fun w hw m => by rw [step_R hw]; simp [Isa.special]) m

theorem tgood_move {a b : Nat} (ha : a < 32) (hb : b < 32) :
    TGood P d k₀ (rr "move" a b) st fun ws _ => (∀ be m, exec be ws m = some (m.set a (m.get b))) := by
  refine TGood.mono (tgood_line fun k k' cm h => good_move (by decide) rfl ha hb h) ?_
  rintro ws st' - - ⟨hw, -⟩ be m
  exact exec_writes (F := fun m => m.set a (m.get b)) hw (fun w hw m => by rw [step_R hw]; simp [Isa.special, get_zero]) m

theorem tgood_negu {a b : Nat} (ha : a < 32) (hb : b < 32) :
    TGood P d k₀ (rr "negu" a b) st fun ws _ => (∀ be m, exec be ws m = some (m.set a (0#32 - m.get b))) := by
  refine TGood.mono (tgood_line fun k k' cm h => good_negu (by decide) rfl ha hb h) ?_
  rintro ws st' - - ⟨hw, -⟩ be m
  exact exec_writes (F := fun m => m.set a (0#32 - m.get b)) hw (fun w hw m => by rw [step_R hw]; simp [Isa.special, get_zero]) m

/-- Words that leave the value `f` in register `rd`, and otherwise change at most register 1. -/
def Gives (rd : Nat) (f : Machine → BitVec 32) (ws : List (BitVec 32)) : Prop :=
  ∀ be m, ∃ t, exec be ws m = some ((m.set 1 t).set rd (f m))

theorem set_self (m : Machine) (r : Nat) : m.set r (m.get r) = m := by
  unfold Machine.set Machine.get
  split
  · rfl
  · cases m
    simp only [Machine.mk.injEq, and_true]
    funext x
    split <;> simp_all

theorem gives_set {rd : Nat} {f : Machine → BitVec 32} {ws : List (BitVec 32)}
    (h : ∀ be m, exec be ws m = some (m.set rd (f m))) : Gives rd f ws :=
  fun be m => ⟨m.get 1, by rw [h, set_self]⟩

theorem tgood_abs {rd rs : Nat} (ha : rd < 32) (hb : rs < 32) (hd1 : rd ≠ 1) (hs1 : rs ≠ 1) :
    TGood P d k₀ (absText false rd rs) st fun ws _ =>
      Gives rd (fun m => if (m.get rs).toInt < 0 then -m.get rs else m.get rs) ws := by
  refine tgood_seq (tgood_shift (name := "sra") (by decide) (by decide) hb (ev_int 31)) ?_
  rintro ws st1 _ _ h1
  refine tgood_seq (tgood_xor ha hb (by decide)) ?_
  rintro ws' st2 _ _ ⟨h2, -⟩
  refine tgood_seq (tgood_subu ha ha (by decide)) ?_
  rintro ws'' st3 _ _ h3
  refine tgood_nil fun be m => ⟨(m.get rs).sshiftRight 31, ?_⟩
  have e : shiftBy "sra" (m.get rs) ((31 : Int) % 32).toNat = (m.get rs).sshiftRight 31 := rfl
  rw [List.append_nil, exec_append, h1, Option.bind_some, exec_append, h2, Option.bind_some, h3, e]
  have g1 : ((m.set 1 ((m.get rs).sshiftRight 31)).get 1) = (m.get rs).sshiftRight 31 := by
    rw [get_set, if_pos ⟨rfl, by decide⟩]
  have g2 : ((m.set 1 ((m.get rs).sshiftRight 31)).get rs) = m.get rs := get_set_other (fun h => absurd h hs1)
  show _ = some ((m.set 1 ((m.get rs).sshiftRight 31)).set rd (if (m.get rs).toInt < 0 then -m.get rs else m.get rs))
  rw [g1, g2, set_set, ← abs_value]
  have g3 : ∀ y, (((m.set 1 ((m.get rs).sshiftRight 31)).set rd y).get 1) = (m.get rs).sshiftRight 31 := fun y => by
    rw [get_set_other (fun h => absurd h.symm hd1), g1]
  rw [g3, set_get_set (g := fun x => x - (m.get rs).sshiftRight 31)]

theorem tgood_or_one {rd : Nat} {f g : Machine → BitVec 32} {t : Text} (ha : rd < 32) (hd1 : rd ≠ 1)
    (ht : TGood P d k₀ t st fun ws _ => ∀ be m, exec be ws m = some ((m.set 1 (f m)).set rd (g m))) :
    TGood P d k₀ (.ofList [t, rrr "or" rd rd 1]) st fun ws _ => Gives rd (fun m => g m ||| f m) ws := by
  refine tgood_seq ht ?_
  rintro ws st1 _ _ h1
  refine tgood_seq (tgood_or ha ha (by decide)) ?_
  rintro ws' st2 _ _ h2
  refine tgood_nil fun be m => ⟨f m, ?_⟩
  rw [List.append_nil, exec_append, h1, Option.bind_some, h2, set_set,
    get_set_other (r := 1) (fun h => absurd h.symm hd1), get_set (x := 1), if_pos ⟨rfl, by decide⟩,
    set_get_set (g := fun x => x ||| f m)]

/-- Two shifts, the first one to register 1. -/
theorem tgood_two {rd rs : Nat} (hs1 : rs ≠ 1) {t1 t2 : Text} {f g : BitVec 32 → BitVec 32}
    (h1 : TGood P d k₀ t1 st fun ws _ => ∀ be m, exec be ws m = some (m.set 1 (f (m.get rs))))
    (h2 : ∀ st1, Frame P k₀ st st1 → TGood P d k₀ t2 st1 fun ws _ => ∀ be m, exec be ws m = some (m.set rd (g (m.get rs)))) :
    TGood P d k₀ (.ofList [t1, t2]) st fun ws _ =>
      ∀ be m, exec be ws m = some ((m.set 1 (f (m.get rs))).set rd (g (m.get rs))) := by
  refine tgood_seq h1 ?_
  rintro ws st1 f1 _ h1
  refine tgood_seq (h2 st1 f1) ?_
  rintro ws' st2 _ _ h2
  refine tgood_nil fun be m => ?_
  rw [List.append_nil, exec_append, h1, Option.bind_some, h2, get_set_other (fun h => absurd h hs1)]

/-- The rotation by a constant. -/
theorem tgood_rotate_imm {psp left : Bool} {rd rs : Nat} {e neg : Expr} {v : Int} (ha : rd < 32) (hb : rs < 32) (hd1 : rd ≠ 1) (hs1 : rs ≠ 1)
    (hm : st.arch = .mips) (hv : Reads P k₀ st e v) (hneg : negated e = some neg)
    {t : Text} (ht : rotateText psp left true { grd := some rd, grs := some rs, prim := some e } = some t) :
    TGood P d k₀ t st fun ws _ => Gives rd (fun m => if left then (m.get rs).rotateLeft (v % 32).toNat
      else (m.get rs).rotateRight (v % 32).toNat) ws := by
  have hn : ∀ st1, Frame P k₀ st st1 → Evaluates P.env .mips (st1.ctx P.env) neg (.int ((-v) % 32)) := by
    intro st1 f1
    have hv1 := (hv.frame f1).value
    have : neg = .bin .bitAnd (.un .neg e) (.int 31) := by
      unfold negated at hneg
      split at hneg
      · split at hneg
        · cases hneg
        · exact (Option.some.inj hneg).symm
      · exact (Option.some.inj hneg).symm
    rw [this, ← and_31]
    refine ev_and (ev_neg hv1.1 ?_) (ev_int 31)
    have := hv1.2
    unfold InI64; omega
  have hmm : (-v) % 32 % 32 = -v % 32 := by omega
  have hzero : v = 0 → ∀ m : Machine, (if left then (m.get rs).rotateLeft (v % 32).toNat else (m.get rs).rotateRight (v % 32).toNat) = m.get rs := by
    rintro rfl m
    rw [← rotl, ← rotr]
    simp
  unfold rotateText at ht
  simp only [Option.bind_eq_bind, Option.bind_some, if_true, hneg] at ht
  cases psp with
  | true =>
    cases Option.some.inj ht
    refine tgood_if (v ≠ 0) (by split <;> simp_all) hm (ev_notEqual hv.value.1 (ev_int 0)) ?_ ?_
    · intro h0 st1 f1 _ _
      refine tgood_flag (f1.arch.trans hm) ?_ ?_
      · intro hl st2 f2 _ _
        refine TGood.mono (tgood_shift (name := "rotr") (by decide) ha hb (hn st2 (f1.trans f2))) ?_
        rintro ws st' - - hw
        refine gives_set fun be m => ?_
        rw [hw, hmm, hl, if_pos rfl, ← rotl_right]
        rfl
      · intro hl st2 f2 _ _
        refine TGood.mono (tgood_shift (name := "rotr") (by decide) ha hb (hv.frame (f1.trans f2)).value.1) ?_
        rintro ws st' - - hw
        refine gives_set fun be m => ?_
        rw [hw, hl, if_neg (by simp)]
        rfl
    · intro h0 st1 f1 _ _
      refine TGood.mono (tgood_move ha hb) ?_
      rintro ws st' - - hw
      refine gives_set fun be m => ?_
      rw [hw, hzero (by simpa using h0)]
  | false =>
    cases Option.some.inj ht
    refine tgood_if (v ≠ 0) (by split <;> simp_all) hm (ev_notEqual hv.value.1 (ev_int 0)) ?_ ?_
    · intro h0 st1 f1 _ _
      refine TGood.mono (tgood_or_one (f := fun m => if left then m.get rs >>> ((-v) % 32).toNat else m.get rs <<< ((-v) % 32).toNat)
        (g := fun m => if left then m.get rs <<< (v % 32).toNat else m.get rs >>> (v % 32).toNat) ha hd1 ?_) ?_
      · refine tgood_flag (f1.arch.trans hm) ?_ ?_
        · intro hl st2 f2 _ _
          have hE := hn st2 (f1.trans f2)
          subst hl
          refine tgood_two hs1 (f := fun x => x >>> ((-v) % 32).toNat) (g := fun x => x <<< (v % 32).toNat) ?_ fun st3 f3 => ?_
          · refine TGood.mono (tgood_shift (name := "srl") (by decide) (by decide) hb hE) ?_
            rintro ws st' - - hw be m
            rw [hw, hmm]; rfl
          · exact tgood_shift (name := "sll") (by decide) ha hb (hv.frame (f1.trans (f2.trans f3))).value.1
        · intro hl st2 f2 _ _
          have hE := hn st2 (f1.trans f2)
          subst hl
          refine tgood_two hs1 (f := fun x => x <<< ((-v) % 32).toNat) (g := fun x => x >>> (v % 32).toNat) ?_ fun st3 f3 => ?_
          · refine TGood.mono (tgood_shift (name := "sll") (by decide) (by decide) hb hE) ?_
            rintro ws st' - - hw be m
            rw [hw, hmm]; rfl
          · exact tgood_shift (name := "srl") (by decide) ha hb (hv.frame (f1.trans (f2.trans f3))).value.1
      · rintro ws st' - - hw be m
        obtain ⟨t, hw⟩ := hw be m
        refine ⟨t, hw.trans ?_⟩
        cases left
        · simp only [Bool.false_eq_true, if_false, rotr]
        · simp only [if_true, rotl]
    · intro h0 st1 f1 _ _
      refine TGood.mono (tgood_move ha hb) ?_
      rintro ws st' - - hw
      refine gives_set fun be m => ?_
      rw [hw, hzero (by simpa using h0)]

/-- The rotation by a register. -/
theorem tgood_rotate_reg {psp left : Bool} {rd rs rt : Nat} (ha : rd < 32) (hb : rs < 32) (hc : rt < 32) (hd1 : rd ≠ 1) (hs1 : rs ≠ 1)
    (ht1 : rt ≠ 1) (hm : st.arch = .mips)
    {t : Text} (ht : rotateText psp left false { grd := some rd, grs := some rs, grt := some rt } = some t) :
    TGood P d k₀ t st fun ws _ => Gives rd (fun m => if left then (m.get rs).rotateLeft (m.get rt).toNat
      else (m.get rs).rotateRight (m.get rt).toNat) ws := by
  have hl : ∀ x t : BitVec 32, x.rotateLeft t.toNat = x.rotateLeft ((t.toNat : Int) % 32).toNat := fun x t => by
    rw [pos_mod, BitVec.rotateLeft_mod_eq_rotateLeft]
  have hr : ∀ x t : BitVec 32, x.rotateRight t.toNat = x.rotateRight ((t.toNat : Int) % 32).toNat := fun x t => by
    rw [pos_mod, BitVec.rotateRight_mod_eq_rotateRight]
  unfold rotateText at ht
  simp only [Option.bind_eq_bind, Option.bind_some, Bool.false_eq_true, if_false] at ht
  cases psp with
  | true =>
    cases Option.some.inj ht
    refine tgood_flag hm ?_ ?_
    · intro hl' st2 f2 _ _
      refine tgood_seq (tgood_negu (by decide) hc) ?_
      rintro ws st3 _ _ h1
      refine tgood_seq (tgood_shiftv (name := "rotrv") (by decide) ha hb (by decide)) ?_
      rintro ws' st4 _ _ h2
      refine tgood_nil fun be m => ⟨0#32 - m.get rt, ?_⟩
      show _ = some ((m.set 1 (0#32 - m.get rt)).set rd (if left = true then _ else _))
      rw [List.append_nil, exec_append, h1, Option.bind_some, h2, if_pos hl', get_set_other (fun h => absurd h hs1),
        get_set, if_pos ⟨rfl, by decide⟩, hl, ← rotl_right, neg_mod]
      rfl
    · intro hl' st2 f2 _ _
      refine TGood.mono (tgood_shiftv (name := "rotrv") (by decide) ha hb hc) ?_
      rintro ws st' - - hw
      refine gives_set fun be m => ?_
      rw [hw, hl', if_neg (by simp), hr, pos_mod]
      rfl
  | false =>
    cases Option.some.inj ht
    refine tgood_seq (tgood_negu (by decide) hc) ?_
    rintro ws st1 f1 _ h1
    have hm1 := f1.arch.trans hm
    refine TGood.mono (tgood_or_one
      (f := fun m => if left then m.get rs >>> ((m.get 1).toNat % 32) else m.get rs <<< ((m.get 1).toNat % 32))
      (g := fun m => if left then m.get rs <<< ((m.get rt).toNat % 32) else m.get rs >>> ((m.get rt).toNat % 32)) ha hd1 ?_) ?_
    · refine tgood_flag hm1 ?_ ?_
      · intro hl' st2 f2 _ _
        subst hl'
        refine tgood_seq (tgood_shiftv (name := "srlv") (by decide) (by decide) hb (by decide)) ?_
        rintro ws' st3 _ _ h2
        refine tgood_seq (tgood_shiftv (name := "sllv") (by decide) ha hb hc) ?_
        rintro ws'' st4 _ _ h3
        refine tgood_nil fun be m => ?_
        rw [List.append_nil, exec_append, h2, Option.bind_some, h3, get_set_other (fun h => absurd h hs1), get_set_other (fun h => absurd h ht1)]
        rfl
      · intro hl' st2 f2 _ _
        subst hl'
        refine tgood_seq (tgood_shiftv (name := "sllv") (by decide) (by decide) hb (by decide)) ?_
        rintro ws' st3 _ _ h2
        refine tgood_seq (tgood_shiftv (name := "srlv") (by decide) ha hb hc) ?_
        rintro ws'' st4 _ _ h3
        refine tgood_nil fun be m => ?_
        rw [List.append_nil, exec_append, h2, Option.bind_some, h3, get_set_other (fun h => absurd h hs1), get_set_other (fun h => absurd h ht1)]
        rfl
    · rintro ws' st' - - hw be m
      obtain ⟨t, hw⟩ := hw be (m.set 1 (0#32 - m.get rt))
      refine ⟨t, ?_⟩
      rw [exec_append, h1, Option.bind_some, hw, set_set]
      have g1 : (m.set 1 (0#32 - m.get rt)).get 1 = 0#32 - m.get rt := by rw [get_set, if_pos ⟨rfl, by decide⟩]
      simp only [g1, get_set_other (m := m) (d := 1) (r := rs) (fun h => absurd h hs1), get_set_other (m := m) (d := 1) (r := rt) (fun h => absurd h ht1), neg_mod]
      cases left
      · simp only [Bool.false_eq_true, if_false]
        rw [hr, ← rotr, pos_mod]
      · simp only [if_true]
        rw [hl, ← rotl, pos_mod]

end

theorem rotate_imm_kind {P : ParseEnv} {l : MacroLabel} {left : Bool} {rd rs : Nat} {e : Expr} {t : Text}
    (h : Kind.text P l (.rotate left true) { grd := some rd, grs := some rs, prim := some e } = some t) :
    plain e = true ∧ ∃ neg, negated (dotted l e) = some neg ∧
      rotateText (decide (P.cfg.version = .psp)) left true { grd := some rd, grs := some rs, prim := some (dotted l e) } = some t := by
  by_cases he : plain e = true
  · refine ⟨he, ?_⟩
    simp only [Kind.text, printed, he, if_true, Option.bind_eq_bind, Option.bind_some] at h
    refine match hn : negated (dotted l e) with
      | some neg => ⟨neg, rfl, h⟩
      | none => absurd h ?_
    simp [rotateText, hn]
  · simp [Kind.text, printed, he] at h

end Armips.MacroProof
