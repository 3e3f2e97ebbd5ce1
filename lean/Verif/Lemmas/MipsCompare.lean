import Verif.Lemmas.MipsEntry
/-! The texts of the comparing macros. -/
namespace Armips.MacroProof
open Spec Spec.Instr Spec.Macro Spec.Isa
open Armips.Mips hiding validate encode names

/-- The comparison that `slt` or `sltu` does. -/
def lessThan (c : Condition) (x y : BitVec 32) : Bool := if c = .ltu ∨ c = .geu then x.ult y else x.slt y

/-- The relation that a condition is about. -/
def relOf (c : Condition) (rev : Bool) (x y : BitVec 32) : Bool :=
  match c with
  | .eq => decide (x = y)
  | .ne => !decide (x = y)
  | .lt | .ltu => if rev then lessThan c y x else lessThan c x y
  | .ge | .geu => !if rev then lessThan c y x else lessThan c x y

theorem slt_number (c : Condition) :
    sltName c ∈ rrrNames ∧ Spec.Mips.number Spec.Mips.alu3 (sltName c) = some (if c = .ltu ∨ c = .geu then 43 else 42) := by
  cases c <;> decide

theorem slti_number (c : Condition) :
    sltiName c ∈ rriNames ∧ Spec.Mips.number Spec.Mips.aluI (sltiName c) = some (if c = .ltu ∨ c = .geu then 11 else 10) := by
  cases c <;> decide

theorem step_slt {be : Bool} {c : Condition} {rs rt rd : Nat} {w : BitVec 32}
    (h : IsR rs rt rd 0 (if c = .ltu ∨ c = .geu then 43 else 42) w) (m : Machine) :
    step be w m = some (m.set rd (bool (lessThan c (m.get rs) (m.get rt)))) := by
  rw [step_R h]
  unfold lessThan
  split <;> simp [Isa.special]

theorem step_slti {be : Bool} {c : Condition} {rs rt imm : Nat} {w : BitVec 32}
    (h : IsI (if c = .ltu ∨ c = .geu then 11 else 10) rs rt imm w) (m : Machine) :
    step be w m = some (m.set rt (bool (lessThan c (m.get rs) (BitVec.ofInt 32 (signed 16 imm))))) := by
  obtain ⟨h1, h2, h3, h4⟩ := h
  unfold lessThan
  split <;> rename_i hc <;> simp [step, h1, h2, h3, h4, hc]

theorem signed_small {v : Int} (h1 : -0x8000 ≤ v) (h2 : v < 0x8000) : signed 16 (v % 2 ^ 16).toNat = v := by
  unfold signed; split <;> omega

/-- Reading another register than the one that was written, or register 0. -/
theorem get_set_other {m : Machine} {d r : Nat} {v : BitVec 32} (h : r = d → d = 0) : (m.set d v).get r = m.get r := by
  rw [get_set]
  split
  · rename_i hx; exact absurd (h hx.1) hx.2
  · rfl

theorem set_get_set {m : Machine} {d : Nat} {v : BitVec 32} {g : BitVec 32 → BitVec 32} :
    m.set d (g ((m.set d v).get d)) = m.set d (g v) := by
  by_cases h : d = 0
  · subst h; rfl
  · rw [get_set, if_pos ⟨rfl, h⟩]

/-- The value of a source register, when the immediate has been loaded, unless it is `small`, to register `a` before. -/
def source (rs a : Nat) (small : Bool) (v : Int) (m : Machine) : BitVec 32 :=
  if rs = a ∧ a ≠ 0 ∧ small = false then BitVec.ofInt 32 v else m.get rs

theorem source_small {rs a : Nat} {v : Int} {m : Machine} : source rs a true v m = m.get rs := by simp [source]

theorem source_big {rs a : Nat} {v : Int} {m : Machine} : source rs a false v m = (m.set a (BitVec.ofInt 32 v)).get rs := by
  rw [get_set]; simp [source]

theorem source_safe {rs a : Nat} {small : Bool} {v : Int} {m : Machine} (h : rs = a → a = 0 ∨ small = true) :
    source rs a small v m = m.get rs := by
  unfold source
  split
  · rename_i hx
    rcases h hx.1 with h | h
    · exact absurd h hx.2.1
    · rw [hx.2.2] at h; cases h
  · rfl

section
variable {P : ParseEnv} {d k₀ : Nat} {st : St}

theorem tgood_slt {c : Condition} {a b x : Nat} (ha : a < 32) (hb : b < 32) (hx : x < 32) :
    TGood P d k₀ (rrr (sltName c) a b x) st fun ws st' =>
      (∀ be m, exec be ws m = some (m.set a (bool (lessThan c (m.get b) (m.get x))))) ∧ Settled P st' := by
  refine TGood.mono (tgood_line fun k k' cm h => good_rrr (slt_number c).1 (slt_number c).2 ha hb hx h) ?_
  rintro ws st' - - ⟨hw, hs⟩
  exact ⟨fun be m => by rw [exec_writes hw fun w hw m => step_slt hw m], hs⟩

theorem tgood_compare (hE : Functions P.env) {c : Condition} {rev : Bool} {a rs : Nat} {e : Expr} {v : Int}
    (ha : a < 32) (hr : rs < 32) (hm : st.arch = .mips) (hv : Reads P k₀ st e v) :
    TGood P d k₀ (compareText c rev a rs e) st fun ws st' =>
      (∀ be m, exec be ws m = some (m.set a (bool (
        if rev then lessThan c (BitVec.ofInt 32 v) (source rs a (decide (v = 0)) v m)
        else lessThan c (source rs a (decide (-0x8000 ≤ v ∧ v < 0x8000)) v m) (BitVec.ofInt 32 v))))) ∧ Settled P st' := by
  refine tgood_if (rev = true ∧ v = 0) ?_ hm (ev_land (ev_flag rev) (ev_equal hv.value.1 (ev_int 0))) ?_ ?_
  · cases rev <;> by_cases h : v = 0 <;> simp [h]
  · rintro ⟨h1, h2⟩ st1 f1 _ _
    refine TGood.mono (tgood_slt ha (by decide) hr) ?_
    rintro ws st' - - ⟨hw, hs⟩
    refine ⟨fun be m => ?_, hs⟩
    rw [hw, h1, h2, if_pos rfl, decide_eq_true rfl, source_small]
    rfl
  · intro h0 st1 f1 _ _
    have hv1 := hv.frame f1
    have hm1 : st1.arch = .mips := f1.arch.trans hm
    refine tgood_flag hm1 ?_ ?_
    · intro hrev st2 f2 _ _
      have hv2 := hv1.frame f2
      have hm2 : st2.arch = .mips := f2.arch.trans hm1
      refine tgood_seq (tgood_li_line hE ha hm2 hv2) ?_
      rintro ws st3 f3 _ ⟨h3, -⟩
      refine tgood_seq (tgood_slt (c := c) ha ha hr) ?_
      rintro ws' st4 f4 _ ⟨h4, h5⟩
      refine tgood_nil ⟨fun be m => ?_, h5⟩
      have hz : v ≠ 0 := fun h => h0 ⟨hrev, h⟩
      rw [List.append_nil, exec_append, h3, Option.bind_some, h4, set_set, hrev, if_pos rfl, decide_eq_false hz, source_big,
        set_get_set (g := fun x => bool (lessThan c x ((m.set a (BitVec.ofInt 32 v)).get rs)))]
    · intro hrev st2 f2 _ _
      have hv2 := hv1.frame f2
      have hm2 : st2.arch = .mips := f2.arch.trans hm1
      refine tgood_if (¬ (-0x8000 ≤ v ∧ v < 0x8000)) ?_ hm2 (ev_lor (ev_less hv2.value.1 (ev_int _)) (ev_ge hv2.value.1 (ev_int _))) ?_ ?_
      · by_cases h1 : v < -0x8000 <;> by_cases h2 : v ≥ 0x8000 <;> simp [h1, h2] <;> omega
      · intro hbig st3 f3 _ _
        have hv3 := hv2.frame f3
        have hm3 : st3.arch = .mips := f3.arch.trans hm2
        refine tgood_seq (tgood_li_line hE ha hm3 hv3) ?_
        rintro ws st4 f4 _ ⟨h4, -⟩
        refine tgood_seq (tgood_slt (c := c) ha hr ha) ?_
        rintro ws' st5 f5 _ ⟨h5, h6⟩
        refine tgood_nil ⟨fun be m => ?_, h6⟩
        rw [List.append_nil, exec_append, h4, Option.bind_some, h5, set_set, hrev, if_neg (by simp), decide_eq_false hbig, source_big,
          set_get_set (g := fun x => bool (lessThan c ((m.set a (BitVec.ofInt 32 v)).get rs) x))]
      · intro hsm st3 f3 _ _
        have hv3 := hv2.frame f3
        have hsm : -0x8000 ≤ v ∧ v < 0x8000 := by omega
        refine TGood.mono (tgood_line fun k k' cm h =>
          good_rri (slti_number c).1 (slti_number c).2 ha hr hv3.value.1 h) ?_
        rintro ws st' - - ⟨hw, hs⟩
        refine ⟨fun be m => ?_, hs⟩
        rw [exec_writes hw fun w hw m => step_slti hw m, signed_small hsm.1 hsm.2, hrev, if_neg (by simp), decide_eq_true hsm, source_small]

theorem tgood_compareReg {c : Condition} {rev : Bool} {a rs rt : Nat}
    (ha : a < 32) (hr : rs < 32) (ht : rt < 32) (hm : st.arch = .mips) :
    TGood P d k₀ (compareRegText c rev a rs rt) st fun ws st' =>
      (∀ be m, exec be ws m = some (m.set a (bool (if rev then lessThan c (m.get rt) (m.get rs)
        else lessThan c (m.get rs) (m.get rt))))) ∧ Settled P st' := by
  refine tgood_flag hm ?_ ?_
  · intro hrev st1 f1 _ _
    subst hrev
    exact tgood_slt ha ht hr
  · intro hrev st1 f1 _ _
    subst hrev
    exact tgood_slt ha hr ht

/-- The last word of a branching macro: number, registers, and where it goes. -/
def BranchWord (f a b : Nat) (va x : Int) (w : BitVec 32) : Prop :=
  field w 26 6 = f ∧ field w 21 5 = a ∧ field w 16 5 = b ∧ Reaches va x w

theorem branch1_number {c : Condition} (h : c = .lt ∨ c = .ltu ∨ c = .ge ∨ c = .geu) (l : Bool) : branchName c l ∈ b1Names ∧
    Spec.Mips.number Spec.Mips.branch1 (branchName c l) =
      some ((if c = .lt ∨ c = .ltu then 5 else 4) + if l then 16 else 0) := by
  rcases h with rfl | rfl | rfl | rfl <;> cases l <;> decide

theorem branch2_number {c : Condition} (h : c = .eq ∨ c = .ne) (l : Bool) : branchName c l ∈ b2Names ∧
    Spec.Mips.number Spec.Mips.branch2 (branchName c l) = some ((if c = .ne then 5 else 4) + if l then 16 else 0) := by
  rcases h with rfl | rfl <;> cases l <;> decide

/-- The words of a branching macro: the relation `rel` of the registers before it decides. -/
def BranchWords (rel : Machine → Bool) (l : Bool) (start x : Int) (direct : Prop) (ws : List (BitVec 32)) : Prop :=
  ∃ pre w, ws = pre ++ [w] ∧ (direct → Reaches (start + 4 * pre.length) x w) ∧ likely w = l ∧
    ∀ be m, ∃ m1, exec be pre m = some m1 ∧ SameBut [1] m m1 ∧ taken w m1 = some (rel m)

theorem BranchWords.branches {rel : Machine → Bool} {l : Bool} {start x : Int} {direct : Prop} {ws : List (BitVec 32)}
    (h : BranchWords rel l start x direct ws) (hd : direct) (be : Bool) (m : Machine) : Branches be ws start x (rel m) l m := by
  obtain ⟨pre, w, h1, h2, h3, h4⟩ := h
  obtain ⟨m1, h5, h6, h7⟩ := h4 be m
  exact ⟨pre, w, m1, h1, h5, h6, h7, h3, h2 hd⟩

theorem same_set (m : Machine) (v : BitVec 32) : SameBut [1] m (m.set 1 v) := by
  refine ⟨mem_set _ _ _, fun x hx => ?_⟩
  simp only [List.mem_singleton] at hx
  rw [get_set, if_neg (fun h => hx h.1)]

/-- A comparison in register 1, then the branch. -/
theorem tgood_branch1 {c : Condition} {l : Bool} {cmp : Text} {e : Expr} {x : Int} {f : Machine → Bool}
    (hc : c = .lt ∨ c = .ltu ∨ c = .ge ∨ c = .geu)
    (hcmp : TGood P d k₀ cmp st fun ws st' => (∀ be m, exec be ws m = some (m.set 1 (bool (f m)))) ∧ Settled P st')
    (hx : Reads P k₀ st e x) :
    TGood P d k₀ (.ofList [cmp, ri (branchName c l) 1 e]) st fun ws _ =>
      BranchWords (fun m => if c = .lt ∨ c = .ltu then f m else !f m) l st.virt x True ws := by
  refine tgood_seq hcmp ?_
  rintro ws st1 f1 hp1 ⟨h1, hs1⟩
  have hx1 := hx.frame f1
  refine tgood_seq (tgood_line fun k k' cm h =>
    good_b1 (branch1_number hc l).1 (branch1_number hc l).2 (by decide) hx1.value.1 h) ?_
  rintro ws' st2 f2 hp2 ⟨⟨nop, w, rfl, ⟨hw, hgo⟩, hnop⟩, -⟩
  refine tgood_nil ?_
  have := hnop hs1
  subst this
  obtain ⟨a1, a2, a3, a4⟩ := hw
  refine ⟨ws, w, by simp, fun _ => ?_, ?_, fun be m => ⟨_, h1 be m, same_set _ _, ?_⟩⟩
  · rw [← hp1, ← virt_ctx P.env]; exact hgo
  · rw [likely, a1]
    rcases hc with rfl | rfl | rfl | rfl <;> cases l <;> simp
  · simp only [taken, a1, a2, a3, get_zero]
    have hg : (m.set 1 (bool (f m))).get 1 = bool (f m) := by rw [get_set, if_pos ⟨rfl, by decide⟩]
    rw [hg]
    rcases hc with rfl | rfl | rfl | rfl <;> cases l <;> cases f m <;> simp [Isa.bool]

/-- Equality with an immediate. -/
theorem tgood_branch2 (hE : Functions P.env) {c : Condition} {l : Bool} {rs : Nat} {i e : Expr} {v x : Int}
    (hc : c = .eq ∨ c = .ne) (hr : rs < 32) (hm : st.arch = .mips)
    (hv : Reads P k₀ st i v) (hx : Reads P k₀ st e x) :
    TGood P d k₀ (.cond (.bin .equal i (.int 0)) (rri (branchName c l) rs 0 e)
      (.ofList [ri "li" 1 i, rri (branchName c l) rs 1 e])) st fun ws _ =>
      BranchWords (fun m => relOf c false (source rs 1 (decide (v = 0)) v m) (BitVec.ofInt 32 v)) l st.virt x (v = 0 → Settled P st) ws := by
  refine tgood_if (v = 0) (by split <;> simp_all) hm (ev_equal hv.value.1 (ev_int 0)) ?_ ?_
  · intro h0 st1 f1 hp1 ha1
    have hx1 := hx.frame f1
    refine TGood.mono (tgood_line fun k k' cm h =>
      good_b2 (branch2_number hc l).1 (branch2_number hc l).2 hr (by decide) hx1.value.1 h) ?_
    rintro ws st2 f2 hp2 ⟨⟨nop, w, rfl, ⟨hw, hgo⟩, hnop⟩, -⟩
    obtain ⟨a1, a2, a3, a4⟩ := hw
    refine ⟨_, w, rfl, fun hs => ?_, ?_, fun be m => ⟨m, ?_, ⟨rfl, fun _ _ => rfl⟩, ?_⟩⟩
    · have hs1 : Settled P st1 := by unfold Settled; rw [ha1]; exact hs h0
      have := hnop hs1
      subst this
      rw [virt_ctx, hp1] at hgo
      simpa using hgo
    · rw [likely, a1]
      rcases hc with rfl | rfl <;> cases l <;> simp
    · cases nop <;> simp [exec, step_nop]
    · simp only [taken, a1, a2, a3, get_zero, h0, decide_true, source_small]
      rcases hc with rfl | rfl <;> cases l <;> simp [relOf]
  · intro h0 st1 f1 hp1 ha1
    have hx1 := hx.frame f1
    have hv1 := hv.frame f1
    have hm1 : st1.arch = .mips := f1.arch.trans hm
    refine tgood_seq (tgood_li_line hE (by decide) hm1 hv1) ?_
    rintro ws st2 f2 hp2 ⟨h2, hs2⟩
    have hx2 := hx1.frame f2
    refine tgood_seq (tgood_line fun k k' cm h =>
      good_b2 (branch2_number hc l).1 (branch2_number hc l).2 hr (by decide) hx2.value.1 h) ?_
    rintro ws' st3 f3 hp3 ⟨⟨nop, w, rfl, ⟨hw, hgo⟩, hnop⟩, -⟩
    have := hnop hs2
    subst this
    obtain ⟨a1, a2, a3, a4⟩ := hw
    refine tgood_nil ⟨ws, w, by simp, fun _ => ?_, ?_, fun be m => ⟨_, h2 be m, same_set _ _, ?_⟩⟩
    · rw [← hp1, ← hp2, ← virt_ctx P.env]; exact hgo
    · rw [likely, a1]
      rcases hc with rfl | rfl <;> cases l <;> simp
    · simp only [taken, a1, a2, a3]
      have hg : (m.set 1 (BitVec.ofInt 32 v)).get 1 = BitVec.ofInt 32 v := by rw [get_set, if_pos ⟨rfl, by decide⟩]
      rw [hg, decide_eq_false h0, source_big]
      rcases hc with rfl | rfl <;> cases l <;> simp [relOf]

/-! ## Setting a register -/

theorem step_xor {be : Bool} {rs rt rd : Nat} {w : BitVec 32} (h : IsR rs rt rd 0 38 w) (m : Machine) :
    step be w m = some (m.set rd (m.get rs ^^^ m.get rt)) := by
  rw [step_R h]; simp [Isa.special]

theorem step_xori {be : Bool} {r s imm : Nat} {w : BitVec 32} (h : IsI 14 s r imm w) (m : Machine) :
    step be w m = some (m.set r (m.get s ^^^ BitVec.ofNat 32 imm)) := by
  obtain ⟨h1, h2, h3, h4⟩ := h
  simp [step, h1, h2, h3, h4]

theorem xor_zero (x y : BitVec 32) : x ^^^ y = 0#32 ↔ x = y := by
  constructor
  · intro h
    have : x ^^^ y ^^^ y = y := by rw [h]; simp
    rwa [BitVec.xor_assoc, BitVec.xor_self, BitVec.xor_zero] at this
  · rintro rfl; simp

theorem ult_one (x : BitVec 32) : x.ult 1#32 = decide (x = 0#32) := by
  rw [BitVec.ult]
  by_cases h : x = 0#32
  · subst h; decide
  · have : x.toNat ≠ 0 := fun h' => h (BitVec.eq_of_toNat_eq h')
    simp [h]; omega

theorem zero_ult (x : BitVec 32) : (0#32).ult x = !decide (x = 0#32) := by
  rw [BitVec.ult]
  by_cases h : x = 0#32
  · subst h; decide
  · have : x.toNat ≠ 0 := fun h' => h (BitVec.eq_of_toNat_eq h')
    simp [h]; omega

theorem tgood_equal {c : Condition} (hc : c = .eq ∨ c = .ne) {rd : Nat} (hr : rd < 32) (hm : st.arch = .mips) :
    TGood P d k₀ (equalText c rd) st fun ws st' =>
      (∀ be m, exec be ws m = some (m.set rd (bool (if c = .eq then decide (m.get rd = 0#32) else !decide (m.get rd = 0#32))))) := by
  refine tgood_flag hm ?_ ?_
  · intro h st1 f1 _ _
    refine TGood.mono (tgood_line fun k k' cm h =>
      good_rri (f := 11) (x := 1) (by decide) rfl hr hr (ev_int _) h) ?_
    rintro ws st' - - ⟨hw, -⟩ be m
    have hc : c = .eq := by simpa using h
    have e : BitVec.ofInt 32 (signed 16 (1 % 2 ^ 16 : Int).toNat) = 1#32 := by decide
    rw [exec_writes hw fun w hw m => step_slti (c := .ltu) hw m, e]
    simp only [lessThan, hc, if_true, true_or, ult_one]
  · intro h st1 f1 _ _
    have hc : c ≠ .eq := by simpa using h
    refine TGood.mono (tgood_slt (c := .ltu) hr (by decide) hr) ?_
    rintro ws st' - - ⟨hw, -⟩ be m
    rw [hw]
    simp only [lessThan, if_true, true_or, get_zero, hc, if_false, zero_ult]

theorem bool_xor_one (b : Bool) : bool b ^^^ 1#32 = bool !b := by cases b <;> decide

theorem tgood_xori1 {rd : Nat} (hr : rd < 32) :
    TGood P d k₀ (rri "xori" rd rd (.int 1)) st fun ws _ => ∀ be m, exec be ws m = some (m.set rd (m.get rd ^^^ 1#32)) := by
  refine TGood.mono (tgood_line fun k k' cm h => good_rri (f := 14) (x := 1) (by decide) rfl hr hr (ev_int _) h) ?_
  rintro ws st' - - ⟨hw, -⟩ be m
  rw [exec_writes hw fun w hw m => step_xori hw m]
  rfl

/-- What a setting macro does. -/
def SetWords (rd : Nat) (rel : Machine → Bool) (ws : List (BitVec 32)) : Prop :=
  ∀ be m, exec be ws m = some (m.set rd (bool (rel m)))

/-- A comparison and possibly its negation. -/
theorem tgood_negated {cmp neg : Text} {n : Bool} {rd : Nat} {f : Machine → Bool}
    (hcmp : TGood P d k₀ cmp st fun ws st' => (∀ be m, exec be ws m = some (m.set rd (bool (f m)))) ∧ Settled P st')
    (hneg : ∀ st1, Frame P k₀ st st1 → TGood P d k₀ neg st1 fun ws _ =>
      ∀ be m, exec be ws m = some (if n then m.set rd (m.get rd ^^^ 1#32) else m)) :
    TGood P d k₀ (.ofList [cmp, neg]) st fun ws _ => SetWords rd (fun m => if n then !f m else f m) ws := by
  refine tgood_seq hcmp ?_
  rintro ws st1 f1 _ ⟨h1, -⟩
  refine tgood_seq (hneg st1 f1) ?_
  rintro ws' st2 _ _ h2
  refine tgood_nil fun be m => ?_
  rw [List.append_nil, exec_append, h1, Option.bind_some, h2]
  cases n
  · simp
  · simp only [if_true]
    rw [set_set, set_get_set (g := fun x => x ^^^ 1#32), bool_xor_one]

/-- Equality by a difference. -/
theorem tgood_set_equal {c : Condition} (hc : c = .eq ∨ c = .ne) {diff : Text} {rd : Nat} {x y : Machine → BitVec 32}
    (hr : rd < 32) (hm : st.arch = .mips)
    (hd : TGood P d k₀ diff st fun ws _ => ∀ be m, exec be ws m = some (m.set rd (x m ^^^ y m))) :
    TGood P d k₀ (.ofList [diff, equalText c rd]) st fun ws _ => SetWords rd (fun m => relOf c false (x m) (y m)) ws := by
  refine tgood_seq hd ?_
  rintro ws st1 f1 _ h1
  refine tgood_seq (tgood_equal hc hr (f1.arch.trans hm)) ?_
  rintro ws' st2 _ _ h2
  refine tgood_nil fun be m => ?_
  rw [List.append_nil, exec_append, h1, Option.bind_some, h2, set_set,
    set_get_set (g := fun z => bool (if c = .eq then decide (z = 0#32) else !decide (z = 0#32)))]
  rcases hc with rfl | rfl <;> simp [relOf, xor_zero]

theorem tgood_xor {a b x : Nat} (ha : a < 32) (hb : b < 32) (hx : x < 32) :
    TGood P d k₀ (rrr "xor" a b x) st fun ws st' =>
      (∀ be m, exec be ws m = some (m.set a (m.get b ^^^ m.get x))) ∧ Settled P st' := by
  refine TGood.mono (tgood_line fun k k' cm h => good_rrr (f := 38) (by decide) rfl ha hb hx h) ?_
  rintro ws st' - - ⟨hw, hs⟩
  exact ⟨fun be m => by rw [exec_writes hw fun w hw m => step_xor hw m], hs⟩

/-- The difference from an immediate. -/
theorem tgood_diff (hE : Functions P.env) {rd rs : Nat} {i : Expr} {v : Int} (ha : rd < 32) (hr : rs < 32) (hm : st.arch = .mips)
    (hv : Reads P k₀ st i v) :
    TGood P d k₀ (.cond (.bin .bitAnd i (.un .bitNot (.int 0xFFFF))) (.ofList [ri "li" rd i, rrr "xor" rd rs rd])
      (rri "xori" rd rs i)) st fun ws _ => ∀ be m, exec be ws m = some (m.set rd (source rs rd (decide (0 ≤ v ∧ v < 65536)) v m ^^^ BitVec.ofInt 32 v)) := by
  have hI := inI64_of hv.value.2
  refine tgood_if (¬ (0 ≤ v ∧ v < 65536)) (by rw [Ne, and_notFFFF hI]) hm (ev_and hv.value.1 (ev_not (ev_int _))) ?_ ?_
  · intro hbig st1 f1 _ _
    refine tgood_seq (tgood_li_line hE ha (f1.arch.trans hm) (hv.frame f1)) ?_
    rintro ws st2 f2 _ ⟨h2, -⟩
    refine tgood_seq (tgood_xor ha hr ha) ?_
    rintro ws' st3 _ _ ⟨h3, -⟩
    refine tgood_nil fun be m => ?_
    rw [List.append_nil, exec_append, h2, Option.bind_some, h3, set_set, decide_eq_false hbig, source_big,
      set_get_set (g := fun x => (m.set rd (BitVec.ofInt 32 v)).get rs ^^^ x)]
  · intro hsm st1 f1 _ _
    have hv1 := hv.frame f1
    refine TGood.mono (tgood_line fun k k' cm h => good_rri (f := 14) (by decide) rfl ha hr hv1.value.1 h) ?_
    rintro ws st' - - ⟨hw, -⟩ be m
    have e2 : BitVec.ofNat 32 (v % 2 ^ 16).toNat = BitVec.ofInt 32 v := by
      apply BitVec.eq_of_toNat_eq
      rw [BitVec.toNat_ofNat, BitVec.toNat_ofInt]; omega
    rw [exec_writes hw fun w hw m => step_xori hw m, e2, decide_eq_true (by omega), source_small]

end

/-! ## The texts of the macros -/

theorem branch_imm_kind {P : ParseEnv} {l : MacroLabel} {c : Condition} {lk rev : Bool} {rs : Nat} {i e : Expr} {t : Text}
    (h : Kind.text P l (.branch c true lk rev) { grs := some rs, prim := some i, sec := some e } = some t) :
    plain i = true ∧ plain e = true ∧
      t = if c = .ne ∨ c = .eq then .cond (.bin .equal (dotted l i) (.int 0)) (rri (branchName c lk) rs 0 (dotted l e))
          (.ofList [ri "li" 1 (dotted l i), rri (branchName c lk) rs 1 (dotted l e)])
        else .ofList [compareText c rev 1 rs (dotted l i), ri (branchName c lk) 1 (dotted l e)] := by
  by_cases hi : plain i = true
  · by_cases he : plain e = true
    · refine ⟨hi, he, ?_⟩
      simp only [Kind.text, printed, hi, he, if_true, Option.bind_eq_bind, Option.bind_some, branchText] at h
      split at h <;> rename_i hc <;> simp only [hc, if_true, if_false] <;> exact (Option.some.inj h).symm
    · simp [Kind.text, printed, hi, he] at h
  · simp [Kind.text, printed, hi] at h

theorem branch_reg_kind {P : ParseEnv} {l : MacroLabel} {c : Condition} {lk rev : Bool} {rs rt : Nat} {e : Expr} {t : Text}
    (hc : c = .lt ∨ c = .ltu ∨ c = .ge ∨ c = .geu)
    (h : Kind.text P l (.branch c false lk rev) { grs := some rs, grt := some rt, sec := some e } = some t) :
    plain e = true ∧ t = .ofList [compareRegText c rev 1 rs rt, ri (branchName c lk) 1 (dotted l e)] := by
  by_cases he : plain e = true
  · refine ⟨he, ?_⟩
    simp only [Kind.text, printed, he, if_true, Option.bind_eq_bind, Option.bind_some, branchText] at h
    rw [if_neg (by rcases hc with rfl | rfl | rfl | rfl <;> simp)] at h
    exact (Option.some.inj h).symm
  · simp [Kind.text, printed, he] at h

theorem set_imm_kind {P : ParseEnv} {l : MacroLabel} {c : Condition} {rev : Bool} {rd rs : Nat} {i : Expr} {t : Text}
    (h : Kind.text P l (.set c true rev) { grd := some rd, grs := some rs, sec := some i } = some t) :
    plain i = true ∧
      t = if c = .ne ∨ c = .eq then .ofList [.cond (.bin .bitAnd (dotted l i) (.un .bitNot (.int 0xFFFF)))
            (.ofList [ri "li" rd (dotted l i), rrr "xor" rd rs rd]) (rri "xori" rd rs (dotted l i)), equalText c rd]
        else .ofList [compareText c rev rd rs (dotted l i),
          .cond (flag (decide (c = .ge ∨ c = .geu))) (rri "xori" rd rd (.int 1)) .nil] := by
  by_cases hi : plain i = true
  · refine ⟨hi, ?_⟩
    simp only [Kind.text, printed, hi, if_true, Option.bind_eq_bind, Option.bind_some, setText, true_and] at h
    split at h <;> rename_i hc <;> simp only [hc, if_true, if_false] at h ⊢ <;> exact (Option.some.inj h).symm
  · simp [Kind.text, printed, hi] at h

theorem set_reg_kind {P : ParseEnv} {l : MacroLabel} {c : Condition} {rev : Bool} {rd rs rt : Nat} {t : Text}
    (hc : c = .eq ∨ c = .ne ∨ c = .ge ∨ c = .geu)
    (h : Kind.text P l (.set c false rev) { grd := some rd, grs := some rs, grt := some rt } = some t) :
    t = if c = .ne ∨ c = .eq then .ofList [rrr "xor" rd rs rt, equalText c rd]
      else .ofList [compareRegText c rev rd rs rt, rri "xori" rd rd (.int 1)] := by
  rcases hc with rfl | rfl | rfl | rfl <;> exact (Option.some.inj h).symm

end Armips.MacroProof
