import Verif.Lemmas.MipsCompare
import Verif.Props.MipsLi
/-!
# Comparing macros (C31)

`blt`, `bgt`, `ble`, `bge` and their unsigned and likely forms, `beq` and `bne` with immediates, and `slt`, `sgt`, `sge`, `sle`,
`seq`, `sne`: the branch is taken, or 1 is set, exactly when the relation that the mnemonic names holds. This is so unless the
source register is the one that the immediate has to be loaded to.
-/
namespace Armips.Props
open Spec Spec.Instr Spec.Macro Spec.Isa MacroProof Sample
open Armips.Mips (ParseEnv Tok Kind Parsed Config Version Condition)

/-- The branching macros for the order of two numbers: mnemonic, whether the delay slot is skipped when there is no branch,
relation. -/
def orderBranches : List (String × Bool × (BitVec 32 → BitVec 32 → Bool)) := [
  ("blt", false, fun x y => x.slt y), ("bgt", false, fun x y => y.slt x),
  ("ble", false, fun x y => x.sle y), ("bge", false, fun x y => y.sle x),
  ("bltu", false, fun x y => x.ult y), ("bgtu", false, fun x y => y.ult x),
  ("bleu", false, fun x y => x.ule y), ("bgeu", false, fun x y => y.ule x),
  ("bltl", true, fun x y => x.slt y), ("bgtl", true, fun x y => y.slt x),
  ("blel", true, fun x y => x.sle y), ("bgel", true, fun x y => y.sle x),
  ("bltul", true, fun x y => x.ult y), ("bgtul", true, fun x y => y.ult x),
  ("bleul", true, fun x y => x.ule y), ("bgeul", true, fun x y => y.ule x)]

/-- The branching macros for the equality with an immediate. -/
def equalBranches : List (String × Bool × (BitVec 32 → BitVec 32 → Bool)) := [
  ("beq", false, fun x y => x == y), ("bne", false, fun x y => x != y),
  ("beql", true, fun x y => x == y), ("bnel", true, fun x y => x != y)]

/-- The macros that set a register to 1 or 0, for a register and an immediate. -/
def setNames : List (String × (BitVec 32 → BitVec 32 → Bool)) := [
  ("slt", fun x y => x.slt y), ("sgt", fun x y => y.slt x), ("sle", fun x y => x.sle y), ("sge", fun x y => y.sle x),
  ("sltu", fun x y => x.ult y), ("sgtu", fun x y => y.ult x), ("sleu", fun x y => x.ule y), ("sgeu", fun x y => y.ule x),
  ("seq", fun x y => x == y), ("sne", fun x y => x != y)]

/-- Those for two registers; `slt` and `sltu` are instructions. -/
def setRegNames : List (String × (BitVec 32 → BitVec 32 → Bool)) := [
  ("sle", fun x y => x.sle y), ("sge", fun x y => y.sle x), ("sleu", fun x y => x.ule y), ("sgeu", fun x y => y.ule x),
  ("seq", fun x y => x == y), ("sne", fun x y => x != y)]

/-- The macros that compare the other way round, for which there is no instruction with an immediate. -/
def loadsAlways : List String :=
  ["bgt", "ble", "bgtu", "bleu", "bgtl", "blel", "bgtul", "bleul", "sgt", "sle", "sgtu", "sleu"]

section
variable {x : String × Bool × (BitVec 32 → BitVec 32 → Bool)}

theorem not_slt (x y : BitVec 32) : (!x.slt y) = y.sle x := by rw [BitVec.sle_eq_not_slt]
theorem not_ult (x y : BitVec 32) : (!x.ult y) = y.ule x := by rw [BitVec.ule_eq_not_ult]
theorem dec_beq (x y : BitVec 32) : decide (x = y) = (x == y) := by
  by_cases h : x = y <;> simp [h]
theorem dec_bne (x y : BitVec 32) : (!decide (x = y)) = (x != y) := by
  by_cases h : x = y <;> simp [h]

set_option maxRecDepth 4000 in
theorem find_order (hx : x ∈ orderBranches) : ∃ c rev, (c = .lt ∨ c = .ltu ∨ c = .ge ∨ c = .geu) ∧
    (∀ a b, relOf c rev a b = x.2.2 a b) ∧ (x.1 ∉ loadsAlways → rev = false) ∧
    (∀ rs i e, Mips.findMacro x.1 [.reg rs, .comma, .imm i, .comma, .imm e] =
      some (.branch c true x.2.1 rev, { grs := some rs, prim := some i, sec := some e })) ∧
    (∀ rs rt e, Mips.findMacro x.1 [.reg rs, .comma, .reg rt, .comma, .imm e] =
      some (.branch c false x.2.1 rev, { grs := some rs, grt := some rt, sec := some e })) := by
  revert x
  simp only [orderBranches, List.forall_mem_cons, List.not_mem_nil, false_implies, implies_true, and_true]
  refine ⟨?_, ?_, ?_, ?_, ?_, ?_, ?_, ?_, ?_, ?_, ?_, ?_, ?_, ?_, ?_, ?_⟩
  · exact ⟨.lt, false, by simp, fun _ _ => rfl, by simp [loadsAlways], fun _ _ _ => rfl, fun _ _ _ => rfl⟩
  · exact ⟨.lt, true, by simp, fun _ _ => rfl, by simp [loadsAlways], fun _ _ _ => rfl, fun _ _ _ => rfl⟩
  · exact ⟨.ge, true, by simp, fun _ _ => not_slt _ _, by simp [loadsAlways], fun _ _ _ => rfl, fun _ _ _ => rfl⟩
  · exact ⟨.ge, false, by simp, fun _ _ => not_slt _ _, by simp [loadsAlways], fun _ _ _ => rfl, fun _ _ _ => rfl⟩
  · exact ⟨.ltu, false, by simp, fun _ _ => rfl, by simp [loadsAlways], fun _ _ _ => rfl, fun _ _ _ => rfl⟩
  · exact ⟨.ltu, true, by simp, fun _ _ => rfl, by simp [loadsAlways], fun _ _ _ => rfl, fun _ _ _ => rfl⟩
  · exact ⟨.geu, true, by simp, fun _ _ => not_ult _ _, by simp [loadsAlways], fun _ _ _ => rfl, fun _ _ _ => rfl⟩
  · exact ⟨.geu, false, by simp, fun _ _ => not_ult _ _, by simp [loadsAlways], fun _ _ _ => rfl, fun _ _ _ => rfl⟩
  · exact ⟨.lt, false, by simp, fun _ _ => rfl, by simp [loadsAlways], fun _ _ _ => rfl, fun _ _ _ => rfl⟩
  · exact ⟨.lt, true, by simp, fun _ _ => rfl, by simp [loadsAlways], fun _ _ _ => rfl, fun _ _ _ => rfl⟩
  · exact ⟨.ge, true, by simp, fun _ _ => not_slt _ _, by simp [loadsAlways], fun _ _ _ => rfl, fun _ _ _ => rfl⟩
  · exact ⟨.ge, false, by simp, fun _ _ => not_slt _ _, by simp [loadsAlways], fun _ _ _ => rfl, fun _ _ _ => rfl⟩
  · exact ⟨.ltu, false, by simp, fun _ _ => rfl, by simp [loadsAlways], fun _ _ _ => rfl, fun _ _ _ => rfl⟩
  · exact ⟨.ltu, true, by simp, fun _ _ => rfl, by simp [loadsAlways], fun _ _ _ => rfl, fun _ _ _ => rfl⟩
  · exact ⟨.geu, true, by simp, fun _ _ => not_ult _ _, by simp [loadsAlways], fun _ _ _ => rfl, fun _ _ _ => rfl⟩
  · exact ⟨.geu, false, by simp, fun _ _ => not_ult _ _, by simp [loadsAlways], fun _ _ _ => rfl, fun _ _ _ => rfl⟩

set_option maxRecDepth 4000 in
theorem find_equal (hx : x ∈ equalBranches) : ∃ c, (c = .eq ∨ c = .ne) ∧ (∀ a b, relOf c false a b = x.2.2 a b) ∧
    (∀ rs i e, Mips.findMacro x.1 [.reg rs, .comma, .imm i, .comma, .imm e] =
      some (.branch c true x.2.1 false, { grs := some rs, prim := some i, sec := some e })) := by
  revert x
  simp only [equalBranches, List.forall_mem_cons, List.not_mem_nil, false_implies, implies_true, and_true]
  exact ⟨⟨.eq, by simp, dec_beq, fun _ _ _ => rfl⟩, ⟨.ne, by simp, dec_bne, fun _ _ _ => rfl⟩,
    ⟨.eq, by simp, dec_beq, fun _ _ _ => rfl⟩, ⟨.ne, by simp, dec_bne, fun _ _ _ => rfl⟩⟩

variable {y : String × (BitVec 32 → BitVec 32 → Bool)}

set_option maxRecDepth 4000 in
theorem find_set (hy : y ∈ setNames) : ∃ c rev, (∀ a b, relOf c rev a b = y.2 a b) ∧ (c = .eq ∨ c = .ne → rev = false) ∧
    (y.1 ∉ loadsAlways → rev = false) ∧
    (∀ rd rs i, Mips.findMacro y.1 [.reg rd, .comma, .reg rs, .comma, .imm i] =
      some (.set c true rev, { grd := some rd, grs := some rs, sec := some i })) := by
  revert y
  simp only [setNames, List.forall_mem_cons, List.not_mem_nil, false_implies, implies_true, and_true]
  refine ⟨?_, ?_, ?_, ?_, ?_, ?_, ?_, ?_, ?_, ?_⟩
  · exact ⟨.lt, false, fun _ _ => rfl, by simp, by simp [loadsAlways], fun _ _ _ => rfl⟩
  · exact ⟨.lt, true, fun _ _ => rfl, by simp, by simp [loadsAlways], fun _ _ _ => rfl⟩
  · exact ⟨.ge, true, fun _ _ => not_slt _ _, by simp, by simp [loadsAlways], fun _ _ _ => rfl⟩
  · exact ⟨.ge, false, fun _ _ => not_slt _ _, by simp, by simp [loadsAlways], fun _ _ _ => rfl⟩
  · exact ⟨.ltu, false, fun _ _ => rfl, by simp, by simp [loadsAlways], fun _ _ _ => rfl⟩
  · exact ⟨.ltu, true, fun _ _ => rfl, by simp, by simp [loadsAlways], fun _ _ _ => rfl⟩
  · exact ⟨.geu, true, fun _ _ => not_ult _ _, by simp, by simp [loadsAlways], fun _ _ _ => rfl⟩
  · exact ⟨.geu, false, fun _ _ => not_ult _ _, by simp, by simp [loadsAlways], fun _ _ _ => rfl⟩
  · exact ⟨.eq, false, dec_beq, by simp, by simp [loadsAlways], fun _ _ _ => rfl⟩
  · exact ⟨.ne, false, dec_bne, by simp, by simp [loadsAlways], fun _ _ _ => rfl⟩

set_option maxRecDepth 4000 in
theorem find_set_reg (hy : y ∈ setRegNames) : ∃ c rev, (∀ a b, relOf c rev a b = y.2 a b) ∧
    (c = .eq ∨ c = .ne ∨ c = .ge ∨ c = .geu) ∧ (c = .eq ∨ c = .ne → rev = false) ∧
    (∀ rd rs rt, Mips.findMacro y.1 [.reg rd, .comma, .reg rs, .comma, .reg rt] =
      some (.set c false rev, { grd := some rd, grs := some rs, grt := some rt })) := by
  revert y
  simp only [setRegNames, List.forall_mem_cons, List.not_mem_nil, false_implies, implies_true, and_true]
  refine ⟨?_, ?_, ?_, ?_, ?_, ?_⟩
  · exact ⟨.ge, true, fun _ _ => not_slt _ _, by simp, by simp, fun _ _ _ => rfl⟩
  · exact ⟨.ge, false, fun _ _ => not_slt _ _, by simp, by simp, fun _ _ _ => rfl⟩
  · exact ⟨.geu, true, fun _ _ => not_ult _ _, by simp, by simp, fun _ _ _ => rfl⟩
  · exact ⟨.geu, false, fun _ _ => not_ult _ _, by simp, by simp, fun _ _ _ => rfl⟩
  · exact ⟨.eq, false, dec_beq, by simp, by simp, fun _ _ _ => rfl⟩
  · exact ⟨.ne, false, dec_bne, by simp, by simp, fun _ _ _ => rfl⟩
end

section
variable {P : ParseEnv} {k : Nat} {rs rt rd : Nat} {i e : Expr} {v dest : Int} {st st' : St} {ws : List (BitVec 32)}

theorem relOf_order {c : Condition} (hc : c = .lt ∨ c = .ltu ∨ c = .ge ∨ c = .geu) (rev : Bool) (a b : BitVec 32) :
    (if c = .lt ∨ c = .ltu then (if rev then lessThan c b a else lessThan c a b) else !(if rev then lessThan c b a else lessThan c a b)) =
      relOf c rev a b := by
  rcases hc with rfl | rfl | rfl | rfl <;> rfl

/-- The text of a branching macro for an order. -/
theorem tgood_order (ho : Ordinary P k st [i, e]) {c : Condition} {lk rev : Bool} (hc : c = .lt ∨ c = .ltu ∨ c = .ge ∨ c = .geu)
    (hm : st.arch = .mips) (hr : rs < 32) (hv : HasValue P st i v) (hd : HasValue P st e dest) {d : Nat} {t : Mips.Text}
    (ht : Kind.text P (P.labels k) (.branch c true lk rev) { grs := some rs, prim := some i, sec := some e } = some t)
    {st1 : St} (hn : Entry P k st st1) :
    TGood P d (k + 1) t st1 fun ws _ => BranchWords (fun m => relOf c rev
      (source rs 1 (if rev then decide (v = 0) else decide (-0x8000 ≤ v ∧ v < 0x8000)) v m) (BitVec.ofInt 32 v)) lk st.virt dest True ws := by
  obtain ⟨hp, hq, rfl⟩ := branch_imm_kind ht
  rw [if_neg (by rcases hc with rfl | rfl | rfl | rfl <;> simp)]
  have h := tgood_branch1 (d := d) (l := lk) hc (tgood_compare (c := c) (rev := rev) (a := 1) ho.functions (by decide) hr (hn.mips hm)
    (reads_dotted hn ho.labels hp (ho.usual _ (by simp)) hv)) (reads_dotted hn ho.labels hq (ho.usual _ (by simp)) hd)
  rw [hn.virt] at h
  refine h.mono fun ws st' _ _ hb => ?_
  obtain ⟨pre, w, h1, h2, h3, h4⟩ := hb
  refine ⟨pre, w, h1, h2, h3, fun be m => ?_⟩
  obtain ⟨m1, h5, h6, h7⟩ := h4 be m
  refine ⟨m1, h5, h6, h7.trans ?_⟩
  rcases hc with rfl | rfl | rfl | rfl <;> cases rev <;> simp [relOf]

/-- The text of a branching macro for an equality. -/
theorem tgood_equality (ho : Ordinary P k st [i, e]) {c : Condition} {lk : Bool} (hc : c = .eq ∨ c = .ne)
    (hm : st.arch = .mips) (hr : rs < 32) (hv : HasValue P st i v) (hd : HasValue P st e dest) {d : Nat} {t : Mips.Text}
    (ht : Kind.text P (P.labels k) (.branch c true lk false) { grs := some rs, prim := some i, sec := some e } = some t)
    {st1 : St} (hn : Entry P k st st1) :
    TGood P d (k + 1) t st1 fun ws _ => BranchWords (fun m => relOf c false
      (source rs 1 (decide (v = 0)) v m) (BitVec.ofInt 32 v)) lk st.virt dest (v = 0 → NoLoad P st) ws := by
  obtain ⟨hp, hq, rfl⟩ := branch_imm_kind ht
  rw [if_pos (by rcases hc with rfl | rfl <;> simp)]
  have h := tgood_branch2 (d := d) (l := lk) ho.functions hc hr (hn.mips hm)
    (reads_dotted hn ho.labels hp (ho.usual _ (by simp)) hv) (reads_dotted hn ho.labels hq (ho.usual _ (by simp)) hd)
  rw [hn.virt] at h
  refine h.mono fun ws st' _ _ hb => ?_
  obtain ⟨pre, w, h1, h2, h3, h4⟩ := hb
  exact ⟨pre, w, h1, fun hs => h2 fun h0 => settled_same hn.archSt.symm (hs h0), h3, h4⟩

/-- The text of a macro that sets a register. -/
theorem tgood_set (ho : Ordinary P k st [i]) {c : Condition} {rev : Bool} (hc : c = .eq ∨ c = .ne → rev = false)
    (hm : st.arch = .mips) (ha : rd < 32) (hr : rs < 32) (hv : HasValue P st i v) {d : Nat} {t : Mips.Text}
    (ht : Kind.text P (P.labels k) (.set c true rev) { grd := some rd, grs := some rs, sec := some i } = some t)
    {st1 : St} (hn : Entry P k st st1) :
    TGood P d (k + 1) t st1 fun ws _ => SetWords rd (fun m => relOf c rev (source rs rd (
      if c = .eq ∨ c = .ne then decide (0 ≤ v ∧ v < 65536)
      else if rev then decide (v = 0) else decide (-0x8000 ≤ v ∧ v < 0x8000)) v m) (BitVec.ofInt 32 v)) ws := by
  obtain ⟨hp, rfl⟩ := set_imm_kind ht
  have hv1 := reads_dotted hn ho.labels hp (ho.usual _ (by simp)) hv
  have hm1 := hn.mips hm
  by_cases hq : c = .eq ∨ c = .ne
  · rw [hc hq, if_pos hq.symm]
    simp only [if_pos hq]
    exact tgood_set_equal hq ha hm1 (tgood_diff ho.functions ha hr hm1 hv1)
  · rw [if_neg (fun h => hq h.symm)]
    simp only [if_neg hq]
    have h := tgood_negated (n := decide (c = .ge ∨ c = .geu)) (tgood_compare (d := d) (c := c) (rev := rev) ho.functions ha hr hm1 hv1)
      (neg := .cond (Mips.flag (decide (c = .ge ∨ c = .geu))) (Mips.rri "xori" rd rd (.int 1)) .nil) fun st2 f2 => by
        refine tgood_flag (f2.arch.trans hm1) ?_ ?_
        · intro hg st3 f3 _ _
          refine TGood.mono (tgood_xori1 ha) ?_
          rintro ws st' - - hw be m
          rw [hw, hg, if_pos rfl]
        · intro hg st3 f3 _ _
          refine tgood_nil fun be m => ?_
          rw [hg, if_neg (by simp)]
          rfl
    refine h.mono fun ws st' _ _ hb be m => ?_
    rw [hb]
    cases c <;> simp only [reduceCtorEq, or_self, not_true_eq_false, or_true, true_or] at hq <;> cases rev <;> simp [relOf]

/-- The text of a macro that sets a register from two. -/
theorem tgood_set_reg {c : Condition} {rev : Bool} (hc : c = .eq ∨ c = .ne ∨ c = .ge ∨ c = .geu) (hc2 : c = .eq ∨ c = .ne → rev = false)
    (hm : st.arch = .mips) (ha : rd < 32) (hr : rs < 32) (hr2 : rt < 32) {d : Nat} {t : Mips.Text}
    (ht : Kind.text P (P.labels k) (.set c false rev) { grd := some rd, grs := some rs, grt := some rt } = some t)
    {st1 : St} (hn : Entry P k st st1) :
    TGood P d (k + 1) t st1 fun ws _ => SetWords rd (fun m => relOf c rev (m.get rs) (m.get rt)) ws := by
  have hm1 := hn.mips hm
  have := set_reg_kind hc ht
  subst this
  by_cases hq : c = .eq ∨ c = .ne
  · rw [hc2 hq, if_pos hq.symm]
    refine tgood_set_equal hq ha hm1 (TGood.mono (tgood_xor ha hr hr2) ?_)
    rintro ws st' - - ⟨h, -⟩
    exact h
  · rw [if_neg (fun h => hq h.symm)]
    have h := tgood_negated (n := true) (tgood_compareReg (P := P) (d := d) (k₀ := k + 1) (c := c) (rev := rev) ha hr hr2 hm1)
      (neg := Mips.rri "xori" rd rd (.int 1)) fun st2 f2 => by
        refine TGood.mono (tgood_xori1 ha) ?_
        rintro ws st' - - hw be m
        rw [hw, if_pos rfl]
    refine h.mono fun ws st' _ _ hb be m => ?_
    rw [hb]
    rcases hc with rfl | rfl | rfl | rfl <;> simp only [reduceCtorEq, or_self, not_true_eq_false, or_true, true_or] at hq <;> cases rev <;> rfl

/-- **C31**, branches on the order of two registers. -/
theorem mips_branch_registers {x : String × Bool × (BitVec 32 → BitVec 32 → Bool)} (hx : x ∈ orderBranches)
    (ho : Ordinary P k st [e]) (hr : rs < 32) (hr2 : rt < 32) (hd : HasValue P st e dest)
    (hA : Assembles P k x.1 [.reg rs, .comma, .reg rt, .comma, .imm e] st st' ws) (be : Bool) (m : Machine) :
    Branches be ws st.virt dest (x.2.2 (m.get rs) (m.get rt)) x.2.1 m := by
  obtain ⟨c, rev, hc, hrel, -, -, hf⟩ := find_order hx
  have h := (macro_does (Q := fun ws _ => BranchWords (fun m => relOf c rev (m.get rs) (m.get rt)) x.2.1 st.virt dest True ws) hA (hf rs rt e)
    (fun _ _ _ _ _ _ _ h => h) fun d t ht st1 hn => by
      obtain ⟨hp, rfl⟩ := branch_reg_kind hc ht
      have h := tgood_branch1 (d := d) (l := x.2.1) hc (tgood_compareReg (c := c) (rev := rev) (a := 1) (by decide) hr hr2 (hn.mips hA.mips))
        (reads_dotted hn ho.labels hp (ho.usual _ (by simp)) hd)
      rw [hn.virt] at h
      refine h.mono fun ws st' _ _ hb => ?_
      simpa only [relOf_order hc rev] using hb).1.branches trivial be m
  rwa [hrel] at h

/-- **C31**, branches on the order of a register and an immediate. Partial: the register is not 1, unless the immediate does not
have to be loaded. -/
theorem mips_branch_immediate_partial {x : String × Bool × (BitVec 32 → BitVec 32 → Bool)} (hx : x ∈ orderBranches)
    (ho : Ordinary P k st [i, e]) (hr : rs < 32) (hr1 : rs ≠ 1 ∨ v = 0 ∨ (x.1 ∉ loadsAlways ∧ -0x8000 ≤ v ∧ v < 0x8000))
    (hv : HasValue P st i v) (hd : HasValue P st e dest)
    (hA : Assembles P k x.1 [.reg rs, .comma, .imm i, .comma, .imm e] st st' ws) (be : Bool) (m : Machine) :
    Branches be ws st.virt dest (x.2.2 (m.get rs) (BitVec.ofInt 32 v)) x.2.1 m := by
  obtain ⟨c, rev, hc, hrel, hrev, hf, -⟩ := find_order hx
  have h := (macro_does hA (hf rs i e) (fun _ _ _ _ _ _ _ h => h) fun d t ht st1 hn =>
    tgood_order ho hc hA.mips hr hv hd ht hn).1.branches trivial be m
  rw [hrel, source_safe] at h
  · exact h
  · intro h1
    rcases hr1 with hr1 | hr1 | ⟨hr1, hr2⟩
    · exact absurd h1 hr1
    · refine .inr ?_
      rw [hr1]; cases rev <;> decide
    · rw [hrev hr1]
      exact .inr (decide_eq_true hr2)

/-- **C31**, branches on the equality of a register with an immediate. Partial: the register is not 1, unless the immediate
is 0. In that case the branch is the first instruction, so its target is moved if `.fixloaddelay` puts a nop before it. -/
theorem mips_branch_equal_partial {x : String × Bool × (BitVec 32 → BitVec 32 → Bool)} (hx : x ∈ equalBranches)
    (ho : Ordinary P k st [i, e]) (hr : rs < 32) (hr1 : rs ≠ 1 ∨ v = 0) (hl : v = 0 → NoLoad P st) (hv : HasValue P st i v)
    (hd : HasValue P st e dest)
    (hA : Assembles P k x.1 [.reg rs, .comma, .imm i, .comma, .imm e] st st' ws) (be : Bool) (m : Machine) :
    Branches be ws st.virt dest (x.2.2 (m.get rs) (BitVec.ofInt 32 v)) x.2.1 m := by
  obtain ⟨c, hc, hrel, hf⟩ := find_equal hx
  have h := (macro_does hA (hf rs i e) (fun _ _ _ _ _ _ _ h => h) fun d t ht st1 hn =>
    tgood_equality ho hc hA.mips hr hv hd ht hn).1.branches hl be m
  rw [hrel, source_safe] at h
  · exact h
  · intro h1
    rcases hr1 with hr1 | hr1
    · exact absurd h1 hr1
    · exact .inr (by rw [hr1]; rfl)

/-- **C31**, setting a register from two others. -/
theorem mips_set_registers {y : String × (BitVec 32 → BitVec 32 → Bool)} (hy : y ∈ setRegNames)
    (ha : rd < 32) (hr : rs < 32) (hr2 : rt < 32)
    (hA : Assembles P k y.1 [.reg rd, .comma, .reg rs, .comma, .reg rt] st st' ws) (be : Bool) (m : Machine) :
    exec be ws m = some (m.set rd (bool (y.2 (m.get rs) (m.get rt)))) := by
  obtain ⟨c, rev, hrel, hc, hc2, hf⟩ := find_set_reg hy
  rw [(macro_does hA (hf rd rs rt) (fun _ _ _ _ _ _ _ h => h) fun d t ht st1 hn =>
    tgood_set_reg hc hc2 hA.mips ha hr hr2 ht hn).1 be m]
  simp only [hrel]

/-- **C31**, setting a register from another one and an immediate. Partial: the source is another register than the destination,
or the immediate is one that does not have to be loaded. -/
theorem mips_set_immediate_partial {y : String × (BitVec 32 → BitVec 32 → Bool)} (hy : y ∈ setNames)
    (ho : Ordinary P k st [i]) (ha : rd < 32) (hr : rs < 32) (hr1 : rs ≠ rd ∨ v = 0 ∨ (y.1 ∉ loadsAlways ∧ 0 ≤ v ∧ v < 0x8000))
    (hv : HasValue P st i v)
    (hA : Assembles P k y.1 [.reg rd, .comma, .reg rs, .comma, .imm i] st st' ws) (be : Bool) (m : Machine) :
    exec be ws m = some (m.set rd (bool (y.2 (m.get rs) (BitVec.ofInt 32 v)))) := by
  obtain ⟨c, rev, hrel, hc, hrev, hf⟩ := find_set hy
  rw [(macro_does hA (hf rd rs i) (fun _ _ _ _ _ _ _ h => h) fun d t ht st1 hn =>
    tgood_set ho hc hA.mips ha hr hv ht hn).1 be m]
  simp only [hrel]
  rw [source_safe]
  intro h1
  rcases hr1 with hr1 | hr1 | ⟨hr1, hr2⟩
  · exact absurd h1 hr1
  · refine .inr ?_
    rw [hr1]; cases rev <;> split <;> decide
  · refine .inr ?_
    rw [hrev hr1]
    split
    · exact decide_eq_true (by omega)
    · rw [if_neg (by simp)]
      exact decide_eq_true (by omega)

end

/-- Sample: a branch is assembled. -/
theorem sample_order {cfg : Config} {x : String × Bool × (BitVec 32 → BitVec 32 → Bool)} {rs : Nat} {v dest : Int}
    (hx : x ∈ orderBranches) (hr : rs < 32) (hv : -(2 ^ 63) < v ∧ v < 2 ^ 63) (hd : -(2 ^ 63) < dest ∧ dest < 2 ^ 63)
    (hs : accepted (mparse cfg) 0 x.1 [.reg rs, .comma, .imm (.int v), .comma, .imm (.int dest)] mst = true) :
    (∃ st' ws, Assembles (mparse cfg) 0 x.1 [.reg rs, .comma, .imm (.int v), .comma, .imm (.int dest)] mst st' ws) ∧
      Ordinary (mparse cfg) 0 mst [.int v, .int dest] := by
  have ho : Ordinary (mparse cfg) 0 mst [.int v, .int dest] := ⟨⟨⟨_, rfl⟩, ⟨_, rfl⟩, ⟨_, rfl⟩⟩, ⟨fun i j h => h, rfl⟩, fun e he y hy => by
    simp only [List.mem_cons, List.not_mem_nil, or_false] at he
    rcases he with rfl | rfl <;> simp [symbolsIn] at hy⟩
  obtain ⟨c, rev, hc, -, -, hf, -⟩ := find_order hx
  exact ⟨macro_exists rfl (hf rs _ _) hs fun d t ht st1 hn =>
    (tgood_order ho hc rfl hr (sample_value hv) (sample_value hd) ht hn).mono fun _ _ _ _ _ => trivial, ho⟩

/-- Sample: a macro that sets a register is assembled. -/
theorem sample_set {cfg : Config} {y : String × (BitVec 32 → BitVec 32 → Bool)} {rd rs : Nat} {v : Int}
    (hy : y ∈ setNames) (ha : rd < 32) (hr : rs < 32) (hv : -(2 ^ 63) < v ∧ v < 2 ^ 63)
    (hs : accepted (mparse cfg) 0 y.1 [.reg rd, .comma, .reg rs, .comma, .imm (.int v)] mst = true) :
    (∃ st' ws, Assembles (mparse cfg) 0 y.1 [.reg rd, .comma, .reg rs, .comma, .imm (.int v)] mst st' ws) ∧
      Ordinary (mparse cfg) 0 mst [.int v] := by
  have ho : Ordinary (mparse cfg) 0 mst [.int v] := (sample_ordinary (v := v) (w := 0)).sub (by simp)
  obtain ⟨c, rev, -, hc, -, hf⟩ := find_set hy
  exact ⟨macro_exists rfl (hf rd rs _) hs fun d t ht st1 hn =>
    (tgood_set ho hc rfl ha hr (sample_value hv) ht hn).mono fun _ _ _ _ _ => trivial, ho⟩

-- `bgtu a0,0x12345,0x8100`
example : (∃ st' ws, Assembles (mparse psx) 0 "bgtu" [.reg 4, .comma, .imm (.int 0x12345), .comma, .imm (.int 0x8100)] mst st' ws) ∧
    Ordinary (mparse psx) 0 mst [.int 0x12345, .int 0x8100] :=
  sample_order (x := ("bgtu", false, fun x y => y.ult x)) (by simp [orderBranches]) (by decide) (by omega) (by omega) (by decide +kernel)

-- `ble a0,a1,0x8100`
example : ∃ st' ws, Assembles (mparse psx) 0 "ble" [.reg 4, .comma, .reg 5, .comma, .imm (.int 0x8100)] mst st' ws := by
  have ho : Ordinary (mparse psx) 0 mst [.int 0x8100] := (sample_ordinary (v := 0x8100) (w := 0)).sub (by simp)
  obtain ⟨c, rev, hc, hrel, -, -, hf⟩ := find_order (x := ("ble", false, fun x y => x.sle y)) (by simp [orderBranches])
  refine macro_exists rfl (hf 4 5 _) (by decide +kernel) fun d t ht st1 hn => ?_
  obtain ⟨hp, rfl⟩ := branch_reg_kind hc ht
  exact (tgood_branch1 hc (tgood_compareReg (c := c) (rev := rev) (a := 1) (by decide) (by decide) (by decide) (hn.mips rfl))
    (reads_dotted hn ho.labels hp (ho.usual _ (by simp)) (sample_value (by omega)))).mono fun _ _ _ _ _ => trivial

-- `beq a0,-5,0x8100`
example : ∃ st' ws, Assembles (mparse psx) 0 "beq" [.reg 4, .comma, .imm (.int (-5)), .comma, .imm (.int 0x8100)] mst st' ws := by
  have ho : Ordinary (mparse psx) 0 mst [.int (-5), .int 0x8100] := ⟨⟨⟨_, rfl⟩, ⟨_, rfl⟩, ⟨_, rfl⟩⟩, ⟨fun i j h => h, rfl⟩, fun e he y hy => by
    simp only [List.mem_cons, List.not_mem_nil, or_false] at he
    rcases he with rfl | rfl <;> simp [symbolsIn] at hy⟩
  obtain ⟨c, hc, -, hf⟩ := find_equal (x := ("beq", false, fun x y => x == y)) (by simp [equalBranches])
  exact macro_exists rfl (hf 4 _ _) (by decide +kernel) fun d t ht st1 hn =>
    (tgood_equality ho hc rfl (by decide) (sample_value (by omega)) (sample_value (by omega)) ht hn).mono fun _ _ _ _ _ => trivial

-- `seq a0,a1,0x12345`
example : (∃ st' ws, Assembles (mparse psx) 0 "seq" [.reg 4, .comma, .reg 5, .comma, .imm (.int 0x12345)] mst st' ws) ∧
    Ordinary (mparse psx) 0 mst [.int 0x12345] :=
  sample_set (y := ("seq", fun x y => x == y)) (by simp [setNames]) (by decide) (by decide) (by omega) (by decide +kernel)

-- `sle a0,a1,a2`
example : ∃ st' ws, Assembles (mparse psp) 0 "sle" [.reg 4, .comma, .reg 5, .comma, .reg 6] mst st' ws := by
  obtain ⟨c, rev, -, hc, hc2, hf⟩ := find_set_reg (y := ("sle", fun x y => x.sle y)) (by simp [setRegNames])
  exact macro_exists rfl (hf 4 5 6) (by decide +kernel) fun d t ht st1 hn =>
    (tgood_set_reg hc hc2 rfl (by decide) (by decide) (by decide) ht hn).mono fun _ _ _ _ _ => trivial

/-- The source is lost when it is the register that the immediate is loaded to: `blt at,0x12345,0x8100` never branches, whatever the
register holds. -/
theorem mips_branch_at_wrong : ∃ st' ws,
    Assembles (mparse psx) 0 "blt" [.reg 1, .comma, .imm (.int 0x12345), .comma, .imm (.int 0x8100)] mst st' ws ∧
    ∀ be m, Branches be ws mst.virt 0x8100 false false m := by
  obtain ⟨⟨st', ws, hA⟩, ho⟩ := sample_order (cfg := psx) (rs := 1) (v := 0x12345) (dest := 0x8100)
    (x := ("blt", false, fun x y => x.slt y)) (by simp [orderBranches]) (by decide) (by omega) (by omega) (by decide +kernel)
  refine ⟨st', ws, hA, fun be m => ?_⟩
  obtain ⟨c, rev, hc, hrel, hrev, hf, -⟩ := find_order (x := ("blt", false, fun x y => x.slt y)) (by simp [orderBranches])
  have h := (macro_does hA (hf 1 _ _) (fun _ _ _ _ _ _ _ h => h) fun d t ht st1 hn =>
    tgood_order ho hc rfl (by decide) (sample_value (v := 0x12345) (by omega)) (sample_value (v := 0x8100) (by omega)) ht hn).1.branches trivial be m
  rw [hrel] at h
  have e : source 1 1 (if rev then decide ((0x12345 : Int) = 0) else decide (-0x8000 ≤ (0x12345 : Int) ∧ (0x12345 : Int) < 0x8000)) 0x12345 m = BitVec.ofInt 32 0x12345 := by
    cases rev <;> simp [source]
  rw [e] at h
  exact h

/-- `seq a0,a0,0x12345` always sets 1. -/
theorem mips_set_same_wrong : ∃ st' ws,
    Assembles (mparse psx) 0 "seq" [.reg 4, .comma, .reg 4, .comma, .imm (.int 0x12345)] mst st' ws ∧
    ∀ be m, exec be ws m = some (m.set 4 1#32) := by
  obtain ⟨⟨st', ws, hA⟩, ho⟩ := sample_set (cfg := psx) (rd := 4) (rs := 4) (v := 0x12345)
    (y := ("seq", fun x y => x == y)) (by simp [setNames]) (by decide) (by decide) (by omega) (by decide +kernel)
  refine ⟨st', ws, hA, fun be m => ?_⟩
  obtain ⟨c, rev, hrel, hc, hrev, hf⟩ := find_set (y := ("seq", fun x y => x == y)) (by simp [setNames])
  rw [(macro_does hA (hf 4 4 _) (fun _ _ _ _ _ _ _ h => h) fun d t ht st1 hn =>
    tgood_set ho hc rfl (by decide) (by decide) (sample_value (v := 0x12345) (by omega)) ht hn).1 be m]
  simp only [hrel]
  have e : source 4 4 (if c = .eq ∨ c = .ne then decide (0 ≤ (0x12345 : Int) ∧ (0x12345 : Int) < 65536)
      else if rev then decide ((0x12345 : Int) = 0) else decide (-0x8000 ≤ (0x12345 : Int) ∧ (0x12345 : Int) < 0x8000)) 0x12345 m = BitVec.ofInt 32 0x12345 := by
    have : (if c = Condition.eq ∨ c = .ne then decide (0 ≤ (0x12345 : Int) ∧ (0x12345 : Int) < 65536)
      else if rev then decide ((0x12345 : Int) = 0) else decide (-0x8000 ≤ (0x12345 : Int) ∧ (0x12345 : Int) < 0x8000)) = false := by
      cases rev <;> split <;> decide
    rw [this]; simp [source]
  rw [e]
  simp [Isa.bool]

end Armips.Props
