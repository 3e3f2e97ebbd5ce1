import Verif.Lemmas.Ctor
import Verif.Model.ShLine
import Verif.Model.ArmLine
/-!
# C80: The function generated for the constructors of imported object files

`Spec/MipsCalls.lean` says what MIPS code with loops and calls does.
-/
namespace Armips.Props
open Armips.Spec Armips.Spec.Isa Armips.Spec.Calls Armips.Ctor

/-- The generated MIPS function calls every constructor of every section exactly once, in the order of the sections and within each from the first
to the last, returns to its caller, and leaves `s0` to `s3` and `sp` as they were. The sections have at least one constructor each. The constructors
keep `s0` to `s3` and `sp`, the table and the sections, and the 20 bytes that the function uses of the stack. The words of the two `li` load the ends of
the table, which `mips_li_loads` says. -/
theorem mips_ctor_calls {be : Bool} {a b : List (BitVec 32)} {base T : BitVec 32} {call : BitVec 32 → Machine → Machine} {l : List Sec} {m : Machine}
    (ha : ∀ m, exec be a m = some (m.set 16 T)) (hb : ∀ m, exec be b m = some (m.set 17 (T + BitVec.ofNat 32 (8 * l.length))))
    (hl : l ≠ []) (hn : 8 * l.length < 2 ^ 32) (hc : ∀ s ∈ l, 0 < s.count ∧ s.count < 2 ^ 30) (ht : Table be m T l)
    (hd : ∀ x, Data T l x → ¬ Frame (m.reg 29 - 32#32) x) (hk : Keeps call fun x => Data T l x ∨ Frame (m.reg 29 - 32#32) x) :
    ∃ m', Runs be (mipsCode a b) base call m (l.flatMap (Sec.functions be m)) (m.reg 31) m' ∧
      (∀ r ∈ [16, 17, 18, 19, 29], m'.reg r = m.reg r) ∧ ∀ x, Data T l x → m'.mem x = m.mem x := by
  obtain ⟨m1, s1, h16, h17, h29, hmem, f31, f16, f17, f18, f19⟩ := head_steps (base := base) (call := call) ha hb m
  have hdata : ∀ x, Data T l x → m1.mem x = m.mem x := fun x hx => hmem x (hd x hx)
  have ht1 : Table be m1 T l := Table.congr (fun i hi => hdata _ (Or.inl ⟨i, hi, rfl⟩)) ht
  have hfun : l.flatMap (Sec.functions be m1) = l.flatMap (Sec.functions be m) := by
    simp only [List.flatMap_def]
    congr 1
    exact List.map_congr_left fun s hs => functions_congr fun i hi => hdata _ (Or.inr ⟨s, hs, i, hi, rfl⟩)
  obtain ⟨m2, i2, s2⟩ := outer_loop (be := be) (a := a) (b := b) (base := base) hk l (t := T) (m := m1) (m₀ := m1) hl hn hc ht1
    (fun x hx => Or.inl hx) ⟨rfl, rfl, fun _ _ => rfl⟩ h16 h17
  have hfr : ∀ k, k + 4 ≤ 20 → loadWord be m2 (m2.reg 29 + BitVec.ofNat 32 k) = loadWord be m1 (m1.reg 29 + BitVec.ofNat 32 k) := by
    intro k hk
    rw [i2.sp]
    refine i2.load fun i hi => Or.inr ⟨k + i, by omega, ?_⟩
    rw [ofNat_add, h29]
  obtain ⟨m3, m4, s3, hr, r16, r17, r18, r19, r29, rmem⟩ := tail_run (be := be) (a := a) (b := b) (base := base) (call := call) m2
  rw [hfun] at s2
  have hrun := ((s1.trans s2).trans s3).runs hr
  have e31 : loadWord be m2 (m2.reg 29 + 0#32) = m.reg 31 := (hfr 0 (by omega)).trans f31
  rw [e31] at hrun
  refine ⟨m4, by simpa using hrun, ?_, ?_⟩
  · intro r hr
    simp only [List.mem_cons, List.not_mem_nil, or_false] at hr
    rcases hr with rfl | rfl | rfl | rfl | rfl
    · exact r16.trans ((hfr 4 (by omega)).trans f16)
    · exact r17.trans ((hfr 8 (by omega)).trans f17)
    · exact r18.trans ((hfr 12 (by omega)).trans f18)
    · exact r19.trans ((hfr 16 (by omega)).trans f19)
    · rw [r29, i2.sp, h29, BitVec.sub_add_cancel]
  · intro x hx
    rw [rmem, i2.mem x (Or.inl hx), hdata x hx]

/-! ### The text -/

/-- Names of labels as they are generated. -/
def ctorLabels : List Char × List Char × List Char := ("__armips_label_00000001__".toList, "__armips_label_00000002__".toList, "__armips_label_00000003__".toList)

/-- The lines of the function for one section of two constructors. -/
def ctorLines : List (List Char) := linesOf (mipsText ctorLabels.1 ctorLabels.2.1 ctorLabels.2.2 [("__armips_label_00000000__".toList, 8)])

/-- The lines that are not instructions, or are the two `li`. -/
theorem mips_ctor_other_lines : ctorLines.length = 31 ∧
    (ctorLines[7]?).map String.ofList = some "\tli\t\ts0,__armips_label_00000001__" ∧
    (ctorLines[8]?).map String.ofList = some "\tli\t\ts1,__armips_label_00000001__+8" ∧
    (ctorLines[9]?).map String.ofList = some "\t__armips_label_00000002__:" ∧
    (ctorLines[13]?).map String.ofList = some "\t__armips_label_00000003__:" ∧
    (ctorLines[28]?).map String.ofList = some "\t__armips_label_00000001__:" ∧
    (ctorLines[29]?).map String.ofList = some "\t.word\t__armips_label_00000000__,__armips_label_00000000__+0x00000008" := by decide +kernel

/-- The lines behind the two loop labels, without the labels. -/
def ctorRest : List (List Char) := (ctorLines.drop 10).take 3 ++ (ctorLines.drop 14).take 14

/-- The processors the function is for. -/
def ctorVersions : List Mips.Version := [.psx, .n64, .ps2, .psp]

theorem ctor_head_fixed : ∀ v ∈ ctorVersions, ∀ i ∈ List.range 6, ∀ l w, (ctorLines.drop 1)[i]? = some l → mipsHead[i]? = some w →
    lineWord v (fun _ => none) 0 l = some w ∧ isFixed v l = true := by
  have h : ∀ v ∈ ctorVersions, ((ctorLines.drop 1).zip mipsHead).all (fun p => lineWord v (fun _ => none) 0 p.1 == some p.2 && isFixed v p.1) = true := by
    decide +kernel
  intro v hv i hi l w hl hw
  have := List.all_eq_true.mp (h v hv) (l, w) (List.mem_iff_getElem?.mpr ⟨i, by rw [List.getElem?_zip_eq_some]; exact ⟨hl, hw⟩⟩)
  simpa using this

theorem ctor_rest_fixed : ∀ v ∈ ctorVersions, ((List.range 17).zip (ctorRest.zip mipsRest)).all (fun p =>
    if p.1 = 6 then isBranch v (lit "__armips_label_00000003__") 0xfffc#32 p.2.2 p.2.1
    else if p.1 = 8 then isBranch v (lit "__armips_label_00000002__") 0xfff7#32 p.2.2 p.2.1
    else lineWord v (fun _ => none) 0 p.2.1 == some p.2.2 && isFixed v p.2.1) = true := by decide +kernel

/-- The lines in front of the two `li` are assembled to the words at the start of `mipsCode`, at any address. -/
theorem mips_ctor_head {v : Mips.Version} (hv : v ∈ ctorVersions) {labels : Str → Option Int} {va : Int} {i : Nat} {l : List Char} {w : BitVec 32}
    (hi : i < 6) (hl : (ctorLines.drop 1)[i]? = some l) (hw : mipsHead[i]? = some w) : lineWord v labels va l = some w :=
  let h := ctor_head_fixed v hv i (by simpa using hi) l w hl hw
  lineWord_fixed h.1 h.2 labels va

/-- The lines of the loops and behind them are assembled to the words at the end of `mipsCode`, wherever the loops are: `va` is the address of the first
of these lines, and the two labels have the addresses of the lines they are in front of. -/
theorem mips_ctor_rest {v : Mips.Version} (hv : v ∈ ctorVersions) {labels : Str → Option Int} {va : Int}
    (ho : labels (lit "__armips_label_00000002__") = some va) (hi : labels (lit "__armips_label_00000003__") = some (va + 12))
    {i : Nat} {l : List Char} {w : BitVec 32} (hl : ctorRest[i]? = some l) (hw : mipsRest[i]? = some w) : lineWord v labels (va + 4 * i) l = some w := by
  have hlen : i < 17 := by
    have := (List.getElem?_eq_some_iff.mp hw).1
    simpa [mipsRest] using this
  have hm : (i, l, w) ∈ (List.range 17).zip (ctorRest.zip mipsRest) :=
    List.mem_iff_getElem?.mpr ⟨i, by simp [List.getElem?_zip_eq_some, hl, hw, hlen]⟩
  have := List.all_eq_true.mp (ctor_rest_fixed v hv) _ hm
  simp only [] at this
  split at this
  · rename_i h; subst h
    exact lineWord_branch this (k := 12) (hi.trans (congrArg some (by omega))) (by decide) (by omega)
  · split at this
    · rename_i h; subst h
      exact lineWord_branch this (k := 32) (ho.trans (congrArg some (by omega))) (by decide) (by omega)
    · simp only [Bool.and_eq_true, beq_iff_eq] at this
      exact lineWord_fixed this.1 this.2 labels _

theorem ctor_rest_all : ctorRest.length = mipsRest.length := by decide +kernel

/-! ### A case -/

/-- A memory with a table at 0x1000 for a section of two constructors at 0x2000 and one of one at 0x3000. -/
def ctorMachine : Machine :=
  let w (m : Machine) (p : Nat × Nat) : Machine := storeWord false m (BitVec.ofNat 32 p.1) (BitVec.ofNat 32 p.2)
  let m := [(0x1000, 0x2000), (0x1004, 0x2008), (0x1008, 0x3000), (0x100C, 0x3004), (0x2000, 0x400), (0x2004, 0x500), (0x3000, 0x600)].foldl w
    ⟨fun _ => 0#32, fun _ => 0#8⟩
  ((m.set 29 0x8000#32).set 31 0x77C#32).set 16 5#32

/-- The two `li` for that table. -/
def ctorLi : List (BitVec 32) × List (BitVec 32) := ([0x24101000#32], [0x24111010#32])

theorem ctor_machine_small : ∀ x : Nat, x < 0x3004 → ¬ Frame (ctorMachine.reg 29 - 32#32) (BitVec.ofNat 32 x) := by
  rintro x hx ⟨i, hi, he⟩
  have := congrArg BitVec.toNat he
  have h29 : ctorMachine.reg 29 - 32#32 = 0x7fe0#32 := by decide
  rw [h29] at this
  simp only [BitVec.toNat_add, BitVec.toNat_ofNat] at this
  omega

example : ∃ m', Runs false (mipsCode ctorLi.1 ctorLi.2) 0x700#32 (fun f m => m.set 2 f) ctorMachine [0x400#32, 0x500#32, 0x600#32] 0x77C#32 m' ∧
    m'.reg 16 = 5#32 := by
  obtain ⟨m', h1, h2, -⟩ := mips_ctor_calls (be := false) (a := ctorLi.1) (b := ctorLi.2) (base := 0x700#32) (T := 0x1000#32)
    (call := fun f m => m.set 2 f) (l := [⟨0x2000#32, 2⟩, ⟨0x3000#32, 1⟩]) (m := ctorMachine) (fun m => rfl) (fun m => rfl) (by simp) (by decide)
    (by simp) ⟨by decide +kernel, by decide +kernel, by decide +kernel, by decide +kernel, trivial⟩ (by
      rintro x (⟨i, hi, rfl⟩ | ⟨s, hs, i, hi, rfl⟩)
      · simp only [List.length_cons, List.length_nil] at hi
        rw [show (0x1000#32) = BitVec.ofNat 32 0x1000 from rfl, ← BitVec.ofNat_add]
        exact ctor_machine_small _ (by omega)
      · simp only [List.mem_cons, List.not_mem_nil, or_false] at hs
        rcases hs with rfl | rfl
        · simp only at hi ⊢
          rw [show (0x2000#32) = BitVec.ofNat 32 0x2000 from rfl, ← BitVec.ofNat_add]
          exact ctor_machine_small _ (by omega)
        · simp only at hi ⊢
          rw [show (0x3000#32) = BitVec.ofNat 32 0x3000 from rfl, ← BitVec.ofNat_add]
          exact ctor_machine_small _ (by omega))
    (fun f m => ⟨fun r hr => set_other _ _ (by rintro rfl; simp at hr), fun x _ => by rw [set_mem]⟩)
  refine ⟨m', ?_, (h2 16 (by simp)).trans (by decide)⟩
  have e : [(⟨0x2000#32, 2⟩ : Sec), ⟨0x3000#32, 1⟩].flatMap (Sec.functions false ctorMachine) = [0x400#32, 0x500#32, 0x600#32] := by decide +kernel
  rw [e, show ctorMachine.reg 31 = 0x77C#32 by decide +kernel] at h1
  exact h1

/-! ### Findings -/

/-- A section of constructors that is empty is not skipped: the loops test behind the first call. Whatever the functions do, the code calls the word that
follows, which belongs to no section. -/
theorem mips_ctor_empty_wrong {be : Bool} {a b : List (BitVec 32)} {base T A : BitVec 32} {call : BitVec 32 → Machine → Machine} {m : Machine}
    (ha : ∀ m, exec be a m = some (m.set 16 T)) (hb : ∀ m, exec be b m = some (m.set 17 (T + 8#32))) (ht : Table be m T [⟨A, 0⟩])
    (hd : ∀ x, Data T [⟨A, 1⟩] x → ¬ Frame (m.reg 29 - 32#32) x) (hk : Keeps call fun x => Data T [⟨A, 1⟩] x)
    {calls : List (BitVec 32)} {ret : BitVec 32} {m' : Machine} (hr : Runs be (mipsCode a b) base call m calls ret m') :
    calls.head? = some (loadWord be m A) := by
  obtain ⟨m1, s1, h16, h17, h29, hmem, -⟩ := head_steps (base := base) (call := call) ha hb m
  have hdata : ∀ x, Data T [⟨A, 1⟩] x → m1.mem x = m.mem x := fun x hx => hmem x (hd x hx)
  have hT : ∀ i, i < 8 → Data T [⟨A, 1⟩] (T + BitVec.ofNat 32 i) := fun i hi => Or.inl ⟨i, by simpa using hi, rfl⟩
  have hA : ∀ i, i < 4 → Data T [⟨A, 1⟩] (A + BitVec.ofNat 32 i) := fun i hi => Or.inr ⟨_, List.mem_cons_self, i, by simpa using hi, rfl⟩
  obtain ⟨m2, s2, i2, e18⟩ := outer_first (be := be) (a := a) (b := b) (base := base) (call := call) m1
  have e : m2.reg 18 = A := by
    rw [e18, h16, load_congr fun i hi => hdata _ (hT i (by omega)), ht.1]
  obtain ⟨m3, -, -, -, -, s3⟩ := inner_once (be := be) (a := a) (b := b) (base := base) (P := fun x => Data T [⟨A, 1⟩] x) (m₀ := m2) (m := m2) hk
    ⟨rfl, rfl, fun _ _ => rfl⟩ (fun i hi => by rw [e]; exact hA i hi)
  have hf : loadWord be m2 (m2.reg 18) = loadWord be m A := by
    rw [e]
    exact load_congr fun i hi => by rw [i2, hdata _ (hA i hi)]
  have := ((s1.trans s2).trans s3).head hr
  rw [this]
  simp [hf]

/-- A constructor may, by the usual calling convention, store its arguments in the first 16 bytes above its stack pointer, which its caller provides. The
function keeps its return address there: with such a constructor it returns to another address (here 0, instead of 0x77C). -/
theorem mips_ctor_home_wrong :
    (go false (mipsCode ctorLi.1 ctorLi.2) 0x700#32 (fun _ m => storeWord false m (m.reg 29) (m.reg 5)) 100 0 ctorMachine).map (fun r => (r.1, r.2.1)) =
      some ([0x400#32, 0x500#32, 0x600#32], 0#32) := by decide +kernel

/-- On a PlayStation the constructor's address is used in the instruction behind the one that loads it, when it is not yet available: the assembler
reports its own function. -/
theorem mips_ctor_delay_wrong : ∃ lw ow j oj, (ctorLines[14]?).bind (lineItem .psx) = some (.instr lw ow) ∧
    (ctorLines[15]?).bind (lineItem .psx) = some (.instr j oj) ∧
    ∀ st, Mips.hazard ⟨.psx, false, false⟩ j oj.regs (Mips.nextState ⟨.psx, false, false⟩ lw ow.regs st) = true := by
  have h : (match (ctorLines[14]?).bind (lineItem .psx), (ctorLines[15]?).bind (lineItem .psx) with
    | some (.instr lw ow), some (.instr _ oj) => lw.has .delayrt && ow.regs .grt == some 4 && oj.regs .grs == some 4
    | _, _ => false) = true := by decide +kernel
  revert h
  cases (ctorLines[14]?).bind (lineItem .psx) with
  | none => simp
  | some i =>
    cases (ctorLines[15]?).bind (lineItem .psx) with
    | none => cases i <;> simp
    | some j =>
      cases i with
      | «macro» _ _ => simp
      | instr lw ow =>
        cases j with
        | «macro» _ _ => simp
        | instr jr oj =>
          intro h
          simp only [Bool.and_eq_true, beq_iff_eq] at h
          refine ⟨lw, ow, jr, oj, rfl, rfl, fun st => ?_⟩
          simp [Mips.hazard, Mips.nextState, Mips.Config.hasLoadDelay, Mips.delayed, h]

/-- The ARM text with all its variables. -/
def armCtorLines : List (List Char) := linesOf (instantiate (joined armTemplate) [("%ctorTable%".toList, "__armips_label_00000001__".toList),
  ("%ctorTableSize%".toList, "8".toList), ("%outerLoopLabel%".toList, "__armips_label_00000002__".toList),
  ("%innerLoopLabel%".toList, "__armips_label_00000003__".toList), ("%stubName%".toList, "__armips_label_00000004__".toList),
  ("%simpleMode%".toList, "0".toList), ("%ctorContent%".toList, "__armips_label_00000000__,__armips_label_00000000__+0x00000008".toList)])

/-- The tokens of a line. -/
def lineTokens (l : List Char) : Option (List ExprParse.Tok) :=
  match Tokenizer.tokenize (fun _ => none) [l] with
  | .ok ts => some ts
  | _ => none

/-- Nothing left over from earlier lines. -/
def ctorStale : ArmLine.Vars := ⟨0, 0, 0, 0, 0, 0, 0, 0, 0, .int 0, .int 0, .int 0, 0, 0, false, 0, none, false, false, false⟩

/-- The ARM function is never assembled: a variable is spelled differently where it is used, so that it is left in the text, and the line is no
instruction in either mode. The line with the table ends in a quotation mark that starts a string. -/
theorem arm_ctor_wrong : (armCtorLines[17]?).map String.ofList = some "\tblt\t%innerLooplabel%" ∧
    (∀ v ∈ [Arm.Version.gba, .nds, .threeDS, .little, .big], ((armCtorLines[17]?).bind lineTokens).map (fun ts =>
      ((ArmLine.armLine ⟨1, 2, fun _ => false⟩ v (fun _ => ctorStale) ts).isNone, (ArmLine.thumbLine ⟨1, 2, fun _ => false⟩ v (fun _ => ctorStale) 0 ts).isNone)) =
      some (true, true)) ∧
    (armCtorLines[30]?).map String.ofList = some "\t.word __armips_label_00000000__,__armips_label_00000000__+0x00000008\"" := by decide +kernel

/-- The SuperH function takes the end of a section from behind the end of the table: `r8` goes through the table and `r9` is its end, but the word is
loaded from `r9 + 4`. -/
theorem sh_ctor_wrong : ((linesOf (joined shTemplate))[12]?).map String.ofList = some "\tmov.l\t@(4,r9),r11" ∧
    (((linesOf (joined shTemplate))[12]?).bind lineTokens).bind (fun ts => (ShLine.parseOpcode ⟨1, 2, fun _ => false⟩ ts).map fun r => (r.1.2.grs, r.1.2.grt)) = some (9, 11) := by
  decide +kernel

end Armips.Props
