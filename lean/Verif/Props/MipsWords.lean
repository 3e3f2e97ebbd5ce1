import Verif.Lemmas.MipsRun
import Verif.Spec.MipsSample
import Verif.Props.ThumbMore
/-!
# C28: the words of MIPS instructions

`Spec.Mips` says where the manuals put each operand (`pieces`, `Holds`) and gives the complete layout of the words of the CPU,
its coprocessors and the RSP (`layout`). `StoresImm` and `StoresSec` relate the numbers in the fields to the values of the
expressions written.
-/
namespace Armips.Props
open Armips.Mips Spec Spec.Mips Spec.Instr Sample

theorem mips_emits_of {op : Op} {o : Operands} {k : Checked} {s : InstrSem} {c : Ctx} {st : ArchState}
    (h : Accepts s c st (Mips.outcome op o (.ok k))) : Mips.Emits s c st k.nop (Mips.encode op o k) := by
  refine ⟨_, h, fun p => ?_⟩
  simp only [Mips.outcome, written]
  cases k.nop <;> rfl

theorem mips_emits_inv {E : Env} {cfg : Config} {op : Op} {o : Operands} {c : Ctx} {st : ArchState} {nop : Bool}
    {w : BitVec 32} (h : Mips.Emits (Mips.sem E cfg op o) c st nop w) :
    ∃ prim sec, nop = (hazard cfg op (omitted op o.regs) st && cfg.fixLoadDelay) ∧
      w = Mips.encode op o ⟨nop, prim, sec⟩ ∧ CheckedFor E op o c prim sec ∧ ¬ SlotError cfg op st := by
  obtain ⟨out, ha, hw⟩ := h
  obtain ⟨prim, sec, rfl, hc, hs⟩ := accepts_mips ha
  have := hw none
  simp only [Mips.outcome, written] at this
  generalize (hazard cfg op (omitted op o.regs) st && cfg.fixLoadDelay) = n at *
  refine ⟨prim, sec, ?_⟩
  cases n <;> cases nop <;>
    simp only [Bool.false_eq_true, if_false, if_true, List.map_cons, List.map_nil, Mips.unit, List.nil_append,
      List.cons_append, List.cons.injEq, Prod.mk.injEq, true_and, and_true, reduceCtorEq, and_false] at this
  · exact ⟨rfl, BitVec.eq_of_toNat_eq (by omega), hc, hs⟩
  · exact ⟨rfl, BitVec.eq_of_toNat_eq (by omega), hc, hs⟩

/-- C28. An accepted instruction writes one word, or a `nop` and one word. -/
theorem mips_writes_word {E : Env} {cfg : Config} {op : Op} {o : Operands} {c : Ctx} {st : ArchState} {out : InstrOut}
    (h : Accepts (Mips.sem E cfg op o) c st out) : ∃ nop w, Mips.Emits (Mips.sem E cfg op o) c st nop w := by
  have h' := h
  obtain ⟨prim, sec, rfl, -, -⟩ := accepts_mips h
  exact ⟨_, _, mips_emits_of h'⟩

/-- C28. The word of an accepted instruction carries each operand in its field and has the fixed bits of the instruction
elsewhere. This is for all instructions but three, which have a fixed bit in the field of an operand, and for bit fields inside
the register. -/
theorem mips_word_holds {E : Env} {cfg : Config} {op : Op} {o : Operands} {c : Ctx} {st : ArchState} {nop : Bool} {w : BitVec 32}
    (hm : op ∈ opcodes) (ho : op.name ∉ ["vcmovf.S", "vmfvc.S", "vmtvc.S"]) (hv : Mips.Valid op o)
    (hi : FieldInside E c op o) (h : Mips.Emits (Mips.sem E cfg op o) c st nop w) :
    ∃ imm sec, StoresImm E c op o imm ∧ StoresSec E c op o imm sec ∧ Holds op o imm sec w := by
  obtain ⟨prim, sec, -, rfl, hc, -⟩ := mips_emits_inv h
  obtain ⟨hs, hsf⟩ := secStored hm hv hc hi
  exact ⟨_, _, immStored hm hc, hs, encode_holds (k := ⟨nop, prim, sec⟩) hm ho hv (primFits hm hc) hsf⟩

/-- C28. The word has exactly the fields that the manuals give for the mnemonic and its operands. -/
theorem mips_word_layout {E : Env} {cfg : Config} {op : Op} {o : Operands} {c : Ctx} {st : ArchState} {nop : Bool} {w : BitVec 32}
    {l : Layout} (hm : op ∈ opcodes) (hl : layout op = some l)
    (hw : ¬ (op.mask = "d" ∧ op.name ∈ ["wsbh", "wsbw", "seb", "bitrev", "seh"])) (hv : Mips.Valid op o)
    (hi : FieldInside E c op o) (h : Mips.Emits (Mips.sem E cfg op o) c st nop w) :
    ∃ imm sec, StoresImm E c op o imm ∧ StoresSec E c op o imm sec ∧ HasFields w (l.eval o imm sec) ∧
      Covers 32 (l.eval o imm sec) = true := by
  obtain ⟨prim, sec, -, rfl, hc, -⟩ := mips_emits_inv h
  obtain ⟨hs, hsf⟩ := secStored hm hv hc hi
  have hp := primFits hm hc
  have ho : op.name ∉ odd := by
    intro hodd
    have e1 : ¬ "vcmovf.S" = "" := by decide
    simp only [odd, List.mem_cons, List.not_mem_nil, or_false] at hodd
    have htab := odd_layout op hm
    simp only [odd, List.contains_cons, List.contains_nil, Bool.or_false, Bool.or_eq_true, beq_iff_eq, Bool.not_eq_true',
      hl, Option.isNone_some, Bool.false_eq_true, or_false] at htab
    rcases hodd with h | h | h <;> simp [h] at htab
  have hw' : wrong op = false := by
    cases hx : wrong op
    · rfl
    · exfalso
      unfold wrong at hx
      simp only [Bool.and_eq_true, beq_iff_eq, List.any_eq_true, permutations] at hx
      obtain ⟨h1, x, hx, h2⟩ := hx
      apply hw ⟨h1, ?_⟩
      rw [← h2]
      simp only [List.mem_cons, List.not_mem_nil, or_false] at hx
      rcases hx with rfl | rfl | rfl | rfl | rfl <;> decide
  have := holds_layout hm hv (encode_holds (k := ⟨nop, prim, sec⟩) hm ho hv hp hsf) (fun t ht => (hp t ht).1) hsf hl hw'
  exact ⟨_, _, immStored hm hc, hs, this⟩

/-- C28. The manuals' layouts are given for all instructions but those of the VFPU and `rsqrt.w.s`. -/
theorem mips_layouts_complete {op : Op} (hm : op ∈ opcodes) (h : layout op = none) :
    .reg .vrs ∈ op.syms ∨ .reg .vrt ∈ op.syms ∨ .reg .vrd ∈ op.syms ∨ op.name ∈ ["vpfxs", "vpfxt", "vpfxd", "rsqrt.w.s"] := by
  obtain ⟨_, _, _, _, _, hlo⟩ := rowFacts hm
  unfold layoutOk at hlo
  rw [h] at hlo
  simp only [vfpuOp, Bool.or_eq_true, List.contains_iff_mem, beq_iff_eq] at hlo
  rcases hlo with (((h | h) | h) | h) | h
  · exact .inl h
  · exact .inr (.inl h)
  · exact .inr (.inr (.inl h))
  · right; right; right
    simp only [List.mem_cons, List.not_mem_nil, or_false] at h ⊢
    rcases h with h | h | h <;> simp [h]
  · simp [h]

/-- C28. The operands are determined by the word: two accepted uses of the same instruction with the same word have the same
registers, the same condition, the same vector size (unless the mnemonic fixes it), and the same numbers in the fields of
immediates. -/
theorem mips_operands_determined {E : Env} {cfg : Config} {op : Op} {o o' : Operands} {c c' : Ctx} {st st' : ArchState}
    {nop nop' : Bool} {w : BitVec 32} (hm : op ∈ opcodes) (ho : op.name ∉ ["vcmovf.S", "vmfvc.S", "vmtvc.S"])
    (hv : Mips.Valid op o) (hv' : Mips.Valid op o') (hi : FieldInside E c op o) (hi' : FieldInside E c' op o')
    (h : Mips.Emits (Mips.sem E cfg op o) c st nop w) (h' : Mips.Emits (Mips.sem E cfg op o') c' st' nop' w) :
    (∀ s, o.regs s = o'.regs s) ∧ o.cond = o'.cond ∧ (op.fixedSize = false → o.size = o'.size) ∧
      ∃ imm sec, StoresImm E c op o imm ∧ StoresImm E c' op o' imm ∧ StoresSec E c op o imm sec ∧
        StoresSec E c' op o' imm sec := by
  obtain ⟨prim, sec, -, rfl, hc, -⟩ := mips_emits_inv h
  obtain ⟨prim', sec', -, hw, hc', -⟩ := mips_emits_inv h'
  obtain ⟨hs, hsf⟩ := secStored hm hv hc hi
  obtain ⟨hs', hsf'⟩ := secStored hm hv' hc' hi'
  have hp := primFits hm hc
  have hp' := primFits hm hc'
  have H := encode_holds (k := ⟨nop, prim, sec⟩) hm ho hv hp hsf
  have H' := encode_holds (k := ⟨nop', prim', sec'⟩) hm ho hv' hp' hsf'
  rw [← hw] at H'
  simp only at H H'
  obtain ⟨_, hsh, himm, hheld, _, _⟩ := rowFacts hm
  have same : ∀ it, ∀ p ∈ pieces op, p.item = it →
      value op o prim.toNat sec.toNat it / 2 ^ p.src % 2 ^ p.len = value op o' prim'.toNat sec'.toNat it / 2 ^ p.src % 2 ^ p.len := by
    intro it p hp he
    subst he
    rw [← H.operands p hp, ← H'.operands p hp]
  have hall := List.all_eq_true.1 hheld
  have regv : ∀ (o : Operands) (s : Slot), .reg s ∈ op.syms → regValue op o s = (o.regs s).getD 0 := by
    intro o s hs
    unfold regValue
    cases hf : (shortForms op).find? (fun x => x.1 == s) with
    | none => rfl
    | some x =>
      exfalso
      have hm' := List.mem_of_find?_eq_some hf
      have he : x.1 = s := by simpa using List.find?_some hf
      unfold shortOk at hsh
      cases hsf : shortForms op with
      | nil => rw [hsf] at hm'; cases hm'
      | cons a r =>
        cases r with
        | cons _ _ => rw [hsf] at hsh; cases hsh
        | nil =>
          rw [hsf] at hsh hm'
          simp at hsh hm'
          subst hm'
          rw [he] at hsh
          exact hsh.1 hs
  refine ⟨?_, ?_, ?_, ?_⟩
  · intro s
    by_cases hsym : Sym.reg s ∈ op.syms
    · obtain ⟨n, hn⟩ := Option.isSome_iff_exists.1 ((hv.named s).2 hsym)
      obtain ⟨n', hn'⟩ := Option.isSome_iff_exists.1 ((hv'.named s).2 hsym)
      have hh := hall _ hsym
      simp only at hh
      have := testBit_of_held hh (hv.range s n hn) (hv'.range s n' hn') (fun p hp he => by
        have := same _ p hp he
        simp only [value, regv _ s hsym, hn, hn', Option.getD_some] at this
        exact this)
      rw [hn, hn', this]
    · have h1 : o.regs s = none := by
        cases hx : o.regs s
        · rfl
        · exact absurd ((hv.named s).1 (by simp [hx])) hsym
      have h2 : o'.regs s = none := by
        cases hx : o'.regs s
        · rfl
        · exact absurd ((hv'.named s).1 (by simp [hx])) hsym
      rw [h1, h2]
  · by_cases hsym : Sym.cond ∈ op.syms
    · obtain ⟨n, hn⟩ := Option.isSome_iff_exists.1 (hv.cond.2 hsym)
      obtain ⟨n', hn'⟩ := Option.isSome_iff_exists.1 (hv'.cond.2 hsym)
      have hh := hall _ hsym
      simp only at hh
      have := testBit_of_held (n := 4) hh (hv.condRange n hn) (hv'.condRange n' hn') (fun p hp he => by
        have := same _ p hp he
        simp only [value, hn, hn', Option.getD_some] at this
        exact this)
      rw [hn, hn', this]
    · have h1 : o.cond = none := by
        cases hx : o.cond
        · rfl
        · exact absurd (hv.cond.1 (by simp [hx])) hsym
      have h2 : o'.cond = none := by
        cases hx : o'.cond
        · rfl
        · exact absurd (hv'.cond.1 (by simp [hx])) hsym
      rw [h1, h2]
  · intro hfix
    by_cases hsym : Sym.size ∈ op.syms
    · obtain ⟨n, hn⟩ := Option.isSome_iff_exists.1 (hv.size.2 hsym)
      obtain ⟨n', hn'⟩ := Option.isSome_iff_exists.1 (hv'.size.2 hsym)
      have hh := hall _ hsym
      simp only [hfix, Bool.false_or] at hh
      have := testBit_of_held (n := 2) hh (hv.sizeRange n hn) (hv'.sizeRange n' hn') (fun p hp he => by
        have := same _ p hp he
        simp only [value, hn, hn', Option.getD_some] at this
        exact this)
      rw [hn, hn', this]
    · have h1 : o.size = none := by
        cases hx : o.size
        · rfl
        · exact absurd (hv.size.1 (by simp [hx])) hsym
      have h2 : o'.size = none := by
        cases hx : o'.size
        · rfl
        · exact absurd (hv'.size.1 (by simp [hx])) hsym
      rw [h1, h2]
  · have hpe : prim = prim' := by
      cases ht : primType op.syms with
      | none =>
        have a := hc.primOk
        have b := hc'.primOk
        rw [ht] at a b
        rw [show prim = 0#32 from a, show prim' = 0#32 from b]
      | some t =>
        obtain ⟨l1, l2⟩ := hp t ht
        obtain ⟨l1', l2'⟩ := hp' t ht
        have hsym : .imm t ∈ op.syms := by simpa [allSyms] using (mem_imm himm).2 ht
        have hh := hall _ hsym
        simp only at hh
        apply BitVec.eq_of_toNat_eq
        split at hh
        · rename_i hmx
          simp only [Bool.and_eq_true, beq_iff_eq, List.contains_iff_mem] at hh
          obtain ⟨⟨rfl, -⟩, hpc⟩ := hh
          have := same _ _ hpc rfl
          have l2 := l2 hmx
          have l2' := l2' hmx
          simp only [value, ImmType.bits] at this l1 l1'
          omega
        · exact testBit_of_held hh l1 l1' (fun p hp he => same _ p hp he)
    have hse : sec = sec' := by
      cases ht : secType op.syms with
      | none =>
        have a := hc.secOk
        have b := hc'.secOk
        rw [ht] at a b
        rw [show sec = 0#32 from a, show sec' = 0#32 from b]
      | some t =>
        have hsym : .sec t ∈ op.syms := by simpa [allSyms] using (mem_sec himm).2 ht
        have hh := hall _ hsym
        have l := hsf t ht
        have l' := hsf' t ht
        apply BitVec.eq_of_toNat_eq
        cases t <;> exact testBit_of_held hh l l' (fun p hp he => same _ p hp he)
    subst hpe hse
    exact ⟨_, _, immStored hm hc, immStored hm hc', hs, hs'⟩

/-! ## Concrete instructions -/

theorem mips_valid_of {op : Op} {o : Operands} (h : validCheck op o = true) : Mips.Valid op o := by
  unfold validCheck at h
  simp only [Bool.and_eq_true, List.all_eq_true] at h
  obtain ⟨⟨⟨h1, h2⟩, h3⟩, h4⟩ := h
  have hs := fun s => h1 s (by cases s <;> decide)
  refine ⟨fun s => ?_, fun s n hn => ?_, ?_, fun n hn => ?_, ?_, fun n hn => ?_, fun hb => ?_⟩
  · have := (hs s).1
    rw [beq_iff_eq] at this
    rw [this, List.contains_iff_mem]
  · have := (hs s).2
    rw [hn] at this
    simpa using this
  · have := h2.1
    rw [beq_iff_eq] at this
    rw [this, List.contains_iff_mem]
  · have := h2.2
    rw [hn] at this
    simpa using this
  · have := h3.1
    rw [beq_iff_eq] at this
    rw [this, List.contains_iff_mem]
  · have := h3.2
    rw [hn] at this
    simpa using this
  · simp only [Bool.or_eq_true, Bool.not_eq_true', Bool.and_eq_true, decide_eq_true_eq] at h4
    rcases h4 with h4 | h4
    · rw [← List.contains_iff_mem, h4] at hb
      cases hb
    · simpa using h4



/-- `addiu a0,a1,-3`, `addu v0,a0,a1` and `ins a0,a1,4,8` meet the hypotheses. -/
example : Mips.Emits (Mips.sem Sample.env psx rAddiu (maddiu (-3))) ctx idle false 0x24A4FFFD#32 :=
  ⟨_, ⟨_, [], rfl, fun _ h => by cases h⟩, fun _ => rfl⟩
example : Mips.Valid rAddiu (maddiu (-3)) := mips_valid_of rfl
example : rAddiu ∈ opcodes := rows_mem _ (by decide)
example : layout rAddiu = some (iType 9 (.reg .grs) (.reg .grt) .imm) := by decide +kernel
example : Mips.Emits (Mips.sem Sample.env psx rAddu maddu) ctx idle false 0x00851021#32 :=
  ⟨_, ⟨_, [], rfl, fun _ h => by cases h⟩, fun _ => rfl⟩
example : Mips.Emits (Mips.sem Sample.env psp rIns (mins 4 8)) ctx idle false 0x7CA45904#32 :=
  ⟨_, ⟨_, [], rfl, fun _ h => by cases h⟩, fun _ => rfl⟩
example : Mips.Valid rIns (mins 4 8) := mips_valid_of rfl
example : FieldInside Sample.env ctx rIns (mins 4 8) := by
  refine And.intro (fun h => by cases h) (fun _ x y hx hy => ?_)
  have e1 : Evaluates Sample.env .mips ctx (.int 8) (.int x) := hx
  have e2 : Evaluates Sample.env .mips ctx (.int 4) (.int y) := hy
  have r1 : Evaluates Sample.env .mips ctx (.int 8) (.int 8) := ⟨[], rfl, fun _ h => by cases h⟩
  have r2 : Evaluates Sample.env .mips ctx (.int 4) (.int 4) := ⟨[], rfl, fun _ h => by cases h⟩
  cases evaluates_unique e1 r1
  cases evaluates_unique e2 r2
  decide

/-! ## Instructions with a wrong word -/

/-- A bit field that ends beyond the register is accepted, and its end spills into the field of a register: `ins a0,a1,16,32`
is written with `a1` in the place of `a0`. -/
theorem mips_ins_spills : ∃ w, Mips.Emits (Mips.sem Sample.env psp rIns (mins 16 32)) ctx idle false w ∧
    (mins 16 32).regs .grt = some 4 ∧ field w 16 5 = 5 :=
  ⟨0x7CA57C04#32, ⟨_, ⟨_, [], rfl, fun _ h => by cases h⟩, fun _ => rfl⟩, rfl, rfl⟩

/-- The short form of `seb` with one register reads `r0`, not that register. -/
theorem mips_seb_short_wrong : ∃ w, Mips.Emits (Mips.sem Sample.env psp rSeb mseb) ctx idle false w ∧
    field w 11 5 = 4 ∧ field w 16 5 = 0 :=
  ⟨_, ⟨_, ⟨_, [], rfl, fun _ h => by cases h⟩, fun p => rfl⟩, rfl, rfl⟩

/-- The number of the condition of `vcmovt` is not limited to three bits: number 8 gives the opposite condition. -/
theorem mips_vcmov_clash : ∃ w,
    Mips.Emits (Mips.sem Sample.env psp rVcmovt (mvcmov 8)) ctx idle false w ∧
    Mips.Emits (Mips.sem Sample.env psp rVcmovf (mvcmov 0)) ctx idle false w :=
  ⟨0xD2A80281#32, ⟨_, ⟨_, [], rfl, fun _ h => by cases h⟩, fun p => rfl⟩, ⟨_, ⟨_, [], rfl, fun _ h => by cases h⟩, fun p => rfl⟩⟩

/-- The size of `vmtvc` is lost: a bit of its field is fixed. -/
theorem mips_vmtvc_size_lost : ∃ w,
    Mips.Emits (Mips.sem Sample.env psp rVmtvc (mvmtvc 0)) ctx idle false w ∧
    Mips.Emits (Mips.sem Sample.env psp rVmtvc (mvmtvc 1)) ctx idle false w :=
  ⟨0xD0510283#32, ⟨_, ⟨_, [], rfl, fun _ h => by cases h⟩, fun p => rfl⟩, ⟨_, ⟨_, [], rfl, fun _ h => by cases h⟩, fun p => rfl⟩⟩

end Armips.Props
