import Verif.Lemmas.MipsDelay
import Verif.Props.MipsWords
/-!
# C37: load delays

With the repair of load delays turned on (`.fixloaddelay`), no word that is written for the PlayStation
directly follows a load of a register that it reads.
-/
namespace Armips.Props
open Armips.Mips Spec Spec.Mips Spec.Instr Sample

/-- The instructions of a sequence are instructions of the PlayStation with operands of their syntax. -/
def PsxCode (E : Env) (cfg : Config) (l : List (InstrSem × Ctx)) : Prop :=
  ∀ x ∈ l, ∃ op o, x.1 = Mips.sem E cfg op o ∧ op ∈ opcodes ∧ Op.available .psx op = true ∧ Mips.Valid op o

theorem mips_writes_cons {E : Env} {cfg : Config} {op : Op} {o : Operands} {c : Ctx} {st st' : ArchState} {out : InstrOut}
    {u : List (BitVec 32)} (hm : op ∈ opcodes) (ha : Op.available .psx op = true) (hv : Mips.Valid op o)
    (h : Clean ((Mips.sem E cfg op o).run c st) (out, st')) (hu : ∀ p, out.words p = u.map fun w => (Width.w32, (w.toNat : Int))) :
    ∃ w imm sec, Holds op o imm sec w ∧ st' = nextState cfg op (omitted op o.regs) st ∧
      u = if hazard cfg op (omitted op o.regs) st && cfg.fixLoadDelay then [0#32, w] else [w] := by
  have hr := delayRow_of hm ha
  rw [sem_run] at h
  simp only [clean_bind, clean_pure] at h
  obtain ⟨r, h1, h2⟩ := h
  obtain ⟨prim, sec, rfl, hc, -⟩ := clean_validate h1
  have hi : FieldInside E c op o := And.intro (fun h => absurd h hr.noField.1) (fun h => absurd h hr.noField.2)
  obtain ⟨hs, hsf⟩ := secStored hm hv hc hi
  refine ⟨_, _, _, encode_holds (k := ⟨hazard cfg op (omitted op o.regs) st && cfg.fixLoadDelay, prim, sec⟩) hm hr.notOdd hv
    (primFits hm hc) hsf, (congrArg Prod.snd h2).symm, ?_⟩
  have e := hu none
  rw [← (show _ = out from congrArg Prod.fst h2)] at e
  simp only [Mips.outcome, written] at e
  have inj : ∀ a b : BitVec 32, Mips.unit a = (Width.w32, (b.toNat : Int)) → b = a := by
    intro a b h
    simp only [Mips.unit, Prod.mk.injEq, true_and] at h
    exact BitVec.eq_of_toNat_eq (by omega)
  generalize (hazard cfg op (omitted op o.regs) st && cfg.fixLoadDelay) = b at *
  generalize Mips.encode op o ⟨b, prim, sec⟩ = w at *
  cases b
  · simp only [Bool.false_eq_true, if_false, List.map_cons, List.map_nil] at e ⊢
    cases u with
    | nil => simp at e
    | cons x u =>
      cases u with
      | cons _ _ => simp at e
      | nil =>
        simp only [List.map_cons, List.map_nil, List.cons.injEq, and_true] at e
        rw [inj _ _ e]
  · simp only [if_true, List.map_cons, List.map_nil] at e ⊢
    cases u with
    | nil => simp at e
    | cons x u =>
      cases u with
      | nil => simp at e
      | cons y u =>
        cases u with
        | cons _ _ => simp at e
        | nil =>
          simp only [List.map_cons, List.map_nil, List.cons.injEq, and_true] at e
          rw [inj _ _ e.1, inj _ _ e.2]

theorem nop_harmless : loadTarget 0#32 = none ∧ ∀ n, n ≠ 0 → ¬ Reads 0#32 n := by
  refine ⟨by decide, fun n hn => ?_⟩
  rintro (⟨h1, h2⟩ | ⟨h1, h2⟩)
  · exact absurd h1 (by decide)
  · have : field 0#32 16 5 = 0 := by decide
    omega

/-- C37. In every straight-line sequence of instructions that is accepted, no word reads a register that the word before it
loads. -/
theorem mips_no_load_delay {E : Env} {cfg : Config} {l : List (InstrSem × Ctx)} {st : ArchState} {ws : List (BitVec 32)}
    (hp : cfg.version = .psx) (hf : cfg.fixLoadDelay = true) (hg : cfg.ignoreDelay = false) (hl : PsxCode E cfg l)
    (h : Writes st l ws) : NoDelay ws := by
  have key : NoDelay ws ∧ ∀ w r, ws = w :: r → st.loadDelay = true → ∀ n : Nat, st.loadDelayRegister = n → n ≠ 0 → ¬ Reads w n := by
    induction h with
    | nil => exact ⟨trivial, fun _ _ h => by cases h⟩
    | @cons st st' s c out r u ws hc hu _ ih =>
      obtain ⟨op, o, he, hm, ha, hv⟩ := hl (s, c) List.mem_cons_self
      simp only at he
      subst he
      obtain ⟨w, imm, sec, hw, rfl, rfl⟩ := mips_writes_cons hm ha hv hc hu
      obtain ⟨ih1, ih2⟩ := ih fun x hx => hl x (List.mem_cons_of_mem _ hx)
      have tail : NoDelay (w :: ws) := by
        cases ws with
        | nil => trivial
        | cons w' ws =>
          refine ⟨fun n hn h0 => ?_, ih1⟩
          obtain ⟨h1, h2⟩ := load_state (st := st) hm ha hv hw hp hn
          exact ih2 w' ws rfl h1 n h2 h0
      cases hz : hazard cfg op (omitted op o.regs) st
      · simp only [Bool.false_and, Bool.false_eq_true, if_false, List.singleton_append]
        refine ⟨tail, fun x r hx hld n hn h0 => ?_⟩
        cases hx
        exact not_reads hm ha hv hw hp hg hz hld hn h0
      · simp only [hf, Bool.and_self, if_true, List.cons_append, List.nil_append]
        refine ⟨⟨fun n hn => ?_, tail⟩, fun x r hx _ n _ h0 => ?_⟩
        · rw [nop_harmless.1] at hn
          cases hn
        · cases hx
          exact nop_harmless.2 n h0
  exact key.1

/-- C37. The layout accounts for the inserted word: the space reserved is four bytes for each word written. -/
theorem mips_delay_size {E : Env} {cfg : Config} {op : Op} {o : Operands} {c : Ctx} {st : ArchState} {out : InstrOut}
    {u : List (BitVec 32)} (h : Accepts (Mips.sem E cfg op o) c st out)
    (hu : ∀ p, out.words p = u.map fun w => (Width.w32, (w.toNat : Int))) : out.size = 4 * u.length ∧ (u.length = 1 ∨ u.length = 2) := by
  obtain ⟨prim, sec, rfl, -, -⟩ := accepts_mips h
  have e := congrArg List.length (hu none)
  simp only [Mips.outcome, written, List.length_map, Mips.size] at e ⊢
  generalize (hazard cfg op (omitted op o.regs) st && cfg.fixLoadDelay) = b at *
  cases b <;> simp at e <;> simp [← e]

/-- C37. When the insertion of a `nop` changes from one pass to the next, the pass reports a change, so that addresses are
computed again. -/
theorem mips_delay_revalidates {E : Env} {cfg : Config} {op : Op} {o : Operands} {c c' : Ctx} {st st' : ArchState}
    {out out' : InstrOut} (h : Accepts (Mips.sem E cfg op o) c st out) (h' : Accepts (Mips.sem E cfg op o) c' st' out')
    (hne : out.size ≠ out'.size) : (Mips.sem E cfg op o).changed (some out) out' = true := by
  obtain ⟨prim, sec, rfl, -, -⟩ := accepts_mips h
  obtain ⟨prim', sec', rfl, -, -⟩ := accepts_mips h'
  simp only [Mips.outcome, Mips.size] at hne
  simp only [Mips.sem, Mips.outcome, Mips.size]
  generalize (hazard cfg op (omitted op o.regs) st && cfg.fixLoadDelay) = b at *
  generalize (hazard cfg op (omitted op o.regs) st' && cfg.fixLoadDelay) = b' at *
  cases b <;> cases b' <;> simp at hne ⊢

/-- `lw a0,8(a1)` and `addu v0,a0,a1`: a `nop` is inserted. -/
example : Writes idle [(Mips.sem Sample.env psx rLw mlw, ctx), (Mips.sem Sample.env psx rAddu maddu, ctx)]
      [0x8CA40008#32, 0#32, 0x00851021#32] ∧
    PsxCode Sample.env psx [(Mips.sem Sample.env psx rLw mlw, ctx), (Mips.sem Sample.env psx rAddu maddu, ctx)] := by
  constructor
  · refine Writes.cons (u := [0x8CA40008#32]) ⟨[], rfl, fun _ h => by cases h⟩ (fun _ => rfl)
      (Writes.cons (u := [0#32, 0x00851021#32]) ⟨_, rfl, ?_⟩ (fun _ => rfl) Writes.nil)
    intro d hd
    simp at hd
    rcases hd with rfl | rfl <;> simp
  · intro x hx
    simp only [List.mem_cons, List.not_mem_nil, or_false] at hx
    rcases hx with rfl | rfl
    · exact ⟨_, _, rfl, rows_mem _ (by decide), by decide, mips_valid_of rfl⟩
    · exact ⟨_, _, rfl, rows_mem _ (by decide), by decide, mips_valid_of rfl⟩

example : loadTarget 0x8CA40008#32 = some 4 ∧ Reads 0x00851021#32 4 := ⟨by decide, .inl (by decide)⟩

/-- A move from a coprocessor has the same delay, but no `nop` is inserted after it. -/
theorem mips_move_delay_ignored : ∃ w w', Writes idle
      [(Mips.sem Sample.env psx rMfc2 mmfc2, ctx), (Mips.sem Sample.env psx rAddu maddu, ctx)] [w, w'] ∧
    field w 16 5 = 4 ∧ Reads w' 4 :=
  ⟨_, _, Writes.cons (u := [_]) ⟨[], rfl, fun _ h => by cases h⟩ (fun _ => rfl)
      (Writes.cons (u := [_]) ⟨[], rfl, fun _ h => by cases h⟩ (fun _ => rfl) Writes.nil), by decide, .inl (by decide)⟩

end Armips.Props
