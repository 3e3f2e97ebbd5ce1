import Verif.Lemmas.Loop
import Verif.Lemmas.Walk
/-!
# C01, C03, C04 and the reference layout: the assembly loop
-/
namespace Armips.Props
open Armips Spec.Layout Spec.Out

/-- The assembler starts without suppressed diagnostics and with a fresh architecture state. -/
structure Fresh (st : St) : Prop where
  log : st.fm.log.suppressLevel = 0
  archSt : st.archSt = {}

private theorem passLoop_fuel {E c} (fuel passes m st) (h : 101 ≤ fuel + passes) :
    (∀ m' st' k, passLoop E c fuel passes m st = .done (m', st', k) → k ≤ max 100 passes) ∧
    (passLoop E c fuel passes m st = .outOfFuel → 101 ≤ passes) := by
  induction fuel generalizing passes m st with
  | zero => exact ⟨fun _ _ _ h' => by simp [passLoop] at h', fun _ => by omega⟩
  | succ fuel ih =>
    unfold passLoop
    by_cases hp : passes ≥ 100
    · rw [if_pos hp]
      refine ⟨fun m' st' k h' => ?_, fun h' => by simp at h'⟩
      injection h' with h'
      have := (pair3 h').2.2
      omega
    · rw [if_neg hp]
      split
      · exact ⟨fun _ _ _ h' => by simp at h', fun h' => by simp at h'⟩
      · rename_i m1 st1 h1
        obtain ⟨i1, i2⟩ := ih (passes + 1) m1 st1 (by omega)
        exact ⟨fun m' st' k h' => by have := i1 m' st' k h'; omega, fun h' => by have := i2 h'; omega⟩
      · refine ⟨fun m' st' k h' => ?_, fun h' => by simp at h'⟩
        injection h' with h'
        have := (pair3 h').2.2
        omega

/-- C01. Every run ends: no program makes the loop go on for more than 100 passes (the fuel of the model, once it is at
least 101, is never used up). -/
theorem passes_bounded (E : Env) (c : Cmd) (fuel : Nat) (st0 : St) (hf : 101 ≤ fuel) :
    assemble E c fuel st0 ≠ .outOfFuel ∧ ∀ o, assemble E c fuel st0 = .done o → o.passes ≤ 100 := by
  obtain ⟨h1, h2⟩ := passLoop_fuel (E := E) (c := c) fuel 0 c.init { st0 with pool := [] } (by omega)
  constructor
  · intro h
    unfold assemble at h
    split at h
    · exact nomatch h
    · rename_i hl; have := h2 hl; omega
    · dsimp only at h
      split at h
      · exact nomatch h
      · split at h <;> exact nomatch h
  · intro o h
    unfold assemble at h
    split at h
    · exact nomatch h
    · exact nomatch h
    · rename_i m st k hl
      have := h1 _ _ _ hl
      dsimp only at h
      split at h
      · injection h with h; subst h; simpa using this
      · split at h
        · exact nomatch h
        · injection h with h; subst h; simpa using this

/-- C01. If a run succeeds or changes any file, its last pass asked for no other pass, left no error printed or queued, and
no request to a literal pool unserved; all passes before it asked for another one. -/
theorem output_only_when_settled {E c fuel st0} {o : Outcome c} (hf : Fresh st0) (h : assemble E c fuel st0 = .done o)
    (hd : o.success = true ∨ o.st.fm.disk ≠ st0.fm.disk) :
    ∃ m1 st1 st2, AfterPasses E c st0 (o.passes - 1) m1 st1 ∧
      validate E (o.passes - 1) c false m1 (startPass st1) = some (o.mem, st2, false) ∧
      st2.fm.log.error = false ∧ (∀ e ∈ st2.fm.log.queue, e.1 ≠ .error ∧ e.1 ≠ .fatalError) ∧ st2.pool = [] := by
  unfold assemble at h
  split at h
  · exact nomatch h
  · exact nomatch h
  · rename_i m st k hloop
    have hinv : LoopInv c st0 c.init { st0 with pool := [] } :=
      ⟨.refl _, hf.log, fun i => by rw [defs_init]; exact Nat.zero_le _, zeroed_init c, rfl, hf.archSt⟩
    obtain ⟨hi', hend⟩ := passLoop_done .start hinv hloop
    dsimp only at h
    split at h
    · injection h with h
      subst h
      rcases hd with hd | hd
      · exact nomatch hd
      · exact absurd (by rw [finish_log]; exact hi'.kept.disk) hd
    · rename_i herr
      have herr' : (finishValidation st).fm.log.error = false := by simpa using herr
      have hclean := finish_clean hi'.supp herr'
      rcases hend with ⟨l, hl0, hlog⟩ | ⟨m1, st1, ha1, hi1, hpass, hk⟩
      · have hc : (l.queueError .error "Stuck in infinite validation loop").Clean := hlog ▸ hclean
        exact absurd (Logger.clean_queueError hc) (by decide)
      · split at h
        · exact nomatch h
        · injection h with h
          subst h
          unfold onePass at hpass
          split at hpass
          · exact nomatch hpass
          · rename_i m2 st2 r2 hv
            obtain ⟨rfl, rfl, rfl⟩ := some3 hpass
            obtain ⟨hc2, hp2⟩ := revalidate_clean hclean
            refine ⟨m1, st1, st2, ha1, hv, hc2.error, fun e he => ?_, hp2⟩
            have := hc2.queue e he
            constructor <;> intro h' <;> rw [h'] at this <;> exact absurd this (by decide)

/-- C01. If the hundredth pass still asks for another one, the run fails and no file is touched. -/
theorem pass_limit_fails {E c fuel st0 m st} {o : Outcome c} (hf : Fresh st0)
    (hp : AfterPasses E c st0 100 m st) (h : assemble E c fuel st0 = .done o) :
    o.success = false ∧ o.st.fm.disk = st0.fm.disk := by
  by_cases hd : o.success = true ∨ o.st.fm.disk ≠ st0.fm.disk
  · exfalso
    have hle : o.passes ≤ 100 := by
      have hmono : ∀ fuel' passes m st, passes ≤ 100 → ∀ m' st' k, passLoop E c fuel' passes m st = .done (m', st', k) → k ≤ 100 := by
        intro fuel'
        induction fuel' with
        | zero => intro _ _ _ _ _ _ _ h'; simp [passLoop] at h'
        | succ n ih =>
          intro passes m st hpa m' st' k h'
          unfold passLoop at h'
          split at h'
          · injection h' with h'; have := (pair3 h').2.2; omega
          · split at h'
            · exact nomatch h'
            · exact ih _ _ _ (by omega) _ _ _ h'
            · injection h' with h'; have := (pair3 h').2.2; omega
      unfold assemble at h
      split at h
      · exact nomatch h
      · exact nomatch h
      · rename_i m' st' k hl
        have := hmono _ _ _ _ (by omega) _ _ _ hl
        dsimp only at h
        split at h
        · injection h with h; subst h; exact this
        · split at h
          · exact nomatch h
          · injection h with h; subst h; exact this
    obtain ⟨m1, st1, st2, ha, hv, _⟩ := output_only_when_settled hf h hd
    -- passes are deterministic
    have hdet : ∀ n m1 st1, AfterPasses E c st0 n m1 st1 → ∀ m2 st2, AfterPasses E c st0 n m2 st2 → m1 = m2 ∧ st1 = st2 := by
      intro n m1 st1 h1
      induction h1 with
      | start => intro m2 st2 h2; cases h2; exact ⟨rfl, rfl⟩
      | pass h1 e1 ih =>
        intro m2 st2 h2
        cases h2 with
        | pass h2 e2 =>
          obtain ⟨rfl, rfl⟩ := ih _ _ h2
          rw [e1] at e2
          obtain ⟨rfl, rfl, _⟩ := some3 e2
          exact ⟨rfl, rfl⟩
    have hpre : ∀ n m st, AfterPasses E c st0 n m st → ∀ k, k < n → ∃ mk sk mk' sk', AfterPasses E c st0 k mk sk ∧
        onePass E c k mk sk = some (mk', sk', true) := by
      intro n m st h1
      induction h1 with
      | start => intro k hk; omega
      | @pass n m st m' st' h1 e1 ih =>
        intro k hk
        by_cases hkn : k = n
        · subst hkn; exact ⟨m, st, m', st', h1, e1⟩
        · exact ih k (by omega)
    have hlt : o.passes - 1 < 100 := by omega
    obtain ⟨mk, sk, mk', sk', hk1, hk2⟩ := hpre _ _ _ hp _ hlt
    obtain ⟨rfl, rfl⟩ := hdet _ _ _ ha _ _ hk1
    unfold onePass at hk2
    rw [hv] at hk2
    exact absurd (some3 hk2).2.2 (by decide)
  · refine ⟨?_, ?_⟩
    · cases hs : o.success with
      | false => rfl
      | true => exact absurd (Or.inl hs) hd
    · exact Classical.byContradiction fun hne => hd (.inr hne)

/-- A successful run behaves like a single walk over the program in which all labels have their final values from the
start. The rules of the walk (`Spec/Layout.lean`) say for every command which bytes are written where. No label is
defined twice on the walk. -/
theorem assembled_layout {E c fuel st0} {o : Outcome c} (hf : Fresh st0) (h : assemble E c fuel st0 = .done o)
    (hs : o.success = true) :
    ∃ R R' vs, Assembled E c st0 o.st R R' vs ∧ ∀ i, vs.countP (definesLabel i) ≤ 1 := by
  obtain ⟨m1, st1, st2, f, _, hi1, hv, hk, hc, hp, herr, henc, hok, hst, hi2⟩ := assemble_split h hs hf.log hf.archSt
  obtain ⟨e1, e2, e3, e4, e5⟩ := revalidate_log st2
  let P : Params := ⟨E, st1.syms, st0.fm.disk, st0.fm.files, st2.poolAddr, st2.alloc⟩
  let G := finishValidation (revalidate st2)
  have hGdef : G = finishValidation (revalidate st2) := rfl
  have hG : P.poolAddr = G.poolAddr := by rw [hGdef, finish_log]; exact e4.symm
  have hA : P.alloc = G.alloc := by rw [hGdef, finish_log]; exact e3.symm
  let R : Pos := ⟨none, [], .little, G.fm.endianness, st1.arch, {}, st1.table, st1.alloc.clearSubAreas, [], 0⟩
  have hdecl : ∀ m : FM, FM.Kept st0.fm m → Decl P m := fun m k => ⟨k.name, k.mode, k.header⟩
  have hV : VRel P (startPass st1) R := by
    refine ⟨rfl, hdecl _ ⟨hi1.kept.1, hi1.kept.2, hi1.kept.3, hi1.kept.4⟩, hi1.kept.disk, rfl, rfl, hi1.archSt, rfl, rfl, hi1.pool, rfl, rfl, nofun⟩
  have hP : PInv (startPass st1) := by
    constructor
    · intro e he
      have : e ∈ st1.pool := he
      rw [hi1.pool] at this; exact nomatch this
    · show (st1.pool.map _).Nodup
      rw [hi1.pool]; exact List.Pairwise.nil
  have hle : PoolLe st2 G := by
    rw [hGdef, finish_log]
    refine ⟨Nat.le_of_eq e5.symm, fun r hr => ⟨⟨?_, ?_⟩, ?_⟩⟩
    · show r < (revalidate st2).poolCount
      rw [e5]; exact hr.1
    · intro e he; exact nomatch he
    · show (revalidate st2).poolAddr r = _
      rw [e4]
  have hE : ERel P G.fm R := by
    have hk2 : FM.Kept st0.fm G.fm := by rw [hGdef, finish_log]; exact .log _ hi2.kept
    exact ⟨hdecl _ hk2, hk2.disk, rfl, nofun⟩
  obtain ⟨R', vs, L, hv', he', hn⟩ := sound (P := P) hG hA hv hc hV hP hi1.defs hi1.zeroed hle henc hok hE
  have hsy : o.st.syms = st1.syms := by
    rw [hst]
    show (finishValidation (revalidate st2)).syms = _
    rw [finish_log]
    exact e2.trans hv'.syms
  have hpar : finalParams E st0 o.st = P := by
    unfold finalParams
    rw [hsy, hst, finish_log]
    dsimp only
    rw [e3, e4]
  refine ⟨R, R', vs, ⟨⟨rfl, rfl, rfl, rfl, rfl, rfl, rfl⟩, ?_, by rw [hpar]; exact L, ?_, ?_, ?_⟩, fun i => ?_⟩
  · rw [← hv'.endian]
    show G.fm.endianness = _
    rw [hGdef, finish_log]
    dsimp only
    rw [e1]
  · rw [← hv'.pool, hp]
  · rw [hst]
    show (closeLast f).disk = _
    rw [(closeLast_le f).2]
    exact he'.disk
  · rw [hst, ← hv'.alloc]
    show (finishValidation (revalidate st2)).alloc = _
    rw [finish_log]
    exact e3
  · refine Nat.le_trans (hn i) ?_
    have := hi2.defs i
    refine Nat.le_trans this ?_
    unfold SymTab.definedCount
    split
    · split <;> omega
    · omega

/-! ## C03: validation and encoding move alike -/

/-- A state `st` during the last pass and the files `f` at the corresponding point of the encoding: if a file is open, both are
at the same position of it, which exists; only writes by this run have changed the disk. -/
structure Lockstep (st : St) (f : FM) : Prop where
  decl : FM.Kept { st.fm with disk := f.disk } f
  disk : ∃ es, f.disk = after st.fm.disk es
  open_ : ∀ i, st.fm.active = some i → (f.disk (f.files i).fileName).isSome ∧
    ∃ c : Cursor, At f i c ∧ c.virt = (st.fm.files i).virtualAddress ∧ c.header = (st.fm.files i).headerSize

/-- What validation guarantees about members and state at any point of any pass. -/
structure Ready (c : Cmd) (m : c.Mem) (st : St) : Prop where
  pool : PInv st
  defs : ∀ i, c.defs m i ≤ st.syms.definedCount i
  zeroed : c.Zeroed m

/-- C03. Validating any command and encoding it with the members left by this validation moves both to the same
position, if the validation reported neither change nor error and the encoding no error: the size validated is the size
encoded. -/
theorem encode_moves_like_validate {E passes c nf st st' G f f'} {m m' : Cmd.Mem c}
    (h : validate E passes c nf m st = some (m', st', false)) (hc : st'.Clean) (hr : Ready c m st)
    (hle : PoolLe st' G) (hf : encode G c m' f = some f') (hok : f'.log.Ok) (hl : Lockstep st f) :
    Lockstep st' f' ∧ (st'.fm.active.isSome → f'.getVirtualAddress = st'.virt ∧ f'.getPhysicalAddress = st'.phys) := by
  obtain ⟨es, hes⟩ := hl.disk
  let P : Params := ⟨E, st.syms, st.fm.disk, st.fm.files, G.poolAddr, G.alloc⟩
  let file : Option (Nat × Cursor) := st.fm.active.map fun i =>
    (i, ⟨((st.fm.files i).virtualAddress - (st.fm.files i).headerSize).toNat, (st.fm.files i).headerSize⟩)
  let R : Pos := ⟨file, es, st.fm.endianness, f.endianness, st.arch, st.archSt, st.table, st.alloc, st.pool, st.poolCount⟩
  have hcur : ∀ i d, R.file = some (i, d) → st.fm.active = some i ∧ At f i d ∧ d.virt = (st.fm.files i).virtualAddress ∧
      d.header = (st.fm.files i).headerSize ∧ (f.disk (f.files i).fileName).isSome := by
    intro i d hd
    obtain ⟨j, hj, he⟩ := map_some (x := st.fm.active) hd
    simp only [Prod.mk.injEq] at he
    obtain ⟨rfl, rfl⟩ := he
    obtain ⟨hs, cur, hat, h1, h2⟩ := hl.open_ j hj
    have : (⟨((st.fm.files j).virtualAddress - (st.fm.files j).headerSize).toNat, (st.fm.files j).headerSize⟩ : Cursor) = cur := by
      cases cur
      simp only [Cursor.virt] at h1 h2
      congr 1
      · omega
      · exact h2.symm
    rw [this]
    exact ⟨hj, hat, h1, h2, hs⟩
  have hV : VRel P st R := by
    refine ⟨rfl, ⟨fun _ => rfl, fun _ => rfl, fun _ => rfl⟩, rfl, rfl, rfl, rfl, rfl, rfl, rfl, rfl, ?_, ?_⟩
    · show st.fm.active = file.map Prod.fst
      simp [file, Option.map_map, Function.comp_def]
    · intro i d hd
      obtain ⟨_, _, h1, h2, _⟩ := hcur i d hd
      exact ⟨h1.symm, h2.symm⟩
  have hE : ERel P f R := by
    refine ⟨⟨hl.decl.name, hl.decl.mode, hl.decl.header⟩, hes, rfl, ?_⟩
    intro i d hd
    obtain ⟨_, h1, _, _, h2⟩ := hcur i d hd
    refine ⟨h1, ?_⟩
    show (after st.fm.disk es (st.fm.files i).fileName).isSome
    rw [← hes]
    have := hl.decl.name i
    rw [← this]
    exact h2
  obtain ⟨R', vs, L, hv', he', _⟩ := sound (P := P) rfl rfl h hc hV hr.pool hr.defs hr.zeroed hle hf hok hE
  have hopen : ∀ i, st'.fm.active = some i → ∃ d, R'.file = some (i, d) := by
    intro i hi
    have := hv'.active
    rw [hi] at this
    obtain ⟨⟨j, d⟩, hd, he⟩ := map_some this.symm
    simp only at he
    subst he
    exact ⟨d, hd⟩
  have hk := keep_validate h
  refine ⟨⟨⟨rfl, fun i => ?_, fun i => ?_, fun i => ?_⟩, ?_, ?_⟩, ?_⟩
  · rw [he'.decl.name, ← hv'.decl.name]
  · rw [he'.decl.mode, ← hv'.decl.mode]
  · rw [he'.decl.header, ← hv'.decl.header]
  · refine ⟨R'.out, ?_⟩
    rw [he'.disk, hk.disk]
  · intro i hi
    obtain ⟨d, hd⟩ := hopen i hi
    obtain ⟨h1, h2⟩ := hv'.cursor i d hd
    exact ⟨he'.isSome hd, d, (he'.cursor i d hd).1, h1.symm, h2.symm⟩
  · intro hs
    obtain ⟨i, hi⟩ := Option.isSome_iff_exists.mp hs
    obtain ⟨d, hd⟩ := hopen i hi
    obtain ⟨h1, h2⟩ := hv'.cursor i d hd
    have hat := (he'.cursor i d hd).1
    constructor
    · unfold FM.getVirtualAddress St.virt FM.getVirtualAddress
      rw [hat.active, hi]
      dsimp only
      rw [hat.virt, h1]
    · rw [hv'.phys]
      unfold FM.getPhysicalAddress Pos.phys
      rw [hat.active, hd]
      dsimp only
      rw [hat.virt, hat.header, Cursor.virt]
      omega

/-- C03. The premises of `encode_moves_like_validate` hold where the encoding of a successful run starts, and `Ready` holds
at the start of each pass and is kept by validating any command before. -/
theorem ready_start {E c st0 n m st} (hf : Fresh st0) (h : AfterPasses E c st0 n m st) : Ready c m (startPass st) := by
  have hi : LoopInv c st0 m st := by
    induction h with
    | start => exact ⟨.refl _, hf.log, fun i => by rw [defs_init]; exact Nat.zero_le _, zeroed_init c, rfl, hf.archSt⟩
    | pass _ e ih => exact onePass_inv ih e
  refine ⟨⟨?_, ?_⟩, hi.defs, hi.zeroed⟩
  · intro e he
    have : e ∈ st.pool := he
    rw [hi.pool] at this; exact nomatch this
  · show (st.pool.map _).Nodup
    rw [hi.pool]; exact List.Pairwise.nil

theorem ready_rest {E passes c rest nf m1 m2 st m1' st' r} (h : Ready (.cons c rest) (m1, m2) st)
    (hv : validate E passes c nf m1 st = some (m1', st', r)) : Ready c m1 st ∧ Ready rest m2 st' := by
  have k := keeps_validate hv
  refine ⟨⟨h.pool, fun i => ?_, h.zeroed.1⟩, ⟨(k.pool h.pool).1, fun i => ?_, h.zeroed.2⟩⟩
  · have := h.defs i; simp only [Cmd.defs] at this; omega
  · have := h.defs i; simp only [Cmd.defs] at this; have := k.definedMono i; omega

end Armips.Props
