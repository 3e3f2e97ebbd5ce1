import Verif.Model.Assembler
import Verif.Lemmas.DiskMono
import Verif.Lemmas.LayoutMain
/-!
# Lemmas about the assembly loop
-/
namespace Armips
open Spec.Layout Spec.Out Props Table

/-- What holds between passes. -/
structure LoopInv (c : Cmd) (st0 : St) (m : c.Mem) (st : St) : Prop where
  kept : FM.Kept st0.fm st.fm
  supp : st.fm.log.suppressLevel = 0
  defs : ∀ i, c.defs m i ≤ st.syms.definedCount i
  zeroed : c.Zeroed m
  pool : st.pool = []
  archSt : st.archSt = {}

theorem revalidate_log (st : St) :
    (revalidate st).fm = { st.fm with log := st.pool.foldl (fun l _ => l.queueError .error "Unable to find literal pool") st.fm.log } ∧
    (revalidate st).syms = st.syms ∧ (revalidate st).alloc = st.alloc ∧ (revalidate st).poolAddr = st.poolAddr ∧
    (revalidate st).poolCount = st.poolCount := by
  unfold revalidate
  generalize st.pool = l
  induction l generalizing st with
  | nil => exact ⟨rfl, rfl, rfl, rfl, rfl⟩
  | cons e l ih => exact ih (st.queueError .error "Unable to find literal pool")

theorem queueAll_le (l : Logger) (t s) {α} (es : List α) : Logger.Le l (es.foldl (fun l _ => l.queueError t s) l) := by
  induction es generalizing l with
  | nil => exact .refl _
  | cons e es ih => exact (Logger.le_queueError ..).trans (ih _)

theorem onePass_inv {E c st0 passes m st m' st' r} (hi : LoopInv c st0 m st)
    (h : onePass E c passes m st = some (m', st', r)) : LoopInv c st0 m' st' := by
  unfold onePass at h
  split at h
  · exact nomatch h
  · rename_i m1 st1 r1 h1
    obtain ⟨rfl, rfl, rfl⟩ := some3 h
    have k := keeps_validate h1
    have d := keep_validate h1
    obtain ⟨e1, e2, e3, e4, e5⟩ := revalidate_log st1
    refine ⟨?_, ?_, ?_, k.zeroed hi.zeroed, rfl, rfl⟩
    · rw [e1]
      have s0 : FM.Kept st.fm (startPass st).fm := ⟨rfl, fun _ => rfl, fun _ => rfl, fun _ => rfl⟩
      exact .log _ (hi.kept.trans (s0.trans d))
    · rw [e1]
      dsimp only
      rw [(queueAll_le st1.fm.log _ _ st1.pool).suppress, (le_validate h1).suppress]
      exact hi.supp
    · intro i
      rw [e2]
      have a := k.flags i
      have b := hi.defs i
      have : (startPass st).syms.definedCount i = st.syms.definedCount i := rfl
      omega

/-- `n` passes, each of which asked for another one, lead from the initial state to these members and this state. -/
inductive AfterPasses (E : Env) (c : Cmd) (st0 : St) : Nat → c.Mem → St → Prop
  | start : AfterPasses E c st0 0 c.init { st0 with pool := [] }
  | pass {n m st m' st'} : AfterPasses E c st0 n m st → onePass E c n m st = some (m', st', true) →
    AfterPasses E c st0 (n + 1) m' st'

/-- How the loop ends. -/
theorem passLoop_done {E c st0 fuel passes m st m' st' k} (ha : AfterPasses E c st0 passes m st) (hi : LoopInv c st0 m st)
    (h : passLoop E c fuel passes m st = .done (m', st', k)) :
    LoopInv c st0 m' st' ∧
    ((∃ l : Logger, l.suppressLevel = 0 ∧ st'.fm.log = l.queueError .error "Stuck in infinite validation loop") ∨
     ∃ m1 st1, AfterPasses E c st0 (k - 1) m1 st1 ∧ LoopInv c st0 m1 st1 ∧ onePass E c (k - 1) m1 st1 = some (m', st', false) ∧ 0 < k) := by
  induction fuel generalizing passes m st with
  | zero => simp [passLoop] at h
  | succ fuel ih =>
    unfold passLoop at h
    split at h
    · injection h with h
      obtain ⟨rfl, rfl, rfl⟩ := pair3 h
      refine ⟨⟨⟨hi.kept.1, hi.kept.2, hi.kept.3, hi.kept.4⟩, ?_, hi.defs, hi.zeroed, hi.pool, hi.archSt⟩, .inl ⟨st.fm.log.clearQueue, hi.supp, rfl⟩⟩
      show (Logger.queueError _ _ _).suppressLevel = 0
      rw [(Logger.le_queueError _ _ _).suppress]
      exact hi.supp
    · split at h
      · exact nomatch h
      · rename_i m1 st1 h1
        exact ih (.pass ha h1) (onePass_inv hi h1) h
      · rename_i m1 st1 h1
        injection h with h
        obtain ⟨rfl, rfl, rfl⟩ := pair3 h
        exact ⟨onePass_inv hi h1, .inr ⟨m, st, ha, hi, h1, by omega⟩⟩

theorem setFlags_error {l : Logger} {t} (h : (l.setFlags t).error = false) : l.error = false ∧ t.mild = true := by
  unfold Logger.setFlags at h
  cases t
  · simp only at h
    split at h
    · simp at h
    · exact ⟨h, rfl⟩
  · simp at h
  · simp at h
  · exact ⟨h, rfl⟩

theorem printAll_ok {l : Logger} {es : List (ErrorType × String)} (h : (es.foldl Logger.printEntry l).error = false) :
    l.error = false ∧ ∀ e ∈ es, e.1.mild = true := by
  induction es generalizing l with
  | nil => exact ⟨h, nofun⟩
  | cons e es ih =>
    obtain ⟨h1, h2⟩ := ih h
    obtain ⟨h3, h4⟩ := setFlags_error (l := { l with errors := l.errors ++ [e.2] }) h1
    refine ⟨h3, fun x hx => ?_⟩
    simp only [List.mem_cons] at hx
    rcases hx with rfl | hx
    · exact h4
    · exact h2 x hx

theorem printAll_supp {l : Logger} {es : List (ErrorType × String)} :
    (es.foldl Logger.printEntry l).suppressLevel = l.suppressLevel := by
  induction es generalizing l with
  | nil => rfl
  | cons e es ih =>
    rw [List.foldl_cons, ih]
    unfold Logger.printEntry Logger.setFlags
    cases e.1 <;> simp
    split <;> rfl

theorem finish_log (st : St) :
    finishValidation st = { st with fm := { st.fm with log :=
      (st.alloc.overlaps.foldl (fun l _ => l.queueError .warning "Content of areas overlap") st.fm.log).printQueue } } := by
  unfold finishValidation
  generalize st.alloc.overlaps = l
  have : ∀ st : St, l.foldl (fun st _ => st.queueError .warning "Content of areas overlap") st =
      { st with fm := { st.fm with log := l.foldl (fun l _ => l.queueError .warning "Content of areas overlap") st.fm.log } } := by
    induction l with
    | nil => intro st; rfl
    | cons e l ih => intro st; rw [List.foldl_cons, ih]; rfl
  rw [this]

/-- Without an error after printing the queue there was none before. -/
theorem finish_clean {st : St} (hs : st.fm.log.suppressLevel = 0) (h : (finishValidation st).fm.log.error = false) : st.Clean := by
  rw [finish_log] at h
  dsimp only at h
  have hl := queueAll_le st.fm.log .warning "Content of areas overlap" st.alloc.overlaps
  generalize (st.alloc.overlaps.foldl (fun l _ => l.queueError .warning "Content of areas overlap") st.fm.log) = l at h hl
  obtain ⟨h1, h2⟩ := printAll_ok h
  exact ⟨hs, hl.error h1, fun e he => h2 e (hl.queue.subset he)⟩

theorem revalidate_clean {st : St} (h : (revalidate st).Clean) : st.Clean ∧ st.pool = [] := by
  unfold St.Clean at h
  rw [(revalidate_log st).1] at h
  dsimp only at h
  have hl := queueAll_le st.fm.log .error "Unable to find literal pool" st.pool
  refine ⟨Logger.Clean.mono hl h, ?_⟩
  cases hp : st.pool with
  | nil => rfl
  | cons e es =>
    rw [hp, List.foldl_cons] at h
    have := Logger.clean_queueError (Logger.Clean.mono (queueAll_le _ _ _ es) h)
    exact absurd this (by decide)

theorem closeLast_le (f : FM) : Logger.Le f.log (closeLast f).log ∧ (closeLast f).disk = f.disk := by
  unfold closeLast
  cases hf : f.active with
  | none => exact ⟨.refl _, rfl⟩
  | some i =>
    dsimp only
    exact ⟨(FM.le_printError ..).trans (FM.le_closeFile _), (FM.keep_closeFile _).disk⟩

/-- A successful run: the last pass and the encoding. -/
theorem assemble_split {E c fuel st0} {o : Outcome c} (h : assemble E c fuel st0 = .done o) (hs : o.success = true)
    (hl : st0.fm.log.suppressLevel = 0) (ha : st0.archSt = {}) :
    ∃ (m1 : c.Mem) (st1 st2 : St) (f : FM), AfterPasses E c st0 (o.passes - 1) m1 st1 ∧ LoopInv c st0 m1 st1 ∧
      validate E (o.passes - 1) c false m1 (startPass st1) = some (o.mem, st2, false) ∧ 0 < o.passes ∧
      st2.Clean ∧ st2.pool = [] ∧
      (finishValidation (revalidate st2)).fm.log.error = false ∧
      encode (finishValidation (revalidate st2)) c o.mem (finishValidation (revalidate st2)).fm = some f ∧
      f.log.Ok ∧ o.st = { finishValidation (revalidate st2) with fm := closeLast f } ∧
      LoopInv c st0 o.mem (revalidate st2) := by
  unfold assemble at h
  split at h
  · exact nomatch h
  · exact nomatch h
  · rename_i m st k hloop
    have hinv : LoopInv c st0 c.init { st0 with pool := [] } :=
      ⟨.refl _, hl, fun i => by rw [defs_init]; exact Nat.zero_le _, zeroed_init c, rfl, ha⟩
    obtain ⟨hi', hend⟩ := passLoop_done .start hinv hloop
    dsimp only at h
    split at h
    · injection h with h; subst h; exact absurd hs (by simp)
    · rename_i herr
      have herr' : (finishValidation st).fm.log.error = false := by simpa using herr
      have hclean := finish_clean hi'.supp herr'
      rcases hend with ⟨l, hl0, hlog⟩ | ⟨m1, st1, ha1, hi1, hpass, hk⟩
      · have hc : (l.queueError .error "Stuck in infinite validation loop").Clean := hlog ▸ hclean
        exact absurd (Logger.clean_queueError hc) (by decide)
      · split at h
        · exact nomatch h
        · rename_i f hf
          injection h with h
          subst h
          unfold onePass at hpass
          split at hpass
          · exact nomatch hpass
          · rename_i m2 st2 r2 hv
            obtain ⟨rfl, rfl, rfl⟩ := some3 hpass
            obtain ⟨hc2, hp2⟩ := revalidate_clean hclean
            refine ⟨m1, st1, st2, f, ha1, hi1, hv, hk, hc2, hp2, herr', hf, ?_, rfl, hi'⟩
            have hsup : f.log.suppressLevel = 0 := by
              rw [(le_encode hf).suppress, finish_log]
              dsimp only
              rw [Logger.printQueue, printAll_supp, (queueAll_le _ _ _ _).suppress]
              exact hi'.supp
            have : (closeLast f).log.error = false := by simpa using hs
            exact ⟨hsup, (closeLast_le f).1.error this⟩

end Armips
