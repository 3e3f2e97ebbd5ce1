import Verif.Model.Assembler
/-!
# Diagnostics only accumulate
-/
namespace Armips
open Table

theorem some3 {α β γ : Type} {a a' : α} {b b' : β} {c c' : γ} (h : some (a, b, c) = some (a', b', c')) :
    a = a' ∧ b = b' ∧ c = c' := by cases h; exact ⟨rfl, rfl, rfl⟩

theorem map_some {α β : Type} {x : Option α} {f : α → β} {y : β} (h : x.map f = some y) : ∃ a, x = some a ∧ f a = y :=
  Option.map_eq_some_iff.mp h

theorem pair3 {α β γ : Type} {a a' : α} {b b' : β} {c c' : γ} (h : (a, b, c) = (a', b', c')) :
    a = a' ∧ b = b' ∧ c = c' := by cases h; exact ⟨rfl, rfl, rfl⟩

/-- A diagnostic of this type is not an error. -/
def ErrorType.mild : ErrorType → Bool
  | .warning | .notice => true
  | _ => false

/-- `l'` is `l` with more diagnostics. -/
structure Logger.Le (l l' : Logger) : Prop where
  suppress : l'.suppressLevel = l.suppressLevel
  error : l'.error = false → l.error = false
  queue : l.queue <+: l'.queue

/-- Nothing reported so far is an error. -/
structure Logger.Clean (l : Logger) : Prop where
  suppress : l.suppressLevel = 0
  error : l.error = false
  queue : ∀ e ∈ l.queue, e.1.mild = true

/-- No error was printed. -/
structure Logger.Ok (l : Logger) : Prop where
  suppress : l.suppressLevel = 0
  error : l.error = false

namespace Logger
theorem Le.refl (l : Logger) : Le l l := ⟨rfl, id, List.prefix_rfl⟩
theorem Le.trans {a b c : Logger} (h1 : Le a b) (h2 : Le b c) : Le a c :=
  ⟨h2.1.trans h1.1, fun h => h1.2 (h2.2 h), h1.3.trans h2.3⟩
theorem Clean.mono {l l' : Logger} (h : Le l l') (c : Clean l') : Clean l :=
  ⟨h.1 ▸ c.1, h.2 c.2, fun e he => c.3 e (h.3.subset he)⟩
theorem Ok.mono {l l' : Logger} (h : Le l l') (c : Ok l') : Ok l := ⟨h.1 ▸ c.1, h.2 c.2⟩
theorem Clean.ok {l : Logger} (c : Clean l) : Ok l := ⟨c.1, c.2⟩

theorem le_queueError (l : Logger) (t s) : Le l (l.queueError t s) := by
  unfold queueError
  split
  · exact .refl l
  · exact ⟨rfl, id, List.prefix_append _ _⟩

theorem le_printError (l : Logger) (t s) : Le l (l.printError t s) := by
  unfold printError
  split
  · exact .refl l
  · cases t
    · simp only [setFlags]
      split
      · exact ⟨rfl, nofun, List.prefix_rfl⟩
      · exact ⟨rfl, id, List.prefix_rfl⟩
    · exact ⟨rfl, nofun, List.prefix_rfl⟩
    · exact ⟨rfl, nofun, List.prefix_rfl⟩
    · exact ⟨rfl, id, List.prefix_rfl⟩

theorem clean_queueError {l : Logger} {t s} (h : Clean (l.queueError t s)) : t.mild = true := by
  have h0 := (h.mono (le_queueError l t s)).1
  have := h.3
  unfold queueError at this
  rw [if_neg (by simp [h0])] at this
  exact this (t, s) (by simp)

theorem ok_printError {l : Logger} {t s} (h : Ok (l.printError t s)) : t.mild = true := by
  have h0 := (h.mono (le_printError l t s)).1
  have := h.2
  unfold printError at this
  rw [if_neg (by simp [h0])] at this
  cases t <;> simp [setFlags, ErrorType.mild] at this ⊢

end Logger

open Logger (Le)

namespace FM
theorem le_queueError (m : FM) (t s) : Le m.log (m.queueError t s).log := m.log.le_queueError t s
theorem le_printError (m : FM) (t s) : Le m.log (m.printError t s).log := m.log.le_printError t s

theorem le_seekVirtualAFile (m : FM) (i a) : Le m.log (m.seekVirtualAFile i a).1.log := by
  simp only [seekVirtualAFile]
  split
  · exact le_queueError ..
  · split
    · exact le_queueError m _ _
    · exact .refl _

theorem le_seekPhysicalAFile (m : FM) (i a) : Le m.log (m.seekPhysicalAFile i a).1.log := by
  simp only [seekPhysicalAFile]
  split
  · exact le_queueError ..
  · split
    · exact le_queueError m _ _
    · exact .refl _

theorem le_seekVirtual (m : FM) (a) : Le m.log (m.seekVirtual a).1.log := by
  simp only [seekVirtual]; split
  · exact le_queueError ..
  · exact le_seekVirtualAFile ..

theorem le_seekPhysical (m : FM) (a) : Le m.log (m.seekPhysical a).1.log := by
  simp only [seekPhysical]; split
  · exact le_queueError ..
  · exact le_seekPhysicalAFile ..

theorem le_advanceMemory (m : FM) (a) : Le m.log (m.advanceMemory a).1.log := by
  simp only [advanceMemory]; split
  · exact le_queueError ..
  · exact le_seekVirtualAFile ..

theorem le_openAFile (m : FM) (i b) : Le m.log (m.openAFile i b).1.log := by
  simp only [openAFile]
  cases b
  · simp only [Bool.not_false, if_true]
    split
    · split
      · exact le_printError m _ _
      · exact .refl _
    · exact .refl _
    · split
      · exact le_printError m _ _
      · exact .refl _
  · simp only [Bool.not_true, Bool.false_eq_true, if_false]
    split
    · split
      · exact le_queueError m _ _
      · exact .refl _
    · exact .refl _
    · split
      · exact le_queueError m _ _
      · split
        · exact le_queueError m _ _
        · exact .refl _

theorem le_openFile (m : FM) (i b) : Le m.log (m.openFile i b).1.log := by
  simp only [openFile]
  split
  · exact le_openAFile ({ m with active := some i }) i b
  · exact (le_queueError m _ _).trans (le_openAFile
      ({ (m.queueError .warning "File not closed before opening a new one").closeAFile _ with active := some i }) i b)

theorem le_closeFile (m : FM) : Le m.log m.closeFile.log := by
  simp only [closeFile]; split
  · exact le_queueError ..
  · exact .refl _

theorem le_write (m : FM) (b) : Le m.log (m.write b).1.log := by
  simp only [write]; split
  · exact le_queueError ..
  · split
    · exact le_queueError ..
    · simp only [writeAFile]; split <;> exact .refl _

theorem le_getOpenFileID (m : FM) : Le m.log m.getOpenFileID.1.log := by
  simp only [getOpenFileID]; split
  · exact le_queueError ..
  · exact .refl _

theorem le_execHeaderSize {m : FM} {h m'} (e : m.execHeaderSize h = some m') : Le m.log m'.log := by
  simp only [execHeaderSize] at e
  split at e
  · exact nomatch e
  · simp only [Option.some.injEq] at e
    subst e
    exact le_seekPhysicalAFile (m.setFile _ _) _ _

end FM

namespace St
def Le (a b : St) : Prop := Logger.Le a.fm.log b.fm.log
def Clean (a : St) : Prop := a.fm.log.Clean
theorem Le.refl (a : St) : Le a a := Logger.Le.refl _
theorem Le.trans {a b c : St} (h1 : Le a b) (h2 : Le b c) : Le a c := Logger.Le.trans h1 h2
theorem Clean.mono {a b : St} (h : Le a b) (c : Clean b) : Clean a := Logger.Clean.mono h c

/-- More diagnostics, and symbols and literal pool requests unchanged. -/
structure Quiet (a b : St) : Prop where
  le : Le a b
  syms : b.syms = a.syms
  pool : b.pool = a.pool
  poolCount : b.poolCount = a.poolCount
  poolAddr : b.poolAddr = a.poolAddr
theorem Quiet.refl (a : St) : Quiet a a := ⟨.refl a, rfl, rfl, rfl, rfl⟩
theorem Quiet.trans {a b c : St} (h1 : Quiet a b) (h2 : Quiet b c) : Quiet a c :=
  ⟨h1.1.trans h2.1, h2.2.trans h1.2, h2.3.trans h1.3, h2.4.trans h1.4, h2.5.trans h1.5⟩
theorem Quiet.fm {a : St} {m : FM} (h : Logger.Le a.fm.log m.log) : Quiet a { a with fm := m } := ⟨h, rfl, rfl, rfl, rfl⟩
theorem Clean.quiet {a b : St} (h : Quiet a b) (c : Clean b) : Clean a := c.mono h.le

theorem le_queueError (st : St) (t s) : Quiet st (st.queueError t s) := .fm (st.fm.le_queueError t s)
theorem le_printError (st : St) (t s) : Quiet st (st.printError t s) := .fm (st.fm.le_printError t s)

theorem le_report (st : St) (ds) : Quiet st (st.report ds) := by
  induction ds generalizing st with
  | nil => exact .refl _
  | cons d ds ih =>
    refine Quiet.trans ?_ (ih _)
    dsimp only
    split
    · exact le_printError ..
    · exact le_queueError ..

theorem le_eval {E} {st st' : St} {e v} (h : st.eval E e = some (st', v)) : Quiet st st' := by
  unfold eval at h
  split at h
  · exact nomatch h
  · simp only [Option.some.injEq, Prod.mk.injEq] at h; rw [← h.1]; exact le_report ..

theorem evalInt_eval {E} {st st' : St} {e v} (h : st.evalInt E e = some (st', v)) :
    ∃ w, st.eval E e = some (st', w) ∧ (∀ n, v = some n ↔ w = .int n) := by
  unfold evalInt at h
  split at h
  · exact nomatch h
  · rename_i s v' he
    simp only [Option.some.injEq, Prod.mk.injEq] at h
    obtain ⟨rfl, rfl⟩ := h
    exact ⟨_, he, by simp⟩
  · rename_i s w hw he
    simp only [Option.some.injEq, Prod.mk.injEq] at h
    obtain ⟨rfl, rfl⟩ := h
    exact ⟨_, he, fun n => ⟨nofun, fun e => absurd e (hw n)⟩⟩

theorem le_evalInt {E} {st st' : St} {e v} (h : st.evalInt E e = some (st', v)) : Quiet st st' := by
  obtain ⟨w, hw, _⟩ := evalInt_eval h; exact le_eval hw

theorem le_evalIntOpt {E} {st st' : St} {e old v} (h : st.evalIntOpt E e old = some (st', v)) : Quiet st st' := by
  unfold evalIntOpt at h
  split at h
  · simp only [Option.some.injEq, Prod.mk.injEq] at h; rw [← h.1]; exact .refl _
  · exact le_evalInt h

theorem le_nextSection (st : St) : Quiet st st.nextSection := by
  unfold nextSection; split
  · exact le_printError ..
  · exact ⟨Le.refl st, rfl, rfl, rfl, rfl⟩
  · exact .refl _

theorem le_advance (st : St) (n) : Quiet st (st.advance n) := .fm (st.fm.le_advanceMemory n)
theorem le_seekVirtual (st : St) (n) : Quiet st (st.seekVirtual n) := .fm (st.fm.le_seekVirtual n)
theorem le_seekPhysical (st : St) (n) : Quiet st (st.seekPhysical n) := .fm (st.fm.le_seekPhysical n)

end St
open St

theorem le_validateLabel {E id value d st d' st' r} (h : validateLabel E id value d st = some (d', st', r)) :
    St.Le st st' := by
  unfold validateLabel at h
  split at h
  · exact nomatch h
  split at h
  · simp only [Option.some.injEq, Prod.mk.injEq] at h; rw [← h.2.1]; exact (le_queueError ..).le
  have key : ∀ st1 : St, st1.fm = st.fm → St.Le st st1 := fun st1 e => by unfold St.Le; rw [e]; exact .refl _
  dsimp only at h
  split at h
  · split at h
    · exact nomatch h
    · rename_i st1 he
      simp only [Option.some.injEq, Prod.mk.injEq] at h; rw [← h.2.1]
      refine St.Le.trans ?_ ((le_evalInt he).trans (le_printError ..)).le
      apply key; split <;> rfl
    · rename_i st1 v he
      have l1 : St.Le st st1 := by
        refine St.Le.trans ?_ (le_evalInt he).le
        apply key; split <;> rfl
      split at h <;> simp only [Option.some.injEq, Prod.mk.injEq] at h <;> rw [← h.2.1]
      · exact l1
      · exact l1
  · simp only [Option.some.injEq, Prod.mk.injEq] at h; rw [← h.2.1]
    apply key
    repeat' split
    all_goals rfl

theorem le_validateOpen (nf i) (st : St) : St.Quiet st (validateOpen nf i st) := by
  unfold validateOpen; split
  · exact le_queueError ..
  · exact (le_nextSection st).trans (.fm (st.nextSection.fm.le_openFile i true))

theorem le_validateClose (nf) (st : St) : St.Quiet st (validateClose nf st) := by
  unfold validateClose; split
  · exact le_queueError ..
  · exact (le_nextSection st).trans (.fm (st.nextSection.fm.le_closeFile))

theorem le_execPosition (v p) (st : St) : St.Quiet st (execPosition v p st) := by
  unfold execPosition; split
  · exact le_seekVirtual ..
  · exact le_seekPhysical ..

theorem le_validatePosition {E v e old st p st'} (h : validatePosition E v e old st = some (p, st')) : St.Quiet st st' := by
  unfold validatePosition at h
  split at h
  · exact nomatch h
  all_goals
    rename_i he
    simp only [Option.some.injEq, Prod.mk.injEq] at h; rw [← h.2]
    refine (le_evalInt he).trans ?_
  · exact le_queueError ..
  · exact (le_nextSection _).trans (le_execPosition ..)

theorem le_validateIncbin {E fs a b old st p st'} (h : validateIncbin E fs a b old st = some (p, st')) : St.Quiet st st' := by
  unfold validateIncbin at h
  split at h
  · exact nomatch h
  · rename_i he
    simp only [Option.some.injEq, Prod.mk.injEq] at h; rw [← h.2]
    exact (le_evalIntOpt he).trans (le_queueError ..)
  · rename_i st1 start he
    refine (le_evalIntOpt he).trans ?_
    split at h
    · simp only [Option.some.injEq, Prod.mk.injEq] at h; rw [← h.2]; exact le_queueError ..
    · split at h
      · exact nomatch h
      all_goals
        rename_i he2
        refine (le_evalIntOpt he2).trans ?_
        simp only [Option.some.injEq, Prod.mk.injEq] at h; rw [← h.2]
      · exact le_queueError ..
      · refine St.Quiet.trans ?_ ((le_nextSection _).trans (le_advance ..))
        split
        · exact le_queueError ..
        · exact .refl _

theorem le_validateAlign {E mode e fill old st p st' r} (h : validateAlign E mode e fill old st = some (p, st', r)) :
    St.Quiet st st' := by
  unfold validateAlign at h
  split at h
  · exact nomatch h
  · rename_i he
    simp only [Option.some.injEq, Prod.mk.injEq] at h; rw [← h.2.1]
    exact (le_evalInt he).trans (le_queueError ..)
  · rename_i st1 v he
    refine (le_evalInt he).trans ?_
    split at h
    · exact nomatch h
    · simp only [Option.some.injEq, Prod.mk.injEq] at h; rw [← h.2.1]; exact le_queueError ..
    · split at h
      · exact nomatch h
      · split at h
        · split at h
          · exact nomatch h
          all_goals
            rename_i he2
            simp only [Option.some.injEq, Prod.mk.injEq] at h; rw [← h.2.1]
            refine (le_evalInt he2).trans ?_
          · exact le_printError ..
          · exact (le_nextSection _).trans (le_advance ..)
        · simp only [Option.some.injEq, Prod.mk.injEq] at h; rw [← h.2.1]
          exact (le_nextSection _).trans (le_advance ..)

theorem le_validateSkip {E e old st p st'} (h : validateSkip E e old st = some (p, st')) : St.Quiet st st' := by
  unfold validateSkip at h
  split at h
  · exact nomatch h
  all_goals
    rename_i he
    simp only [Option.some.injEq, Prod.mk.injEq] at h; rw [← h.2]
    refine (le_evalInt he).trans ?_
  · exact le_queueError ..
  · exact (le_nextSection _).trans (le_advance ..)

theorem le_validateHeaderSize {E e old st p st'} (h : validateHeaderSize E e old st = some (p, st')) : St.Quiet st st' := by
  unfold validateHeaderSize at h
  split at h
  · exact nomatch h
  all_goals
    rename_i he
    refine (le_evalInt he).trans ?_
  · simp only [Option.some.injEq, Prod.mk.injEq] at h; rw [← h.2]; exact le_queueError ..
  · rw [Option.map_eq_some_iff] at h
    obtain ⟨m, hm, h⟩ := h
    simp only [Prod.mk.injEq] at h; rw [← h.2]
    exact .fm (FM.le_execHeaderSize hm)

theorem le_normalElem (E mode v) (st : St) : St.Quiet st (normalElem E mode v st).1 := by
  unfold normalElem
  split
  · dsimp only; split
    · exact le_queueError ..
    · exact .refl _
  · exact .refl _
  · split
    · exact .refl _
    · exact .refl _
    · exact le_queueError ..
  · exact le_queueError ..

theorem le_floatElem (E mode v) (st : St) : St.Quiet st (floatElem E mode v st).1 := by
  unfold floatElem
  split
  all_goals first | exact .refl _ | exact le_queueError ..

theorem le_customElem {t v} {st st' : St} {b} (h : customElem t v st = some (st', b)) : St.Quiet st st' := by
  unfold customElem at h
  split at h
  · simp only [Option.some.injEq, Prod.mk.injEq] at h; rw [← h.1]; exact .refl _
  · split at h
    · exact nomatch h
    all_goals
      simp only [Option.some.injEq, Prod.mk.injEq] at h; rw [← h.1]
      split
      · first | exact .refl _ | exact le_queueError ..
      · first | exact .refl _ | exact le_queueError ..
  all_goals simp only [Option.some.injEq, Prod.mk.injEq] at h; rw [← h.1]; exact le_queueError ..

theorem le_dataLoop {E elem} (he : ∀ v st, St.Quiet st (elem v st).1) {es : List Expr} {st st' : St} {l}
    (h : dataLoop E elem es st = some (st', l)) : St.Quiet st st' := by
  induction es generalizing st l with
  | nil => simp only [dataLoop, Option.some.injEq, Prod.mk.injEq] at h; rw [← h.1]; exact .refl _
  | cons e es ih =>
    simp only [dataLoop] at h
    split at h
    · exact nomatch h
    · rename_i st1 v hv
      split at h
      · exact nomatch h
      · rename_i st2 rest hr
        simp only [Option.some.injEq, Prod.mk.injEq] at h; rw [← h.1]
        exact (le_eval hv).trans ((he v st1).trans (h.1 ▸ ih (h.1 ▸ hr)))

theorem le_customLoop {E t} {es : List Expr} {st st' : St} {l}
    (h : customLoop E t es st = some (st', l)) : St.Quiet st st' := by
  induction es generalizing st l with
  | nil => simp only [customLoop, Option.some.injEq, Prod.mk.injEq] at h; rw [← h.1]; exact .refl _
  | cons e es ih =>
    simp only [customLoop] at h
    split at h
    · exact nomatch h
    · rename_i st1 v hv
      split at h
      · exact nomatch h
      · rename_i st2 b hb
        split at h
        · exact nomatch h
        · rename_i st3 rest hr
          simp only [Option.some.injEq, Prod.mk.injEq] at h; rw [← h.1]
          exact (le_eval hv).trans ((le_customElem hb).trans (h.1 ▸ ih (h.1 ▸ hr)))

theorem le_encodeEntries {E mode es t old st d st'} (h : encodeEntries E mode es t old st = some (d, st')) :
    St.Quiet st st' := by
  have hcustom : ∀ tbl : Tbl, (match customLoop E tbl es st with
      | none => none
      | some (st, b) => match termination tbl t with
        | none => none
        | some x => some ((old.1, b ++ x), st)) = some (d, st') → St.Quiet st st' := by
    intro tbl h
    split at h
    · exact nomatch h
    · rename_i hl
      split at h
      · exact nomatch h
      · simp only [Option.some.injEq, Prod.mk.injEq] at h; rw [← h.2]; exact le_customLoop hl
  unfold encodeEntries at h
  split at h
  · exact hcustom _ h
  · exact hcustom _ h
  all_goals
    split at h
    · exact nomatch h
    · rename_i hl
      simp only [Option.some.injEq, Prod.mk.injEq] at h; rw [← h.2]
      first
      | exact le_dataLoop (le_floatElem E _) hl
      | exact le_dataLoop (le_normalElem E _) hl

theorem le_validateData {E mode es t old st d st' r} (h : validateData E mode es t old st = some (d, st', r)) :
    St.Quiet st st' := by
  unfold validateData at h
  split at h
  · exact nomatch h
  · rename_i he
    simp only [Option.some.injEq, Prod.mk.injEq] at h; rw [← h.2.1]
    exact (le_encodeEntries he).trans (le_advance ..)

theorem le_evalCond {E k st st' b} (h : evalCond E k st = some (st', b)) : St.Quiet st st' := by
  unfold evalCond at h
  split at h
  · split at h
    · exact nomatch h
    all_goals
      rename_i he
      simp only [Option.some.injEq, Prod.mk.injEq] at h; rw [← h.1]
      refine (le_evalInt he).trans ?_
    · exact le_queueError ..
    · exact .refl _
  all_goals
    rw [Option.map_eq_some_iff] at h
    obtain ⟨m, hm, h⟩ := h
    simp only [Prod.mk.injEq] at h; rw [← h.1]; exact .refl _

theorem le_validateMessage {E t e st st'} (h : validateMessage E t e st = some st') : St.Quiet st st' := by
  unfold validateMessage at h
  split at h
  · exact nomatch h
  all_goals
    rename_i he
    simp only [Option.some.injEq] at h; rw [← h]
    refine (le_eval he).trans ?_
  · exact le_queueError ..
  · split <;> exact le_queueError ..

theorem le_validateInstr {E sem old st m st' r} (h : validateInstr E sem old st = some (m, st', r)) : St.Le st st' := by
  unfold validateInstr at h
  split at h
  · exact nomatch h
  · rename_i ds _
    simp only [Option.some.injEq, Prod.mk.injEq] at h; rw [← h.2.1]
    refine (le_report st ds).le.trans ?_
    refine St.Le.trans ?_ (le_advance ..).le
    split <;> exact Logger.Le.refl _

theorem le_poolStep (d p) (acc : List Int × St) (e) : St.Le acc.2 (poolStep d p acc e).2 := by
  unfold poolStep
  generalize (fun r => if r = e.request then some (p + (poolIndex d e.value acc.1 : Int) * 4) else acc.2.poolAddr r) = g
  exact (le_report ({ acc.2 with poolAddr := g } : St) _).le

theorem le_poolSteps (d p) (es : List PoolEntry) (acc : List Int × St) :
    St.Le acc.2 (es.foldl (poolStep d p) acc).2 := by
  induction es generalizing acc with
  | nil => exact .refl _
  | cons e es ih => exact (le_poolStep d p acc e).trans (ih _)

theorem le_validatePool (passes old) (st : St) : St.Le st (validatePool passes old st).2.1 := by
  unfold validatePool
  dsimp only
  generalize hs : (if old.1 ≠ -1 then
    ({ st with fm := st.fm.getOpenFileID.1, alloc := st.alloc.forgetPool st.fm.getOpenFileID.2 old.1 (old.2.length * 4) } : St)
    else { st with fm := st.fm.getOpenFileID.1 }) = st1
  have h1 : St.Le st st1 := by
    rw [← hs]
    refine (st.fm.le_getOpenFileID : Logger.Le _ _).trans ?_
    split <;> exact Logger.Le.refl _
  refine h1.trans ((le_poolSteps (decide (passes < 10)) st1.virt st1.pool ([], st1)).trans ?_)
  exact St.le_advance ({ (List.foldl (poolStep (decide (passes < 10)) st1.virt) ([], st1) st1.pool).2 with pool := [] } : St) _ |>.le

theorem le_areaPosition {E p st st' r} (h : areaPosition E p st = some (st', r)) : St.Quiet st st' := by
  unfold areaPosition at h
  split at h
  · simp only [Option.some.injEq, Prod.mk.injEq] at h; rw [← h.1]; exact .refl _
  · split at h
    · exact nomatch h
    all_goals
      rename_i he
      simp only [Option.some.injEq, Prod.mk.injEq] at h; rw [← h.1]
      refine (le_evalInt he).trans ?_
    · exact le_queueError ..
    · exact (le_nextSection _).trans (le_seekVirtual ..)

theorem le_areaEnd (sh hf old p n f) (st : St) (r) : St.Quiet st (areaEnd sh hf old p n f st r).2.1 := by
  unfold areaEnd
  dsimp only
  refine St.Quiet.trans (b := if n < st.virt - p then st.queueError .error "Area overflowed" else st) ?_ ?_
  · split
    · exact le_queueError ..
    · exact .refl _
  generalize (if n < st.virt - p then st.queueError .error "Area overflowed" else st) = st1
  refine St.Quiet.trans (b := if (hf || sh) = true then st1.advance (n - (st.virt - p)) else st1) ?_ ?_
  · split
    · exact le_advance ..
    · exact .refl _
  generalize (if (hf || sh) = true then st1.advance (n - (st.virt - p)) else st1) = st2
  refine (Quiet.fm st2.fm.le_getOpenFileID).trans ?_
  split <;> split <;> exact ⟨Logger.Le.refl _, rfl, rfl, rfl, rfl⟩

theorem le_autoPlace {E mn mx mem st st' r} (h : autoPlace E mn mx mem st = some (st', r)) : St.Quiet st st' := by
  unfold autoPlace at h
  split at h
  · exact nomatch h
  · rename_i he
    simp only [Option.some.injEq, Prod.mk.injEq] at h; rw [← h.1]
    exact (le_evalIntOpt he).trans (le_queueError ..)
  · rename_i st1 v he
    refine (le_evalIntOpt he).trans ?_
    split at h
    · exact nomatch h
    · rename_i he
      simp only [Option.some.injEq, Prod.mk.injEq] at h; rw [← h.1]
      exact (le_evalIntOpt he).trans (le_queueError ..)
    · rename_i st2 v2 he2
      refine (le_evalIntOpt he2).trans ((Quiet.fm st2.fm.le_getOpenFileID).trans ?_)
      dsimp only at h
      split at h <;> simp only [Option.some.injEq, Prod.mk.injEq] at h <;> rw [← h.1]
      · exact ⟨FM.le_queueError .., rfl, rfl, rfl, rfl⟩
      · exact ⟨Logger.Le.refl _, rfl, rfl, rfl, rfl⟩

theorem le_validate {E passes} {c : Cmd} {nf : Bool} {m : c.Mem} {st : St} {m' : c.Mem} {st' : St} {r : Bool}
    (h : validate E passes c nf m st = some (m', st', r)) : St.Le st st' := by
  induction c generalizing nf st st' r with
  | nil => simp only [validate] at h; rw [← (some3 h).2.1]; exact .refl _
  | cons c rest ih1 ih2 =>
    obtain ⟨m1, m2⟩ := m
    simp only [validate] at h
    split at h
    · exact nomatch h
    · rename_i h1
      split at h
      · exact nomatch h
      · rename_i h2
        rw [← (some3 h).2.1]
        exact (ih1 h1).trans (ih2 h2)
  | label id v => simp only [validate] at h; exact le_validateLabel h
  | function id c ih =>
    obtain ⟨m1, m2⟩ := m
    simp only [validate] at h
    split at h
    · exact nomatch h
    · rename_i h1
      split at h
      · exact nomatch h
      · rename_i h2
        rw [← (some3 h).2.1]
        exact (le_validateLabel h1).trans (ih h2)
  | openFile i => simp only [validate] at h; rw [← (some3 h).2.1]; exact (le_validateOpen ..).le
  | closeFile => simp only [validate] at h; rw [← (some3 h).2.1]; exact (le_validateClose ..).le
  | position v e =>
    simp only [validate] at h
    obtain ⟨x, hx, h⟩ := map_some h
    rw [← (pair3 h).2.1]; exact (le_validatePosition hx).le
  | incbin f fs a b =>
    simp only [validate] at h
    obtain ⟨x, hx, h⟩ := map_some h
    rw [← (pair3 h).2.1]; exact (le_validateIncbin hx).le
  | align mode e f => simp only [validate] at h; exact (le_validateAlign h).le
  | skip e =>
    simp only [validate] at h
    obtain ⟨x, hx, h⟩ := map_some h
    rw [← (pair3 h).2.1]; exact (le_validateSkip hx).le
  | headerSize e =>
    simp only [validate] at h
    obtain ⟨x, hx, h⟩ := map_some h
    rw [← (pair3 h).2.1]; exact (le_validateHeaderSize hx).le
  | data mode es t => simp only [validate] at h; exact (le_validateData h).le
  | table t => simp only [validate] at h; rw [← (some3 h).2.1]; exact Logger.Le.refl _
  | area sh sz fl p c ih =>
    obtain ⟨a, m⟩ := m
    simp only [validate] at h
    split at h
    · exact nomatch h
    · rename_i he
      rw [← (some3 h).2.1]; exact (le_areaPosition he).le
    · rename_i he
      refine (le_areaPosition he).le.trans ?_
      split at h
      · exact nomatch h
      · rename_i he
        rw [← (some3 h).2.1]
        exact ((le_evalInt he).trans (le_queueError ..)).le
      · rename_i he
        refine (le_evalInt he).le.trans ?_
        split at h
        · rw [← (some3 h).2.1]; exact (le_queueError ..).le
        · split at h
          · exact nomatch h
          · rename_i he
            rw [← (some3 h).2.1]
            exact ((le_evalIntOpt he).trans (le_queueError ..)).le
          · rename_i st4 f he
            refine (le_evalIntOpt he).le.trans ?_
            split at h
            · exact nomatch h
            · rename_i m5 st5 r5 h1
              refine (ih h1).trans ?_
              rw [← (some3 h).2.1]
              exact (le_areaEnd _ _ _ _ _ (if fl.isSome = true then toByte f else a.fillValue) _ r5).le
  | autoRegion mn mx c ih =>
    obtain ⟨a, m⟩ := m
    simp only [validate] at h
    split at h
    · split at h
      · exact nomatch h
      · rename_i h1
        rw [← (some3 h).2.1]
        exact (ih h1).trans (le_seekVirtual ..).le
    · split at h
      · exact nomatch h
      · rename_i he
        rw [← (some3 h).2.1]; exact (le_autoPlace he).le
      · rename_i he
        refine (le_autoPlace he).le.trans ?_
        split at h
        · exact nomatch h
        · rename_i h1
          rw [← (some3 h).2.1]
          exact ((le_nextSection _).trans (le_seekVirtual ..)).le.trans ((ih h1).trans (le_seekVirtual ..).le)
  | cond k a b ih1 ih2 =>
    obtain ⟨p, m1, m2⟩ := m
    simp only [validate] at h
    split at h
    · exact nomatch h
    · rename_i he
      refine (le_evalCond he).le.trans ?_
      split at h
      · exact nomatch h
      · rename_i h1
        rw [← (some3 h).2.1]; exact ih1 h1
    · rename_i he
      refine (le_evalCond he).le.trans ?_
      split at h
      · exact nomatch h
      · rename_i h1
        rw [← (some3 h).2.1]; exact ih2 h1
  | arch a e => simp only [validate] at h; rw [← (some3 h).2.1]; exact Logger.Le.refl _
  | message t e =>
    simp only [validate] at h
    obtain ⟨x, hx, h⟩ := map_some h
    rw [← (pair3 h).2.1]; exact (le_validateMessage hx).le
  | mipsMacro x y c ih =>
    simp only [validate] at h
    split at h
    · exact nomatch h
    · rename_i h1
      rw [← (some3 h).2.1]
      refine (ih h1).trans ?_
      split <;> split
      · exact ((le_queueError ..).trans (le_queueError ..)).le
      · exact (le_queueError ..).le
      · exact (le_queueError ..).le
      · exact .refl _
  | instr sem => simp only [validate] at h; exact le_validateInstr h
  | pool =>
    simp only [validate] at h
    rw [← (some3 h).2.1]; exact le_validatePool ..

/-! ## Encoding -/

theorem le_writeUnit (m : FM) (u) : Le m.log (writeUnit m u).log := by
  unfold writeUnit
  split
  · exact FM.le_write m _
  all_goals exact FM.le_write m _

theorem le_writeUnits (m : FM) (l) : Le m.log (writeUnits m l).log := by
  unfold writeUnits
  induction l generalizing m with
  | nil => exact .refl _
  | cons u l ih => exact (le_writeUnit m u).trans (ih _)

theorem le_encodeNextSection (G) (m : FM) : Le m.log (encodeNextSection G m).log := by
  unfold encodeNextSection
  split
  · exact FM.le_printError ..
  · exact .refl _

theorem le_encodeIncbin {f s n} {m m' : FM} (h : encodeIncbin f s n m = some m') : Le m.log m'.log := by
  unfold encodeIncbin at h
  split at h
  · simp only [Option.some.injEq] at h; rw [← h]; exact .refl _
  · split at h
    · exact nomatch h
    · split at h
      · exact nomatch h
      · split at h <;> simp only [Option.some.injEq] at h <;> rw [← h]
        · exact FM.le_printError ..
        · exact FM.le_write ..

theorem le_fillLoop (b k n) (m : FM) : Le m.log (fillLoop b k n m).log := by
  induction k generalizing n m with
  | zero => exact FM.le_write ..
  | succ k ih =>
    simp only [fillLoop]
    split
    · exact (FM.le_write ..).trans (ih _ _)
    · exact FM.le_write ..

theorem le_areaFillLoop (b k n) (m : FM) : Le m.log (areaFillLoop b k n m).log := by
  induction k generalizing n m with
  | zero => exact .refl _
  | succ k ih =>
    simp only [areaFillLoop]
    split
    · exact (FM.le_write ..).trans (ih _ _)
    · exact .refl _

theorem le_encodeAreaEnd {sh hf al a} {m m' : FM} (h : encodeAreaEnd sh hf al a m = some m') : Le m.log m'.log := by
  unfold encodeAreaEnd at h
  split at h
  · dsimp only at h
    split at h
    · exact nomatch h
    · simp only [Option.some.injEq] at h; rw [← h]
      refine Logger.Le.trans ?_ (le_areaFillLoop ..)
      split
      · exact FM.le_advanceMemory ..
      · exact .refl _
  · split at h <;> simp only [Option.some.injEq] at h <;> rw [← h]
    · exact FM.le_advanceMemory ..
    · exact .refl _

theorem le_encode {G} {c : Cmd} {m : c.Mem} {f f' : FM} (h : encode G c m f = some f') : Le f.log f'.log := by
  induction c generalizing f f' with
  | nil => simp only [encode, Option.some.injEq] at h; rw [← h]; exact .refl _
  | cons c rest ih1 ih2 =>
    obtain ⟨m1, m2⟩ := m
    simp only [encode] at h
    split at h
    · exact nomatch h
    · rename_i h1; exact (ih1 h1).trans (ih2 h)
  | label | table | message => simp only [encode, Option.some.injEq] at h; rw [← h]; exact .refl _
  | function id c ih => obtain ⟨m1, m2⟩ := m; simp only [encode] at h; exact ih h
  | openFile i => simp only [encode, Option.some.injEq] at h; rw [← h]; exact FM.le_openFile ..
  | closeFile => simp only [encode, Option.some.injEq] at h; rw [← h]; exact FM.le_closeFile ..
  | position v e =>
    simp only [encode, Option.some.injEq] at h; rw [← h]
    refine (le_encodeNextSection G f).trans ?_
    split
    · exact FM.le_seekVirtual ..
    · exact FM.le_seekPhysical ..
  | incbin => obtain ⟨a, b⟩ := m; simp only [encode] at h; exact le_encodeIncbin h
  | align mode e fl =>
    obtain ⟨a, b⟩ := m
    simp only [encode, encodeFill] at h
    split at h
    · exact nomatch h
    · simp only [Option.some.injEq] at h; rw [← h]; exact le_fillLoop ..
  | skip e =>
    simp only [encode, Option.some.injEq] at h; rw [← h]
    exact (le_encodeNextSection G f).trans (FM.le_advanceMemory ..)
  | headerSize e => simp only [encode] at h; exact FM.le_execHeaderSize h
  | data mode es t =>
    simp only [encode, Option.some.injEq] at h; rw [← h]
    unfold encodeData
    split
    · exact FM.le_write ..
    · exact FM.le_write ..
    · exact le_writeUnits ..
  | area sh sz fl p c ih =>
    obtain ⟨a, m⟩ := m
    simp only [encode] at h
    split at h
    · exact nomatch h
    · rename_i h1
      refine Logger.Le.trans ?_ ((ih h1).trans (le_encodeAreaEnd h))
      split
      · exact (le_encodeNextSection G f).trans (FM.le_seekVirtual ..)
      · exact .refl _
  | autoRegion mn mx c ih =>
    obtain ⟨a, m⟩ := m
    simp only [encode] at h
    split at h
    · exact nomatch h
    · rename_i h1
      simp only [Option.some.injEq] at h; rw [← h]
      exact ((le_encodeNextSection G f).trans (FM.le_seekVirtual ..)).trans ((ih h1).trans (FM.le_seekVirtual ..))
  | cond k a b ih1 ih2 =>
    obtain ⟨p, m1, m2⟩ := m
    simp only [encode] at h
    split at h
    · exact ih1 h
    · exact ih2 h
  | arch a e => simp only [encode, Option.some.injEq] at h; rw [← h]; exact .refl _
  | mipsMacro x y c ih => simp only [encode] at h; exact ih h
  | instr sem =>
    obtain ⟨o, r⟩ := m
    simp only [encode] at h
    split at h
    · exact nomatch h
    · simp only [Option.some.injEq] at h; rw [← h]; exact le_writeUnits ..
  | pool =>
    obtain ⟨p, vs⟩ := m
    simp only [encode, Option.some.injEq] at h; rw [← h]; exact le_writeUnits ..

end Armips
