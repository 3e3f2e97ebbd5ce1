import Verif.Lemmas.LayoutLeaf
/-!
# Validation leaves the disk and the declarations of files alone
-/
namespace Armips
open Table

/-- Same disk and same declared files. -/
structure FM.Kept (a b : FM) : Prop where
  disk : b.disk = a.disk
  name : ∀ i, (b.files i).fileName = (a.files i).fileName
  mode : ∀ i, (b.files i).mode = (a.files i).mode
  header : ∀ i, (b.files i).originalHeaderSize = (a.files i).originalHeaderSize

theorem FM.Kept.refl (a : FM) : Kept a a := ⟨rfl, fun _ => rfl, fun _ => rfl, fun _ => rfl⟩
theorem FM.Kept.trans {a b c : FM} (h1 : Kept a b) (h2 : Kept b c) : Kept a c :=
  ⟨h2.1.trans h1.1, fun i => (h2.2 i).trans (h1.2 i), fun i => (h2.3 i).trans (h1.3 i), fun i => (h2.4 i).trans (h1.4 i)⟩

theorem FM.Kept.set (m : FM) (i : Nat) (f : AFile) (h1 : f.fileName = (m.files i).fileName) (h2 : f.mode = (m.files i).mode)
    (h3 : f.originalHeaderSize = (m.files i).originalHeaderSize) : Kept m (m.setFile i f) := by
  refine ⟨rfl, fun j => ?_, fun j => ?_, fun j => ?_⟩ <;> simp only [FM.setFile] <;> split <;> simp_all

theorem FM.Kept.log {a b : FM} (l : Logger) (h : Kept a b) : Kept a { b with log := l } := ⟨h.1, h.2, h.3, h.4⟩

def St.Kept (a b : St) : Prop := FM.Kept a.fm b.fm
theorem St.Kept.refl (a : St) : Kept a a := FM.Kept.refl _
theorem St.Kept.trans {a b c : St} (h1 : Kept a b) (h2 : Kept b c) : Kept a c := FM.Kept.trans h1 h2
theorem St.Kept.fm {a : St} {m : FM} (h : FM.Kept a.fm m) : Kept a { a with fm := m } := h

namespace FM
theorem keep_queueError (m : FM) (t s) : Kept m (m.queueError t s) := .log _ (.refl m)
theorem keep_printError (m : FM) (t s) : Kept m (m.printError t s) := .log _ (.refl m)

theorem keep_seekVirtualAFile (m : FM) (i a) : Kept m (m.seekVirtualAFile i a).1 := by
  simp only [seekVirtualAFile]
  split
  · exact keep_queueError ..
  · have : Kept m (m.setFile i { m.files i with virtualAddress := a, stream := (m.files i).stream.map fun _ => (a - (m.files i).headerSize).toNat }) := .set _ _ _ rfl rfl rfl
    split
    · exact .log _ this
    · exact this

theorem keep_seekPhysicalAFile (m : FM) (i a) : Kept m (m.seekPhysicalAFile i a).1 := by
  simp only [seekPhysicalAFile]
  split
  · exact keep_queueError ..
  · have : Kept m (m.setFile i { m.files i with virtualAddress := a + (m.files i).headerSize, stream := (m.files i).stream.map fun _ => a.toNat }) := .set _ _ _ rfl rfl rfl
    split
    · exact .log _ this
    · exact this

theorem keep_seekVirtual (m : FM) (a) : Kept m (m.seekVirtual a).1 := by
  simp only [seekVirtual]; split
  · exact keep_queueError ..
  · exact keep_seekVirtualAFile ..

theorem keep_seekPhysical (m : FM) (a) : Kept m (m.seekPhysical a).1 := by
  simp only [seekPhysical]; split
  · exact keep_queueError ..
  · exact keep_seekPhysicalAFile ..

theorem keep_advanceMemory (m : FM) (a) : Kept m (m.advanceMemory a).1 := by
  simp only [advanceMemory]; split
  · exact keep_queueError ..
  · exact keep_seekVirtualAFile ..

theorem keep_openAFile (m : FM) (i) : Kept m (m.openAFile i true).1 := by
  obtain ⟨l, h⟩ := openAFile_check m i
  rw [h]
  exact .log _ (.set _ _ _ rfl rfl rfl)

theorem keep_openFile (m : FM) (i) : Kept m (m.openFile i true).1 := by
  simp only [openFile]
  split
  · exact Kept.trans (b := { m with active := some i }) ⟨rfl, fun _ => rfl, fun _ => rfl, fun _ => rfl⟩ (keep_openAFile _ i)
  · rename_i j _
    refine Kept.trans (b := { (m.queueError .warning "File not closed before opening a new one").closeAFile j with active := some i }) ?_ (keep_openAFile _ i)
    have : Kept m (m.setFile j { m.files j with stream := none }) := .set _ _ _ rfl rfl rfl
    exact ⟨this.1, this.2, this.3, this.4⟩

theorem keep_closeFile (m : FM) : Kept m m.closeFile := by
  simp only [closeFile]; split
  · exact keep_queueError ..
  · rename_i j _
    have : Kept m (m.setFile j { m.files j with stream := none }) := .set _ _ _ rfl rfl rfl
    exact ⟨this.1, this.2, this.3, this.4⟩

theorem keep_getOpenFileID (m : FM) : Kept m m.getOpenFileID.1 := by
  simp only [getOpenFileID]; split
  · exact keep_queueError ..
  · exact .refl _

theorem keep_execHeaderSize {m : FM} {h m'} (e : m.execHeaderSize h = some m') : Kept m m' := by
  simp only [execHeaderSize] at e
  split at e
  · exact nomatch e
  · simp only [Option.some.injEq] at e
    subst e
    refine Kept.trans ?_ (keep_seekPhysicalAFile ..)
    exact Kept.set _ _ _ rfl rfl rfl

end FM

namespace St
theorem keep_queueError (st : St) (t s) : Kept st (st.queueError t s) := .fm (st.fm.keep_queueError t s)
theorem keep_printError (st : St) (t s) : Kept st (st.printError t s) := .fm (st.fm.keep_printError t s)

theorem keep_report (st : St) (ds) : Kept st (st.report ds) := by
  induction ds generalizing st with
  | nil => exact .refl _
  | cons d ds ih =>
    refine Kept.trans ?_ (ih _)
    dsimp only
    split
    · exact keep_printError ..
    · exact keep_queueError ..

theorem keep_eval {E} {st st' : St} {e v} (h : st.eval E e = some (st', v)) : Kept st st' := by
  unfold eval at h
  split at h
  · exact nomatch h
  · simp only [Option.some.injEq, Prod.mk.injEq] at h; rw [← h.1]; exact keep_report ..

theorem keep_evalInt {E} {st st' : St} {e v} (h : st.evalInt E e = some (st', v)) : Kept st st' := by
  obtain ⟨w, hw, _⟩ := evalInt_eval h; exact keep_eval hw

theorem keep_evalIntOpt {E} {st st' : St} {e old v} (h : st.evalIntOpt E e old = some (st', v)) : Kept st st' := by
  unfold evalIntOpt at h
  split at h
  · simp only [Option.some.injEq, Prod.mk.injEq] at h; rw [← h.1]; exact .refl _
  · exact keep_evalInt h

theorem keep_nextSection (st : St) : Kept st st.nextSection := by
  unfold nextSection; split
  · exact keep_printError ..
  · exact FM.Kept.refl _
  · exact .refl _

theorem keep_advance (st : St) (n) : Kept st (st.advance n) := .fm (st.fm.keep_advanceMemory n)
theorem keep_seekVirtual (st : St) (n) : Kept st (st.seekVirtual n) := .fm (st.fm.keep_seekVirtual n)
theorem keep_seekPhysical (st : St) (n) : Kept st (st.seekPhysical n) := .fm (st.fm.keep_seekPhysical n)

end St
open St

theorem keep_validateLabel {E id value d st d' st' r} (h : validateLabel E id value d st = some (d', st', r)) :
    St.Kept st st' := by
  unfold validateLabel at h
  split at h
  · exact nomatch h
  split at h
  · simp only [Option.some.injEq, Prod.mk.injEq] at h; rw [← h.2.1]; exact (keep_queueError ..)
  have key : ∀ st1 : St, st1.fm = st.fm → St.Kept st st1 := fun st1 e => by unfold St.Kept; rw [e]; exact .refl _
  dsimp only at h
  split at h
  · split at h
    · exact nomatch h
    · rename_i st1 he
      simp only [Option.some.injEq, Prod.mk.injEq] at h; rw [← h.2.1]
      refine St.Kept.trans ?_ ((keep_evalInt he).trans (keep_printError ..))
      apply key; split <;> rfl
    · rename_i st1 v he
      have l1 : St.Kept st st1 := by
        refine St.Kept.trans ?_ (keep_evalInt he)
        apply key; split <;> rfl
      split at h <;> simp only [Option.some.injEq, Prod.mk.injEq] at h <;> rw [← h.2.1]
      · exact l1
      · exact l1
  · simp only [Option.some.injEq, Prod.mk.injEq] at h; rw [← h.2.1]
    apply key
    repeat' split
    all_goals rfl

theorem keep_validateOpen (nf i) (st : St) : St.Kept st (validateOpen nf i st) := by
  unfold validateOpen; split
  · exact keep_queueError ..
  · exact (keep_nextSection st).trans (.fm (st.nextSection.fm.keep_openFile i))

theorem keep_validateClose (nf) (st : St) : St.Kept st (validateClose nf st) := by
  unfold validateClose; split
  · exact keep_queueError ..
  · exact (keep_nextSection st).trans (.fm (st.nextSection.fm.keep_closeFile))

theorem keep_execPosition (v p) (st : St) : St.Kept st (execPosition v p st) := by
  unfold execPosition; split
  · exact keep_seekVirtual ..
  · exact keep_seekPhysical ..

theorem keep_validatePosition {E v e old st p st'} (h : validatePosition E v e old st = some (p, st')) : St.Kept st st' := by
  unfold validatePosition at h
  split at h
  · exact nomatch h
  all_goals
    rename_i he
    simp only [Option.some.injEq, Prod.mk.injEq] at h; rw [← h.2]
    refine (keep_evalInt he).trans ?_
  · exact keep_queueError ..
  · exact (keep_nextSection _).trans (keep_execPosition ..)

theorem keep_validateIncbin {E fs a b old st p st'} (h : validateIncbin E fs a b old st = some (p, st')) : St.Kept st st' := by
  unfold validateIncbin at h
  split at h
  · exact nomatch h
  · rename_i he
    simp only [Option.some.injEq, Prod.mk.injEq] at h; rw [← h.2]
    exact (keep_evalIntOpt he).trans (keep_queueError ..)
  · rename_i st1 start he
    refine (keep_evalIntOpt he).trans ?_
    split at h
    · simp only [Option.some.injEq, Prod.mk.injEq] at h; rw [← h.2]; exact keep_queueError ..
    · split at h
      · exact nomatch h
      all_goals
        rename_i he2
        refine (keep_evalIntOpt he2).trans ?_
        simp only [Option.some.injEq, Prod.mk.injEq] at h; rw [← h.2]
      · exact keep_queueError ..
      · refine St.Kept.trans ?_ ((keep_nextSection _).trans (keep_advance ..))
        split
        · exact keep_queueError ..
        · exact .refl _

theorem keep_validateAlign {E mode e fill old st p st' r} (h : validateAlign E mode e fill old st = some (p, st', r)) :
    St.Kept st st' := by
  unfold validateAlign at h
  split at h
  · exact nomatch h
  · rename_i he
    simp only [Option.some.injEq, Prod.mk.injEq] at h; rw [← h.2.1]
    exact (keep_evalInt he).trans (keep_queueError ..)
  · rename_i st1 v he
    refine (keep_evalInt he).trans ?_
    split at h
    · exact nomatch h
    · simp only [Option.some.injEq, Prod.mk.injEq] at h; rw [← h.2.1]; exact keep_queueError ..
    · split at h
      · exact nomatch h
      · split at h
        · split at h
          · exact nomatch h
          all_goals
            rename_i he2
            simp only [Option.some.injEq, Prod.mk.injEq] at h; rw [← h.2.1]
            refine (keep_evalInt he2).trans ?_
          · exact keep_printError ..
          · exact (keep_nextSection _).trans (keep_advance ..)
        · simp only [Option.some.injEq, Prod.mk.injEq] at h; rw [← h.2.1]
          exact (keep_nextSection _).trans (keep_advance ..)

theorem keep_validateSkip {E e old st p st'} (h : validateSkip E e old st = some (p, st')) : St.Kept st st' := by
  unfold validateSkip at h
  split at h
  · exact nomatch h
  all_goals
    rename_i he
    simp only [Option.some.injEq, Prod.mk.injEq] at h; rw [← h.2]
    refine (keep_evalInt he).trans ?_
  · exact keep_queueError ..
  · exact (keep_nextSection _).trans (keep_advance ..)

theorem keep_validateHeaderSize {E e old st p st'} (h : validateHeaderSize E e old st = some (p, st')) : St.Kept st st' := by
  unfold validateHeaderSize at h
  split at h
  · exact nomatch h
  all_goals
    rename_i he
    refine (keep_evalInt he).trans ?_
  · simp only [Option.some.injEq, Prod.mk.injEq] at h; rw [← h.2]; exact keep_queueError ..
  · rw [Option.map_eq_some_iff] at h
    obtain ⟨m, hm, h⟩ := h
    simp only [Prod.mk.injEq] at h; rw [← h.2]
    exact .fm (FM.keep_execHeaderSize hm)

theorem keep_normalElem (E mode v) (st : St) : St.Kept st (normalElem E mode v st).1 := by
  unfold normalElem
  split
  · dsimp only; split
    · exact keep_queueError ..
    · exact .refl _
  · exact .refl _
  · split
    · exact .refl _
    · exact .refl _
    · exact keep_queueError ..
  · exact keep_queueError ..

theorem keep_floatElem (E mode v) (st : St) : St.Kept st (floatElem E mode v st).1 := by
  unfold floatElem
  split
  all_goals first | exact .refl _ | exact keep_queueError ..

theorem keep_customElem {t v} {st st' : St} {b} (h : customElem t v st = some (st', b)) : St.Kept st st' := by
  unfold customElem at h
  split at h
  · simp only [Option.some.injEq, Prod.mk.injEq] at h; rw [← h.1]; exact .refl _
  · split at h
    · exact nomatch h
    all_goals
      simp only [Option.some.injEq, Prod.mk.injEq] at h; rw [← h.1]
      split
      · first | exact .refl _ | exact keep_queueError ..
      · first | exact .refl _ | exact keep_queueError ..
  all_goals simp only [Option.some.injEq, Prod.mk.injEq] at h; rw [← h.1]; exact keep_queueError ..

theorem keep_dataLoop {E elem} (he : ∀ v st, St.Kept st (elem v st).1) {es : List Expr} {st st' : St} {l}
    (h : dataLoop E elem es st = some (st', l)) : St.Kept st st' := by
  induction es generalizing st l with
  | nil => simp only [dataLoop, Option.some.injEq, Prod.mk.injEq] at h; rw [← h.1]; exact .refl _
  | cons e es ih =>
    simp only [dataLoop] at h
    split at h
    · exact nomatch h
    · rename_i st1 v hv
      split at h
      · exact nomatch h
      · rename_i st2 rest hr
        simp only [Option.some.injEq, Prod.mk.injEq] at h; rw [← h.1]
        exact (keep_eval hv).trans ((he v st1).trans (h.1 ▸ ih (h.1 ▸ hr)))

theorem keep_customLoop {E t} {es : List Expr} {st st' : St} {l}
    (h : customLoop E t es st = some (st', l)) : St.Kept st st' := by
  induction es generalizing st l with
  | nil => simp only [customLoop, Option.some.injEq, Prod.mk.injEq] at h; rw [← h.1]; exact .refl _
  | cons e es ih =>
    simp only [customLoop] at h
    split at h
    · exact nomatch h
    · rename_i st1 v hv
      split at h
      · exact nomatch h
      · rename_i st2 b hb
        split at h
        · exact nomatch h
        · rename_i st3 rest hr
          simp only [Option.some.injEq, Prod.mk.injEq] at h; rw [← h.1]
          exact (keep_eval hv).trans ((keep_customElem hb).trans (h.1 ▸ ih (h.1 ▸ hr)))

theorem keep_encodeEntries {E mode es t old st d st'} (h : encodeEntries E mode es t old st = some (d, st')) :
    St.Kept st st' := by
  have hcustom : ∀ tbl : Tbl, (match customLoop E tbl es st with
      | none => none
      | some (st, b) => match termination tbl t with
        | none => none
        | some x => some ((old.1, b ++ x), st)) = some (d, st') → St.Kept st st' := by
    intro tbl h
    split at h
    · exact nomatch h
    · rename_i hl
      split at h
      · exact nomatch h
      · simp only [Option.some.injEq, Prod.mk.injEq] at h; rw [← h.2]; exact keep_customLoop hl
  unfold encodeEntries at h
  split at h
  · exact hcustom _ h
  · exact hcustom _ h
  all_goals
    split at h
    · exact nomatch h
    · rename_i hl
      simp only [Option.some.injEq, Prod.mk.injEq] at h; rw [← h.2]
      first
      | exact keep_dataLoop (keep_floatElem E _) hl
      | exact keep_dataLoop (keep_normalElem E _) hl

theorem keep_validateData {E mode es t old st d st' r} (h : validateData E mode es t old st = some (d, st', r)) :
    St.Kept st st' := by
  unfold validateData at h
  split at h
  · exact nomatch h
  · rename_i he
    simp only [Option.some.injEq, Prod.mk.injEq] at h; rw [← h.2.1]
    exact (keep_encodeEntries he).trans (keep_advance ..)

theorem keep_evalCond {E k st st' b} (h : evalCond E k st = some (st', b)) : St.Kept st st' := by
  unfold evalCond at h
  split at h
  · split at h
    · exact nomatch h
    all_goals
      rename_i he
      simp only [Option.some.injEq, Prod.mk.injEq] at h; rw [← h.1]
      refine (keep_evalInt he).trans ?_
    · exact keep_queueError ..
    · exact .refl _
  all_goals
    rw [Option.map_eq_some_iff] at h
    obtain ⟨m, hm, h⟩ := h
    simp only [Prod.mk.injEq] at h; rw [← h.1]; exact .refl _

theorem keep_validateMessage {E t e st st'} (h : validateMessage E t e st = some st') : St.Kept st st' := by
  unfold validateMessage at h
  split at h
  · exact nomatch h
  all_goals
    rename_i he
    simp only [Option.some.injEq] at h; rw [← h]
    refine (keep_eval he).trans ?_
  · exact keep_queueError ..
  · split <;> exact keep_queueError ..

theorem keep_validateInstr {E sem old st m st' r} (h : validateInstr E sem old st = some (m, st', r)) : St.Kept st st' := by
  unfold validateInstr at h
  split at h
  · exact nomatch h
  · rename_i ds _
    simp only [Option.some.injEq, Prod.mk.injEq] at h; rw [← h.2.1]
    refine (keep_report st ds).trans ?_
    refine St.Kept.trans ?_ (keep_advance ..)
    split <;> exact FM.Kept.refl _

theorem keep_poolStep (d p) (acc : List Int × St) (e) : St.Kept acc.2 (poolStep d p acc e).2 := by
  unfold poolStep
  generalize (fun r => if r = e.request then some (p + (poolIndex d e.value acc.1 : Int) * 4) else acc.2.poolAddr r) = g
  exact (keep_report ({ acc.2 with poolAddr := g } : St) _)

theorem keep_poolSteps (d p) (es : List PoolEntry) (acc : List Int × St) :
    St.Kept acc.2 (es.foldl (poolStep d p) acc).2 := by
  induction es generalizing acc with
  | nil => exact .refl _
  | cons e es ih => exact (keep_poolStep d p acc e).trans (ih _)

theorem keep_validatePool (passes old) (st : St) : St.Kept st (validatePool passes old st).2.1 := by
  unfold validatePool
  dsimp only
  generalize hs : (if old.1 ≠ -1 then
    ({ st with fm := st.fm.getOpenFileID.1, alloc := st.alloc.forgetPool st.fm.getOpenFileID.2 old.1 (old.2.length * 4) } : St)
    else { st with fm := st.fm.getOpenFileID.1 }) = st1
  have h1 : St.Kept st st1 := by
    rw [← hs]
    refine (st.fm.keep_getOpenFileID : FM.Kept _ _).trans ?_
    split <;> exact FM.Kept.refl _
  refine h1.trans ((keep_poolSteps (decide (passes < 10)) st1.virt st1.pool ([], st1)).trans ?_)
  exact St.keep_advance ({ (List.foldl (poolStep (decide (passes < 10)) st1.virt) ([], st1) st1.pool).2 with pool := [] } : St) _

theorem keep_areaPosition {E p st st' r} (h : areaPosition E p st = some (st', r)) : St.Kept st st' := by
  unfold areaPosition at h
  split at h
  · simp only [Option.some.injEq, Prod.mk.injEq] at h; rw [← h.1]; exact .refl _
  · split at h
    · exact nomatch h
    all_goals
      rename_i he
      simp only [Option.some.injEq, Prod.mk.injEq] at h; rw [← h.1]
      refine (keep_evalInt he).trans ?_
    · exact keep_queueError ..
    · exact (keep_nextSection _).trans (keep_seekVirtual ..)

theorem keep_areaEnd (sh hf old p n f) (st : St) (r) : St.Kept st (areaEnd sh hf old p n f st r).2.1 := by
  unfold areaEnd
  dsimp only
  refine St.Kept.trans (b := if n < st.virt - p then st.queueError .error "Area overflowed" else st) ?_ ?_
  · split
    · exact keep_queueError ..
    · exact .refl _
  generalize (if n < st.virt - p then st.queueError .error "Area overflowed" else st) = st1
  refine St.Kept.trans (b := if (hf || sh) = true then st1.advance (n - (st.virt - p)) else st1) ?_ ?_
  · split
    · exact keep_advance ..
    · exact .refl _
  generalize (if (hf || sh) = true then st1.advance (n - (st.virt - p)) else st1) = st2
  refine (Kept.fm st2.fm.keep_getOpenFileID).trans ?_
  split <;> split <;> exact FM.Kept.refl _

theorem keep_autoPlace {E mn mx mem st st' r} (h : autoPlace E mn mx mem st = some (st', r)) : St.Kept st st' := by
  unfold autoPlace at h
  split at h
  · exact nomatch h
  · rename_i he
    simp only [Option.some.injEq, Prod.mk.injEq] at h; rw [← h.1]
    exact (keep_evalIntOpt he).trans (keep_queueError ..)
  · rename_i st1 v he
    refine (keep_evalIntOpt he).trans ?_
    split at h
    · exact nomatch h
    · rename_i he
      simp only [Option.some.injEq, Prod.mk.injEq] at h; rw [← h.1]
      exact (keep_evalIntOpt he).trans (keep_queueError ..)
    · rename_i st2 v2 he2
      refine (keep_evalIntOpt he2).trans ((Kept.fm st2.fm.keep_getOpenFileID).trans ?_)
      dsimp only at h
      split at h <;> simp only [Option.some.injEq, Prod.mk.injEq] at h <;> rw [← h.1]
      · exact FM.keep_queueError ..
      · exact FM.Kept.refl _

theorem keep_validate {E passes} {c : Cmd} {nf : Bool} {m : c.Mem} {st : St} {m' : c.Mem} {st' : St} {r : Bool}
    (h : validate E passes c nf m st = some (m', st', r)) : St.Kept st st' := by
  induction c generalizing nf st st' r with
  | nil => simp only [validate] at h; rw [← (some3 h).2.1]; exact .refl _
  | cons c rest ih1 ih2 =>
    obtain ⟨m1, m2⟩ := m
    simp only [validate] at h
    split at h
    · exact nomatch h
    · rename_i h1
      split at h
      · exact nomatch h
      · rename_i h2
        rw [← (some3 h).2.1]
        exact (ih1 h1).trans (ih2 h2)
  | label id v => simp only [validate] at h; exact keep_validateLabel h
  | function id c ih =>
    obtain ⟨m1, m2⟩ := m
    simp only [validate] at h
    split at h
    · exact nomatch h
    · rename_i h1
      split at h
      · exact nomatch h
      · rename_i h2
        rw [← (some3 h).2.1]
        exact (keep_validateLabel h1).trans (ih h2)
  | openFile i => simp only [validate] at h; rw [← (some3 h).2.1]; exact (keep_validateOpen ..)
  | closeFile => simp only [validate] at h; rw [← (some3 h).2.1]; exact (keep_validateClose ..)
  | position v e =>
    simp only [validate] at h
    obtain ⟨x, hx, h⟩ := map_some h
    rw [← (pair3 h).2.1]; exact (keep_validatePosition hx)
  | incbin f fs a b =>
    simp only [validate] at h
    obtain ⟨x, hx, h⟩ := map_some h
    rw [← (pair3 h).2.1]; exact (keep_validateIncbin hx)
  | align mode e f => simp only [validate] at h; exact (keep_validateAlign h)
  | skip e =>
    simp only [validate] at h
    obtain ⟨x, hx, h⟩ := map_some h
    rw [← (pair3 h).2.1]; exact (keep_validateSkip hx)
  | headerSize e =>
    simp only [validate] at h
    obtain ⟨x, hx, h⟩ := map_some h
    rw [← (pair3 h).2.1]; exact (keep_validateHeaderSize hx)
  | data mode es t => simp only [validate] at h; exact (keep_validateData h)
  | table t => simp only [validate] at h; rw [← (some3 h).2.1]; exact FM.Kept.refl _
  | area sh sz fl p c ih =>
    obtain ⟨a, m⟩ := m
    simp only [validate] at h
    split at h
    · exact nomatch h
    · rename_i he
      rw [← (some3 h).2.1]; exact (keep_areaPosition he)
    · rename_i he
      refine (keep_areaPosition he).trans ?_
      split at h
      · exact nomatch h
      · rename_i he
        rw [← (some3 h).2.1]
        exact ((keep_evalInt he).trans (keep_queueError ..))
      · rename_i he
        refine (keep_evalInt he).trans ?_
        split at h
        · rw [← (some3 h).2.1]; exact (keep_queueError ..)
        · split at h
          · exact nomatch h
          · rename_i he
            rw [← (some3 h).2.1]
            exact ((keep_evalIntOpt he).trans (keep_queueError ..))
          · rename_i st4 f he
            refine (keep_evalIntOpt he).trans ?_
            split at h
            · exact nomatch h
            · rename_i m5 st5 r5 h1
              refine (ih h1).trans ?_
              rw [← (some3 h).2.1]
              exact (keep_areaEnd _ _ _ _ _ (if fl.isSome = true then toByte f else a.fillValue) _ r5)
  | autoRegion mn mx c ih =>
    obtain ⟨a, m⟩ := m
    simp only [validate] at h
    split at h
    · split at h
      · exact nomatch h
      · rename_i h1
        rw [← (some3 h).2.1]
        exact (ih h1).trans (keep_seekVirtual ..)
    · split at h
      · exact nomatch h
      · rename_i he
        rw [← (some3 h).2.1]; exact (keep_autoPlace he)
      · rename_i he
        refine (keep_autoPlace he).trans ?_
        split at h
        · exact nomatch h
        · rename_i h1
          rw [← (some3 h).2.1]
          exact ((keep_nextSection _).trans (keep_seekVirtual ..)).trans ((ih h1).trans (keep_seekVirtual ..))
  | cond k a b ih1 ih2 =>
    obtain ⟨p, m1, m2⟩ := m
    simp only [validate] at h
    split at h
    · exact nomatch h
    · rename_i he
      refine (keep_evalCond he).trans ?_
      split at h
      · exact nomatch h
      · rename_i h1
        rw [← (some3 h).2.1]; exact ih1 h1
    · rename_i he
      refine (keep_evalCond he).trans ?_
      split at h
      · exact nomatch h
      · rename_i h1
        rw [← (some3 h).2.1]; exact ih2 h1
  | arch a e => simp only [validate] at h; rw [← (some3 h).2.1]; exact ⟨rfl, fun _ => rfl, fun _ => rfl, fun _ => rfl⟩
  | message t e =>
    simp only [validate] at h
    obtain ⟨x, hx, h⟩ := map_some h
    rw [← (pair3 h).2.1]; exact (keep_validateMessage hx)
  | mipsMacro x y c ih =>
    simp only [validate] at h
    split at h
    · exact nomatch h
    · rename_i h1
      rw [← (some3 h).2.1]
      refine (ih h1).trans ?_
      split <;> split
      · exact ((keep_queueError ..).trans (keep_queueError ..))
      · exact (keep_queueError ..)
      · exact (keep_queueError ..)
      · exact .refl _
  | instr sem => simp only [validate] at h; exact keep_validateInstr h
  | pool =>
    simp only [validate] at h
    rw [← (some3 h).2.1]; exact keep_validatePool ..


end Armips
