import Verif.Lemmas.LayoutRel
/-!
# Single commands follow the reference walk
-/
namespace Armips
open Spec.Layout Spec.Out Props Table

/-- A command without content makes one step of the walk. -/
def LeafStep (P : Params) (nf : Bool) (c : Cmd) (R : Pos) (st' : St) (f' : FM) : Prop :=
  ∃ R', Lays P nf c R R' [⟨c, R, R'⟩] ∧ VRel P st' R' ∧ ERel P f' R'

theorem notClean_queue {st : St} {s} {p : Prop} (h : (st.queueError .error s).Clean) : p :=
  absurd (clean_queue h) (by decide)
theorem notClean_fatal {st : St} {s} {p : Prop} (h : (st.queueError .fatalError s).Clean) : p :=
  absurd (clean_queue h) (by decide)
theorem notClean_print {st : St} {s} {p : Prop} (h : (st.printError .error s).Clean) : p :=
  absurd (clean_print h) (by decide)
theorem notClean_printFatal {st : St} {s} {p : Prop} (h : (st.printError .fatalError s).Clean) : p :=
  absurd (clean_print h) (by decide)

/-! ## Labels -/

theorem V_label {P id value d st st' R d'} (h : validateLabel P.env id value d st = some (d', st', false))
    (hc : st'.Clean) (hv : VRel P st R) (hd : d = true → ∀ l, st.label id = some l → l.defined = true) :
    Labels P R id value ∧ VRel P st' R ∧ d' = true := by
  unfold validateLabel at h
  split at h
  · exact nomatch h
  rename_i l hl
  split at h
  · simp only [Option.some.injEq, Prod.mk.injEq] at h
    rw [← h.2.1] at hc
    exact notClean_queue hc
  rename_i hdef
  cases d with
  | false =>
    exfalso
    dsimp only at h
    split at h
    · split at h
      · exact nomatch h
      · simp only [Option.some.injEq, Prod.mk.injEq] at h
        rw [← h.2.1] at hc
        exact notClean_print hc
      · split at h
        · exact Bool.noConfusion (some3 h).2.2
        · exact Bool.noConfusion (some3 h).2.2
    · have h3 := (some3 h).2.2
      simp at h3
  | true =>
    have hdl := hd rfl l hl
    rw [St.label, hv.syms] at hl
    simp only [if_true] at h
    split at h
    · split at h
      · exact nomatch h
      · simp only [Option.some.injEq, Prod.mk.injEq] at h
        rw [← h.2.1] at hc
        exact notClean_print hc
      · rename_i e st1 v he
        split at h
        · exact Bool.noConfusion (some3 h).2.2
        · rename_i hne
          obtain ⟨rfl, rfl, _⟩ := some3 h
          obtain ⟨h1, h2⟩ := V_evalInt hv he hc
          have : l.value = v := Classical.byContradiction hne
          subst this
          exact ⟨⟨l, hl, hdl, h1⟩, h2, rfl⟩
    · obtain ⟨rfl, h2, h3⟩ := some3 h
      simp only [Bool.not_true, Bool.false_or, Bool.or_eq_false_iff, decide_eq_false_iff_not, ne_eq, Decidable.not_not] at h3
      obtain ⟨e1, e2⟩ := h3
      simp only [e1, ne_eq, not_true, if_false, e2] at h2
      subst h2
      refine ⟨⟨l, hl, hdl, ?_, ?_⟩, hv, rfl⟩
      · rw [e1, hv.virt]
      · rw [e2, hv.phys]

/-! ## Files -/

theorem openAFile_check (m : FM) (i : Nat) : ∃ l, (m.openAFile i true).1 =
    { m.setFile i { m.files i with headerSize := (m.files i).originalHeaderSize, virtualAddress := (m.files i).originalHeaderSize }
      with log := l } := by
  simp only [FM.openAFile, Bool.not_true, Bool.false_eq_true, if_false]
  split
  · split <;> exact ⟨_, rfl⟩
  · exact ⟨_, rfl⟩
  · split
    · exact ⟨_, rfl⟩
    · split <;> exact ⟨_, rfl⟩

theorem closeAFile_files (m : FM) (i : Nat) : (m.closeAFile i).files = fun j =>
    if j = i then { m.files i with stream := none } else m.files j := rfl

theorem V_open {P st R i o} (hv : VRel P st R) :
    VRel P (st.liftFM (st.fm.openFile i true)) { R with file := some (i, ⟨0, (P.files i).originalHeaderSize⟩), out := o } := by
  have key : ∀ m : FM, Decl P m → m.disk = P.disk → m.endianness = R.seenEndian →
      VRel P (st.liftFM ({ m with active := some i }.openAFile i true))
        { R with file := some (i, ⟨0, (P.files i).originalHeaderSize⟩), out := o } := by
    intro m hd hdisk hend
    obtain ⟨l, hl⟩ := openAFile_check { m with active := some i } i
    unfold St.liftFM
    rw [hl]
    refine ⟨hv.1, hd.set rfl rfl rfl rfl, hdisk, hend, hv.5, hv.6, hv.7, hv.8, hv.9, hv.10, rfl, ?_⟩
    intro j c hc
    simp only [Option.some.injEq, Prod.mk.injEq] at hc
    obtain ⟨rfl, rfl⟩ := hc
    simp only [FM.setFile, if_true, Cursor.virt, hd.header]
    exact ⟨by simp, trivial⟩
  unfold FM.openFile
  cases ha : st.fm.active with
  | none => exact key st.fm hv.decl hv.disk hv.endian
  | some j =>
    exact key ((st.fm.queueError .warning _).closeAFile j)
      (hv.decl.set (closeAFile_files _ _) rfl rfl rfl) hv.disk hv.endian

theorem E_open {P f R i} (he : ERel P f R) (hok : (f.openFile i false).1.log.Ok) :
    ∃ R', Opens P R i R' ∧ (∃ o, R' = { R with file := some (i, ⟨0, (P.files i).originalHeaderSize⟩), out := o }) ∧
      ERel P (f.openFile i false).1 R' := by
  have key : ∀ m : FM, Decl P m → m.disk = after P.disk R.out → m.endianness = R.endian →
      ({ m with active := some i }.openAFile i false).1.log.Ok →
      ∃ R', Opens P R i R' ∧ (∃ o, R' = { R with file := some (i, ⟨0, (P.files i).originalHeaderSize⟩), out := o }) ∧
        ERel P ({ m with active := some i }.openAFile i false).1 R' := by
    intro m hd hdisk hend hok
    simp only [FM.openAFile, Bool.not_false, if_true] at hok ⊢
    have hn := hd.name i
    have hm := hd.mode i
    have hh := hd.header i
    unfold Opens
    revert hok
    have hcur : ∀ j c, (some (i, (⟨0, (P.files i).originalHeaderSize⟩ : Cursor)) = some (j, c)) → i = j ∧ (⟨0, (P.files i).originalHeaderSize⟩ : Cursor) = c := by
      intro j c hc
      simpa only [Option.some.injEq, Prod.mk.injEq] using hc
    cases hmode : (m.files i).mode with
    | open_ =>
      dsimp only
      intro hok
      split at hok
      · exact absurd (Logger.ok_printError hok) (by decide)
      · rename_i hsome
        rw [if_neg hsome]
        have hsome' : (after P.disk R.out (P.files i).fileName).isSome := by
          rw [← hdisk, ← hn]
          cases hx : m.disk (m.files i).fileName
          · exact absurd (by simp [FM.setFile, hx]) hsome
          · rfl
        refine ⟨_, ⟨[], rfl, ?_⟩, ⟨_, rfl⟩, ?_⟩
        · rw [← hm, hmode]; exact ⟨rfl, hsome'⟩
        · refine ⟨?_, ?_, hend, ?_⟩
          · refine hd.set (i := i) (f' := { m.files i with headerSize := (m.files i).originalHeaderSize, virtualAddress := (m.files i).originalHeaderSize, stream := some 0 }) ?_ ?_ ?_ ?_
            · funext j
              simp only [FM.setFile]
              split <;> simp_all
            all_goals rfl
          · simp only [List.append_nil]; exact hdisk
          · intro j c hc
            obtain ⟨rfl, rfl⟩ := hcur j c hc
            refine ⟨⟨rfl, ?_, ?_, ?_⟩, ?_⟩
            · simp [FM.setFile, hh]
            · simp [FM.setFile, hh, Cursor.virt]
            · simp [FM.setFile]
            · simpa using hsome'
    | create =>
      dsimp only
      intro _
      refine ⟨_, ⟨[.create (P.files i).fileName []], rfl, ?_⟩, ⟨_, rfl⟩, ?_⟩
      · rw [← hm, hmode]
      · refine ⟨?_, ?_, hend, ?_⟩
        · refine hd.set (i := i) (f' := { m.files i with headerSize := (m.files i).originalHeaderSize, virtualAddress := (m.files i).originalHeaderSize, stream := some 0 }) ?_ ?_ ?_ ?_
          · funext j
            simp only [FM.setFile, FM.setDisk]
            split <;> simp_all
          all_goals rfl
        · rw [after_append, ← hdisk, ← hn]
          rfl
        · intro j c hc
          obtain ⟨rfl, rfl⟩ := hcur j c hc
          refine ⟨⟨rfl, ?_, ?_, ?_⟩, ?_⟩
          · simp [FM.setFile, hh]
          · simp [FM.setFile, hh, Cursor.virt]
          · simp [FM.setFile]
          · rw [after_append]
            simp [after, Event.apply]
    | copy original =>
      dsimp only
      intro hok
      cases hx : m.disk original with
      | none =>
        simp only [FM.setFile, hx] at hok
        exact absurd (Logger.ok_printError hok) (by decide)
      | some content =>
        simp only [FM.setFile, hx]
        refine ⟨_, ⟨[.create (P.files i).fileName content], rfl, ?_⟩, ⟨_, rfl⟩, ?_⟩
        · rw [← hm, hmode]; exact ⟨content, hdisk ▸ hx, rfl⟩
        · refine ⟨?_, ?_, hend, ?_⟩
          · refine hd.set (i := i) (f' := { m.files i with headerSize := (m.files i).originalHeaderSize, virtualAddress := (m.files i).originalHeaderSize, stream := some 0 }) ?_ ?_ ?_ ?_
            · funext j
              simp only [FM.setDisk]
              split <;> simp_all
            all_goals rfl
          · rw [after_append, ← hdisk, ← hn]
            rfl
          · intro j c hc
            obtain ⟨rfl, rfl⟩ := hcur j c hc
            refine ⟨⟨rfl, ?_, ?_, ?_⟩, ?_⟩
            · simp [hh]
            · simp [hh, Cursor.virt]
            · simp
            · rw [after_append]
              simp [after, Event.apply]
  unfold FM.openFile at hok ⊢
  cases ha : f.active with
  | none =>
    rw [ha] at hok
    exact key f he.decl he.disk he.endian hok
  | some j =>
    rw [ha] at hok
    exact key ((f.queueError .warning _).closeAFile j)
      (he.decl.set (closeAFile_files _ _) rfl rfl rfl) he.disk he.endian hok

theorem leaf_open {P nf i st R f} (hv : VRel P st R) (he : ERel P f R) (hc : (validateOpen nf i st).Clean)
    (hok : (f.openFile i false).1.log.Ok) :
    LeafStep P nf (.openFile i) R (validateOpen nf i st) (f.openFile i false).1 := by
  unfold validateOpen at hc ⊢
  cases nf with
  | true => exact notClean_queue hc
  | false =>
    simp only [Bool.false_eq_true, if_false] at hc ⊢
    have hc1 : st.nextSection.Clean := hc.quiet (.fm (st.nextSection.fm.le_openFile i true))
    obtain ⟨R1, hn, hv1⟩ := V_nextSection hv hc1
    obtain ⟨R', ho, ⟨o, rfl⟩, he'⟩ := E_open (E_newSection he hn) hok
    exact ⟨_, .openFile hn ho, V_open hv1, he'⟩

theorem leaf_close {P nf st R f} (hv : VRel P st R) (he : ERel P f R) (hc : (validateClose nf st).Clean) :
    LeafStep P nf .closeFile R (validateClose nf st) f.closeFile := by
  unfold validateClose at hc ⊢
  cases nf with
  | true => exact notClean_queue hc
  | false =>
    simp only [Bool.false_eq_true, if_false] at hc ⊢
    have hc1 : st.nextSection.Clean := hc.quiet (.fm (st.nextSection.fm.le_closeFile))
    obtain ⟨R1, hn, hv1⟩ := V_nextSection hv hc1
    have he1 := E_newSection he hn
    refine ⟨_, .closeFile hn, ?_, ?_⟩
    · unfold FM.closeFile
      cases ha : st.nextSection.fm.active with
      | none =>
        refine ⟨hv1.1, ⟨hv1.2.1, hv1.2.2, hv1.2.3⟩, hv1.3, hv1.4, hv1.5, hv1.6, hv1.7, hv1.8, hv1.9, hv1.10, ?_, nofun⟩
        exact ha
      | some j =>
        exact ⟨hv1.1, hv1.2.set (closeAFile_files _ _) rfl rfl rfl, hv1.3, hv1.4, hv1.5, hv1.6, hv1.7, hv1.8, hv1.9,
          hv1.10, rfl, nofun⟩
    · unfold FM.closeFile
      cases ha : f.active with
      | none => exact ⟨⟨he1.1.1, he1.1.2, he1.1.3⟩, he1.2, he1.3, nofun⟩
      | some j => exact ⟨he1.1.set (closeAFile_files _ _) rfl rfl rfl, he1.2, he1.3, nofun⟩

theorem leaf_position {P nf v e old st st' p R f} (h : validatePosition P.env v e old st = some (p, st'))
    (hv : VRel P st R) (he : ERel P f R) (hc : st'.Clean) {G : St}
    (hok : (if v then ((encodeNextSection G f).seekVirtual p).1 else ((encodeNextSection G f).seekPhysical p).1).log.Ok) :
    LeafStep P nf (.position v e) R st'
      (if v then ((encodeNextSection G f).seekVirtual p).1 else ((encodeNextSection G f).seekPhysical p).1) := by
  unfold validatePosition at h
  split at h
  · exact nomatch h
  · simp only [Option.some.injEq, Prod.mk.injEq] at h
    rw [← h.2] at hc; exact notClean_fatal hc
  · rename_i st1 q hev
    simp only [Option.some.injEq, Prod.mk.injEq] at h
    obtain ⟨rfl, rfl⟩ := h
    have hen : encodeNextSection G f = f := by
      apply E_next
      cases v
      · exact hok.mono (FM.le_seekPhysical _ _)
      · exact hok.mono (FM.le_seekVirtual _ _)
    rw [hen]
    cases v with
    | true =>
      have hc2 : (st1.nextSection.seekVirtual q).Clean := hc
      have hc1 := hc2.quiet (St.le_seekVirtual _ _)
      have hc0 := hc1.quiet (St.le_nextSection _)
      obtain ⟨hE, hv0⟩ := V_evalInt hv hev hc0
      obtain ⟨R1, hn, hv1⟩ := V_nextSection hv0 hc1
      obtain ⟨R', hs, hv2⟩ := V_seekVirtual hv1 hc2
      exact ⟨R', .org hE hn hs, hv2, E_seeksVirtual (E_newSection he hn) hs⟩
    | false =>
      have hc2 : (st1.nextSection.seekPhysical q).Clean := hc
      have hc1 := hc2.quiet (St.le_seekPhysical _ _)
      have hc0 := hc1.quiet (St.le_nextSection _)
      obtain ⟨hE, hv0⟩ := V_evalInt hv hev hc0
      obtain ⟨R1, hn, hv1⟩ := V_nextSection hv0 hc1
      obtain ⟨R', hs, hv2⟩ := V_seekPhysical hv1 hc2
      exact ⟨R', .orga hE hn hs, hv2, E_seeks (E_newSection he hn) hs⟩

theorem leaf_skip {P nf e old st st' n R f} (h : validateSkip P.env e old st = some (n, st'))
    (hv : VRel P st R) (he : ERel P f R) (hc : st'.Clean) {G : St}
    (hok : ((encodeNextSection G f).advanceMemory n).1.log.Ok) :
    LeafStep P nf (.skip e) R st' ((encodeNextSection G f).advanceMemory n).1 := by
  unfold validateSkip at h
  split at h
  · exact nomatch h
  · simp only [Option.some.injEq, Prod.mk.injEq] at h
    rw [← h.2] at hc; exact notClean_fatal hc
  · rename_i st1 q hev
    simp only [Option.some.injEq, Prod.mk.injEq] at h
    obtain ⟨rfl, rfl⟩ := h
    have hen : encodeNextSection G f = f := E_next (hok.mono (FM.le_advanceMemory _ _))
    rw [hen]
    have hc1 := hc.quiet (St.le_advance _ _)
    have hc0 := hc1.quiet (St.le_nextSection _)
    obtain ⟨hE, hv0⟩ := V_evalInt hv hev hc0
    obtain ⟨R1, hn, hv1⟩ := V_nextSection hv0 hc1
    obtain ⟨R', hs, hv2⟩ := V_advance hv1 hc
    exact ⟨R', .skip hE hn hs, hv2, E_skips (E_newSection he hn) hs⟩

theorem leaf_headerSize {P nf e old st st' n R f f'} (h : validateHeaderSize P.env e old st = some (n, st'))
    (hv : VRel P st R) (he : ERel P f R) (hc : st'.Clean) (hf : f.execHeaderSize n = some f') :
    LeafStep P nf (.headerSize e) R st' f' := by
  unfold validateHeaderSize at h
  split at h
  · exact nomatch h
  · simp only [Option.some.injEq, Prod.mk.injEq] at h
    rw [← h.2] at hc; exact notClean_fatal hc
  · rename_i st1 q hev
    obtain ⟨m, hm, h⟩ := map_some h
    simp only [Prod.mk.injEq] at h
    obtain ⟨rfl, rfl⟩ := h
    have hc0 : st1.Clean := hc.quiet (.fm (FM.le_execHeaderSize hm))
    obtain ⟨hE, hv0⟩ := V_evalInt hv hev hc0
    cases hfile : R.file with
    | none =>
      have := hv0.active
      rw [hfile] at this
      simp only [FM.execHeaderSize, this, Option.map_none] at hm
      exact nomatch hm
    | some x =>
      obtain ⟨i, c⟩ := x
      refine ⟨_, .headerSize hE hfile rfl, ?_, ?_⟩
      · have ha := hv0.active
        rw [hfile] at ha
        simp only [FM.execHeaderSize, ha, Option.map_some, Option.some.injEq] at hm
        obtain ⟨h1, h2⟩ := hv0.cursor i c hfile
        have hp : (st1.fm.files i).virtualAddress - (st1.fm.files i).headerSize = c.phys := by rw [h1, h2, Cursor.virt]; omega
        rw [hp] at hm
        obtain ⟨l, hl⟩ := seekP_eq (st1.fm.setFile i { st1.fm.files i with headerSize := q }) i c.phys (by omega)
        rw [hl] at hm
        refine V_move (f' := { st1.fm.files i with headerSize := q, virtualAddress := c.phys + q, stream := (st1.fm.files i).stream.map fun _ => c.phys })
          hv0 hfile ⟨l, ?_⟩ rfl rfl rfl rfl rfl
        rw [← hm]
        simp only [FM.setFile, if_true, Int.toNat_natCast, FM.mk.injEq, true_and, and_true]
        funext j; split <;> simp_all
      · obtain ⟨ha, _⟩ := he.cursor i c hfile
        simp only [FM.execHeaderSize, ha.active, Option.some.injEq] at hf
        have hp : (f.files i).virtualAddress - (f.files i).headerSize = c.phys := by rw [ha.virt, ha.header, Cursor.virt]; omega
        rw [hp] at hf
        obtain ⟨l, hl⟩ := seekP_eq (f.setFile i { f.files i with headerSize := q }) i c.phys (by omega)
        rw [hl] at hf
        refine E_move (f' := { f.files i with headerSize := q, virtualAddress := c.phys + q, stream := some c.phys })
          he hfile ⟨l, ?_⟩ rfl rfl rfl rfl rfl rfl
        rw [← hf]
        simp only [FM.setFile, if_true, Int.toNat_natCast, FM.mk.injEq, true_and, and_true]
        funext j; split <;> simp_all [ha.stream]

end Armips
