import Verif.Lemmas.LogMono
import Verif.Props.FileManager
import Verif.Spec.Layout
/-!
# The validation and encoding states as positions of the reference walk
-/
namespace Armips
open Spec.Layout Spec.Out Props Table

/-- The output files are the declared ones. -/
structure Decl (P : Params) (m : FM) : Prop where
  name : ∀ i, (m.files i).fileName = (P.files i).fileName
  mode : ∀ i, (m.files i).mode = (P.files i).mode
  header : ∀ i, (m.files i).originalHeaderSize = (P.files i).originalHeaderSize

/-- A state of the last validation pass corresponds to a position of the walk. -/
structure VRel (P : Params) (st : St) (R : Pos) : Prop where
  syms : st.syms = P.syms
  decl : Decl P st.fm
  disk : st.fm.disk = P.disk
  endian : st.fm.endianness = R.seenEndian
  arch : st.arch = R.arch
  archSt : st.archSt = R.archSt
  table : st.table = R.table
  alloc : st.alloc = R.alloc
  pool : st.pool = R.pending
  poolCount : st.poolCount = R.requests
  active : st.fm.active = R.file.map Prod.fst
  cursor : ∀ i c, R.file = some (i, c) → (st.fm.files i).virtualAddress = c.virt ∧ (st.fm.files i).headerSize = c.header

/-- A state during encoding corresponds to a position of the walk. -/
structure ERel (P : Params) (m : FM) (R : Pos) : Prop where
  decl : Decl P m
  disk : m.disk = after P.disk R.out
  endian : m.endianness = R.endian
  cursor : ∀ i c, R.file = some (i, c) → At m i c ∧ (after P.disk R.out (P.files i).fileName).isSome

theorem VRel.ctx {P st R} (h : VRel P st R) : st.ctx P.env = Spec.Layout.ctx P R := by
  unfold St.ctx Spec.Layout.ctx
  rw [h.syms, h.active, h.endian, h.disk, h.arch]
  congr 1
  cases hf : R.file with
  | none => rfl
  | some x =>
    obtain ⟨i, c⟩ := x
    obtain ⟨h1, h2⟩ := h.cursor i c hf
    simp only [Option.map_some]
    rw [h1, h2, h.decl.name]

theorem VRel.virt {P st R} (h : VRel P st R) : st.virt = R.virt := by
  unfold St.virt FM.getVirtualAddress Pos.virt
  rw [h.active]
  cases hf : R.file with
  | none => rfl
  | some x => obtain ⟨i, c⟩ := x; exact (h.cursor i c hf).1

theorem VRel.phys {P st R} (h : VRel P st R) : st.phys = R.phys := by
  unfold St.phys FM.getPhysicalAddress Pos.phys
  rw [h.active]
  cases hf : R.file with
  | none => rfl
  | some x =>
    obtain ⟨i, c⟩ := x
    obtain ⟨h1, h2⟩ := h.cursor i c hf
    simp only [Option.map_some, h1, h2, Cursor.virt]
    omega

/-- Only the log differs. -/
theorem VRel.relog {P st R} (h : VRel P st R) (l : Logger) : VRel P { st with fm := { st.fm with log := l } } R :=
  ⟨h.1, ⟨h.2.1, h.2.2, h.2.3⟩, h.3, h.4, h.5, h.6, h.7, h.8, h.9, h.10, h.11, h.12⟩

theorem VRel.queueError {P st R} (h : VRel P st R) (t s) : VRel P (st.queueError t s) R := h.relog _
theorem VRel.printError {P st R} (h : VRel P st R) (t s) : VRel P (st.printError t s) R := h.relog _

theorem VRel.report {P st R} (h : VRel P st R) (ds) : VRel P (st.report ds) R := by
  induction ds generalizing st with
  | nil => exact h
  | cons d ds ih =>
    refine ih ?_
    dsimp only
    split
    · exact h.printError ..
    · exact h.queueError ..

theorem clean_queue {st : St} {t s} (h : (st.queueError t s).Clean) : t.mild = true := Logger.clean_queueError h
theorem clean_print {st : St} {t s} (h : (st.printError t s).Clean) : t.mild = true := Logger.ok_printError (Logger.Clean.ok h)

theorem clean_report {st : St} {ds} (h : (st.report ds).Clean) : NoErrors ds := by
  induction ds generalizing st with
  | nil => nofun
  | cons d ds ih =>
    intro d' hd'
    have hrest : NoErrors ds := ih (st := if d.printed then st.printError d.type d.text else st.queueError d.type d.text) h
    simp only [List.mem_cons] at hd'
    rcases hd' with rfl | hd'
    · have h0 : (if d'.printed then st.printError d'.type d'.text else st.queueError d'.type d'.text).Clean :=
        Logger.Clean.mono (St.le_report _ ds).le h
      have : d'.type.mild = true := by
        split at h0
        · exact clean_print h0
        · exact clean_queue h0
      cases ht : d'.type <;> simp [ht, ErrorType.mild] at this ⊢
    · exact hrest _ hd'

theorem V_eval {P st R e st1 v} (h : VRel P st R) (he : st.eval P.env e = some (st1, v)) (hc : st1.Clean) :
    Evals P R e v ∧ VRel P st1 R := by
  unfold St.eval at he
  split at he
  · exact nomatch he
  · rename_i w ds hw
    simp only [Option.some.injEq, Prod.mk.injEq] at he
    obtain ⟨rfl, rfl⟩ := he
    rw [h.ctx, h.arch] at hw
    exact ⟨⟨ds, hw, clean_report hc⟩, h.report ds⟩

theorem V_evalInt {P st R e st1 v} (h : VRel P st R) (he : st.evalInt P.env e = some (st1, some v)) (hc : st1.Clean) :
    Evals P R e (.int v) ∧ VRel P st1 R := by
  obtain ⟨w, hw, hv⟩ := St.evalInt_eval he
  rw [(hv v).mp rfl] at hw
  exact V_eval h hw hc

theorem V_evalIntOpt {P st R e d st1 v} (h : VRel P st R) (he : st.evalIntOpt P.env e d = some (st1, some v)) (hc : st1.Clean) :
    Operand P R e d v ∧ VRel P st1 R := by
  unfold St.evalIntOpt at he
  split at he
  · simp only [Option.some.injEq, Prod.mk.injEq] at he
    obtain ⟨rfl, rfl⟩ := he
    exact ⟨rfl, h⟩
  · exact V_evalInt h he hc

theorem V_nextSection {P st R} (h : VRel P st R) (hc : st.nextSection.Clean) :
    ∃ R1, NewSection R R1 ∧ VRel P st.nextSection R1 := by
  refine ⟨{ R with archSt := if R.arch = .mips then {} else R.archSt }, ?_, ?_⟩
  · refine ⟨fun e => ?_, rfl⟩
    unfold St.nextSection at hc
    rw [h.arch, e] at hc
    exact absurd (clean_print hc) (by decide)
  · unfold St.nextSection at hc ⊢
    have ha := h.arch
    revert hc
    cases hs : st.arch <;> rw [hs] at ha <;> intro hc
    · exact absurd (clean_print hc) (by decide)
    all_goals
      rw [← ha]
      first
        | exact ⟨h.1, h.2, h.3, h.4, rfl, rfl, h.7, h.8, h.9, h.10, h.11, h.12⟩
        | exact ⟨h.1, h.2, h.3, h.4, hs, h.6, h.7, h.8, h.9, h.10, h.11, h.12⟩

theorem E_newSection {P f R R1} (h : ERel P f R) (hn : NewSection R R1) : ERel P f R1 := by
  obtain ⟨_, rfl⟩ := hn
  exact ⟨h.1, h.2, h.3, h.4⟩

theorem E_next {G : St} {f : FM} (h : (encodeNextSection G f).log.Ok) : encodeNextSection G f = f := by
  unfold encodeNextSection at h ⊢
  split at h
  · exact absurd (Logger.ok_printError h) (by decide)
  · cases hg : G.arch <;> simp_all

/-! ## Seeking -/

theorem seekV_eq (m : FM) (i : Nat) (a : Int) (h : 0 ≤ a - (m.files i).headerSize) :
    ∃ l, (m.seekVirtualAFile i a).1 = { m with log := l, files := fun j => if j = i then { m.files i with
      virtualAddress := a, stream := (m.files i).stream.map fun _ => (a - (m.files i).headerSize).toNat } else m.files j } := by
  simp only [FM.seekVirtualAFile, if_neg (Int.not_lt.mpr h)]
  split <;> exact ⟨_, rfl⟩

theorem seekP_eq (m : FM) (i : Nat) (p : Int) (h : 0 ≤ p) :
    ∃ l, (m.seekPhysicalAFile i p).1 = { m with log := l, files := fun j => if j = i then { m.files i with
      virtualAddress := p + (m.files i).headerSize, stream := (m.files i).stream.map fun _ => p.toNat } else m.files j } := by
  simp only [FM.seekPhysicalAFile, if_neg (Int.not_lt.mpr h)]
  split <;> exact ⟨_, rfl⟩

/-- Replacing a file without touching its declaration. -/
theorem Decl.set {P m i f'} {m' : FM} (h : Decl P m)
    (hf : m'.files = fun j => if j = i then f' else m.files j)
    (h1 : f'.fileName = (m.files i).fileName) (h2 : f'.mode = (m.files i).mode)
    (h3 : f'.originalHeaderSize = (m.files i).originalHeaderSize) : Decl P m' := by
  constructor <;> intro j <;> rw [hf] <;> dsimp only <;> split
  · subst_vars; rw [h1, h.name]
  · exact h.name j
  · subst_vars; rw [h2, h.mode]
  · exact h.mode j
  · subst_vars; rw [h3, h.header]
  · exact h.header j

/-- A seek of the validation state to a nonnegative position. -/
theorem V_move {P st R i c f'} {n : Nat} {h' : Int} {m' : FM} (h : VRel P st R) (hf : R.file = some (i, c))
    (hm : ∃ l, m' = { st.fm with log := l, files := fun j => if j = i then f' else st.fm.files j })
    (h1 : f'.fileName = (st.fm.files i).fileName) (h2 : f'.mode = (st.fm.files i).mode)
    (h3 : f'.originalHeaderSize = (st.fm.files i).originalHeaderSize)
    (h4 : f'.virtualAddress = n + h') (h5 : f'.headerSize = h') :
    VRel P { st with fm := m' } { R with file := some (i, ⟨n, h'⟩) } := by
  obtain ⟨l, rfl⟩ := hm
  refine ⟨h.1, h.2.set rfl h1 h2 h3, h.3, h.4, h.5, h.6, h.7, h.8, h.9, h.10, ?_, ?_⟩
  · show st.fm.active = some i
    rw [h.active, hf]; rfl
  · intro j d hd
    simp only [Option.some.injEq, Prod.mk.injEq] at hd
    obtain ⟨rfl, rfl⟩ := hd
    dsimp only
    rw [if_pos rfl]
    exact ⟨h4, h5⟩

theorem V_seekVirtual {P st R a} (h : VRel P st R) (hc : (st.seekVirtual a).Clean) :
    ∃ R', SeeksVirtual R a R' ∧ VRel P (st.seekVirtual a) R' := by
  unfold St.seekVirtual St.liftFM FM.seekVirtual at hc ⊢
  have ha := h.active
  cases hf : R.file with
  | none =>
    rw [hf] at ha
    simp only [Option.map_none] at ha
    rw [ha] at hc
    exact absurd (clean_queue (st := st) hc) (by decide)
  | some x =>
    obtain ⟨i, c⟩ := x
    rw [hf] at ha
    simp only [Option.map_some] at ha
    rw [ha] at hc ⊢
    obtain ⟨h1, h2⟩ := h.cursor i c hf
    by_cases hn : a - (st.fm.files i).headerSize < 0
    · simp only [FM.seekVirtualAFile, if_pos hn] at hc
      exact absurd (clean_queue (st := st) hc) (by decide)
    · have hn' : 0 ≤ a - (st.fm.files i).headerSize := by omega
      refine ⟨{ R with file := some (i, ⟨(a - c.header).toNat, c.header⟩) },
        ⟨i, c, hf, i, c, (a - c.header).toNat, hf, ?_, rfl⟩, ?_⟩
      · rw [h2] at hn'; omega
      · refine V_move h hf (seekV_eq st.fm i a hn') rfl rfl rfl ?_ h2
        dsimp only
        rw [h2] at hn'; omega

theorem V_seekPhysical {P st R p} (h : VRel P st R) (hc : (st.seekPhysical p).Clean) :
    ∃ R', Seeks R p R' ∧ VRel P (st.seekPhysical p) R' := by
  unfold St.seekPhysical St.liftFM FM.seekPhysical at hc ⊢
  have ha := h.active
  cases hf : R.file with
  | none =>
    rw [hf] at ha
    simp only [Option.map_none] at ha
    rw [ha] at hc
    exact absurd (clean_queue (st := st) hc) (by decide)
  | some x =>
    obtain ⟨i, c⟩ := x
    rw [hf] at ha
    simp only [Option.map_some] at ha
    rw [ha] at hc ⊢
    obtain ⟨h1, h2⟩ := h.cursor i c hf
    by_cases hn : p < 0
    · simp only [FM.seekPhysicalAFile, if_pos hn] at hc
      exact absurd (clean_queue (st := st) hc) (by decide)
    · have hn' : 0 ≤ p := by omega
      refine ⟨{ R with file := some (i, ⟨p.toNat, c.header⟩) }, ⟨i, c, p.toNat, hf, by omega, rfl⟩, ?_⟩
      refine V_move h hf (seekP_eq st.fm i p hn') rfl rfl rfl ?_ h2
      dsimp only
      rw [h2]; omega

theorem V_advance {P st R n} (h : VRel P st R) (hc : (st.advance n).Clean) :
    ∃ R', Skips R n R' ∧ VRel P (st.advance n) R' := by
  unfold St.advance St.liftFM FM.advanceMemory at hc ⊢
  have ha := h.active
  cases hf : R.file with
  | none =>
    rw [hf] at ha
    simp only [Option.map_none] at ha
    rw [ha] at hc
    exact absurd (clean_queue (st := st) hc) (by decide)
  | some x =>
    obtain ⟨i, c⟩ := x
    rw [hf] at ha
    simp only [Option.map_some] at ha
    rw [ha] at hc ⊢
    obtain ⟨h1, h2⟩ := h.cursor i c hf
    by_cases hn : (st.fm.files i).virtualAddress + n - (st.fm.files i).headerSize < 0
    · simp only [FM.seekVirtualAFile, if_pos hn] at hc
      exact absurd (clean_queue (st := st) hc) (by decide)
    · have hn' : 0 ≤ (st.fm.files i).virtualAddress + n - (st.fm.files i).headerSize := by omega
      have e : (c.phys : Int) + n = (st.fm.files i).virtualAddress + n - (st.fm.files i).headerSize := by
        rw [h1, h2, Cursor.virt]; omega
      refine ⟨{ R with file := some (i, ⟨((c.phys : Int) + n).toNat, c.header⟩) },
        ⟨i, c, ((c.phys : Int) + n).toNat, hf, ?_, rfl⟩, ?_⟩
      · rw [Pos.phys, hf]; dsimp only; omega
      · refine V_move h hf (seekV_eq st.fm i _ hn') rfl rfl rfl ?_ h2
        dsimp only
        rw [h1, Cursor.virt] at *; omega

theorem V_openFileID {P st R} (h : VRel P st R) (hc : ({ st with fm := st.fm.getOpenFileID.1 } : St).Clean) :
    R.file.isSome ∧ st.fm.getOpenFileID = (st.fm, R.file.elim 0 fun x => (x.1 : Int) + 1) := by
  unfold FM.getOpenFileID at hc ⊢
  have ha := h.active
  cases hf : R.file with
  | none =>
    rw [hf] at ha
    simp only [Option.map_none] at ha
    rw [ha] at hc
    exact absurd (clean_queue (st := st) hc) (by decide)
  | some x =>
    rw [hf] at ha
    simp only [Option.map_some] at ha
    rw [ha]
    exact ⟨rfl, rfl⟩

/-- A seek of the encoding state. -/
theorem E_move {P m R i c f'} {n : Nat} {h' : Int} {m' : FM} (h : ERel P m R) (hf : R.file = some (i, c))
    (hm : ∃ l, m' = { m with log := l, files := fun j => if j = i then f' else m.files j })
    (h1 : f'.fileName = (m.files i).fileName) (h2 : f'.mode = (m.files i).mode)
    (h3 : f'.originalHeaderSize = (m.files i).originalHeaderSize)
    (h4 : f'.virtualAddress = n + h') (h5 : f'.headerSize = h') (h6 : f'.stream = some n) :
    ERel P m' { R with file := some (i, ⟨n, h'⟩) } := by
  obtain ⟨l, rfl⟩ := hm
  refine ⟨h.1.set rfl h1 h2 h3, h.2, h.3, ?_⟩
  intro j d hd
  simp only [Option.some.injEq, Prod.mk.injEq] at hd
  obtain ⟨rfl, rfl⟩ := hd
  obtain ⟨ha, hs⟩ := h.cursor i c hf
  exact ⟨⟨ha.active, by simp [h5], by simp [h4, Cursor.virt], by simp [h6]⟩, hs⟩

theorem E_seeks {P m R p R'} (h : ERel P m R) (hs : Seeks R p R') : ERel P (m.seekPhysical p).1 R' := by
  obtain ⟨i, c, n, hf, hn, rfl⟩ := hs
  obtain ⟨ha, _⟩ := h.cursor i c hf
  unfold FM.seekPhysical
  rw [ha.active]
  refine E_move h hf (seekP_eq m i p (by omega)) rfl rfl rfl ?_ ha.header ?_
  · dsimp only; rw [ha.header]; omega
  · dsimp only; rw [ha.stream, Option.map_some]; congr 1; omega

theorem E_seeksVirtual {P m R a R'} (h : ERel P m R) (hs : SeeksVirtual R a R') : ERel P (m.seekVirtual a).1 R' := by
  obtain ⟨i, c, hf, i', c', n, hf', hn, rfl⟩ := hs
  rw [hf] at hf'
  obtain ⟨rfl, rfl⟩ := Prod.mk.inj (Option.some.inj hf')
  obtain ⟨ha, _⟩ := h.cursor i c hf
  unfold FM.seekVirtual
  rw [ha.active]
  have e := ha.header
  refine E_move h hf (seekV_eq m i a (by omega)) rfl rfl rfl ?_ e ?_
  · dsimp only; omega
  · dsimp only; rw [ha.stream, Option.map_some]; congr 1; omega

theorem E_skips {P m R n R'} (h : ERel P m R) (hs : Skips R n R') : ERel P (m.advanceMemory n).1 R' := by
  obtain ⟨i, c, k, hf, hk, rfl⟩ := hs
  obtain ⟨ha, _⟩ := h.cursor i c hf
  unfold FM.advanceMemory
  rw [ha.active]
  have e := ha.header
  have e2 := ha.virt
  rw [Pos.phys, hf] at hk
  dsimp only at hk
  rw [Cursor.virt] at e2
  refine E_move h hf (seekV_eq m i _ (by omega)) rfl rfl rfl ?_ e ?_
  · dsimp only; omega
  · dsimp only; rw [ha.stream, Option.map_some]; congr 1; omega

/-! ## Writing -/

theorem overwrite_writeAt (c pos bs) : overwrite c pos bs = writeAt c pos bs := by
  unfold overwrite writeAt
  simp only [List.isEmpty_iff]
  split
  · rfl
  · congr 2
    by_cases h : pos ≤ c.length
    · have : pos - c.length = 0 := by omega
      simp [this]
    · rw [List.take_of_length_le (by omega : c.length ≤ pos), List.take_of_length_le]
      simp; omega

theorem after_append (d) (es es' : List Event) : after d (es ++ es') = after (after d es) es' := by
  simp [after, List.foldl_append]

theorem E_emits {P m R bs R'} (h : ERel P m R) (hs : Emits P R bs R') : ERel P (m.write bs).1 R' := by
  obtain ⟨i, c, hf, rfl⟩ := hs
  obtain ⟨ha, hsome⟩ := h.cursor i c hf
  have hw : (m.write bs).1 = { m with
      disk := fun q => if q = (m.files i).fileName then (some (writeAt ((m.disk (m.files i).fileName).getD []) c.phys bs) : Option (List Byte)) else m.disk q,
      files := fun j => if j = i then { m.files i with
        stream := some (c.phys + bs.length)
        virtualAddress := (m.files i).virtualAddress + bs.length } else m.files j } := by
    simp only [FM.write, ha.active, ha.stream, Option.isNone_some, Bool.false_eq_true, if_false, FM.writeAFile,
      FM.setFile, FM.setDisk]
  rw [hw]
  refine ⟨h.1.set rfl rfl rfl rfl, ?_, h.3, ?_⟩
  · dsimp only
    rw [after_append, ← h.disk, h.decl.name]
    funext q
    simp only [after, List.foldl_cons, List.foldl_nil, Event.apply, overwrite_writeAt]
  · intro j d hd
    simp only [Option.some.injEq, Prod.mk.injEq] at hd
    obtain ⟨rfl, rfl⟩ := hd
    refine ⟨⟨ha.active, by simp [ha.header], ?_, by simp⟩, ?_⟩
    · simp only [if_true, ha.virt, Cursor.virt]; omega
    · rw [after_append]
      simp [after, Event.apply]

/-- Bytes of known number: the validation state advances, the encoding state writes. -/
theorem emit {P st f R} {n : Int} {bs : List Byte} (hv : VRel P st R) (he : ERel P f R) (hc : (st.advance n).Clean)
    (hn : (bs.length : Int) = n) :
    ∃ R', Emits P R bs R' ∧ VRel P (st.advance n) R' ∧ ERel P (f.write bs).1 R' := by
  obtain ⟨R1, ⟨i, c, k, hf, hk, rfl⟩, hv1⟩ := V_advance hv hc
  rw [Pos.phys, hf] at hk
  dsimp only at hk
  have hkk : k = c.phys + bs.length := by omega
  subst hkk
  refine ⟨_, ⟨i, c, hf, rfl⟩, ?_, E_emits he ⟨i, c, hf, rfl⟩⟩
  exact ⟨hv1.1, hv1.2, hv1.3, hv1.4, hv1.5, hv1.6, hv1.7, hv1.8, hv1.9, hv1.10, hv1.11, hv1.12⟩

theorem writeAt_nil (c p) : writeAt c p [] = c := by simp [writeAt]

theorem writeAt_append (c : List Byte) (p : Nat) (a b : List Byte) :
    writeAt (writeAt c p a) (p + a.length) b = writeAt c p (a ++ b) := by
  by_cases ha : a = []
  · subst ha; simp [writeAt_nil]
  by_cases hb : b = []
  · subst hb; simp [writeAt_nil]
  have ha' : a.isEmpty = false := by simpa using ha
  have hb' : b.isEmpty = false := by simpa using hb
  have hab : (a ++ b).isEmpty = false := by simp [ha]
  have hal : 0 < a.length := List.length_pos_iff.mpr ha
  unfold writeAt
  simp only [ha', hb', hab, Bool.false_eq_true, if_false]
  have hl : ((c ++ List.replicate (p - c.length) 0#8).take p).length = p := by
    simp only [List.length_take, List.length_append, List.length_replicate]; omega
  generalize (c ++ List.replicate (p - c.length) 0#8).take p = x at hl
  have h0 : p + a.length - (x ++ a ++ c.drop (p + a.length)).length = 0 := by
    simp only [List.length_append]; omega
  rw [h0]
  simp only [List.replicate_zero, List.append_nil]
  rw [List.append_assoc x a, List.take_append, List.drop_append, hl]
  have e1 : x.take (p + a.length) = x := List.take_of_length_le (by omega)
  have e2 : x.drop (p + a.length + b.length) = [] := List.drop_of_length_le (by omega)
  have e3 : p + a.length - p = a.length := by omega
  have e4 : p + a.length + b.length - p = a.length + b.length := by omega
  rw [e1, e2, e3, e4]
  simp only [List.take_append, List.drop_append, List.nil_append, List.take_length, Nat.sub_self, List.take_zero,
    List.append_nil, List.drop_drop]
  have e5 : a.drop (a.length + b.length) = [] := List.drop_of_length_le (by omega)
  rw [e5]
  simp only [List.nil_append, List.append_assoc, List.length_append]
  have e6 : p + a.length + (a.length + b.length - a.length) = p + (a.length + b.length) := by omega
  rw [e6]

/-- Writing nothing does nothing. -/
theorem write_nil {m : FM} {i c} (h : At m i c) (hs : (m.disk (m.files i).fileName).isSome) : (m.write []).1 = m := by
  simp only [FM.write, h.active, h.stream, Option.isNone_some, Bool.false_eq_true, if_false, FM.writeAFile, writeAt_nil,
    List.length_nil, FM.setDisk, FM.setFile]
  obtain ⟨d, hd⟩ := Option.isSome_iff_exists.mp hs
  have e1 : (fun q => if q = (m.files i).fileName then some ((m.disk (m.files i).fileName).getD []) else m.disk q) = m.disk := by
    funext q
    split
    · subst_vars; rw [hd]; rfl
    · rfl
  have e2 : (fun j => if j = i then { m.files i with stream := some (c.phys + 0), virtualAddress := (m.files i).virtualAddress + ((0 : Nat) : Int) } else m.files j) = m.files := by
    funext j
    split
    · subst_vars
      have := h.stream
      cases hfi : m.files j with
      | mk a b c' d e f => rw [hfi] at this; simp_all
    · rfl
  rw [e1, e2]
  have := h.active
  cases m; simp_all

theorem write_append {m : FM} {i c} (h : At m i c) (a b : List Byte) :
    ((m.write a).1.write b).1 = (m.write (a ++ b)).1 := by
  simp only [FM.write, h.active, h.stream, Option.isNone_some, Bool.false_eq_true, if_false, FM.writeAFile,
    FM.setDisk, FM.setFile, if_true, Option.getD_some, writeAt_append, List.length_append]
  congr 1
  · funext j
    split
    · congr 1
      · simp; omega
      · simp; omega
    · rfl
  · funext q
    split <;> rfl

theorem Props.At.write {m i c} (h : At m i c) (bs) :
    At (m.write bs).1 i ⟨c.phys + bs.length, c.header⟩ ∧ (m.write bs).1.endianness = m.endianness ∧
      ((m.write bs).1.disk ((m.write bs).1.files i).fileName).isSome := by
  simp only [FM.write, h.active, h.stream, Option.isNone_some, Bool.false_eq_true, if_false, FM.writeAFile,
    FM.setDisk, FM.setFile]
  refine ⟨⟨rfl, by simp [h.header], ?_, by simp⟩, by simp, by simp⟩
  simp only [if_true, h.virt, Cursor.virt]; omega

theorem ofInt_toNat (n : Nat) (v : Int) : (BitVec.ofInt n v).toNat = (v % 2 ^ n).toNat := by
  rw [BitVec.toNat_ofInt]
  congr 1

theorem writeUnit_eq (m : FM) (u : Width × Int) : writeUnit m u = (m.write (intBytes m.endianness u.1.bytes u.2)).1 := by
  obtain ⟨w, v⟩ := u
  cases w
  · show (m.writeU8 _).1 = _
    rw [writeU8_bytes, ofInt_toNat]; rfl
  · show (m.writeU16 _).1 = _
    rw [writeU16_bytes, ofInt_toNat]; rfl
  · show (m.writeU32 _).1 = _
    rw [writeU32_bytes, ofInt_toNat]; rfl
  · show (m.writeU64 _).1 = _
    rw [writeU64_bytes, ofInt_toNat]; rfl

theorem writeUnits_eq {m : FM} {i c} (h : At m i c) (hs : (m.disk (m.files i).fileName).isSome) (us) :
    writeUnits m us = (m.write (unitBytes m.endianness us)).1 := by
  induction us generalizing m c with
  | nil => exact (write_nil h hs).symm
  | cons u us ih =>
    obtain ⟨h1, h2, h3⟩ := h.write (intBytes m.endianness u.1.bytes u.2)
    show writeUnits (writeUnit m u) us = _
    rw [writeUnit_eq, ih h1 h3, h2, write_append h]
    rfl

theorem unitBytes_length (e us) : (unitBytes e us).length = unitsSize us := by
  induction us with
  | nil => rfl
  | cons u us ih =>
    simp only [unitBytes, List.flatMap_cons, List.length_append, unitsSize, List.map_cons, List.sum_cons] at ih ⊢
    rw [ih, intBytes, toBytes_length]

theorem fillLoop_eq {m : FM} {i c} (h : At m i c) (b fuel n) (hn : n ≤ fuel) :
    fillLoop b fuel n m = (m.write (List.replicate n b)).1 := by
  induction fuel generalizing m c n with
  | zero => rfl
  | succ fuel ih =>
    unfold fillLoop
    split
    · obtain ⟨h1, _, _⟩ := h.write (List.replicate 128 b)
      have e : 128 + (n - 128) = n := by omega
      rw [ih h1 _ (by omega), write_append h, List.replicate_append_replicate, e]
    · rfl

theorem areaFillLoop_eq {m : FM} {i c} (h : At m i c) (hs : (m.disk (m.files i).fileName).isSome) (b fuel n) (hn : n ≤ fuel) :
    areaFillLoop b fuel n m = (m.write (List.replicate n b)).1 := by
  induction fuel generalizing m c n with
  | zero =>
    have : n = 0 := by omega
    subst this
    exact (write_nil h hs).symm
  | succ fuel ih =>
    unfold areaFillLoop
    split
    · obtain ⟨h1, _, h3⟩ := h.write (List.replicate (min 64 n) b)
      have e : min 64 n + (n - min 64 n) = n := by omega
      rw [ih h1 h3 _ (by omega), write_append h, List.replicate_append_replicate, e]
    · have : n = 0 := by omega
      subst this
      exact (write_nil h hs).symm

theorem ERel.isSome {P m R i c} (h : ERel P m R) (hf : R.file = some (i, c)) : (m.disk (m.files i).fileName).isSome := by
  rw [h.disk, h.decl.name]; exact (h.cursor i c hf).2

end Armips
