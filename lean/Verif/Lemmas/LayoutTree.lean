import Verif.Lemmas.LayoutPool
/-!
# Invariants of the command tree under validation
-/
namespace Armips
open Spec.Layout Spec.Out Props Table

/-- Alignment without a fill value fills with zeros. -/
def Cmd.Zeroed : (c : Cmd) → c.Mem → Prop
  | .nil, _ => True
  | .cons c rest, (m1, m2) => c.Zeroed m1 ∧ rest.Zeroed m2
  | .label _ _, _ => True
  | .function _ content, (_, m) => content.Zeroed m
  | .area _ _ _ _ content, (_, m) => content.Zeroed m
  | .autoRegion _ _ content, (_, m) => content.Zeroed m
  | .cond _ a b, (_, m1, m2) => a.Zeroed m1 ∧ b.Zeroed m2
  | .mipsMacro _ _ content, m => content.Zeroed m
  | .align _ _ fill, (m : Int × Byte) => fill = none → m.2 = 0#8
  | .openFile _, _ => True
  | .closeFile, _ => True
  | .position _ _, _ => True
  | .incbin _ _ _ _, _ => True
  | .skip _, _ => True
  | .headerSize _, _ => True
  | .data _ _ _, _ => True
  | .table _, _ => True
  | .arch _ _, _ => True
  | .message _ _, _ => True
  | .instr _, _ => True
  | .pool, _ => True

theorem zeroed_init (c : Cmd) : c.Zeroed c.init := by
  induction c with
  | cons c rest ih1 ih2 => exact ⟨ih1, ih2⟩
  | function _ c ih => exact ih
  | area _ _ _ _ c ih => exact ih
  | autoRegion _ _ c ih => exact ih
  | cond _ a b ih1 ih2 => exact ⟨ih1, ih2⟩
  | mipsMacro _ _ c ih => exact ih
  | align _ _ fill => exact fun _ => rfl
  | _ => trivial

theorem defs_init (c : Cmd) (i : Nat) : c.defs c.init i = 0 := by
  induction c with
  | cons c rest ih1 ih2 => simp only [Cmd.defs, Cmd.init, ih1, ih2]
  | function _ c ih => simp only [Cmd.defs, Cmd.init, ih]; simp
  | area _ _ _ _ c ih => simp only [Cmd.defs, Cmd.init, ih]
  | autoRegion _ _ c ih => simp only [Cmd.defs, Cmd.init, ih]
  | cond _ a b ih1 ih2 => simp only [Cmd.defs, Cmd.init, ih1, ih2]
  | mipsMacro _ _ c ih => simp only [Cmd.defs, Cmd.init, ih]
  | label _ _ => simp [Cmd.defs, Cmd.init]
  | _ => rfl

/-- What validation keeps. -/
structure Keeps (c : Cmd) (m : c.Mem) (st : St) (m' : c.Mem) (st' : St) : Prop where
  flags : ∀ i, c.defs m' i + st.syms.definedCount i = c.defs m i + st'.syms.definedCount i
  mono : ∀ i, c.defs m i ≤ c.defs m' i
  pool : PInv st → PInv st' ∧ PoolLe st st'
  zeroed : c.Zeroed m → c.Zeroed m'

theorem Keeps.definedMono {c m st m' st'} (h : Keeps c m st m' st') (i) : st.syms.definedCount i ≤ st'.syms.definedCount i := by
  have := h.flags i; have := h.mono i; omega

theorem pool_trans {a b c : St} (h1 : PInv a → PInv b ∧ PoolLe a b) (h2 : PInv b → PInv c ∧ PoolLe b c) :
    PInv a → PInv c ∧ PoolLe a c := by
  intro h
  obtain ⟨x, y⟩ := h1 h
  obtain ⟨z, w⟩ := h2 x
  exact ⟨z, y.trans w⟩

/-- Going through states that differ in nothing relevant. -/
theorem Keeps.quiet {c m st st1 m' st2 st'} (h : Keeps c m st1 m' st2) (h1 : St.Quiet st st1) (h2 : St.Quiet st2 st') :
    Keeps c m st m' st' :=
  ⟨fun i => by rw [h2.syms, ← h1.syms]; exact h.flags i, h.mono,
    pool_trans h1.same.step (pool_trans h.pool h2.same.step), h.zeroed⟩

theorem Keeps.leaf {c m st m' st'} (h : St.Quiet st st') (hd : ∀ i, c.defs m i = 0 ∧ c.defs m' i = 0)
    (hz : c.Zeroed m → c.Zeroed m') : Keeps c m st m' st' :=
  ⟨fun i => by rw [(hd i).1, (hd i).2, h.syms], fun i => by rw [(hd i).1, (hd i).2]; exact Nat.le_refl _, h.same.step, hz⟩

theorem Keeps.rfl' {c m st} : Keeps c m st m st :=
  ⟨fun _ => rfl, fun _ => Nat.le_refl _, fun h => ⟨h, .refl _⟩, id⟩

theorem align_zeroed {E mode e fill old st m st' r} (h : validateAlign E mode e fill old st = some (m, st', r))
    (hz : fill = none → old.2 = 0#8) : fill = none → m.2 = 0#8 := by
  intro hf
  subst hf
  have h0 := hz rfl
  unfold validateAlign at h
  split at h
  · exact nomatch h
  · obtain ⟨rfl, _, _⟩ := some3 h; exact h0
  split at h
  · exact nomatch h
  · obtain ⟨rfl, _, _⟩ := some3 h; exact h0
  split at h
  · exact nomatch h
  dsimp only at h
  obtain ⟨rfl, _, _⟩ := some3 h; exact h0

theorem keeps_validate {E passes} {c : Cmd} {nf : Bool} {m : c.Mem} {st : St} {m' : c.Mem} {st' : St} {r : Bool}
    (h : validate E passes c nf m st = some (m', st', r)) : Keeps c m st m' st' := by
  induction c generalizing nf st st' r with
  | nil => simp only [validate] at h; obtain ⟨rfl, rfl, _⟩ := some3 h; exact .rfl'
  | cons c rest ih1 ih2 =>
    obtain ⟨m1, m2⟩ := m
    simp only [validate] at h
    split at h
    · exact nomatch h
    · rename_i h1
      split at h
      · exact nomatch h
      · rename_i h2
        obtain ⟨rfl, rfl, _⟩ := some3 h
        have k1 := ih1 h1
        have k2 := ih2 h2
        refine ⟨fun i => ?_, fun i => ?_, pool_trans k1.pool k2.pool, fun hz => ⟨k1.zeroed hz.1, k2.zeroed hz.2⟩⟩
        · have := k1.flags i; have := k2.flags i
          simp only [Cmd.defs]; omega
        · have := k1.mono i; have := k2.mono i
          simp only [Cmd.defs]; omega
  | label id v =>
    simp only [validate] at h
    exact ⟨fun i => (label_flag h i).1, fun i => (label_flag h i).2, (label_same h).step, fun _ => trivial⟩
  | function id c ih =>
    obtain ⟨m1, m2⟩ := m
    simp only [validate] at h
    split at h
    · exact nomatch h
    · rename_i h1
      split at h
      · exact nomatch h
      · rename_i h2
        obtain ⟨rfl, rfl, _⟩ := some3 h
        have k2 := ih h2
        refine ⟨fun i => ?_, fun i => ?_, pool_trans (label_same h1).step k2.pool, fun hz => k2.zeroed hz⟩
        · have := (label_flag h1 i).1; have := k2.flags i
          simp only [Cmd.defs]; omega
        · have := (label_flag h1 i).2; have := k2.mono i
          simp only [Cmd.defs]; omega
  | openFile i =>
    simp only [validate] at h; obtain ⟨rfl, rfl, _⟩ := some3 h
    exact .leaf (le_validateOpen ..) (fun _ => ⟨rfl, rfl⟩) id
  | closeFile =>
    simp only [validate] at h; obtain ⟨rfl, rfl, _⟩ := some3 h
    exact .leaf (le_validateClose ..) (fun _ => ⟨rfl, rfl⟩) id
  | position v e =>
    simp only [validate] at h
    obtain ⟨x, hx, h⟩ := map_some h
    obtain ⟨rfl, rfl, _⟩ := pair3 h
    exact .leaf (le_validatePosition hx) (fun _ => ⟨rfl, rfl⟩) id
  | incbin f fs a b =>
    simp only [validate] at h
    obtain ⟨x, hx, h⟩ := map_some h
    obtain ⟨rfl, rfl, _⟩ := pair3 h
    exact .leaf (le_validateIncbin hx) (fun _ => ⟨rfl, rfl⟩) id
  | align mode e f =>
    simp only [validate] at h
    exact .leaf (le_validateAlign h) (fun _ => ⟨rfl, rfl⟩) (fun hz => align_zeroed h hz)
  | skip e =>
    simp only [validate] at h
    obtain ⟨x, hx, h⟩ := map_some h
    obtain ⟨rfl, rfl, _⟩ := pair3 h
    exact .leaf (le_validateSkip hx) (fun _ => ⟨rfl, rfl⟩) id
  | headerSize e =>
    simp only [validate] at h
    obtain ⟨x, hx, h⟩ := map_some h
    obtain ⟨rfl, rfl, _⟩ := pair3 h
    exact .leaf (le_validateHeaderSize hx) (fun _ => ⟨rfl, rfl⟩) id
  | data mode es t =>
    simp only [validate] at h
    exact .leaf (le_validateData h) (fun _ => ⟨rfl, rfl⟩) id
  | table t =>
    simp only [validate] at h; obtain ⟨rfl, rfl, _⟩ := some3 h
    exact .leaf ⟨.refl st, rfl, rfl, rfl, rfl⟩ (fun _ => ⟨rfl, rfl⟩) id
  | area sh sz fl p c ih =>
    obtain ⟨a, m⟩ := m
    simp only [validate] at h
    have early : ∀ {a' st1}, St.Quiet st st1 → Keeps (.area sh sz fl p c) (a, m) st (a', m) st1 := by
      intro a' st1 hq
      exact ⟨fun i => by rw [hq.syms]; rfl, fun i => Nat.le_refl _, hq.same.step, id⟩
    split at h
    · exact nomatch h
    · rename_i he
      obtain ⟨rfl, rfl, _⟩ := some3 h
      exact early (le_areaPosition he)
    · rename_i pp he
      have q1 := le_areaPosition he
      split at h
      · exact nomatch h
      · rename_i he
        obtain ⟨rfl, rfl, _⟩ := some3 h
        exact early (q1.trans ((St.le_evalInt he).trans (St.le_queueError ..)))
      · rename_i nn he
        have q2 := q1.trans (St.le_evalInt he)
        split at h
        · obtain ⟨rfl, rfl, _⟩ := some3 h
          exact early (q2.trans (St.le_queueError ..))
        · split at h
          · exact nomatch h
          · rename_i he
            obtain ⟨rfl, rfl, _⟩ := some3 h
            exact early (q2.trans ((St.le_evalIntOpt he).trans (St.le_queueError ..)))
          · rename_i st4 f he
            have q3 := q2.trans (St.le_evalIntOpt he)
            split at h
            · exact nomatch h
            · rename_i m5 st5 r5 h1
              obtain ⟨rfl, rfl, _⟩ := some3 h
              have k := (ih h1).quiet q3
                (le_areaEnd sh fl.isSome a pp nn (if fl.isSome = true then toByte f else a.fillValue) st5 r5)
              exact ⟨k.flags, k.mono, k.pool, k.zeroed⟩
  | autoRegion mn mx c ih =>
    obtain ⟨a, m⟩ := m
    simp only [validate] at h
    split at h
    · split at h
      · exact nomatch h
      · rename_i h1
        obtain ⟨rfl, rfl, _⟩ := some3 h
        have k := (ih h1).quiet (.refl _) (St.le_seekVirtual _ st.virt)
        exact ⟨k.flags, k.mono, k.pool, k.zeroed⟩
    · split at h
      · exact nomatch h
      · rename_i he
        obtain ⟨rfl, rfl, _⟩ := some3 h
        have hq := le_autoPlace he
        exact ⟨fun i => by rw [hq.syms]; rfl, fun i => Nat.le_refl _, hq.same.step, id⟩
      · rename_i he
        split at h
        · exact nomatch h
        · rename_i h1
          obtain ⟨rfl, rfl, _⟩ := some3 h
          have k := (ih h1).quiet ((le_autoPlace he).trans ((St.le_nextSection _).trans (St.le_seekVirtual _ _)))
            (St.le_seekVirtual _ st.virt)
          exact ⟨k.flags, k.mono, k.pool, k.zeroed⟩
  | cond k a b ih1 ih2 =>
    obtain ⟨p, m1, m2⟩ := m
    simp only [validate] at h
    split at h
    · exact nomatch h
    · rename_i he
      split at h
      · exact nomatch h
      · rename_i h1
        obtain ⟨rfl, rfl, _⟩ := some3 h
        have k := (ih1 h1).quiet (le_evalCond he) (.refl _)
        refine ⟨fun i => ?_, fun i => ?_, k.pool, fun hz => ⟨k.zeroed hz.1, hz.2⟩⟩
        · have := k.flags i; simp only [Cmd.defs]; omega
        · have := k.mono i; simp only [Cmd.defs]; omega
    · rename_i he
      split at h
      · exact nomatch h
      · rename_i h1
        obtain ⟨rfl, rfl, _⟩ := some3 h
        have k := (ih2 h1).quiet (le_evalCond he) (.refl _)
        refine ⟨fun i => ?_, fun i => ?_, k.pool, fun hz => ⟨hz.1, k.zeroed hz.2⟩⟩
        · have := k.flags i; simp only [Cmd.defs]; omega
        · have := k.mono i; simp only [Cmd.defs]; omega
  | arch a e =>
    simp only [validate] at h; obtain ⟨rfl, rfl, _⟩ := some3 h
    exact .leaf ⟨.refl st, rfl, rfl, rfl, rfl⟩ (fun _ => ⟨rfl, rfl⟩) id
  | message t e =>
    simp only [validate] at h
    obtain ⟨x, hx, h⟩ := map_some h
    obtain ⟨rfl, rfl, _⟩ := pair3 h
    exact .leaf (le_validateMessage hx) (fun _ => ⟨rfl, rfl⟩) id
  | mipsMacro x y c ih =>
    simp only [validate] at h
    split at h
    · exact nomatch h
    · rename_i h1
      obtain ⟨rfl, rfl, _⟩ := some3 h
      refine (fun k : Keeps c m st _ _ => (⟨k.flags, k.mono, k.pool, k.zeroed⟩ : Keeps (.mipsMacro x y c) m st _ _)) ((ih h1).quiet (.refl _) ?_)
      split <;> split
      · exact (St.le_queueError ..).trans (St.le_queueError ..)
      · exact St.le_queueError ..
      · exact St.le_queueError ..
      · exact .refl _
  | instr sem =>
    simp only [validate] at h
    refine ⟨fun i => ?_, fun i => Nat.le_refl _, instr_pool h, id⟩
    unfold validateInstr at h
    split at h
    · exact nomatch h
    · rename_i out as ds _
      obtain ⟨_, rfl, _⟩ := some3 h
      show 0 + _ = 0 + _
      congr 2
      rw [(St.le_advance _ _).syms]
      have := (St.le_report st ds).syms
      cases out.pool <;> exact this.symm
  | pool =>
    simp only [validate] at h
    have e := Option.some.inj h
    refine ⟨fun i => ?_, fun i => Nat.le_refl _, fun hi => ?_, id⟩
    · show 0 + _ = 0 + _
      congr 2
      have : (validatePool passes m st).2.1.syms = st.syms := by
        unfold validatePool
        dsimp only
        generalize hs : (if m.1 ≠ -1 then
          ({ st with fm := st.fm.getOpenFileID.1, alloc := st.alloc.forgetPool st.fm.getOpenFileID.2 m.1 (m.2.length * 4) } : St)
          else { st with fm := st.fm.getOpenFileID.1 }) = st1
        have h1 : st1.syms = st.syms := by rw [← hs]; split <;> rfl
        rw [(St.le_advance _ _).syms]
        show (List.foldl (poolStep (decide (passes < 10)) st1.virt) ([], st1) st1.pool).2.syms = _
        have : ∀ (es : List PoolEntry) (acc : List Int × St),
            (es.foldl (poolStep (decide (passes < 10)) st1.virt) acc).2.syms = acc.2.syms := by
          intro es
          induction es with
          | nil => intro acc; rfl
          | cons e es ih => intro acc; rw [List.foldl_cons, ih]; exact (St.le_report _ _).syms
        rw [this]; exact h1
      rw [e] at this
      rw [this]
    · have := pool_pool passes m st hi
      rw [e] at this
      exact this

end Armips
