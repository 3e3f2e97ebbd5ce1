import Verif.Props.Layout
import Verif.Spec.Settled
/-!
# C01: the last pass changes nothing

Sizes, places and branches of the last pass are those of the pass before.
-/
namespace Armips.Props
open Armips Spec

private theorem not_clean_queue {st : St} {s : String} (h : (st.queueError .error s).Clean) : False := absurd (Logger.clean_queueError h) (by decide)

private theorem not_clean_fatal {st : St} {s : String} (h : (st.queueError .fatalError s).Clean) : False := absurd (Logger.clean_queueError h) (by decide)

private theorem align_settled {E mode e fill old st p st'} (h : validateAlign E mode e fill old st = some (p, st', false)) (hc : st'.Clean) : old.1 = p.1 := by
  unfold validateAlign at h
  split at h
  · exact nomatch h
  · rw [← (some3 h).2.1] at hc; exact (not_clean_fatal hc).elim
  · split at h
    · exact nomatch h
    · rw [← (some3 h).2.1] at hc; exact (not_clean_queue hc).elim
    · split at h
      · exact nomatch h
      · split at h
        · split at h
          · exact nomatch h
          · rw [← (some3 h).2.1] at hc
            exact absurd (Logger.ok_printError (Logger.Clean.ok hc)) (by decide)
          · obtain ⟨rfl, -, h⟩ := some3 h; simpa using h
        · obtain ⟨rfl, -, h⟩ := some3 h; simpa using h

private theorem data_settled {E mode es t old st p st'} (h : validateData E mode es t old st = some (p, st', false)) :
    SameSizes (.data mode es t) old p := by
  unfold validateData at h
  split at h
  · exact nomatch h
  · obtain ⟨rfl, -, h⟩ := some3 h
    simp only [ne_eq, decide_eq_false_iff_not, Decidable.not_not] at h
    show (if mode = .sjis ∨ mode = .custom then _ else _)
    cases mode <;> simp [dataSize, DataMode.width, Width.bytes] at h ⊢ <;> omega

private theorem position_clean {E p st st'} (h : areaPosition E p st = some (st', none)) (hc : st'.Clean) : False := by
  unfold areaPosition at h
  split at h
  · cases h
  · split at h
    · cases h
    · simp only [Option.some.injEq, Prod.mk.injEq, and_true] at h; subst h; exact not_clean_queue hc
    · cases h

private theorem place_clean {E mn mx a st st' r} (h : autoPlace E mn mx a st = some (st', .error r)) (hc : st'.Clean) : False := by
  unfold autoPlace at h
  split at h
  · cases h
  · simp only [Option.some.injEq, Prod.mk.injEq] at h; obtain ⟨rfl, -⟩ := h; exact not_clean_queue hc
  · split at h
    · cases h
    · simp only [Option.some.injEq, Prod.mk.injEq] at h; obtain ⟨rfl, -⟩ := h; exact not_clean_queue hc
    · dsimp only at h
      split at h
      · simp only [Option.some.injEq, Prod.mk.injEq] at h; obtain ⟨rfl, -⟩ := h; exact not_clean_queue hc
      · simp at h

private theorem pool_settled {passes} {m m' : Int × List Int} {st st' : St} (h : some (validatePool passes m st) = some (m', st', false)) :
    m.2.length = m'.2.length := by
  obtain ⟨rfl, -, h3⟩ := some3 (a := (validatePool passes m st).1) (b := (validatePool passes m st).2.1) (c := (validatePool passes m st).2.2) h
  simpa [validatePool] using h3

/-- C01. A command that asks for no other pass, and reports no error, has the size, the place and the branch that it had in the pass before. -/
theorem settled_command {E passes} {c : Cmd} {nf : Bool} {m m' : c.Mem} {st st' : St} (h : validate E passes c nf m st = some (m', st', false))
    (hc : st'.Clean) : SameSizes c m m' := by
  induction c generalizing nf st st' with
  | cons c rest ih1 ih2 =>
    obtain ⟨m1, m2⟩ := m
    simp only [validate] at h
    split at h
    · exact nomatch h
    · rename_i h1
      split at h
      · exact nomatch h
      · rename_i h2
        obtain ⟨rfl, rfl, h3⟩ := some3 h
        obtain ⟨rfl, rfl⟩ := Bool.or_eq_false_iff.1 h3
        exact ⟨ih1 h1 (hc.mono (le_validate h2)), ih2 h2 hc⟩
  | function id c ih =>
    obtain ⟨m1, m2⟩ := m
    simp only [validate] at h
    split at h
    · exact nomatch h
    · split at h
      · exact nomatch h
      · rename_i h2
        obtain ⟨rfl, rfl, h3⟩ := some3 h
        obtain ⟨rfl, rfl⟩ := Bool.or_eq_false_iff.1 h3
        exact ih h2 hc
  | align mode e f => simp only [validate] at h; exact align_settled h hc
  | data mode es t => simp only [validate] at h; exact data_settled h
  | area sh sz fl p c ih =>
    obtain ⟨a, m⟩ := m
    simp only [validate] at h
    split at h
    · exact nomatch h
    · rename_i he
      rw [← (some3 h).2.1] at hc; exact (position_clean he hc).elim
    · split at h
      · exact nomatch h
      · rw [← (some3 h).2.1] at hc; exact (not_clean_queue hc).elim
      · split at h
        · rw [← (some3 h).2.1] at hc; exact (not_clean_queue hc).elim
        · split at h
          · exact nomatch h
          · rw [← (some3 h).2.1] at hc; exact (not_clean_queue hc).elim
          · split at h
            · exact nomatch h
            · rename_i f _ _ m5 st5 r5 h1
              obtain ⟨rfl, h2, h3⟩ := some3 h
              have hc5 : st5.Clean := by
                rw [← h2] at hc
                exact hc.mono (le_areaEnd _ _ _ _ _ (if fl.isSome = true then toByte f else a.fillValue) _ r5).le
              simp only [areaEnd, Bool.or_eq_false_iff, ne_eq, decide_eq_false_iff_not, not_or, Decidable.not_not] at h3
              rw [h3.1] at h1
              exact ⟨h3.2.1.symm, h3.2.2.symm, ih h1 hc5⟩
  | autoRegion mn mx c ih =>
    obtain ⟨a, m⟩ := m
    simp only [validate] at h
    split at h
    · split at h
      · exact nomatch h
      · exact absurd (some3 h).2.2 (by decide)
    · split at h
      · exact nomatch h
      · rename_i he
        rw [← (some3 h).2.1] at hc; exact (place_clean he hc).elim
      · split at h
        · exact nomatch h
        · rename_i h1
          obtain ⟨rfl, rfl, h3⟩ := some3 h
          simp only [Bool.or_eq_false_iff, ne_eq, decide_eq_false_iff_not, not_or, Decidable.not_not] at h3
          rw [h3.1] at h1
          exact ⟨h3.2.1.symm, h3.2.2.symm, ih h1 (hc.mono (St.le_seekVirtual ..).le)⟩
  | cond k a b ih1 ih2 =>
    obtain ⟨p, m1, m2⟩ := m
    simp only [validate] at h
    split at h
    · exact nomatch h
    · split at h
      · exact nomatch h
      · rename_i h1
        obtain ⟨rfl, rfl, h3⟩ := some3 h
        simp only [Bool.or_eq_false_iff, ne_eq, decide_eq_false_iff_not, Decidable.not_not] at h3
        rw [h3.2] at h1
        exact ⟨h3.1, ih1 h1 hc⟩
    · split at h
      · exact nomatch h
      · rename_i h1
        obtain ⟨rfl, rfl, h3⟩ := some3 h
        simp only [Bool.or_eq_false_iff, ne_eq, decide_eq_false_iff_not, Decidable.not_not] at h3
        rw [h3.2] at h1
        exact ⟨h3.1, ih2 h1 hc⟩
  | mipsMacro x y c ih =>
    simp only [validate] at h
    split at h
    · exact nomatch h
    · rename_i st2 _ h1
      obtain ⟨rfl, h2, rfl⟩ := some3 h
      refine ih h1 (hc.mono ?_)
      rw [← h2]
      split <;> split
      · exact ((St.le_queueError ..).trans (St.le_queueError ..)).le
      · exact (St.le_queueError ..).le
      · exact (St.le_queueError ..).le
      · exact .refl _
  | pool =>
    exact pool_settled h
  | _ => trivial

/-- C01. When a run succeeds or changes any file, the last pass has left all sizes, the places of automatic regions and the branches of
conditionals as they were after the pass before. -/
theorem output_sizes_settled {E c fuel st0} {o : Outcome c} (hf : Fresh st0) (h : assemble E c fuel st0 = .done o)
    (hd : o.success = true ∨ o.st.fm.disk ≠ st0.fm.disk) :
    ∃ m1 st1, AfterPasses E c st0 (o.passes - 1) m1 st1 ∧ SameSizes c m1 o.mem := by
  obtain ⟨m1, st1, st2, h1, h2, h3, h4, -⟩ := output_only_when_settled hf h hd
  have hi : LoopInv c st0 m1 st1 := by
    clear h2
    generalize o.passes - 1 = n at h1
    induction h1 with
    | start => exact ⟨.refl _, hf.log, fun i => by rw [defs_init]; exact Nat.zero_le _, zeroed_init c, rfl, hf.archSt⟩
    | pass _ e ih => exact onePass_inv ih e
  refine ⟨m1, st1, h1, settled_command h2 ⟨?_, h3, fun e he => ?_⟩⟩
  · have := (le_validate h2).suppress
    rw [this]
    exact hi.supp
  · have := h4 e he
    cases hm : e.1 <;> simp_all [ErrorType.mild]

/-- A run of three passes meets the premises. -/
example : ∃ o, Succeeds Sample.env (Sample.seq Sample.forward) Sample.start o ∧ o.passes = 3 ∧
    ∃ m1 st1, AfterPasses Sample.env (Sample.seq Sample.forward) Sample.start 2 m1 st1 ∧ SameSizes _ m1 o.mem := by
  obtain ⟨o, h, h3, -⟩ := sample_succeeds (cs := Sample.forward) (n := 3) (out := [7, 8, 0, 0, 8, 255, 255, 255, 1, 0, 120, 0, 0, 0]) (by decide +kernel)
  obtain ⟨fuel, hr⟩ := h.run
  have := output_sizes_settled h.fresh hr (.inl h.success)
  rw [h3] at this
  exact ⟨o, h, h3, this⟩

end Armips.Props
