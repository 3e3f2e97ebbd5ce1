import Verif.Lemmas.LayoutTree
import Verif.Lemmas.LayoutData
/-!
# The last pass and the encoding together follow the reference walk
-/
namespace Armips
open Spec.Layout Spec.Out Props Table

theorem subAreaUsage_nonneg' (a : Alloc) (k : AreaKey) : 0 ≤ a.subAreaUsage k := by
  unfold Alloc.subAreaUsage
  dsimp only
  split <;> omega

theorem V_areaPosition {P position st st1 p R f G} (h : areaPosition P.env position st = some (st1, some p))
    (hc : st1.Clean) (hv : VRel P st R) (he : ERel P f R)
    (hok : (if position.isSome then ((encodeNextSection G f).seekVirtual p).1 else f).log.Ok) :
    ∃ R1, AreaStart P R position p R1 ∧
      VRel P st1 R1 ∧ ERel P (if position.isSome then ((encodeNextSection G f).seekVirtual p).1 else f) R1 := by
  unfold areaPosition at h
  cases position with
  | none =>
    simp only [Option.some.injEq, Prod.mk.injEq] at h
    obtain ⟨rfl, rfl⟩ := h
    exact ⟨R, ⟨hv.virt, rfl⟩, hv, he⟩
  | some e =>
    dsimp only at h
    split at h
    · exact nomatch h
    · simp at h
    · rename_i st0 q hq
      simp only [Option.some.injEq, Prod.mk.injEq] at h
      obtain ⟨rfl, rfl⟩ := h
      have c1 : st0.nextSection.Clean := hc.quiet (St.le_seekVirtual _ _)
      have c0 : st0.Clean := c1.quiet (St.le_nextSection _)
      obtain ⟨hev, hv0⟩ := V_evalInt hv hq c0
      obtain ⟨R0, hn, hv1⟩ := V_nextSection hv0 c1
      obtain ⟨R1, hs, hv2⟩ := V_seekVirtual hv1 hc
      refine ⟨R1, ⟨R0, hev, hn, hs⟩, hv2, ?_⟩
      simp only [Option.isSome_some, if_true] at hok ⊢
      rw [E_next (Logger.Ok.mono (FM.le_seekVirtual _ _) hok)]
      exact E_seeksVirtual (E_newSection he hn) hs

/-- Filling the rest of an area. -/
theorem area_end {P : Params} {shared : Bool} {fill : Option Expr} {old : AreaMem} {p n : Int} {fv : Byte} {v : Int} {st : St} {r : Bool}
    {R2 : Pos} {f f' : FM} {G : St}
    (hc : (areaEnd shared fill.isSome old p n fv st r).2.1.Clean) (hv : VRel P st R2) (he : ERel P f R2)
    (hal : P.alloc = G.alloc) (hfv : fill.isSome → fv = BitVec.ofInt 8 v)
    (hf : encodeAreaEnd shared fill.isSome G.alloc (areaEnd shared fill.isSome old p n fv st r).1 f = some f') :
    R2.virt - p ≤ n ∧ ∃ R4 a',
      AreaRest P R2 fill shared p n v R4 ∧
      Registers R2.alloc (R2.file.elim 0 fun x => (x.1 : Int) + 1) p n (R2.virt - p) fill.isSome shared a' ∧
      R4.file.isSome ∧
      VRel P (areaEnd shared fill.isSome old p n fv st r).2.1 { R4 with alloc := a' } ∧
      ERel P f' { R4 with alloc := a' } := by
  unfold areaEnd at hc hf ⊢
  dsimp only at hc hf ⊢
  have hvirt := hv.virt
  by_cases hover : n < st.virt - p
  · exfalso
    rw [if_pos hover] at hc
    refine notClean_queue (st := st) (s := "Area overflowed") (hc.mono ?_)
    generalize st.queueError .error "Area overflowed" = st1
    refine St.Le.trans (b := if (fill.isSome || shared) = true then st1.advance (n - (st.virt - p)) else st1) ?_ ?_
    · split
      · exact (St.le_advance ..).le
      · exact .refl _
    generalize (if (fill.isSome || shared) = true then st1.advance (n - (st.virt - p)) else st1) = st2
    refine (St.Quiet.fm st2.fm.le_getOpenFileID).le.trans ?_
    split <;> split <;> exact Logger.Le.refl _
  rw [if_neg hover] at hc hf ⊢
  refine ⟨by omega, ?_⟩
  -- the position after the area
  have key : ∃ Rv, VRel P (if (fill.isSome || shared) = true then st.advance (n - (st.virt - p)) else st) Rv ∧
      (if (fill.isSome || shared) = true then Skips R2 (n - (st.virt - p)) Rv else Rv = R2) ∧
      ({ (if (fill.isSome || shared) = true then st.advance (n - (st.virt - p)) else st) with
        fm := (if (fill.isSome || shared) = true then st.advance (n - (st.virt - p)) else st).fm.getOpenFileID.1 } : St).Clean := by
    have c2 : ({ (if (fill.isSome || shared) = true then st.advance (n - (st.virt - p)) else st) with
        fm := (if (fill.isSome || shared) = true then st.advance (n - (st.virt - p)) else st).fm.getOpenFileID.1 } : St).Clean := by
      refine hc.mono ?_
      generalize (if (fill.isSome || shared) = true then st.advance (n - (st.virt - p)) else st) = st2
      split <;> split <;> exact Logger.Le.refl _
    have c1 : (if (fill.isSome || shared) = true then st.advance (n - (st.virt - p)) else st).Clean :=
      c2.quiet (St.Quiet.fm (FM.le_getOpenFileID _))
    by_cases hb : (fill.isSome || shared) = true
    · rw [if_pos hb] at c1 c2 ⊢
      obtain ⟨Rv, hs, hv1⟩ := V_advance hv c1
      exact ⟨Rv, hv1, by rw [if_pos hb]; exact hs, c2⟩
    · rw [if_neg hb] at c1 c2 ⊢
      exact ⟨R2, hv, by rw [if_neg hb], c2⟩
  obtain ⟨Rv, hvv, hstep, c2⟩ := key
  generalize hst2 : (if (fill.isSome || shared) = true then st.advance (n - (st.virt - p)) else st) = st2 at *
  obtain ⟨hsome, hid⟩ := V_openFileID hvv c2
  rw [hid] at hc hf ⊢
  dsimp only at hc hf ⊢
  have hfile : Rv.file.elim 0 (fun x => (x.1 : Int) + 1) = R2.file.elim 0 (fun x => (x.1 : Int) + 1) := by
    by_cases hb : (fill.isSome || shared) = true
    · rw [if_pos hb] at hstep
      obtain ⟨i, c, k, h1, _, rfl⟩ := hstep
      rw [h1]; rfl
    · rw [if_neg hb] at hstep
      rw [hstep]
  rw [hfile] at hc hf ⊢
  -- what differs between the two views of the position
  have hR : ∀ (R4 : Pos) (a' : Alloc), R4.file = Rv.file → ({ R4 with file := R2.file, out := R2.out } : Pos) = R2 →
      VRel P { st2 with alloc := a' } { R4 with alloc := a' } := by
    intro R4 a' hfl heq
    have hpos : ({ Rv with file := R2.file, out := R2.out } : Pos) = R2 := by
      by_cases hb : (fill.isSome || shared) = true
      · rw [if_pos hb] at hstep
        obtain ⟨i, c, k, _, _, rfl⟩ := hstep
        rfl
      · rw [if_neg hb] at hstep
        rw [hstep]
    obtain ⟨v1, v2, v3, v4, v5, v6, v7, v8, v9, v10, v11, v12⟩ := hvv
    rw [← hpos] at heq
    injection heq with e1 e2 e3 e4 e5 e6 e7 e8 e9 e10
    refine ⟨v1, v2, v3, ?_, ?_, ?_, ?_, rfl, ?_, ?_, ?_, ?_⟩
    · rw [e3]; exact v4
    · rw [e5]; exact v5
    · rw [e6]; exact v6
    · rw [e7]; exact v7
    · rw [e9]; exact v9
    · rw [e10]; exact v10
    · dsimp only; rw [hfl]; exact v11
    · dsimp only; rw [hfl]; exact v12
  have halloc : st2.alloc = R2.alloc := by
    rw [← hst2]
    split
    · exact hv.alloc
    · exact hv.alloc
  -- the allocator
  have hreg : ∃ a', Registers R2.alloc (R2.file.elim 0 fun x => (x.1 : Int) + 1) p n (R2.virt - p) fill.isSome shared a' ∧
      (∀ R4 : Pos, (VRel P { st2 with alloc := a' } { R4 with alloc := a' }) → VRel P
        (if n ≠ 0 then
          { (if (old.fileID ≠ (R2.file.elim 0 fun x => (x.1 : Int) + 1) ∨ old.position ≠ p ∨ n = 0) ∧ old.areaSize ≠ 0 then
              ({ st2 with alloc := st2.alloc.forgetArea old.fileID old.position old.areaSize } : St) else st2) with
            alloc := (if (old.fileID ≠ (R2.file.elim 0 fun x => (x.1 : Int) + 1) ∨ old.position ≠ p ∨ n = 0) ∧ old.areaSize ≠ 0 then
              ({ st2 with alloc := st2.alloc.forgetArea old.fileID old.position old.areaSize } : St) else st2).alloc.setArea
                (R2.file.elim 0 fun x => (x.1 : Int) + 1) p n (st.virt - p) fill.isSome shared }
        else (if (old.fileID ≠ (R2.file.elim 0 fun x => (x.1 : Int) + 1) ∨ old.position ≠ p ∨ n = 0) ∧ old.areaSize ≠ 0 then
              ({ st2 with alloc := st2.alloc.forgetArea old.fileID old.position old.areaSize } : St) else st2)) { R4 with alloc := a' }) := by
    rw [hvirt, halloc]
    generalize hfi : (R2.file.elim 0 fun x => (x.1 : Int) + 1) = fi at *
    by_cases h1 : (old.fileID ≠ fi ∨ old.position ≠ p ∨ n = 0) ∧ old.areaSize ≠ 0
    · rw [if_pos h1]
      by_cases h2 : n = 0
      · rw [if_neg (by simpa using h2)]
        exact ⟨_, ⟨_, .inr ⟨_, _, _, rfl⟩, by rw [if_pos h2]⟩, fun R4 h => h⟩
      · rw [if_pos h2]
        exact ⟨_, ⟨_, .inr ⟨_, _, _, rfl⟩, by rw [if_neg h2]⟩, fun R4 h => h⟩
    · rw [if_neg h1]
      by_cases h2 : n = 0
      · rw [if_neg (by simpa using h2)]
        refine ⟨_, ⟨_, .inl rfl, by rw [if_pos h2]⟩, fun R4 h => ?_⟩
        have e : st2 = { st2 with alloc := R2.alloc } := by rw [← halloc]
        rw [e]; exact h
      · rw [if_pos h2, halloc]
        exact ⟨_, ⟨_, .inl rfl, by rw [if_neg h2]⟩, fun R4 h => h⟩
  obtain ⟨a', hreg, hVa⟩ := hreg
  have hE : ∀ {m : FM} {R4 : Pos}, ERel P m R4 → ERel P m { R4 with alloc := a' } := fun h => ⟨h.1, h.2, h.3, h.4⟩
  unfold encodeAreaEnd at hf
  cases hfill : fill with
  | none =>
    rw [hfill] at hf hstep hVa hreg hfv
    simp only [Option.isSome_none, Bool.false_eq_true, if_false, Bool.false_or] at hf hstep
    cases shared with
    | true =>
      simp only [if_true] at hf hstep
      have e : n - (st.virt - p) = p + n - R2.virt := by rw [hvirt]; omega
      rw [e] at hstep hf
      refine ⟨Rv, a', by simpa [AreaRest] using hstep, hreg, hsome, hVa Rv (hR Rv a' rfl ?_), ?_⟩
      · obtain ⟨i, c, k, _, _, rfl⟩ := hstep; rfl
      · rw [← Option.some.inj hf]
        exact hE (E_skips he hstep)
    | false =>
      simp only [Bool.false_eq_true, if_false, Option.some.injEq] at hf hstep
      subst hstep
      refine ⟨Rv, a', by simp [AreaRest], hreg, hsome, hVa Rv (hR Rv a' rfl rfl), ?_⟩
      rw [← hf]; exact hE he
  | some fe =>
    rw [hfill] at hf hstep hVa hreg hfv
    simp only [Option.isSome_some, if_true, Bool.true_or] at hf hstep hfv
    obtain ⟨i, c, k, hfl, hk, rfl⟩ := hstep
    have hsub := subAreaUsage_nonneg' G.alloc ⟨R2.file.elim 0 fun x => (x.1 : Int) + 1, p⟩
    rw [← hal] at hf hsub
    generalize hs0 : P.alloc.subAreaUsage ⟨R2.file.elim 0 fun x => (x.1 : Int) + 1, p⟩ = sub at *
    split at hf
    · exact nomatch hf
    rename_i hws
    have hphys : R2.phys = c.phys := by rw [Pos.phys, hfl]
    have hvirt2 : R2.virt = (c.phys : Int) + c.header := by rw [Pos.virt, hfl]; rfl
    have hsk : Skips R2 sub { R2 with file := some (i, { c with phys := c.phys + sub.toNat }) } :=
      ⟨i, c, c.phys + sub.toNat, hfl, by rw [hphys]; omega, rfl⟩
    have he3 : ERel P (if sub ≠ 0 then (f.advanceMemory sub).1 else f) { R2 with file := some (i, { c with phys := c.phys + sub.toNat }) } := by
      split
      · exact E_skips he hsk
      · rename_i h0
        have h0' : sub = 0 := by simpa using h0
        have : ({ R2 with file := some (i, { c with phys := c.phys + sub.toNat }) } : Pos) = R2 := by
          rw [h0']
          cases R2; simp only at hfl; rw [hfl]; rfl
        rw [this]; exact he
    generalize hm : (if sub ≠ 0 then (f.advanceMemory sub).1 else f) = m3 at *
    have hv3 : ({ R2 with file := some (i, { c with phys := c.phys + sub.toNat }) } : Pos).virt = (c.phys : Int) + sub + c.header := by
      show (((c.phys + sub.toNat : Nat) : Int) + c.header) = _
      omega
    have hcnt : (n - (st.virt - p) - sub).toNat = (p + n - ({ R2 with file := some (i, { c with phys := c.phys + sub.toNat }) } : Pos).virt).toNat := by
      rw [hv3]; rw [hvirt, hvirt2]; congr 1; omega
    have hem : Emits P { R2 with file := some (i, { c with phys := c.phys + sub.toNat }) }
        (List.replicate (p + n - ({ R2 with file := some (i, { c with phys := c.phys + sub.toNat }) } : Pos).virt).toNat (BitVec.ofInt 8 v))
        _ := ⟨i, _, rfl, rfl⟩
    refine ⟨_, a', ⟨_, by rw [hs0]; exact hsk, ?_, hem⟩, hreg, rfl, hVa _ (hR _ a' ?_ rfl), ?_⟩
    · rw [hv3]; rw [hvirt, hvirt2] at hws; omega
    · dsimp only
      congr 2
      simp only [List.length_replicate]
      congr 1
      rw [hv3]; rw [hphys, hvirt, hvirt2] at hk; rw [hvirt, hvirt2] at hws; omega
    · rw [← Option.some.inj hf, hcnt, hfv trivial]
      refine hE ?_
      have hat := (he3.cursor i _ rfl).1
      rw [areaFillLoop_eq hat (he3.isSome rfl) _ _ _ (Nat.le_refl _)]
      exact E_emits he3 hem

theorem V_autoPlace {P mnE mxE mem st st1 p fid R} (h : autoPlace P.env mnE mxE mem st = some (st1, .ok (p, fid)))
    (hc : st1.Clean) (hv : VRel P st R) :
    ∃ mn mx a', Operand P R mnE (-1) mn ∧ Operand P R mxE (-1) mx ∧
      R.alloc.allocateSubArea (R.file.elim 0 fun x => (x.1 : Int) + 1) mem.position mn mx mem.contentSize = (a', some p) ∧
      VRel P st1 { R with alloc := a' } := by
  unfold autoPlace at h
  split at h
  · exact nomatch h
  · simp at h
  · rename_i st2 mn h1
    split at h
    · exact nomatch h
    · simp at h
    · rename_i st3 mx h2
      dsimp only at h
      split at h
      · simp at h
      · rename_i a' q h3
        simp only [Option.some.injEq, Prod.mk.injEq, Except.ok.injEq] at h
        obtain ⟨rfl, rfl, rfl⟩ := h
        have c3' : ({ st3 with fm := st3.fm.getOpenFileID.1 } : St).Clean := hc
        have c3 : st3.Clean := c3'.quiet (.fm (FM.le_getOpenFileID _))
        have c2 : st2.Clean := c3.quiet (St.le_evalIntOpt h2)
        obtain ⟨ho1, hv2⟩ := V_evalIntOpt hv h1 c2
        obtain ⟨ho2, hv3⟩ := V_evalIntOpt hv2 h2 c3
        obtain ⟨_, hid⟩ := V_openFileID hv3 c3'
        rw [hid] at h3 ⊢
        rw [hv3.alloc] at h3
        exact ⟨mn, mx, a', ho1, ho2, h3, ⟨hv3.1, hv3.2, hv3.3, hv3.4, hv3.5, hv3.6, hv3.7, rfl, hv3.9, hv3.10, hv3.11, hv3.12⟩⟩

theorem V_cond {P kind st st1 b R} (h : evalCond P.env kind st = some (st1, b)) (hc : st1.Clean) (hv : VRel P st R) :
    Decides P R kind b ∧ VRel P st1 R := by
  unfold evalCond at h
  cases kind with
  | if_ e =>
    dsimp only at h
    split at h
    · exact nomatch h
    · simp only [Option.some.injEq, Prod.mk.injEq] at h
      obtain ⟨rfl, _⟩ := h
      exact notClean_queue hc
    · rename_i st2 v h1
      simp only [Option.some.injEq, Prod.mk.injEq] at h
      obtain ⟨rfl, rfl⟩ := h
      obtain ⟨he, hv2⟩ := V_evalInt hv h1 hc
      exact ⟨⟨v, he, rfl⟩, hv2⟩
  | ifdef i =>
    obtain ⟨l, hl, h⟩ := map_some h
    simp only [Prod.mk.injEq] at h
    obtain ⟨rfl, rfl⟩ := h
    exact ⟨⟨l, by rw [← hv.syms]; exact hl, rfl⟩, hv⟩
  | ifndef i =>
    obtain ⟨l, hl, h⟩ := map_some h
    simp only [Prod.mk.injEq] at h
    obtain ⟨rfl, rfl⟩ := h
    exact ⟨⟨l, by rw [← hv.syms]; exact hl, rfl⟩, hv⟩

theorem flag_defined {t : SymTab} {i : Nat} {l : Label} (h : 1 ≤ t.definedCount i) (hl : t.labels[i]? = some l) : l.defined = true := by
  unfold SymTab.definedCount at h
  rw [hl] at h
  dsimp only at h
  split at h
  · assumption
  · omega


structure Sound (P : Params) (nf : Bool) (c : Cmd) (m' : c.Mem) (R : Pos) (st' : St) (f' : FM) : Prop where
  run : ∃ R' vs, Lays P nf c R R' vs ∧ VRel P st' R' ∧ ERel P f' R' ∧ ∀ i, vs.countP (definesLabel i) ≤ c.defs m' i

theorem Sound.leaf {P nf c m' R st' f'} (h : LeafStep P nf c R st' f') (hd : ∀ i R', definesLabel i ⟨c, R, R'⟩ = false) :
    Sound P nf c m' R st' f' := by
  obtain ⟨R', h1, h2, h3⟩ := h
  refine ⟨R', _, h1, h2, h3, fun i => ?_⟩
  simp [hd]

/-- The last pass, whose members the encoding uses, and the encoding follow the walk. -/
theorem sound {P : Params} {passes : Nat} {G : St} (hG : P.poolAddr = G.poolAddr) (hA : P.alloc = G.alloc)
    {c : Cmd} {nf : Bool} {m : c.Mem} {st : St} {m' : c.Mem} {st' : St} {R : Pos} {f f' : FM}
    (h : validate P.env passes c nf m st = some (m', st', false)) (hc : st'.Clean) (hv : VRel P st R) (hp : PInv st)
    (hd : ∀ i, c.defs m i ≤ st.syms.definedCount i) (hz : c.Zeroed m) (hle : PoolLe st' G)
    (hf : encode G c m' f = some f') (hok : f'.log.Ok) (he : ERel P f R) : Sound P nf c m' R st' f' := by
  induction c generalizing nf st st' R f f' with
  | nil =>
    simp only [validate] at h
    obtain ⟨rfl, rfl, _⟩ := some3 h
    simp only [encode, Option.some.injEq] at hf
    subst hf
    exact ⟨R, [], .nil, hv, he, fun i => Nat.le_refl 0⟩
  | cons c rest ih1 ih2 =>
    obtain ⟨m1, m2⟩ := m
    simp only [validate] at h
    split at h
    · exact nomatch h
    · rename_i m1' st1 r1 h1
      split at h
      · exact nomatch h
      · rename_i m2' st2 r2 h2
        obtain ⟨rfl, rfl, hr⟩ := some3 h
        simp only [Bool.or_eq_false_iff] at hr
        obtain ⟨rfl, rfl⟩ := hr
        simp only [encode] at hf
        split at hf
        · exact nomatch hf
        · rename_i f1 hf1
          have k1 := keeps_validate h1
          have k2 := keeps_validate h2
          obtain ⟨p1, l1⟩ := k1.pool hp
          obtain ⟨p2, l2⟩ := k2.pool p1
          have hd1 : ∀ i, c.defs m1 i ≤ st.syms.definedCount i := fun i => by
            have := hd i; simp only [Cmd.defs] at this; omega
          have hd2 : ∀ i, rest.defs m2 i ≤ st1.syms.definedCount i := fun i => by
            have := hd i; simp only [Cmd.defs] at this; have := k1.definedMono i; omega
          obtain ⟨R1, v1, L1, hv1, he1, n1⟩ := ih1 h1 (hc.mono (le_validate h2)) hv hp hd1 hz.1 (l2.trans hle) hf1
            (Logger.Ok.mono (le_encode hf) hok) he
          obtain ⟨R2, v2, L2, hv2, he2, n2⟩ := ih2 h2 hc hv1 p1 hd2 hz.2 hle hf hok he1
          refine ⟨R2, v1 ++ v2, .cons L1 L2, hv2, he2, fun i => ?_⟩
          rw [List.countP_append]
          exact Nat.add_le_add (n1 i) (n2 i)
  | label id v =>
    simp only [validate] at h
    simp only [encode, Option.some.injEq] at hf
    subst hf
    obtain ⟨hl, hv', hd'⟩ := V_label h hc hv (fun hm l hl => flag_defined (by
      have := hd id
      simp only [Cmd.defs] at this
      rw [if_pos ⟨rfl, hm⟩] at this
      exact this) hl)
    refine ⟨R, _, .label hl, hv', he, fun i => ?_⟩
    simp only [Cmd.defs, definesLabel, List.countP_singleton, beq_iff_eq]
    by_cases hi : id = i
    · rw [if_pos hi, if_pos ⟨hi, hd'⟩]; exact Nat.le_refl 1
    · rw [if_neg hi]; exact Nat.zero_le _
  | function id c ih =>
    obtain ⟨m1, m2⟩ := m
    simp only [validate] at h
    split at h
    · exact nomatch h
    · rename_i m1' st1 r1 h1
      split at h
      · exact nomatch h
      · rename_i m2' st2 r2 h2
        obtain ⟨rfl, rfl, hr⟩ := some3 h
        simp only [Bool.or_eq_false_iff] at hr
        obtain ⟨rfl, rfl⟩ := hr
        simp only [encode] at hf
        have k2 := keeps_validate h2
        obtain ⟨p1, l1⟩ := (label_same h1).step hp
        obtain ⟨hl, hv1, hd'⟩ := V_label h1 (hc.mono (le_validate h2)) hv (fun hm l hl => flag_defined (by
          have := hd id
          simp only [Cmd.defs] at this
          rw [if_pos ⟨trivial, hm⟩] at this
          omega) hl)
        have hd2 : ∀ i, c.defs m2 i ≤ st1.syms.definedCount i := fun i => by
          have := hd i; simp only [Cmd.defs] at this; have := label_flag h1 i; omega
        obtain ⟨R2, v2, L2, hv2, he2, n2⟩ := ih h2 hc hv1 p1 hd2 hz hle hf hok he
        refine ⟨R2, _, .function hl L2, hv2, he2, fun i => ?_⟩
        have := n2 i
        simp only [Cmd.defs, definesLabel, List.countP_cons, beq_iff_eq]
        by_cases hi : id = i
        · rw [if_pos hi, if_pos ⟨hi, hd'⟩]; omega
        · rw [if_neg hi]; omega
  | openFile i =>
    simp only [validate] at h; obtain ⟨rfl, rfl, _⟩ := some3 h
    simp only [encode, Option.some.injEq] at hf; subst hf
    exact .leaf (leaf_open hv he hc hok) (fun _ _ => rfl)
  | closeFile =>
    simp only [validate] at h; obtain ⟨rfl, rfl, _⟩ := some3 h
    simp only [encode, Option.some.injEq] at hf; subst hf
    exact .leaf (leaf_close hv he hc) (fun _ _ => rfl)
  | position v e =>
    simp only [validate] at h
    obtain ⟨x, hx, h⟩ := map_some h
    obtain ⟨rfl, rfl, _⟩ := pair3 h
    simp only [encode, Option.some.injEq] at hf; subst hf
    exact .leaf (leaf_position hx hv he hc hok) (fun _ _ => rfl)
  | incbin fl fs a b =>
    simp only [validate] at h
    obtain ⟨x, hx, h⟩ := map_some h
    obtain ⟨rfl, rfl, _⟩ := pair3 h
    simp only [encode] at hf
    exact .leaf (leaf_incbin hx hv he hc hf hok) (fun _ _ => rfl)
  | align mode e fl =>
    simp only [validate] at h
    obtain ⟨a, b⟩ := m'
    simp only [encode] at hf
    exact .leaf (leaf_align h hz hv he hc hf) (fun _ _ => rfl)
  | skip e =>
    simp only [validate] at h
    obtain ⟨x, hx, h⟩ := map_some h
    obtain ⟨rfl, rfl, _⟩ := pair3 h
    simp only [encode, Option.some.injEq] at hf; subst hf
    exact .leaf (leaf_skip hx hv he hc hok) (fun _ _ => rfl)
  | headerSize e =>
    simp only [validate] at h
    obtain ⟨x, hx, h⟩ := map_some h
    obtain ⟨rfl, rfl, _⟩ := pair3 h
    simp only [encode] at hf
    exact .leaf (leaf_headerSize hx hv he hc hf) (fun _ _ => rfl)
  | data mode es t =>
    simp only [validate] at h
    simp only [encode, Option.some.injEq] at hf; subst hf
    exact .leaf (leaf_data h hv he hc) (fun _ _ => rfl)
  | table t =>
    simp only [validate] at h; obtain ⟨rfl, rfl, _⟩ := some3 h
    simp only [encode, Option.some.injEq] at hf; subst hf
    exact .leaf (leaf_table hv he) (fun _ _ => rfl)
  | area sh sz fl p c ih =>
    obtain ⟨a, m⟩ := m
    simp only [validate] at h
    split at h
    · exact nomatch h
    · rename_i st1 he1
      obtain ⟨rfl, rfl, _⟩ := some3 h
      exfalso
      unfold areaPosition at he1
      split at he1
      · simp at he1
      · split at he1
        · exact nomatch he1
        · simp only [Option.some.injEq, Prod.mk.injEq] at he1
          rw [← he1.1] at hc
          exact notClean_queue hc
        · simp at he1
    · rename_i st1 pp he1
      split at h
      · exact nomatch h
      · obtain ⟨rfl, rfl, _⟩ := some3 h; exact notClean_queue hc
      · rename_i st2 nn he2
        split at h
        · obtain ⟨rfl, rfl, _⟩ := some3 h; exact notClean_queue hc
        · rename_i hnn
          split at h
          · exact nomatch h
          · obtain ⟨rfl, rfl, _⟩ := some3 h; exact notClean_queue hc
          · rename_i st4 fvl he3
            split at h
            · exact nomatch h
            · rename_i m5 st5 r5 h1
              obtain ⟨rfl, rfl, hr⟩ := some3 h
              have hr5 : r5 = false := by
                simp only [Bool.or_eq_false_iff] at hr
                exact hr.1
              subst hr5
              simp only [encode] at hf
              split at hf
              · exact nomatch hf
              · rename_i f5 hf5
                have qe := le_areaEnd sh fl.isSome a pp nn (if fl.isSome = true then toByte fvl else a.fillValue) st5 false
                have c5 : st5.Clean := hc.quiet qe
                have c4 : st4.Clean := c5.mono (le_validate h1)
                have c2 : st2.Clean := c4.quiet (St.le_evalIntOpt he3)
                have c1 : st1.Clean := c2.quiet (St.le_evalInt he2)
                have q4 := (le_areaPosition he1).trans ((St.le_evalInt he2).trans (St.le_evalIntOpt he3))
                obtain ⟨R1, hpos, hv1, he1'⟩ := V_areaPosition (G := G) he1 c1 hv he
                  (Logger.Ok.mono (le_encode hf5) (Logger.Ok.mono (le_encodeAreaEnd hf) hok))
                obtain ⟨hsz, hv2⟩ := V_evalInt hv1 he2 c2
                obtain ⟨hfl, hv4⟩ := V_evalIntOpt hv2 he3 c4
                obtain ⟨p4, _⟩ := q4.same.step hp
                have k := keeps_validate h1
                obtain ⟨p5, l5⟩ := k.pool p4
                obtain ⟨_, le5⟩ := qe.same.step p5
                obtain ⟨R2, vs, L, hv5, he5, nn5⟩ := ih h1 c5 hv4 p4 (fun i => by rw [q4.syms]; exact hd i) hz (le5.trans hle) hf5
                  (Logger.Ok.mono (le_encodeAreaEnd hf) hok) he1'
                obtain ⟨hsize, R4, a', hfill, hreg, hso, hv6, he6⟩ := area_end (v := fvl) hc hv5 he5 hA
                  (fun hs => by rw [if_pos hs]; rfl) hf
                refine ⟨_, _, .area hpos hsz (by omega) hfl L hsize hfill hreg hso rfl, hv6, he6, fun i => ?_⟩
                have := nn5 i
                simpa only [List.countP_cons, definesLabel, Cmd.defs, Bool.false_eq_true, if_false, Nat.add_zero] using this
  | autoRegion mn mx c ih =>
    obtain ⟨a, m⟩ := m
    simp only [validate] at h
    split at h
    · split at h
      · exact nomatch h
      · exact absurd (some3 h).2.2 (by decide)
    · split at h
      · exact nomatch h
      · rename_i st1 b he1
        obtain ⟨rfl, rfl, _⟩ := some3 h
        exfalso
        unfold autoPlace at he1
        split at he1
        · exact nomatch he1
        · simp only [Option.some.injEq, Prod.mk.injEq] at he1
          rw [← he1.1] at hc; exact notClean_queue hc
        · split at he1
          · exact nomatch he1
          · simp only [Option.some.injEq, Prod.mk.injEq] at he1
            rw [← he1.1] at hc; exact notClean_queue hc
          · dsimp only at he1
            split at he1
            · simp only [Option.some.injEq, Prod.mk.injEq] at he1
              rw [← he1.1] at hc; exact notClean_queue hc
            · simp at he1
      · rename_i st1 pp fid he1
        split at h
        · exact nomatch h
        · rename_i m2 st2 r2 h1
          obtain ⟨rfl, rfl, hr⟩ := some3 h
          simp only [Bool.or_eq_false_iff, decide_eq_false_iff_not] at hr
          obtain ⟨rfl, hr⟩ := hr
          have hpp : pp = a.position := by omega
          have hcs : st2.virt - pp = a.contentSize := by omega
          simp only [encode] at hf
          split at hf
          · exact nomatch hf
          · rename_i f2 hf2
            simp only [Option.some.injEq] at hf
            subst hf
            have c2 : st2.Clean := hc.quiet (St.le_seekVirtual _ _)
            have cs : (st1.nextSection.seekVirtual pp).Clean := c2.mono (le_validate h1)
            have cn : st1.nextSection.Clean := cs.quiet (St.le_seekVirtual _ _)
            have c1 : st1.Clean := cn.quiet (St.le_nextSection _)
            have o2 : f2.log.Ok := Logger.Ok.mono (FM.le_seekVirtual _ _) hok
            obtain ⟨vn, vx, a', ho1, ho2, hal, hv1⟩ := V_autoPlace he1 c1 hv
            obtain ⟨R1, hn, hvn⟩ := V_nextSection hv1 cn
            obtain ⟨R2, hs, hvs⟩ := V_seekVirtual hvn cs
            have q := (le_autoPlace he1).trans ((St.le_nextSection _).trans (St.le_seekVirtual _ pp))
            obtain ⟨p1, _⟩ := q.same.step hp
            have k := keeps_validate h1
            obtain ⟨p2, l2⟩ := k.pool p1
            obtain ⟨_, l3⟩ := (St.le_seekVirtual st2 st.virt).same.step p2
            have hes : ERel P ((encodeNextSection G f).seekVirtual pp).1 R2 := by
              rw [E_next (Logger.Ok.mono (FM.le_seekVirtual _ _) (Logger.Ok.mono (le_encode hf2) o2))]
              exact E_seeksVirtual (E_newSection (R := { R with alloc := a' }) ⟨he.1, he.2, he.3, he.4⟩ hn) hs
            obtain ⟨R3, vs, L, hv3, he3, n3⟩ := ih h1 c2 hvs p1 (fun i => by rw [q.syms]; exact hd i) hz (l3.trans hle) hf2 o2 hes
            obtain ⟨R4, hs4, hv4⟩ := V_seekVirtual hv3 hc
            have hs4' : SeeksVirtual R3 R.virt R4 := by rw [← hv.virt]; exact hs4
            refine ⟨R4, _, .autoRegion (size := a.contentSize) (p := pp) ho1 ho2 (by rw [hpp] at hal ⊢; exact hal) hn hs L ?_ hs4', hv4,
              E_seeksVirtual he3 hs4, fun i => ?_⟩
            · rw [← hcs, hv3.virt]
            · have := n3 i
              simpa only [List.countP_cons, definesLabel, Cmd.defs, Bool.false_eq_true, if_false, Nat.add_zero] using this
  | cond k a b ih1 ih2 =>
    obtain ⟨pv, m1, m2⟩ := m
    simp only [validate] at h
    split at h
    · exact nomatch h
    · rename_i st1 he1
      split at h
      · exact nomatch h
      · rename_i m1' st2 r2 h1
        obtain ⟨rfl, rfl, hr⟩ := some3 h
        simp only [Bool.or_eq_false_iff] at hr
        obtain ⟨_, rfl⟩ := hr
        simp only [encode, if_true] at hf
        have q := le_evalCond he1
        obtain ⟨hdec, hv1⟩ := V_cond he1 (hc.mono (le_validate h1)) hv
        obtain ⟨p1, _⟩ := q.same.step hp
        obtain ⟨R2, vs, L, hv2, he2, n2⟩ := ih1 h1 hc hv1 p1 (fun i => by
          rw [q.syms]; have := hd i; simp only [Cmd.defs] at this; omega) hz.1 hle hf hok he
        refine ⟨R2, _, .cond (t := true) hdec L, hv2, he2, fun i => ?_⟩
        have := n2 i
        simp only [List.countP_cons, definesLabel, Cmd.defs, Bool.false_eq_true, if_false, Nat.add_zero]
        omega
    · rename_i st1 he1
      split at h
      · exact nomatch h
      · rename_i m2' st2 r2 h1
        obtain ⟨rfl, rfl, hr⟩ := some3 h
        simp only [Bool.or_eq_false_iff] at hr
        obtain ⟨_, rfl⟩ := hr
        simp only [encode, Bool.false_eq_true, if_false] at hf
        have q := le_evalCond he1
        obtain ⟨hdec, hv1⟩ := V_cond he1 (hc.mono (le_validate h1)) hv
        obtain ⟨p1, _⟩ := q.same.step hp
        obtain ⟨R2, vs, L, hv2, he2, n2⟩ := ih2 h1 hc hv1 p1 (fun i => by
          rw [q.syms]; have := hd i; simp only [Cmd.defs] at this; omega) hz.2 hle hf hok he
        refine ⟨R2, _, .cond (t := false) hdec L, hv2, he2, fun i => ?_⟩
        have := n2 i
        simp only [List.countP_cons, definesLabel, Cmd.defs, Bool.false_eq_true, if_false, Nat.add_zero]
        omega
  | arch a e =>
    simp only [validate] at h; obtain ⟨rfl, rfl, _⟩ := some3 h
    simp only [encode, Option.some.injEq] at hf; subst hf
    exact .leaf (leaf_arch hv he) (fun _ _ => rfl)
  | message t e =>
    simp only [validate] at h
    obtain ⟨x, hx, h⟩ := map_some h
    obtain ⟨rfl, rfl, _⟩ := pair3 h
    simp only [encode, Option.some.injEq] at hf; subst hf
    exact .leaf (leaf_message hx hv he hc) (fun _ _ => rfl)
  | mipsMacro x y c ih =>
    simp only [validate] at h
    split at h
    · exact nomatch h
    · rename_i m1 st1 r1 h1
      obtain ⟨rfl, rfl, rfl⟩ := some3 h
      simp only [encode] at hf
      have q : St.Quiet st1
          (if st1.virt = st.virt then (if !y ∧ st1.archSt.delaySlot ∧ st1.virt - st.virt > 4 ∧ !x then
          st1.queueError .warning "Macro with multiple opcodes used inside a delay slot" else st1).queueError .warning "Empty macro content" else (if !y ∧ st1.archSt.delaySlot ∧ st1.virt - st.virt > 4 ∧ !x then
          st1.queueError .warning "Macro with multiple opcodes used inside a delay slot" else st1)) := by
        split <;> split
        · exact (St.le_queueError ..).trans (St.le_queueError ..)
        · exact St.le_queueError ..
        · exact St.le_queueError ..
        · exact .refl _
      have k := keeps_validate h1
      obtain ⟨p1, _⟩ := k.pool hp
      obtain ⟨_, l1⟩ := q.same.step p1
      obtain ⟨R2, vs, L, hv2, he2, n2⟩ := ih h1 (hc.quiet q) hv hp hd hz (l1.trans hle) hf hok he
      refine ⟨R2, _, .mipsMacro L, ?_, he2, fun i => ?_⟩
      · split <;> split
        · exact (hv2.queueError ..).queueError ..
        · exact hv2.queueError ..
        · exact hv2.queueError ..
        · exact hv2
      · have := n2 i
        simpa only [List.countP_cons, definesLabel, Cmd.defs, Bool.false_eq_true, if_false, Nat.add_zero] using this
  | instr sem =>
    simp only [validate] at h
    exact .leaf (leaf_instr h hv he hc hG hf) (fun _ _ => rfl)
  | pool =>
    simp only [validate] at h
    have e := Option.some.inj h
    have e1 : (validatePool passes m st).1 = m' := by rw [e]
    have e2 : (validatePool passes m st).2.1 = st' := by rw [e]
    subst e1 e2
    simp only [encode] at hf
    have hf := Option.some.inj hf
    subst hf
    exact .leaf (leaf_pool hv he hp hc hG hle) (fun _ _ => rfl)

end Armips
