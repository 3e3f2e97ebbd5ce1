import Verif.Lemmas.LayoutData
/-!
# Literal pools and label flags
-/
namespace Armips
open Spec.Layout Spec.Out Props Table

/-! ## Requests -/

/-- Pending requests are numbered below the counter and differ. -/
structure PInv (st : St) : Prop where
  lt : ∀ e ∈ st.pool, e.request < st.poolCount
  nodup : (st.pool.map PoolEntry.request).Nodup

/-- The request was made and served. -/
def Resolved (st : St) (r : Nat) : Prop := r < st.poolCount ∧ ∀ e ∈ st.pool, e.request ≠ r

/-- Served requests stay served, at the same address. -/
structure PoolLe (a b : St) : Prop where
  count : a.poolCount ≤ b.poolCount
  served : ∀ r, Resolved a r → Resolved b r ∧ b.poolAddr r = a.poolAddr r

theorem PoolLe.refl (a : St) : PoolLe a a := ⟨Nat.le_refl _, fun _ h => ⟨h, rfl⟩⟩
theorem PoolLe.trans {a b c : St} (h1 : PoolLe a b) (h2 : PoolLe b c) : PoolLe a c :=
  ⟨Nat.le_trans h1.1 h2.1, fun r h => by
    obtain ⟨x, y⟩ := h1.2 r h
    obtain ⟨z, w⟩ := h2.2 r x
    exact ⟨z, w.trans y⟩⟩

/-- Same requests. -/
def SamePool (a b : St) : Prop := b.pool = a.pool ∧ b.poolCount = a.poolCount ∧ b.poolAddr = a.poolAddr

theorem St.Quiet.same {a b : St} (h : St.Quiet a b) : SamePool a b := ⟨h.pool, h.poolCount, h.poolAddr⟩

theorem SamePool.step {a b : St} (h : SamePool a b) (hi : PInv a) : PInv b ∧ PoolLe a b := by
  obtain ⟨h1, h2, h3⟩ := h
  refine ⟨⟨?_, ?_⟩, ?_, ?_⟩
  · rw [h1, h2]; exact hi.lt
  · rw [h1]; exact hi.nodup
  · rw [h2]; exact Nat.le_refl _
  · intro r hr
    unfold Resolved at hr ⊢
    rw [h1, h2, h3]
    exact ⟨hr, rfl⟩

theorem label_same {E id value d st d' st' r} (h : validateLabel E id value d st = some (d', st', r)) : SamePool st st' := by
  unfold validateLabel at h
  split at h
  · exact nomatch h
  split at h
  · simp only [Option.some.injEq, Prod.mk.injEq] at h; rw [← h.2.1]; exact ⟨rfl, rfl, rfl⟩
  dsimp only at h
  have h0 : SamePool st (if d = true then st else
      { st with syms := st.syms.modifyLabel id fun l => { l with defined := true } }) := by
    split <;> exact ⟨rfl, rfl, rfl⟩
  revert h h0
  generalize (if d = true then st else
      { st with syms := st.syms.modifyLabel id fun l => { l with defined := true } }) = st0
  intro h h0
  split at h
  · split at h
    · exact nomatch h
    · rename_i st1 he
      simp only [Option.some.injEq, Prod.mk.injEq] at h; rw [← h.2.1]
      have := (St.le_evalInt he).same
      exact ⟨this.1.trans h0.1, this.2.1.trans h0.2.1, this.2.2.trans h0.2.2⟩
    · rename_i st1 v he
      have := (St.le_evalInt he).same
      split at h <;> simp only [Option.some.injEq, Prod.mk.injEq] at h <;> rw [← h.2.1] <;>
        exact ⟨this.1.trans h0.1, this.2.1.trans h0.2.1, this.2.2.trans h0.2.2⟩
  · simp only [Option.some.injEq, Prod.mk.injEq] at h; rw [← h.2.1]
    split <;> split <;> exact h0

theorem instr_pool {E sem old st m st' r} (h : validateInstr E sem old st = some (m, st', r)) (hi : PInv st) :
    PInv st' ∧ PoolLe st st' := by
  unfold validateInstr at h
  split at h
  · exact nomatch h
  rename_i out as ds hrun
  obtain ⟨_, h2, _⟩ := some3 h
  dsimp only at h2
  have hq := (St.le_report st ds).same
  revert h2
  cases out.pool with
  | none =>
    intro h2
    refine SamePool.step ?_ hi
    have := (St.le_advance ({ st.report ds with archSt := as } : St) out.size).same
    rw [h2] at this
    exact ⟨this.1.trans hq.1, this.2.1.trans hq.2.1, this.2.2.trans hq.2.2⟩
  | some v =>
    dsimp only
    intro h2
    have hadv := (St.le_advance ({ st.report ds with
        archSt := as, pool := (st.report ds).pool ++ [PoolEntry.mk (st.report ds).poolCount v out.poolDiags]
        poolCount := (st.report ds).poolCount + 1 } : St) out.size).same
    rw [h2] at hadv
    obtain ⟨e1, e2, e3⟩ := hadv
    obtain ⟨q1, q2, q3⟩ := hq
    simp only [q1, q2, q3] at e1 e2 e3
    refine ⟨⟨?_, ?_⟩, ?_, ?_⟩
    · rw [e1, e2]
      intro e he
      rcases List.mem_append.mp he with he | he
      · have := hi.lt e he; omega
      · rw [List.mem_singleton] at he; subst he; exact Nat.lt_succ_self _
    · rw [e1, List.map_append, List.nodup_append]
      refine ⟨hi.nodup, by simp, ?_⟩
      intro a ha b hb
      simp only [List.map_cons, List.map_nil, List.mem_singleton] at hb
      obtain ⟨e, he, rfl⟩ := List.mem_map.mp ha
      have := hi.lt e he
      omega
    · rw [e2]; omega
    · intro r ⟨hr1, hr2⟩
      refine ⟨⟨by omega, ?_⟩, by rw [e3]⟩
      intro e he
      rw [e1] at he
      rcases List.mem_append.mp he with he | he
      · exact hr2 e he
      · rw [List.mem_singleton] at he; subst he; show st.poolCount ≠ r; omega

/-! ## The pool command -/

theorem firstIndex_get {v : Int} {l : List Int} {k} (h : firstIndex v l = some k) : l[k]? = some v := by
  induction l generalizing k with
  | nil => exact nomatch h
  | cons x xs ih =>
    simp only [firstIndex] at h
    split at h
    · simp only [Option.some.injEq] at h; subst h; simp_all
    · obtain ⟨j, hj, rfl⟩ := map_some h
      simpa using ih hj

theorem poolPush_get (d v vals) : (poolPush d v vals)[poolIndex d v vals]? = some v := by
  unfold poolPush
  split
  · rename_i h
    rw [h]; simp
  · rename_i h
    unfold poolIndex at h ⊢
    split
    · rename_i i hi
      split at hi
      · exact firstIndex_get hi
      · exact nomatch hi
    · rename_i hi
      rw [hi] at h
      exact absurd rfl h

theorem poolPush_prefix (d v vals) : vals <+: poolPush d v vals := by
  unfold poolPush
  split
  · exact List.prefix_append _ _
  · exact List.prefix_rfl

theorem poolPush_mem {d v vals x} (h : x ∈ poolPush d v vals) : x ∈ vals ∨ x = v := by
  unfold poolPush at h
  split at h
  · simpa using h
  · exact .inl h

theorem prefix_get {α} {l l' : List α} (h : l <+: l') {k : Nat} {v : α} (hk : l[k]? = some v) : l'[k]? = some v := by
  obtain ⟨t, rfl⟩ := h
  rw [List.getElem?_append_left]
  · exact hk
  · exact (List.getElem?_eq_some_iff.mp hk).1

/-- What the loop over the requests does. -/
structure PoolRun (p : Int) (es : List PoolEntry) (acc acc' : List Int × St) : Prop where
  pre : acc.1 <+: acc'.1
  mem : ∀ v ∈ acc'.1, v ∈ acc.1 ∨ ∃ e ∈ es, e.value = v
  addr : ∀ r, r ∉ es.map PoolEntry.request → acc'.2.poolAddr r = acc.2.poolAddr r
  slot : (es.map PoolEntry.request).Nodup → ∀ e ∈ es, ∃ k : Nat, acc'.1[k]? = some e.value ∧
    acc'.2.poolAddr e.request = some (p + 4 * k) ∧ (acc'.2.Clean → NoErrors (e.diags (p + 4 * k)))
  le : St.Le acc.2 acc'.2
  rel : ∀ P R, VRel P acc.2 R → VRel P acc'.2 R
  pool : acc'.2.pool = acc.2.pool
  count : acc'.2.poolCount = acc.2.poolCount

theorem poolRun (d p) (es : List PoolEntry) (acc : List Int × St) : PoolRun p es acc (es.foldl (poolStep d p) acc) := by
  induction es generalizing acc with
  | nil => exact ⟨List.prefix_rfl, fun v h => .inl h, fun _ _ => rfl, fun _ => nofun, .refl _, fun _ _ => id, rfl, rfl⟩
  | cons e es ih =>
    have step := ih (poolStep d p acc e)
    simp only [List.foldl_cons]
    generalize es.foldl (poolStep d p) (poolStep d p acc e) = acc' at step
    have h1 : (poolStep d p acc e).1 = poolPush d e.value acc.1 := rfl
    generalize hg : (fun r => if r = e.request then some (p + (poolIndex d e.value acc.1 : Int) * 4) else acc.2.poolAddr r) = g
    have hst : (poolStep d p acc e).2 =
        St.report { acc.2 with poolAddr := g } (e.diags (p + poolIndex d e.value acc.1 * 4)) := by rw [← hg]; rfl
    have hsame : SamePool ({ acc.2 with poolAddr := g } : St) (poolStep d p acc e).2 := by
      rw [hst]; exact (St.le_report _ _).same
    have h2 : (poolStep d p acc e).2.poolAddr = fun r => if r = e.request then
        some (p + (poolIndex d e.value acc.1 : Int) * 4) else acc.2.poolAddr r := by rw [hg]; exact hsame.2.2
    refine ⟨?_, ?_, ?_, ?_, ?_, ?_, ?_, ?_⟩
    · exact (poolPush_prefix d e.value acc.1).trans (h1 ▸ step.pre)
    · intro v hv
      rcases step.mem v hv with h | ⟨e', he', h⟩
      · rw [h1] at h
        rcases poolPush_mem h with h | h
        · exact .inl h
        · exact .inr ⟨e, List.mem_cons_self, h.symm⟩
      · exact .inr ⟨e', List.mem_cons_of_mem _ he', h⟩
    · intro r hr
      rw [List.map_cons, List.mem_cons, not_or] at hr
      rw [step.addr r hr.2, h2]
      simp [hr.1]
    · intro hnd e' he'
      rw [List.map_cons, List.nodup_cons] at hnd
      rcases List.mem_cons.mp he' with rfl | he'
      · have e4 : p + (poolIndex d e'.value acc.1 : Int) * 4 = p + 4 * (poolIndex d e'.value acc.1 : Int) := by omega
        refine ⟨poolIndex d e'.value acc.1, ?_, ?_, ?_⟩
        · apply prefix_get step.pre
          rw [h1]; exact poolPush_get ..
        · rw [step.addr _ hnd.1, h2]
          dsimp only
          rw [if_pos rfl, e4]
        · intro hc
          rw [← e4]
          exact clean_report (hc.mono step.le)
      · exact step.slot hnd.2 e' he'
    · exact (le_poolStep d p acc e).trans step.le
    · intro P R hv
      apply step.rel
      unfold poolStep
      refine VRel.report ?_ _
      exact ⟨hv.1, hv.2, hv.3, hv.4, hv.5, hv.6, hv.7, hv.8, hv.9, hv.10, hv.11, hv.12⟩
    · rw [step.pool]; exact hsame.1
    · rw [step.count]; exact hsame.2.1

theorem pool_pool (passes old) (st : St) (hi : PInv st) :
    PInv (validatePool passes old st).2.1 ∧ PoolLe st (validatePool passes old st).2.1 := by
  unfold validatePool
  dsimp only
  generalize hs : (if old.1 ≠ -1 then
    ({ st with fm := st.fm.getOpenFileID.1, alloc := st.alloc.forgetPool st.fm.getOpenFileID.2 old.1 (old.2.length * 4) } : St)
    else { st with fm := st.fm.getOpenFileID.1 }) = st1
  have h1 : SamePool st st1 := by rw [← hs]; split <;> exact ⟨rfl, rfl, rfl⟩
  obtain ⟨hp, hcn, ha⟩ := h1
  have run := poolRun (decide (passes < 10)) st1.virt st1.pool ([], st1)
  generalize st1.pool.foldl (poolStep (decide (passes < 10)) st1.virt) ([], st1) = acc at run
  have hadv := (St.le_advance ({ acc.2 with pool := [] } : St) (acc.1.length * 4)).same
  obtain ⟨e1, e2, e3⟩ := hadv
  have e1' : (({ acc.2 with pool := [] } : St).advance (acc.1.length * 4)).pool = [] := e1
  have e2' : (({ acc.2 with pool := [] } : St).advance (acc.1.length * 4)).poolCount = st.poolCount := by
    rw [e2]; exact run.count.trans hcn
  have e3' : (({ acc.2 with pool := [] } : St).advance (acc.1.length * 4)).poolAddr = acc.2.poolAddr := e3
  revert e1' e2' e3'
  generalize ({ acc.2 with pool := [] } : St).advance (acc.1.length * 4) = st2
  intro e1' e2' e3'
  refine ⟨⟨?_, ?_⟩, ?_, ?_⟩
  · intro e he
    have he' : e ∈ st2.pool := he
    rw [e1'] at he'; simp at he'
  · show (List.map _ st2.pool).Nodup
    rw [e1']; simp
  · show st.poolCount ≤ st2.poolCount
    rw [e2']; exact Nat.le_refl _
  · intro r ⟨hr1, hr2⟩
    refine ⟨⟨?_, ?_⟩, ?_⟩
    · show r < st2.poolCount
      rw [e2']; exact hr1
    · intro e he
      have he' : e ∈ st2.pool := he
      rw [e1'] at he'; simp at he'
    · show st2.poolAddr r = _
      rw [e3', run.addr r, ← ha]
      rw [hp]
      intro hr
      obtain ⟨e, he, rfl⟩ := List.mem_map.mp hr
      exact hr2 e he rfl

theorem pools_of_forget (a : Alloc) (f p s : Int) : ∃ ps, a.forgetPool f p s = { a with pools := ps } := ⟨_, rfl⟩

theorem leaf_pool {P nf passes old st R f G}
    (hv : VRel P st R) (he : ERel P f R) (hi : PInv st) (hc : (validatePool passes old st).2.1.Clean)
    (hG : P.poolAddr = G.poolAddr) (hle : PoolLe (validatePool passes old st).2.1 G) :
    LeafStep P nf .pool R (validatePool passes old st).2.1
      (writeUnits f ((validatePool passes old st).1.2.map fun v => (.w32, v))) := by
  have hcOpen : ({ st with fm := st.fm.getOpenFileID.1 } : St).Clean := by
    have : St.Le ({ st with fm := st.fm.getOpenFileID.1 } : St) (validatePool passes old st).2.1 := by
      have hx := le_validatePool passes old ({ st with fm := st.fm.getOpenFileID.1 } : St)
      unfold validatePool at hx ⊢
      dsimp only at hx ⊢
      generalize hs : (if old.1 ≠ -1 then
        ({ st with fm := st.fm.getOpenFileID.1, alloc := st.alloc.forgetPool st.fm.getOpenFileID.2 old.1 (old.2.length * 4) } : St)
        else { st with fm := st.fm.getOpenFileID.1 }) = st1
      have h1 : St.Le ({ st with fm := st.fm.getOpenFileID.1 } : St) st1 := by
        rw [← hs]; split <;> exact Logger.Le.refl _
      refine h1.trans ((le_poolSteps (decide (passes < 10)) st1.virt st1.pool ([], st1)).trans ?_)
      exact St.le_advance ({ (List.foldl (poolStep (decide (passes < 10)) st1.virt) ([], st1) st1.pool).2 with pool := [] } : St) _ |>.le
    exact hc.mono this
  obtain ⟨hfile, hid⟩ := V_openFileID hv hcOpen
  unfold validatePool at hc hle ⊢
  dsimp only at hc hle ⊢
  rw [hid] at hc hle ⊢
  dsimp only at hc hle ⊢
  revert hc hle
  generalize hs : (if old.1 ≠ -1 then
    ({ st with alloc := st.alloc.forgetPool (R.file.elim 0 fun x => (x.1 : Int) + 1) old.1 (old.2.length * 4) } : St)
    else st) = st1
  intro hc hle
  obtain ⟨ps, hps⟩ : ∃ ps, st1 = { st with alloc := { st.alloc with pools := ps } } := by
    rw [← hs]; split
    · exact ⟨_, rfl⟩
    · exact ⟨st.alloc.pools, rfl⟩
  have hv1 : VRel P st1 { R with alloc := { R.alloc with pools := ps } } := by
    rw [hps]
    exact ⟨hv.1, hv.2, hv.3, hv.4, hv.5, hv.6, hv.7, by rw [← hv.alloc], hv.9, hv.10, hv.11, hv.12⟩
  have hpool1 : st1.pool = st.pool := by rw [hps]
  have hcount1 : st1.poolCount = st.poolCount := by rw [hps]
  have run := poolRun (decide (passes < 10)) st1.virt st1.pool ([], st1)
  revert hc hle run
  generalize st1.pool.foldl (poolStep (decide (passes < 10)) st1.virt) ([], st1) = acc
  intro hc hle run
  have hcAdv : (({ acc.2 with pool := [] } : St).advance (acc.1.length * 4)).Clean := hc
  have hcAcc : acc.2.Clean := St.Clean.quiet (a := { acc.2 with pool := [] }) (St.le_advance _ _) hcAdv
  have hv2 := run.rel P _ hv1
  have hv3 : VRel P ({ acc.2 with pool := [] } : St) { R with alloc := { R.alloc with pools := ps }, pending := [] } :=
    ⟨hv2.1, hv2.2, hv2.3, hv2.4, hv2.5, hv2.6, hv2.7, hv2.8, rfl, hv2.10, hv2.11, hv2.12⟩
  obtain ⟨R1, hem, hv4, he4⟩ := leaf_units (f := f) (us := acc.1.map fun v => (Width.w32, v)) (n := acc.1.length * 4) hv3
    ⟨he.1, he.2, he.3, he.4⟩ hcAdv (by rw [unitsSize_map]; simp [Width.bytes])
  rw [unitBytes_map] at hem
  obtain ⟨i, c, hf, rfl⟩ := hem
  have hvirt : st1.virt = R.virt := hv1.virt
  refine ⟨_, .pool (values := acc.1)
    (pools := (mapSet ⟨(R.file.elim 0 fun x => (x.1 : Int) + 1), st1.virt⟩ ((acc.1.length : Int) * 4) ps)) ?_ ⟨i, c, hf, rfl⟩ rfl, ?_, ?_⟩
  · refine ⟨?_, ?_⟩
    · intro e hemem
      rw [← hv.pool, ← hpool1] at hemem
      have hnd : (st1.pool.map PoolEntry.request).Nodup := by rw [hpool1]; exact hi.nodup
      obtain ⟨k, h1, h2, h3⟩ := run.slot hnd e hemem
      refine ⟨k, h1, ?_, ?_⟩
      · rw [hG]
        have hadv := (St.le_advance ({ acc.2 with pool := [] } : St) (acc.1.length * 4)).same
        obtain ⟨e1, e2, e3⟩ := hadv
        have hres := hle.served e.request ⟨?_, ?_⟩
        · rw [hres.2]
          show (St.advance ({ acc.2 with pool := [] } : St) (acc.1.length * 4)).poolAddr _ = _
          rw [e3]
          show acc.2.poolAddr e.request = _
          rw [h2, hvirt]
        · show e.request < (St.advance ({ acc.2 with pool := [] } : St) (acc.1.length * 4)).poolCount
          rw [e2]
          show e.request < acc.2.poolCount
          rw [run.count]
          show e.request < st1.poolCount
          rw [hcount1]
          exact hi.lt e (hpool1 ▸ hemem)
        · intro e' he'
          have he'' : e' ∈ (St.advance ({ acc.2 with pool := [] } : St) (acc.1.length * 4)).pool := he'
          rw [e1] at he''
          exact absurd he'' (by simp)
      · rw [← hvirt]; exact h3 hcAcc
    · intro v hvm
      rcases run.mem v hvm with h | ⟨e, hem', h⟩
      · exact absurd h (by simp)
      · exact ⟨e, by rw [← hv.pool, ← hpool1]; exact hem', h⟩
  · refine ⟨hv4.1, hv4.2, hv4.3, hv4.4, hv4.5, hv4.6, hv4.7, ?_, hv4.9, hv4.10, hv4.11, hv4.12⟩
    have := hv4.alloc
    dsimp only at this ⊢
    rw [this]
    rfl
  · exact ⟨he4.1, he4.2, he4.3, he4.4⟩

/-! ## Label flags -/

/-- 1 if the label is defined, else 0. -/
def SymTab.definedCount (t : SymTab) (i : Nat) : Nat :=
  match t.labels[i]? with
  | some l => if l.defined then 1 else 0
  | none => 0

/-- How many definitions of label `i` in the tree have their flag set. -/
def Cmd.defs : (c : Cmd) → c.Mem → Nat → Nat
  | .nil, _, _ => 0
  | .cons c rest, (m1, m2), i => c.defs m1 i + rest.defs m2 i
  | .label id _, (d : Bool), i => if id = i ∧ d then 1 else 0
  | .function id content, (d, m), i => (if id = i ∧ d then 1 else 0) + content.defs m i
  | .area _ _ _ _ content, (_, m), i => content.defs m i
  | .autoRegion _ _ content, (_, m), i => content.defs m i
  | .cond _ a b, (_, m1, m2), i => a.defs m1 i + b.defs m2 i
  | .mipsMacro _ _ content, m, i => content.defs m i
  | .openFile _, _, _ => 0
  | .closeFile, _, _ => 0
  | .position _ _, _, _ => 0
  | .incbin _ _ _ _, _, _ => 0
  | .align _ _ _, _, _ => 0
  | .skip _, _, _ => 0
  | .headerSize _, _, _ => 0
  | .data _ _ _, _, _ => 0
  | .table _, _, _ => 0
  | .arch _ _, _, _ => 0
  | .message _ _, _, _ => 0
  | .instr _, _, _ => 0
  | .pool, _, _ => 0

theorem definedCount_modify (t : SymTab) (id : Nat) (g : Label → Label) (h : ∀ l, (g l).defined = l.defined) (i : Nat) :
    (t.modifyLabel id g).definedCount i = t.definedCount i := by
  unfold SymTab.definedCount SymTab.modifyLabel
  simp only [List.getElem?_modify]
  cases t.labels[i]? with
  | none => rfl
  | some l => by_cases hi : id = i <;> simp [hi, h]

theorem definedCount_define (t : SymTab) (id : Nat) (l : Label) (hl : t.labels[id]? = some l) (hd : l.defined = false) (i : Nat) :
    (t.modifyLabel id fun l => { l with defined := true }).definedCount i = t.definedCount i + (if id = i then 1 else 0) := by
  unfold SymTab.definedCount SymTab.modifyLabel
  simp only [List.getElem?_modify]
  by_cases hi : id = i
  · subst hi
    simp [hl, hd]
  · simp only [hi, if_false, Nat.add_zero, Option.map_id']
    cases t.labels[i]? <;> simp

theorem label_flag {E id value d st d' st' r} (h : validateLabel E id value d st = some (d', st', r)) (i : Nat) :
    (if id = i ∧ d' = true then 1 else 0) + st.syms.definedCount i =
      (if id = i ∧ d = true then 1 else 0) + st'.syms.definedCount i ∧
    ((if id = i ∧ d = true then 1 else 0 : Nat) ≤ (if id = i ∧ d' = true then 1 else 0)) := by
  unfold validateLabel at h
  split at h
  · exact nomatch h
  rename_i l hl
  split at h
  · obtain ⟨rfl, rfl, _⟩ := some3 h
    exact ⟨rfl, Nat.le_refl _⟩
  rename_i hdef
  dsimp only at h
  have h0 : (if id = i then 1 else 0) + st.syms.definedCount i = (if id = i ∧ d = true then 1 else 0) +
      (if d = true then st else
        { st with syms := st.syms.modifyLabel id fun l => { l with defined := true } }).syms.definedCount i := by
    cases d with
    | true => simp
    | false =>
      have hd : l.defined = false := by
        cases hx : l.defined
        · rfl
        · exact absurd ⟨rfl, hx⟩ hdef
      simp only [Bool.false_eq_true, if_false, and_false]
      rw [definedCount_define st.syms id l hl hd]
      omega
  have hle : ((if id = i ∧ d = true then 1 else 0 : Nat) ≤ (if id = i ∧ true = true then 1 else 0)) := by
    by_cases hid : id = i <;> simp [hid] <;> split <;> omega
  revert h h0
  generalize (if d = true then st else
      { st with syms := st.syms.modifyLabel id fun l => { l with defined := true } }) = st0
  intro h h0
  have fin : ∀ s : SymTab, (∀ j, s.definedCount j = st0.syms.definedCount j) →
      (if id = i ∧ true = true then 1 else 0) + st.syms.definedCount i =
      (if id = i ∧ d = true then 1 else 0) + s.definedCount i := by
    intro s hs
    rw [hs]
    simpa using h0
  split at h
  · split at h
    · exact nomatch h
    · rename_i st1 he
      obtain ⟨rfl, rfl, _⟩ := some3 h
      exact ⟨fin _ (fun j => by show st1.syms.definedCount j = _; rw [(St.le_evalInt he).syms]), hle⟩
    · rename_i st1 v he
      split at h <;> obtain ⟨rfl, rfl, _⟩ := some3 h
      · exact ⟨fin _ (fun j => (definedCount_modify st1.syms id (fun l => { l with value := v }) (fun _ => rfl) j).trans
          (by rw [(St.le_evalInt he).syms])), hle⟩
      · exact ⟨fin _ (fun j => by rw [(St.le_evalInt he).syms]), hle⟩
  · obtain ⟨rfl, h2, _⟩ := some3 h
    refine ⟨fin _ (fun j => ?_), hle⟩
    rw [← h2]
    have a1 : ∀ s : St, (s.syms.modifyLabel id fun l => { l with physicalValue := some st0.phys }).definedCount j = s.syms.definedCount j :=
      fun s => definedCount_modify s.syms id (fun l => { l with physicalValue := some st0.phys }) (fun _ => rfl) j
    have a2 : (st0.syms.modifyLabel id fun l => { l with value := st0.virt }).definedCount j = st0.syms.definedCount j :=
      definedCount_modify st0.syms id (fun l => { l with value := st0.virt }) (fun _ => rfl) j
    split
    · refine (a1 _).trans ?_
      split
      · exact a2
      · rfl
    · split
      · exact a2
      · rfl

end Armips
