import Verif.Lemmas.LayoutLeaf
/-!
# Commands that write bytes follow the reference walk
-/
namespace Armips
open Spec.Layout Spec.Out Props Table

theorem fromFile_exact {content start size data} (h : fromFile content start size = some data)
    (hl : (data.length : Int) = size) (h0 : size ≠ 0) :
    ∃ c, content = some c ∧ 0 ≤ start ∧ 0 < size ∧ start + size ≤ c.length ∧
      data = (c.drop start.toNat).take size.toNat := by
  unfold fromFile at h
  split at h
  · simp only [Option.some.injEq] at h
    subst h
    simp at hl; omega
  · rename_i c
    split at h
    · simp only [Option.some.injEq] at h
      subst h
      simp at hl; omega
    · rename_i hs
      split at h
      · rename_i hcond
        simp only [Option.some.injEq] at h
        subst h
        simp only [List.length_drop] at hl
        omega
      · split at h
        · exact nomatch h
        · simp only [Option.some.injEq] at h
          exact ⟨c, rfl, by omega, by omega, by omega, h.symm⟩

theorem leaf_incbin {P nf file fileSize startE sizeE old st st' mem R f f'}
    (h : validateIncbin P.env fileSize startE sizeE old st = some (mem, st'))
    (hv : VRel P st R) (he : ERel P f R) (hc : st'.Clean) (hf : encodeIncbin file mem.1 mem.2 f = some f')
    (hok : f'.log.Ok) : LeafStep P nf (.incbin file fileSize startE sizeE) R st' f' := by
  unfold validateIncbin at h
  split at h
  · exact nomatch h
  · simp only [Option.some.injEq, Prod.mk.injEq] at h
    rw [← h.2] at hc; exact notClean_queue hc
  rename_i st1 start hstart
  split at h
  · simp only [Option.some.injEq, Prod.mk.injEq] at h
    rw [← h.2] at hc; exact notClean_queue hc
  rename_i hle
  split at h
  · exact nomatch h
  · simp only [Option.some.injEq, Prod.mk.injEq] at h
    rw [← h.2] at hc; exact notClean_queue hc
  rename_i st2 asked hasked
  dsimp only at h
  generalize hr : (if start + asked > fileSize then
    (st2.queueError .warning "Read size truncated due to file size", fileSize - start) else (st2, asked)) = r at h
  simp only [Option.some.injEq, Prod.mk.injEq] at h
  obtain ⟨rfl, rfl⟩ := h
  have hq : St.Quiet st2 r.1 := by
    rw [← hr]; split
    · exact St.le_queueError ..
    · exact .refl _
  have hc3 := hc.quiet (St.le_advance _ _)
  have hc2 := hc3.quiet (St.le_nextSection _)
  have hc1 := hc2.quiet hq
  have hc0 := hc1.quiet (St.le_evalIntOpt hasked)
  obtain ⟨hE1, hv1⟩ := V_evalIntOpt hv hstart hc0
  obtain ⟨hE2, hv2⟩ := V_evalIntOpt hv1 hasked hc1
  have hv3 : VRel P r.1 R := by
    rw [← hr]; split
    · exact hv2.queueError ..
    · exact hv2
  have hsize : r.2 = min asked (fileSize - start) := by
    rw [← hr]; split <;> simp only <;> omega
  obtain ⟨R1, hn, hv4⟩ := V_nextSection hv3 hc3
  have he1 := E_newSection he hn
  have hst : startE.isSome → start ≤ fileSize := by
    intro hs
    by_cases hgt : start > fileSize
    · exact absurd ⟨hs, hgt⟩ hle
    · omega
  unfold encodeIncbin at hf
  dsimp only at hf
  split at hf
  · rename_i h0
    simp only [Option.some.injEq] at hf
    subst hf
    obtain ⟨R', hem, hv5, he5⟩ := emit (bs := []) hv4 he1 hc (by simp [h0])
    obtain ⟨i, c, hfile, _⟩ := id hem
    rw [write_nil (he1.cursor i c hfile).1 (he1.isSome hfile)] at he5
    exact ⟨R', .incbin hE1 hst hE2 hsize (.inl ⟨h0, rfl⟩) hn hem, hv5, he5⟩
  · rename_i h0
    split at hf
    · exact nomatch hf
    · rename_i data hdata
      split at hf
      · exact nomatch hf
      · split at hf
        · simp only [Option.some.injEq] at hf
          subst hf
          exact absurd (Logger.ok_printError hok) (by decide)
        · rename_i hlen
          simp only [Option.some.injEq] at hf
          subst hf
          have hlen' : (data.length : Int) = r.2 := Classical.byContradiction hlen
          obtain ⟨content, e1, e2, e3, e4, e5⟩ := fromFile_exact hdata hlen' h0
          obtain ⟨R', hem, hv5, he5⟩ := emit (bs := data) hv4 he1 hc hlen'
          rw [he.disk] at e1
          exact ⟨R', .incbin hE1 hst hE2 hsize (.inr ⟨content, e1, e2, e3, e4, e5⟩) hn hem, hv5, he5⟩

/-! ## Alignment -/

theorem pow_of_and : ∀ m : Nat, 0 < m → m &&& (m - 1) = 0 → ∃ k, m = 2 ^ k := by
  intro m
  induction m using Nat.strongRecOn with
  | _ m ih =>
    intro h0 h
    have hd : (m / 2) &&& ((m - 1) / 2) = 0 := by
      rw [← Nat.and_div_two, h]
    obtain ⟨k, hk | hk⟩ : ∃ k, m = 2 * k ∨ m = 2 * k + 1 := ⟨m / 2, by omega⟩
    · have e1 : m / 2 = k := by omega
      have e2 : (m - 1) / 2 = k - 1 := by omega
      rw [e1, e2] at hd
      obtain ⟨j, hj⟩ := ih k (by omega) (by omega) hd
      exact ⟨j + 1, by rw [hk, hj, Nat.pow_succ]; omega⟩
    · have e1 : m / 2 = k := by omega
      have e2 : (m - 1) / 2 = k := by omega
      rw [e1, e2, Nat.and_self] at hd
      exact ⟨0, by omega⟩

theorem isPowerOfTwo_spec {n : Int} (h : isPowerOfTwo n = some true) : ∃ k : Nat, n = 2 ^ k := by
  unfold isPowerOfTwo at h
  split at h
  · exact nomatch h
  rename_i h0
  split at h
  · exact nomatch h
  rename_i h1
  simp only [Option.some.injEq, decide_eq_true_eq] at h
  have hr : -(2 ^ 63) < n ∧ n < 2 ^ 63 := by
    have hh := Classical.not_not.mp (fun hx => h1 (.inr hx))
    have : n ≠ -(2 ^ 63) := fun hx => h1 (.inl hx)
    unfold InI64 at hh
    omega
  have h' := congrArg BitVec.toNat h
  rw [BitVec.toNat_and, BitVec.toNat_ofInt, BitVec.toNat_ofInt] at h'
  by_cases hpos : 0 < n
  · have e1 : (n % ((2 ^ 64 : Nat) : Int)).toNat = n.toNat := by
      rw [Int.emod_eq_of_lt (by omega) (by omega)]
    have e2 : ((n - 1) % ((2 ^ 64 : Nat) : Int)).toNat = n.toNat - 1 := by
      rw [Int.emod_eq_of_lt (by omega) (by omega)]; omega
    rw [e1, e2] at h'
    obtain ⟨k, hk⟩ := pow_of_and n.toNat (by omega) h'
    refine ⟨k, ?_⟩
    have : ((2 ^ k : Nat) : Int) = 2 ^ k := by simp
    rw [← this, ← hk]; omega
  · exfalso
    obtain ⟨m, hm⟩ : ∃ m : Nat, n = m - 2 ^ 64 := ⟨(n + 2 ^ 64).toNat, by omega⟩
    have e1 : (n % ((2 ^ 64 : Nat) : Int)).toNat = m := by
      rw [hm]; omega
    have e2 : ((n - 1) % ((2 ^ 64 : Nat) : Int)).toNat = m - 1 := by
      rw [hm]; omega
    rw [e1, e2] at h'
    obtain ⟨k, hk⟩ := pow_of_and m (by omega) h'
    have h63 : 2 ^ 63 < m := by omega
    have h64 : m < 2 ^ 64 := by omega
    rw [hk] at h63 h64
    have := (Nat.pow_lt_pow_iff_right (by decide : 1 < 2)).mp h63
    have := (Nat.pow_lt_pow_iff_right (by decide : 1 < 2)).mp h64
    omega

theorem alignSize_spec {mode value virt phys n} (h : alignSize mode value virt phys = some n)
    (hp : mode ≠ .fill → ∃ k : Nat, value = 2 ^ k) (hphys : 0 ≤ phys) (hn : 0 ≤ n) : Padding mode virt phys value n := by
  have key : ∀ (a : Int), (∃ k : Nat, value = 2 ^ k) →
      (if a.tmod value = 0 then some 0 else if InI64 (value - a.tmod value) then some (value - a.tmod value) else none) = some n →
      value ∣ a + n ∧ 0 ≤ n ∧ n < value + (if a < 0 then value else 0) := by
    intro a ⟨k, hk⟩ h
    have hpos : 0 < value := by rw [hk]; exact Int.pow_pos (by decide)
    have h1 := Int.mul_tdiv_add_tmod a value
    split at h
    · rename_i h0
      simp only [Option.some.injEq] at h
      subst h
      refine ⟨?_, Int.le_refl _, ?_⟩
      · rw [Int.add_zero]; exact Int.dvd_of_tmod_eq_zero h0
      · split <;> omega
    · split at h
      · simp only [Option.some.injEq] at h
        subst h
        refine ⟨⟨a.tdiv value + 1, ?_⟩, ?_, ?_⟩
        · rw [Int.mul_add, Int.mul_one]; omega
        · have := Int.tmod_lt_of_pos a hpos; omega
        · split
          · have := Int.lt_tmod_of_pos a hpos; omega
          · have := Int.tmod_nonneg value (by omega : 0 ≤ a); omega
      · exact nomatch h
  unfold alignSize at h
  cases mode with
  | virtual =>
    have := hp (by decide)
    exact ⟨this, key virt this h⟩
  | physical =>
    have := hp (by decide)
    obtain ⟨h1, h2, h3⟩ := key phys this h
    rw [if_neg (by omega)] at h3
    exact ⟨this, h1, h2, by omega⟩
  | fill =>
    simp only [Option.some.injEq] at h
    exact ⟨h.symm, hn⟩

theorem leaf_align {P nf mode e fill old st st' mem R f f' r}
    (h : validateAlign P.env mode e fill old st = some (mem, st', r))
    (hz : fill = none → old.2 = 0#8)
    (hv : VRel P st R) (he : ERel P f R) (hc : st'.Clean) (hf : encodeFill mem.1 mem.2 f = some f') :
    LeafStep P nf (.align mode e fill) R st' f' := by
  unfold validateAlign at h
  split at h
  · exact nomatch h
  · obtain ⟨_, h2, _⟩ := some3 h
    rw [← h2] at hc; exact notClean_fatal hc
  rename_i st1 value hval
  split at h
  · exact nomatch h
  · obtain ⟨_, h2, _⟩ := some3 h
    rw [← h2] at hc; exact notClean_queue hc
  rename_i hpow
  split at h
  · exact nomatch h
  rename_i finalSize hfs
  have hp : mode ≠ .fill → ∃ k : Nat, value = 2 ^ k := by
    intro hm
    rw [if_neg hm] at hpow
    exact isPowerOfTwo_spec hpow
  -- the common end
  have key : ∀ (st2 : St) (b : Byte), VRel P st2 R → VRel P st1 R → Evals P R e (.int value) →
      (st2.nextSection.advance finalSize).Clean → encodeFill finalSize b f = some f' →
      ∃ R1 R', NewSection R R1 ∧ Padding mode R.virt R.phys value finalSize ∧
        Emits P R1 (List.replicate finalSize.toNat b) R' ∧ VRel P (st2.nextSection.advance finalSize) R' ∧ ERel P f' R' := by
    intro st2 b hv2 hv1 hE hc hf
    have hc1 := hc.quiet (St.le_advance _ _)
    obtain ⟨R1, hn, hv3⟩ := V_nextSection hv2 hc1
    have he1 := E_newSection he hn
    unfold encodeFill at hf
    split at hf
    · exact nomatch hf
    rename_i hneg
    simp only [Option.some.injEq] at hf
    obtain ⟨R', hem, hv4, he4⟩ := emit (bs := List.replicate finalSize.toNat b) hv3 he1 hc
      (by rw [List.length_replicate]; omega)
    obtain ⟨i, c, hfile, _⟩ := id hem
    rw [fillLoop_eq (he1.cursor i c hfile).1 _ _ _ (Nat.le_refl _)] at hf
    subst hf
    refine ⟨R1, R', hn, ?_, hem, hv4, he4⟩
    rw [hv1.virt, hv1.phys] at hfs
    refine alignSize_spec hfs hp ?_ (by omega)
    obtain ⟨_, rfl⟩ := hn
    have hfile' : R.file = some (i, c) := hfile
    rw [Pos.phys, hfile']
    exact Int.natCast_nonneg _
  cases fill with
  | none =>
    dsimp only at h
    obtain ⟨rfl, rfl, _⟩ := some3 h
    have hc1 := (hc.quiet (St.le_advance _ _)).quiet (St.le_nextSection _)
    obtain ⟨hE, hv1⟩ := V_evalInt hv hval hc1
    obtain ⟨R1, R', hn, hpad, hem, hv4, he4⟩ := key st1 old.2 hv1 hv1 hE hc hf
    rw [hz rfl] at hem
    exact ⟨R', .align (f := 0) hE hpad nofun hn hem, hv4, he4⟩
  | some fe =>
    dsimp only at h
    split at h
    · exact nomatch h
    · obtain ⟨_, h2, _⟩ := some3 h
      rw [← h2] at hc; exact notClean_printFatal hc
    · rename_i st2 v hfe
      obtain ⟨rfl, rfl, _⟩ := some3 h
      have hc2 := (hc.quiet (St.le_advance _ _)).quiet (St.le_nextSection _)
      have hc1 := hc2.quiet (St.le_evalInt hfe)
      obtain ⟨hE, hv1⟩ := V_evalInt hv hval hc1
      obtain ⟨hE2, hv2⟩ := V_evalInt hv1 hfe hc2
      obtain ⟨R1, R', hn, hpad, hem, hv4, he4⟩ := key st2 (toByte v) hv2 hv1 hE hc hf
      exact ⟨R', .align hE hpad (fun _ => hE2) hn hem, hv4, he4⟩

/-! ## Data -/

theorem V_dataLoop {P : Params} {R : Pos} {elem : Value → St → St × List Int} {stands : Value → List Int → Prop}
    (hq : ∀ v st, St.Quiet st (elem v st).1)
    (hel : ∀ v st, (elem v st).1.Clean → VRel P st R → stands v (elem v st).2 ∧ VRel P (elem v st).1 R)
    {es st st' us} (h : dataLoop P.env elem es st = some (st', us)) (hc : st'.Clean) (hv : VRel P st R) :
    Entries P R stands es us ∧ VRel P st' R ∧ St.Quiet st st' := by
  induction es generalizing st us with
  | nil =>
    simp only [dataLoop, Option.some.injEq, Prod.mk.injEq] at h
    obtain ⟨rfl, rfl⟩ := h
    exact ⟨.nil, hv, .refl _⟩
  | cons e es ih =>
    simp only [dataLoop] at h
    split at h
    · exact nomatch h
    · rename_i st1 v hev
      split at h
      · exact nomatch h
      · rename_i st2 rest hrest
        simp only [Option.some.injEq, Prod.mk.injEq] at h
        obtain ⟨rfl, rfl⟩ := h
        have hq2 : St.Quiet (elem v st1).1 st2 := by
          clear ih
          revert hrest
          generalize (elem v st1).1 = s0
          intro hrest
          clear hv hev
          induction es generalizing s0 rest with
          | nil =>
            simp only [dataLoop, Option.some.injEq, Prod.mk.injEq] at hrest
            obtain ⟨rfl, rfl⟩ := hrest
            exact .refl _
          | cons e es ih =>
            simp only [dataLoop] at hrest
            split at hrest
            · exact nomatch hrest
            · rename_i hev
              split at hrest
              · exact nomatch hrest
              · rename_i hrest'
                simp only [Option.some.injEq, Prod.mk.injEq] at hrest
                obtain ⟨rfl, rfl⟩ := hrest
                exact ((St.le_eval hev).trans (hq _ _)).trans (ih _ _ hrest')
        have hc2 := hc.quiet hq2
        have hc1 := hc2.quiet (hq v st1)
        obtain ⟨hE, hv1⟩ := V_eval hv hev hc1
        obtain ⟨hs, hv2⟩ := hel v st1 hc2 hv1
        obtain ⟨h1, h2, h3⟩ := ih hrest hv2
        exact ⟨.cons hE hs h1, h2, ((St.le_eval hev).trans (hq _ _)).trans h3⟩

theorem normalElem_quiet (E mode v st) : St.Quiet st (normalElem E mode v st).1 := by
  unfold normalElem
  split
  · dsimp only; split
    · exact St.le_queueError ..
    · exact .refl _
  · exact .refl _
  · split
    · exact .refl _
    · exact .refl _
    · exact St.le_queueError ..
  · exact St.le_queueError ..

theorem normalElem_stands {P : Params} {R : Pos} (mode : DataMode)
    (hm : mode = .u8 ∨ mode = .u16 ∨ mode = .u32 ∨ mode = .u64 ∨ mode = .ascii) (v st)
    (hc : (normalElem P.env mode v st).1.Clean) (hv : VRel P st R) :
    DataUnits P.env mode v (normalElem P.env mode v st).2 ∧ VRel P (normalElem P.env mode v st).1 R := by
  unfold normalElem at hc ⊢
  cases v with
  | str s =>
    dsimp only at hc ⊢
    split at hc
    · exact notClean_queue hc
    · rename_i hany
      rw [if_neg hany]
      refine ⟨?_, hv⟩
      have hs : ∀ b ∈ s, b.toNat < 0x80 := by
        intro b hb
        simp only [ge_iff_le, List.any_eq_true, decide_eq_true_eq, not_exists, not_and, Nat.not_le] at hany
        exact hany b hb
      have hmap : s.map (fun c => c.toInt) = s.map fun b => (b.toNat : Int) := by
        apply List.map_congr_left
        intro b hb
        have := hs b hb
        rw [BitVec.toInt_eq_toNat_cond, if_pos (by omega)]
      rcases hm with rfl | rfl | rfl | rfl | rfl <;> exact ⟨hs, hmap⟩
  | int n => rcases hm with rfl | rfl | rfl | rfl | rfl <;> exact ⟨rfl, hv⟩
  | float x =>
    rcases hm with rfl | rfl | rfl | rfl | rfl
    · exact notClean_queue hc
    · exact notClean_queue hc
    · exact ⟨rfl, hv⟩
    · exact ⟨rfl, hv⟩
    · exact notClean_queue hc
  | invalid => exact notClean_queue hc

theorem floatElem_quiet (E mode v st) : St.Quiet st (floatElem E mode v st).1 := by
  unfold floatElem
  split
  · exact .refl _
  · exact .refl _
  · exact .refl _
  · exact .refl _
  · exact St.le_queueError ..
  · exact St.le_queueError ..

theorem floatElem_stands {P : Params} {R : Pos} (mode : DataMode)
    (hm : mode = .float ∨ mode = .double) (v st)
    (hc : (floatElem P.env mode v st).1.Clean) (hv : VRel P st R) :
    DataUnits P.env mode v (floatElem P.env mode v st).2 ∧ VRel P (floatElem P.env mode v st).1 R := by
  cases v <;> rcases hm with rfl | rfl
  · exact notClean_queue hc
  · exact notClean_queue hc
  · exact ⟨rfl, hv⟩
  · exact ⟨rfl, hv⟩
  · exact ⟨rfl, hv⟩
  · exact ⟨rfl, hv⟩
  · exact notClean_queue hc
  · exact notClean_queue hc

theorem customElem_quiet {t v st st' b} (h : customElem t v st = some (st', b)) : St.Quiet st st' := by
  unfold customElem at h
  split at h
  · simp only [Option.some.injEq, Prod.mk.injEq] at h; rw [← h.1]; exact .refl _
  · split at h
    · exact nomatch h
    · simp only [Option.some.injEq, Prod.mk.injEq] at h; rw [← h.1]
      split
      · exact .refl _
      · exact St.le_queueError ..
    · simp only [Option.some.injEq, Prod.mk.injEq] at h; rw [← h.1]
      split
      · exact St.le_queueError ..
      · exact .refl _
  · simp only [Option.some.injEq, Prod.mk.injEq] at h; rw [← h.1]; exact St.le_queueError ..
  · simp only [Option.some.injEq, Prod.mk.injEq] at h; rw [← h.1]; exact St.le_queueError ..

theorem customLoop_quiet {E t es st st' bs} (h : customLoop E t es st = some (st', bs)) : St.Quiet st st' := by
  induction es generalizing st bs st' with
  | nil =>
    simp only [customLoop, Option.some.injEq, Prod.mk.injEq] at h
    rw [← h.1]; exact .refl _
  | cons e es ih =>
    simp only [customLoop] at h
    split at h
    · exact nomatch h
    · rename_i hev
      split at h
      · exact nomatch h
      · rename_i hel
        split at h
        · exact nomatch h
        · rename_i hrest
          simp only [Option.some.injEq, Prod.mk.injEq] at h
          rw [← h.1]
          exact ((St.le_eval hev).trans (customElem_quiet hel)).trans (ih hrest)

theorem customElem_stands {P : Params} {R : Pos} {t v st st' b} (h : customElem t v st = some (st', b))
    (hc : st'.Clean) (hv : VRel P st R) : TextBytes t v b ∧ VRel P st' R := by
  unfold customElem at h
  split at h
  · simp only [Option.some.injEq, Prod.mk.injEq] at h
    obtain ⟨rfl, rfl⟩ := h
    exact ⟨rfl, hv⟩
  · rename_i s
    split at h
    · exact nomatch h
    · simp only [Option.some.injEq, Prod.mk.injEq] at h
      obtain ⟨rfl, rfl⟩ := h
      split at hc
      · rename_i hs
        rw [if_pos hs]
        exact ⟨.inr ⟨List.isEmpty_iff.mp hs, rfl⟩, hv⟩
      · exact notClean_queue hc
    · rename_i bs henc
      simp only [Option.some.injEq, Prod.mk.injEq] at h
      obtain ⟨rfl, rfl⟩ := h
      split at hc
      · exact notClean_queue hc
      · rename_i hs
        rw [if_neg hs]
        refine ⟨.inl ⟨henc, fun hb => ?_⟩, hv⟩
        subst hb
        cases s with
        | nil => rfl
        | cons a s => exact absurd ⟨rfl, rfl⟩ hs
  · simp only [Option.some.injEq, Prod.mk.injEq] at h
    rw [← h.1] at hc; exact notClean_queue hc
  · simp only [Option.some.injEq, Prod.mk.injEq] at h
    rw [← h.1] at hc; exact notClean_queue hc

theorem V_customLoop {P : Params} {R : Pos} {t es st st' bs} (h : customLoop P.env t es st = some (st', bs))
    (hc : st'.Clean) (hv : VRel P st R) : Entries P R (TextBytes t) es bs ∧ VRel P st' R := by
  induction es generalizing st bs with
  | nil =>
    simp only [customLoop, Option.some.injEq, Prod.mk.injEq] at h
    obtain ⟨rfl, rfl⟩ := h
    exact ⟨.nil, hv⟩
  | cons e es ih =>
    simp only [customLoop] at h
    split at h
    · exact nomatch h
    · rename_i st1 v hev
      split at h
      · exact nomatch h
      · rename_i st2 b hel
        split at h
        · exact nomatch h
        · rename_i st3 rest hrest
          simp only [Option.some.injEq, Prod.mk.injEq] at h
          obtain ⟨rfl, rfl⟩ := h
          have hc2 := hc.quiet (customLoop_quiet hrest)
          have hc1 := hc2.quiet (customElem_quiet hel)
          obtain ⟨hE, hv1⟩ := V_eval hv hev hc1
          obtain ⟨hs, hv2⟩ := customElem_stands hel hc2 hv1
          obtain ⟨h1, h2⟩ := ih hrest hv2
          exact ⟨.cons hE hs h1, h2⟩

theorem unitBytes_map (e : Endianness) (w : Width) (us : List Int) :
    unitBytes e (us.map fun v => (w, v)) = us.flatMap (intBytes e w.bytes) := by
  unfold unitBytes
  rw [List.flatMap_map]

theorem unitsSize_map (w : Width) (us : List Int) : unitsSize (us.map fun v => (w, v)) = us.length * w.bytes := by
  induction us with
  | nil => simp [unitsSize]
  | cons u us ih =>
    simp only [unitsSize, List.map_cons, List.sum_cons, List.length_cons] at ih ⊢
    rw [ih, Nat.add_mul]; omega

theorem leaf_units {P st R f} {us : List (Width × Int)} {n : Int} (hv : VRel P st R) (he : ERel P f R)
    (hc : (st.advance n).Clean) (hn : (unitsSize us : Int) = n) :
    ∃ R', Emits P R (unitBytes R.endian us) R' ∧ VRel P (st.advance n) R' ∧ ERel P (writeUnits f us) R' := by
  obtain ⟨R', hem, hv1, he1⟩ := emit (bs := unitBytes R.endian us) hv he hc (by rw [unitBytes_length]; exact hn)
  obtain ⟨i, c, hfile, _⟩ := id hem
  rw [← he.endian, ← writeUnits_eq (he.cursor i c hfile).1 (he.isSome hfile)] at he1
  exact ⟨R', hem, hv1, he1⟩

theorem leaf_data {P nf mode es t old st st' mem R f r}
    (h : validateData P.env mode es t old st = some (mem, st', r))
    (hv : VRel P st R) (he : ERel P f R) (hc : st'.Clean) :
    LeafStep P nf (.data mode es t) R st' (encodeData mode mem f) := by
  unfold validateData at h
  split at h
  · exact nomatch h
  rename_i d st1 henc
  obtain ⟨rfl, rfl, _⟩ := some3 h
  have hc1 := hc.quiet (St.le_advance _ _)
  -- integer and float data
  have units : ∀ us : List Int, d.1 = us → (mode ≠ .sjis ∧ mode ≠ .custom) →
      DataBytes P R mode es t (us.flatMap (intBytes R.endian mode.width.bytes)) → VRel P st1 R →
      LeafStep P nf (.data mode es t) R (st1.advance (dataSize mode d)) (encodeData mode d f) := by
    intro us hd hm hb hv1
    obtain ⟨R', hem, hv2, he2⟩ := leaf_units (us := us.map fun v => (mode.width, v)) (n := dataSize mode d) hv1 he hc (by
      rw [unitsSize_map]
      unfold dataSize
      rw [hd]
      cases mode <;> simp_all)
    rw [unitBytes_map] at hem
    refine ⟨R', .data hb hem, hv2, ?_⟩
    have : encodeData mode d f = writeUnits f (us.map fun v => (mode.width, v)) := by
      unfold encodeData
      rw [hd]
      cases mode <;> simp_all
    rw [this]; exact he2
  -- strings
  have texts : ∀ bs : List Byte, d.2 = bs → (mode = .sjis ∨ mode = .custom) →
      DataBytes P R mode es t bs → VRel P st1 R →
      LeafStep P nf (.data mode es t) R (st1.advance (dataSize mode d)) (encodeData mode d f) := by
    intro bs hd hm hb hv1
    obtain ⟨R', hem, hv2, he2⟩ := emit (bs := bs) (n := dataSize mode d) hv1 he hc (by
      unfold dataSize
      rw [hd]
      rcases hm with rfl | rfl <;> rfl)
    refine ⟨R', .data hb hem, hv2, ?_⟩
    have : encodeData mode d f = (f.write bs).1 := by
      unfold encodeData
      rw [hd]
      rcases hm with rfl | rfl <;> rfl
    rw [this]; exact he2
  have normal : (mode = .u8 ∨ mode = .u16 ∨ mode = .u32 ∨ mode = .u64 ∨ mode = .ascii) →
      (match dataLoop P.env (normalElem P.env mode) es st with
        | none => none
        | some (st, l) => some ((l ++ (if t then [0] else []), old.2), st)) = some (d, st1) →
      ∃ us, d.1 = us ++ (if t then [0] else []) ∧ Entries P R (DataUnits P.env mode) es us ∧ VRel P st1 R := by
    intro hm henc
    split at henc
    · exact nomatch henc
    · rename_i st2 us hloop
      simp only [Option.some.injEq, Prod.mk.injEq] at henc
      obtain ⟨rfl, rfl⟩ := henc
      obtain ⟨h1, h2, _⟩ := V_dataLoop (fun v st => normalElem_quiet P.env mode v st)
        (fun v st => normalElem_stands mode hm v st) hloop hc1 hv
      exact ⟨us, rfl, h1, h2⟩
  have floats : (mode = .float ∨ mode = .double) →
      (match dataLoop P.env (floatElem P.env mode) es st with
        | none => none
        | some (st, l) => some ((l, old.2), st)) = some (d, st1) →
      ∃ us, d.1 = us ∧ Entries P R (DataUnits P.env mode) es us ∧ VRel P st1 R := by
    intro hm henc
    split at henc
    · exact nomatch henc
    · rename_i st2 us hloop
      simp only [Option.some.injEq, Prod.mk.injEq] at henc
      obtain ⟨rfl, rfl⟩ := henc
      obtain ⟨h1, h2, _⟩ := V_dataLoop (fun v st => floatElem_quiet P.env mode v st)
        (fun v st => floatElem_stands mode hm v st) hloop hc1 hv
      exact ⟨us, rfl, h1, h2⟩
  have customs : ∀ tb : Tbl,
      (match customLoop P.env tb es st with
        | none => none
        | some (st, b) =>
          match termination tb t with
          | none => none
          | some x => some ((old.1, b ++ x), st)) = some (d, st1) →
      ∃ xs term, d.2 = xs ++ term ∧ Entries P R (TextBytes tb) es xs ∧
        (if t then tb.entryBytes tb.termination = some term else term = []) ∧ VRel P st1 R := by
    intro tb henc
    split at henc
    · exact nomatch henc
    · rename_i st2 xs hloop
      split at henc
      · exact nomatch henc
      · rename_i term hterm
        simp only [Option.some.injEq, Prod.mk.injEq] at henc
        obtain ⟨rfl, rfl⟩ := henc
        obtain ⟨h1, h2⟩ := V_customLoop hloop hc1 hv
        refine ⟨xs, term, rfl, h1, ?_, h2⟩
        unfold termination at hterm
        cases t
        · simp at hterm ⊢; exact hterm
        · simpa using hterm
  unfold encodeEntries at henc
  cases mode with
  | sjis =>
    obtain ⟨xs, term, e, h1, h2, h3⟩ := customs _ henc
    exact texts _ e (.inl rfl) ⟨xs, term, h1, h2, rfl⟩ h3
  | custom =>
    obtain ⟨xs, term, e, h1, h2, h3⟩ := customs _ henc
    refine texts _ e (.inr rfl) ⟨xs, term, ?_, ?_, rfl⟩ h3
    · rw [← hv.table]; exact h1
    · rw [← hv.table]; exact h2
  | float =>
    obtain ⟨us, e, h1, h2⟩ := floats (.inl rfl) henc
    exact units _ e (by decide) ⟨us, h1, rfl⟩ h2
  | double =>
    obtain ⟨us, e, h1, h2⟩ := floats (.inr rfl) henc
    exact units _ e (by decide) ⟨us, h1, rfl⟩ h2
  | u8 =>
    obtain ⟨us, e, h1, h2⟩ := normal (by decide) henc
    exact units _ e (by decide) ⟨us, h1, rfl⟩ h2
  | u16 =>
    obtain ⟨us, e, h1, h2⟩ := normal (by decide) henc
    exact units _ e (by decide) ⟨us, h1, rfl⟩ h2
  | u32 =>
    obtain ⟨us, e, h1, h2⟩ := normal (by decide) henc
    exact units _ e (by decide) ⟨us, h1, rfl⟩ h2
  | u64 =>
    obtain ⟨us, e, h1, h2⟩ := normal (by decide) henc
    exact units _ e (by decide) ⟨us, h1, rfl⟩ h2
  | ascii =>
    obtain ⟨us, e, h1, h2⟩ := normal (by decide) henc
    exact units _ e (by decide) ⟨us, h1, rfl⟩ h2

/-! ## The rest -/

theorem leaf_table {P nf t st R f} (hv : VRel P st R) (he : ERel P f R) :
    LeafStep P nf (.table t) R { st with table := t } f :=
  ⟨_, .table, ⟨hv.1, hv.2, hv.3, hv.4, hv.5, hv.6, rfl, hv.8, hv.9, hv.10, hv.11, hv.12⟩, ⟨he.1, he.2, he.3, he.4⟩⟩

theorem leaf_arch {P nf a e st R f} (hv : VRel P st R) (he : ERel P f R) :
    LeafStep P nf (.arch a e) R (validateArch a e st) { f with endianness := e } :=
  ⟨_, .arch rfl, ⟨hv.1, ⟨hv.2.1, hv.2.2, hv.2.3⟩, hv.3, rfl, rfl, hv.6, hv.7, hv.8, hv.9, hv.10, hv.11, hv.12⟩,
    ⟨⟨he.1.1, he.1.2, he.1.3⟩, he.2, rfl, fun i c h => ⟨⟨(he.4 i c h).1.1, (he.4 i c h).1.2, (he.4 i c h).1.3, (he.4 i c h).1.4⟩,
      (he.4 i c h).2⟩⟩⟩

theorem leaf_message {P nf t e st st' R f} (h : validateMessage P.env t e st = some st') (hv : VRel P st R)
    (he : ERel P f R) (hc : st'.Clean) : LeafStep P nf (.message t e) R st' f := by
  unfold validateMessage at h
  split at h
  · exact nomatch h
  · simp only [Option.some.injEq] at h
    rw [← h] at hc; exact notClean_queue hc
  · rename_i st1 v hnv hev
    simp only [Option.some.injEq] at h
    have hc1 : st1.Clean := by
      rw [← h] at hc
      cases t <;> exact hc.quiet (St.le_queueError ..)
    obtain ⟨hE, hv1⟩ := V_eval hv hev hc1
    refine ⟨R, .message hE hnv ?_, ?_, he⟩
    · intro ht
      subst ht
      rw [← h] at hc; exact notClean_queue hc
    · rw [← h]
      cases t <;> exact hv1.queueError ..

theorem leaf_instr {P nf sem old st st' mem R f f' r G}
    (h : validateInstr P.env sem old st = some (mem, st', r))
    (hv : VRel P st R) (he : ERel P f R) (hc : st'.Clean) (hG : P.poolAddr = G.poolAddr)
    (hf : encode G (.instr sem) mem f = some f') : LeafStep P nf (.instr sem) R st' f' := by
  unfold validateInstr at h
  split at h
  · exact nomatch h
  rename_i out as ds hrun
  obtain ⟨rfl, rfl, _⟩ := some3 h
  dsimp only at hc hf ⊢
  simp only [encode, Option.some.injEq] at hf
  have hc1 : (st.report ds).Clean := by
    have := hc.quiet (St.le_advance _ _)
    revert this
    cases out.pool <;> exact id
  have hv1 := hv.report ds
  have hpc : (st.report ds).poolCount = R.requests := hv1.poolCount
  rw [hv.ctx, hv.archSt] at hrun
  have hv2 : VRel P (match out.pool with
      | none => ({ st.report ds with archSt := as } : St)
      | some v => { ({ st.report ds with archSt := as } : St) with
          pool := (st.report ds).pool ++ [PoolEntry.mk (st.report ds).poolCount v out.poolDiags], poolCount := (st.report ds).poolCount + 1 })
      { R with
        archSt := as
        pending := R.pending ++ (match out.pool with | none => [] | some v => [⟨R.requests, v, out.poolDiags⟩])
        requests := R.requests + (if out.pool.isSome then 1 else 0) } := by
    cases hp : out.pool with
    | none =>
      exact ⟨hv1.1, hv1.2, hv1.3, hv1.4, hv1.5, rfl, hv1.7, hv1.8, by simpa using hv1.9, hv1.10, hv1.11, hv1.12⟩
    | some v =>
      refine ⟨hv1.1, hv1.2, hv1.3, hv1.4, hv1.5, rfl, hv1.7, hv1.8, ?_, ?_, hv1.11, hv1.12⟩
      · simp only [hv1.9, hv1.10]
      · simp only [hv1.10]; rfl
  obtain ⟨R', hem, hv3, he3⟩ := leaf_units (f := f)
    (us := out.words (if out.pool.isSome then P.poolAddr R.requests else none)) (n := out.size) hv2
    ⟨he.1, he.2, he.3, he.4⟩ hc (by rw [out.size_eq])
  refine ⟨R', .instr hrun (clean_report hc1) rfl hem, hv3, ?_⟩
  rw [← hf, ← hG]
  have : (st.report ds).poolCount = R.requests := hpc
  rw [this]
  exact he3

end Armips
