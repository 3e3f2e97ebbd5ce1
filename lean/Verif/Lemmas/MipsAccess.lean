import Verif.Lemmas.MipsEntry
/-! The text of the loads and stores with an address. -/
namespace Armips.MacroProof
open Spec Spec.Instr Spec.Macro Spec.Isa
open Armips.Mips hiding validate encode names

/-- The address can be reached from register 0. -/
def near (v : Int) : Prop := v < 0x8000 ∨ v % 4294967296 ≥ 0xFFFF8000

instance (v : Int) : Decidable (near v) := by unfold near; infer_instance

/-- What the upper part does. -/
def lsU (temp : Nat) (v : Int) (m : Machine) : Machine :=
  if near v then m else m.set temp (BitVec.ofNat 32 (hiV v).toNat <<< 16)

/-- The words of a load or store: number `f`, register `n`. -/
structure LsWords (u l : Bool) (f n temp : Nat) (v : Int) (ws : List (BitVec 32)) : Prop where
  upper : l = false → ∀ be m, exec be ws m = some (if u then lsU temp v m else m)
  lower : l = true → ∃ pre w, ws = pre ++ [w] ∧ (∀ be m, exec be pre m = some (if u then lsU temp v m else m)) ∧
    IsI f (if near v then 0 else temp) n (loV v % 2 ^ 16).toNat w

theorem writes_split {P : ParseEnv} {st : St} {W : BitVec 32 → Prop} {ws : List (BitVec 32)} (h : Writes P st W ws) :
    ∃ pre w, ws = pre ++ [w] ∧ (∀ be m, exec be pre m = some m) ∧ W w := by
  obtain ⟨nop, w, rfl, hw, -⟩ := h
  refine ⟨_, w, rfl, fun be m => ?_, hw⟩
  cases nop <;> simp [exec, step_nop]

theorem tgood_access {P : ParseEnv} {d k₀ : Nat} {st : St} (hE : Functions P.env) {op : String} {u l : Bool} {a : Tok}
    {f n temp : Nat} {e : Expr} {v : Int} (ht : temp < 32) (hm : st.arch = .mips) (hv : Reads P k₀ st e v)
    (hline : ∀ st1 b e' x, b < 32 → Evaluates P.env .mips (st1.ctx P.env) e' (.int x) →
      TGood P d k₀ (mem op a e' b) st1 fun ws _ => Writes P st1 (IsI f b n (x % 2 ^ 16).toNat) ws) :
    TGood P d k₀ (loadStoreText op u l a temp e) st fun ws _ => LsWords u l f n temp v ws ∧ 0 ≤ v ∧ v < 4294967296 := by
  have hI := inI64_of hv.value.2
  have e1 : (hiV v % 2 ^ 16).toNat = (hiV v).toNat := by unfold hiV; omega
  refine tgood_if (¬ (0 ≤ v ∧ v < 4294967296)) (by rw [Ne, and_notFFFFFFFF hI]) hm (ev_and hv.value.1 (ev_not (ev_int _)))
    (fun _ _ _ _ _ => tgood_error) ?_
  intro hbig st1 f1 _ _
  refine TGood.mono (Q := fun ws _ => LsWords u l f n temp v ws) ?_ fun _ _ _ _ h => ⟨h, by omega⟩
  have hv1 := hv.frame f1
  have hm1 : st1.arch = .mips := f1.arch.trans hm
  refine tgood_if (near v) ?_ hm1 (ev_lor (ev_less hv1.value.1 (ev_int _))
    (ev_equal (ev_and hv1.value.1 (ev_int _)) (ev_int _))) ?_ ?_
  · simp only [and_FFFF8000, near]
    by_cases h1 : v < 0x8000 <;> by_cases h2 : v % 4294967296 ≥ 0xFFFF8000 <;> simp [h1, h2]
  · intro hs st2 f2 _ _
    have hv2 := hv1.frame f2
    have hm2 : st2.arch = .mips := f2.arch.trans hm1
    refine tgood_flag hm2 ?_ ?_
    · intro hl st3 f3 _ _
      have hv3 := hv2.frame f3
      refine TGood.mono (hline st3 0 _ _ (by decide) (ev_lo hE hv3.value.1)) ?_
      rintro ws st' - - hw
      refine ⟨fun h => absurd (hl.symm.trans h) (by simp), fun _ => ?_⟩
      obtain ⟨pre, w, rfl, h1, h2⟩ := writes_split hw
      refine ⟨pre, w, rfl, fun be m => ?_, by rw [if_pos hs]; exact h2⟩
      rw [h1]; simp [lsU, hs]
    · intro hl st3 f3 _ _
      have hm3 : st3.arch = .mips := f3.arch.trans hm2
      refine tgood_flag hm3 ?_ ?_
      · intro hu st4 f4 _ _
        refine TGood.mono (tgood_line fun k k' c h => good_nop (f := 0) (by decide) rfl h) ?_
        rintro ws st' - - ⟨hw, -⟩
        refine ⟨fun _ be m => ?_, fun h => by rw [hl] at h; cases h⟩
        rw [exec_writes (F := id) hw fun w hw m => by rw [step_R hw]; simp [Isa.special, set_zero]]
        simp [lsU, hs]
      · intro hu st4 f4 _ _
        refine tgood_nil ⟨fun _ be m => ?_, fun h => by rw [hl] at h; cases h⟩
        simp [exec, hu]
  · intro hs st2 f2 _ _
    have hv2 := hv1.frame f2
    have hm2 : st2.arch = .mips := f2.arch.trans hm1
    refine tgood_seq (Qa := fun ws _ => ∀ be m, exec be ws m = some (if u then lsU temp v m else m)) ?_ ?_
    · refine tgood_flag hm2 ?_ ?_
      · intro hu st3 f3 _ _
        have hv3 := hv2.frame f3
        refine TGood.mono (tgood_line fun k k' c h =>
          good_lui (by decide) rfl ht (ev_hi hE hv3.value.1) h) ?_
        rintro ws st' - - ⟨hw, hs'⟩ be m
        rw [exec_writes hw fun w hw m => step_lui hw m, e1]
        simp [hu, lsU, hs]
      · intro hu st3 f3 _ _
        refine tgood_nil fun be m => ?_
        simp [exec, hu]
    · intro ws st3 f3 _ h3
      have hv3 := hv2.frame f3
      have hm3 : st3.arch = .mips := f3.arch.trans hm2
      refine tgood_seq (Qa := fun ws' _ => LsWords u l f n temp v (ws ++ ws')) ?_ ?_
      · refine tgood_flag hm3 ?_ ?_
        · intro hl st4 f4 _ _
          have hv4 := hv3.frame f4
          refine TGood.mono (hline st4 temp _ _ ht (ev_lo hE hv4.value.1)) ?_
          rintro ws' st' - - hw
          refine ⟨fun h => absurd (hl.symm.trans h) (by simp), fun _ => ?_⟩
          obtain ⟨pre, w, rfl, h1, h2⟩ := writes_split hw
          refine ⟨ws ++ pre, w, (List.append_assoc ..).symm, fun be m => ?_, by rw [if_neg hs]; exact h2⟩
          rw [exec_append, h3, Option.bind_some, h1]
        · intro hl st4 f4 _ _
          refine tgood_nil ⟨fun _ be m => ?_, fun h => by rw [hl] at h; cases h⟩
          rw [List.append_nil, h3]
      · intro ws' st4 f4 _ h4
        exact tgood_nil (by rw [List.append_nil]; exact h4)

/-- The address of the access. -/
theorem access_at {f n temp : Nat} {v : Int} {w : BitVec 32} (ht : temp ≠ 0)
    (hw : IsI f (if near v then 0 else temp) n (loV v % 2 ^ 16).toNat w) (m m2 : Machine) (h : m2.get temp = (lsU temp v m).get temp) (h0 : 0 ≤ v) (h1 : v < 4294967296) :
    access w m2 = (f, n, BitVec.ofInt 32 v) := by
  obtain ⟨a1, a2, a3, a4⟩ := hw
  simp only [access, a1, a2, a3, a4, Machine.address, signed_lo]
  congr 2
  by_cases hs : near v
  · rw [if_pos hs, get_zero, BitVec.zero_add]
    apply ofInt_eq
    unfold near at hs
    unfold loV; split <;> omega
  · rw [if_neg hs, h, lsU, if_neg hs, get_set, if_pos ⟨rfl, ht⟩, hi_lo]

theorem lsU_same (temp : Nat) (v : Int) (m : Machine) : SameBut [temp] m (lsU temp v m) := by
  unfold lsU
  split
  · exact ⟨rfl, fun _ _ => rfl⟩
  · refine ⟨mem_set _ _ _, fun x hx => ?_⟩
    rw [get_set]
    simp only [List.mem_singleton] at hx
    rw [if_neg (fun h => hx h.1)]

theorem ls_kind {P : ParseEnv} {l : MacroLabel} {op : String} {store u lo : Bool} {r : Nat} {e : Expr} {t : Text}
    (h : Kind.text P l (.loadStore op false store u lo) { grs := some r, sec := some e } = some t) :
    plain e = true ∧ t = loadStoreText op u lo (.reg r) (if store then 1 else r) (dotted l e) := by
  simp only [Kind.text, printed] at h
  by_cases hp : plain e = true
  · simp only [hp, if_true] at h
    cases h
    exact ⟨hp, rfl⟩
  · simp only [hp] at h
    exact nomatch h

theorem lsf_kind {P : ParseEnv} {l : MacroLabel} {op : String} {store u lo : Bool} {r : Nat} {e : Expr} {t : Text}
    (h : Kind.text P l (.loadStore op true store u lo) { frs := some r, sec := some e } = some t) :
    plain e = true ∧ t = loadStoreText op u lo (.freg r) 1 (dotted l e) := by
  simp only [Kind.text, printed] at h
  by_cases hp : plain e = true
  · simp only [hp, if_true] at h
    cases h
    exact ⟨hp, rfl⟩
  · simp only [hp] at h
    exact nomatch h

end Armips.MacroProof
