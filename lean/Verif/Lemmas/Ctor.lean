import Verif.Model.Ctor
import Verif.Lemmas.MipsCalls
/-!
# The function that calls constructors: lemmas
-/
namespace Armips.Ctor
open Armips.Spec Armips.Spec.Isa Armips.Spec.Calls

/-! ### The instructions -/

section
variable (be : Bool) (m : Machine)
theorem p_nop : plain be 0#32 m = some m := rfl
theorem p_lw_s2 : plain be 0x8e120000#32 m = some (m.set 18 (loadWord be m (m.reg 16 + 0#32))) := rfl
theorem p_lw_s3 : plain be 0x8e130004#32 m = some (m.set 19 (loadWord be m (m.reg 16 + 4#32))) := rfl
theorem p_add_s0 : plain be 0x26100008#32 m = some (m.set 16 (m.reg 16 + 8#32)) := rfl
theorem p_lw_a0 : plain be 0x8e440000#32 m = some (m.set 4 (loadWord be m (m.reg 18 + 0#32))) := rfl
theorem p_add_s2 : plain be 0x26520004#32 m = some (m.set 18 (m.reg 18 + 4#32)) := rfl
theorem p_ra : plain be 0x8fbf0000#32 m = some (m.set 31 (loadWord be m (m.reg 29 + 0#32))) := rfl
theorem p_s0 : plain be 0x8fb00004#32 m = some (m.set 16 (loadWord be m (m.reg 29 + 4#32))) := rfl
theorem p_s1 : plain be 0x8fb10008#32 m = some (m.set 17 (loadWord be m (m.reg 29 + 8#32))) := rfl
theorem p_s2 : plain be 0x8fb2000c#32 m = some (m.set 18 (loadWord be m (m.reg 29 + 12#32))) := rfl
theorem p_s3 : plain be 0x8fb30010#32 m = some (m.set 19 (loadWord be m (m.reg 29 + 16#32))) := rfl
theorem p_up : plain be 0x27bd0020#32 m = some (m.set 29 (m.reg 29 + 32#32)) := rfl
theorem p_down : plain be 0x27bdffe0#32 m = some (m.set 29 (m.reg 29 + 0xffffffe0#32)) := rfl
theorem p_save_ra : plain be 0xafbf0000#32 m = some (storeWord be m (m.reg 29 + 0#32) (m.reg 31)) := rfl
theorem p_save_s0 : plain be 0xafb00004#32 m = some (storeWord be m (m.reg 29 + 4#32) (m.reg 16)) := rfl
theorem p_save_s1 : plain be 0xafb10008#32 m = some (storeWord be m (m.reg 29 + 8#32) (m.reg 17)) := rfl
theorem p_save_s2 : plain be 0xafb2000c#32 m = some (storeWord be m (m.reg 29 + 12#32) (m.reg 18)) := rfl
theorem p_save_s3 : plain be 0xafb30010#32 m = some (storeWord be m (m.reg 29 + 16#32) (m.reg 19)) := rfl
end

theorem code_rest (a b : List (BitVec 32)) (i : Nat) : (mipsCode a b)[6 + a.length + b.length + i]? = mipsRest[i]? := by
  unfold mipsCode
  rw [List.getElem?_append_right (by simp [mipsHead]; omega), List.getElem?_append_right (by simp [mipsHead]; omega),
    List.getElem?_append_right (by simp [mipsHead]; omega)]
  congr 1
  simp only [mipsHead, List.length_cons, List.length_nil]
  omega

theorem target_inner (q : Nat) : target (q + 6) 0x1653fffc#32 = q + 3 := by
  have : signed 16 (field 0x1653fffc#32 0 16) = -4 := by decide
  unfold target; rw [this]; omega
theorem target_outer (q : Nat) : target (q + 8) 0x1611fff7#32 = q := by
  have : signed 16 (field 0x1611fff7#32 0 16) = -9 := by decide
  unfold target; rw [this]; omega

section
variable {be : Bool} {a b : List (BitVec 32)} {base : BitVec 32} {call : BitVec 32 → Machine → Machine}

/-- What does not change in the loops, apart from registers. -/
structure Inv (P : BitVec 32 → Prop) (m₀ m : Machine) : Prop where
  sp : m.reg 29 = m₀.reg 29
  s1 : m.reg 17 = m₀.reg 17
  mem : ∀ x, P x → m.mem x = m₀.mem x

theorem Inv.set {P m₀ m} (h : Inv P m₀ m) {r : Nat} {v : BitVec 32} (h1 : r ≠ 29) (h2 : r ≠ 17) : Inv P m₀ (m.set r v) :=
  ⟨by rw [set_other _ _ (Ne.symm h1), h.sp], by rw [set_other _ _ (Ne.symm h2), h.s1], fun x hx => by rw [set_mem, h.mem x hx]⟩

theorem Inv.after {P m₀ m} (h : Inv P m₀ m) (hk : Keeps call P) (f : BitVec 32) : Inv P m₀ (call f m) :=
  ⟨by rw [(hk f m).1 29 (by simp), h.sp], by rw [(hk f m).1 17 (by simp), h.s1], fun x hx => by rw [(hk f m).2 x hx, h.mem x hx]⟩

theorem Inv.load {P m₀ m} (h : Inv P m₀ m) {x : BitVec 32} (hx : ∀ i, i < 4 → P (x + BitVec.ofNat 32 i)) : loadWord be m x = loadWord be m₀ x :=
  load_congr fun i hi => h.mem _ (hx i hi)

/-- One step of the rest of the code. -/
theorem plainAt {i : Nat} {m m' : Machine} {w d : BitVec 32} (hw : mipsRest[i]? = some w) (hd : mipsRest[i + 1]? = some d)
    (h5 : field w 26 6 ≠ 5) (h9 : ¬ (field w 26 6 = 0 ∧ field w 0 6 = 9)) (h8 : ¬ (field w 26 6 = 0 ∧ field w 0 6 = 8))
    (hp : plain be w m = some m') :
    Steps be (mipsCode a b) base call (6 + a.length + b.length + i) m [] (6 + a.length + b.length + (i + 1)) m' :=
  steps_plain (by rw [code_rest, hw]) (by rw [Nat.add_assoc, code_rest, hd]) h5 h9 h8 hp

/-- The inner loop once: one call. -/
theorem inner_once {P : BitVec 32 → Prop} {m₀ m : Machine} (hk : Keeps call P) (hi : Inv P m₀ m) (hP : ∀ i, i < 4 → P (m.reg 18 + BitVec.ofNat 32 i)) :
    ∃ m', Inv P m₀ m' ∧ m'.reg 16 = m.reg 16 ∧ m'.reg 18 = m.reg 18 + 4#32 ∧ m'.reg 19 = m.reg 19 ∧
      Steps be (mipsCode a b) base call (6 + a.length + b.length + 3) m [loadWord be m₀ (m.reg 18)]
        (if m.reg 18 + 4#32 ≠ m.reg 19 then 6 + a.length + b.length + 3 else 6 + a.length + b.length + 8) m' := by
  let q := 6 + a.length + b.length
  let f := loadWord be m (m.reg 18 + 0#32)
  let m1 := m.set 4 f
  let m2 := m1.set 31 (base + BitVec.ofNat 32 (4 * (q + 4 + 2)))
  let m3 := m2.set 18 (m2.reg 18 + 4#32)
  let m4 := call f m3
  have hf : f = loadWord be m₀ (m.reg 18) := by
    show loadWord be m (m.reg 18 + 0#32) = _
    rw [BitVec.add_zero]
    exact hi.load hP
  have i3 : Inv P m₀ m3 := ((hi.set (by decide) (by decide)).set (by decide) (by decide)).set (by decide) (by decide)
  have s1 : Steps be (mipsCode a b) base call (q + 3) m [] (q + 4) m1 :=
    plainAt (i := 3) rfl rfl (by decide) (by decide) (by decide) (p_lw_a0 be m)
  have s2 : Steps be (mipsCode a b) base call (q + 4) m1 [f] (q + 6) m4 := by
    have := steps_jalr (be := be) (code := mipsCode a b) (base := base) (call := call) (pc := q + 4) (m := m1) (m' := m3)
      (w := 0x0080f809#32) (d := 0x26520004#32) (code_rest a b 4) (by rw [Nat.add_assoc]; exact code_rest a b 5) (by decide) (p_add_s2 be m2)
    exact this
  have s3 : Steps be (mipsCode a b) base call (q + 6) m4 [] (if m4.reg 18 ≠ m4.reg 19 then q + 3 else q + 8) m4 := by
    have := steps_bne (be := be) (code := mipsCode a b) (base := base) (call := call) (pc := q + 6) (m := m4) (m' := m4)
      (w := 0x1653fffc#32) (d := 0#32) (code_rest a b 6) (by rw [Nat.add_assoc]; exact code_rest a b 7) (by decide) (p_nop be m4)
    rw [target_inner] at this
    exact this
  have r18 : m4.reg 18 = m.reg 18 + 4#32 := by
    show (call f m3).reg 18 = _
    rw [(hk f m3).1 18 (by simp)]; rfl
  have r19 : m4.reg 19 = m.reg 19 := by
    show (call f m3).reg 19 = _
    rw [(hk f m3).1 19 (by simp)]; rfl
  have r16 : m4.reg 16 = m.reg 16 := by
    show (call f m3).reg 16 = _
    rw [(hk f m3).1 16 (by simp)]; rfl
  refine ⟨m4, i3.after hk f, r16, r18, r19, ?_⟩
  have := (s1.trans s2).trans s3
  rw [r18, r19, hf] at this
  exact this

theorem ofNat_add (x : BitVec 32) (i j : Nat) : x + BitVec.ofNat 32 i + BitVec.ofNat 32 j = x + BitVec.ofNat 32 (i + j) := by
  rw [BitVec.add_assoc, BitVec.ofNat_add]

/-- The inner loop: all functions of a section from the `j`-th on. -/
theorem inner_loop {P : BitVec 32 → Prop} {m₀ : Machine} (hk : Keeps call P) {s : Sec} (hc : s.count < 2 ^ 30)
    (hP : ∀ i, i < 4 * s.count → P (s.address + BitVec.ofNat 32 i)) (n : Nat) : ∀ {m : Machine} {j : Nat}, j < s.count → s.count = j + n →
      Inv P m₀ m → m.reg 18 = s.address + BitVec.ofNat 32 (4 * j) → m.reg 19 = s.address + BitVec.ofNat 32 (4 * s.count) →
      ∃ m', Inv P m₀ m' ∧ m'.reg 16 = m.reg 16 ∧
        Steps be (mipsCode a b) base call (6 + a.length + b.length + 3) m
          ((List.range' j n).map fun j => loadWord be m₀ (s.address + BitVec.ofNat 32 (4 * j))) (6 + a.length + b.length + 8) m' := by
  induction n with
  | zero => intro m j h1 h2; omega
  | succ n ih =>
    intro m j h1 h2 hi h18 h19
    obtain ⟨m', i', r16, r18, r19, hs⟩ := inner_once (be := be) (a := a) (b := b) (base := base) hk hi (fun i h4 => by
      rw [h18, ofNat_add]
      exact hP _ (by omega))
    have e18 : m.reg 18 + 4#32 = s.address + BitVec.ofNat 32 (4 * (j + 1)) := by
      rw [h18, show (4#32) = BitVec.ofNat 32 4 from rfl, ofNat_add]; rfl
    rw [e18, h19] at hs
    rw [e18] at r18
    rw [h18] at hs
    by_cases hn : n = 0
    · subst hn
      rw [if_neg (by rw [h2]; simp)] at hs
      exact ⟨m', i', r16, by simpa using hs⟩
    · rw [if_pos (add_ne (by omega) (by omega) (by omega))] at hs
      obtain ⟨m'', i'', r16', hs'⟩ := ih (m := m') (j := j + 1) (by omega) (by omega) i' r18 (r19.trans h19)
      refine ⟨m'', i'', r16'.trans r16, ?_⟩
      have := hs.trans hs'
      simpa [List.range'_succ] using this

/-- The outer loop: all sections. -/
theorem outer_loop {P : BitVec 32 → Prop} {m₀ : Machine} (hk : Keeps call P) (l : List Sec) : ∀ {t : BitVec 32} {m : Machine}, l ≠ [] →
      8 * l.length < 2 ^ 32 → (∀ s ∈ l, 0 < s.count ∧ s.count < 2 ^ 30) → Table be m₀ t l → (∀ x, Data t l x → P x) →
      Inv P m₀ m → m.reg 16 = t → m.reg 17 = t + BitVec.ofNat 32 (8 * l.length) →
      ∃ m', Inv P m₀ m' ∧
        Steps be (mipsCode a b) base call (6 + a.length + b.length) m (l.flatMap (Sec.functions be m₀)) (6 + a.length + b.length + 10) m' := by
  induction l with
  | nil => intro t m h; exact absurd rfl h
  | cons s l ih =>
    intro t m _ hlen hc ht hP hi h16 h17
    obtain ⟨t1, t2, t3⟩ := ht
    have hpt : ∀ i, i < 8 → P (t + BitVec.ofNat 32 i) := fun i hlt => hP _ (Or.inl ⟨i, by simp; omega, rfl⟩)
    let m1 := m.set 18 (loadWord be m (m.reg 16 + 0#32))
    let m2 := m1.set 19 (loadWord be m1 (m1.reg 16 + 4#32))
    let m3 := m2.set 16 (m2.reg 16 + 8#32)
    have i1 : Inv P m₀ m1 := hi.set (by decide) (by decide)
    have i3 : Inv P m₀ m3 := (i1.set (by decide) (by decide)).set (by decide) (by decide)
    have e18 : m3.reg 18 = s.address + BitVec.ofNat 32 (4 * 0) := by
      show loadWord be m (m.reg 16 + 0#32) = _
      rw [h16, BitVec.add_zero, hi.load fun i hlt => hpt i (by omega), t1]
      simp
    have e19 : m3.reg 19 = s.address + BitVec.ofNat 32 (4 * s.count) := by
      show loadWord be m1 (m.reg 16 + 4#32) = _
      rw [h16, i1.load fun i hlt => by
        rw [show (4#32) = BitVec.ofNat 32 4 from rfl, ofNat_add]; exact hpt _ (by omega), t2]
    have e16 : m3.reg 16 = t + 8#32 := by
      show m.reg 16 + 8#32 = _
      rw [h16]
    have s1 : Steps be (mipsCode a b) base call (6 + a.length + b.length) m [] (6 + a.length + b.length + 3) m3 := by
      have a1 : Steps be (mipsCode a b) base call (6 + a.length + b.length) m [] (6 + a.length + b.length + 1) m1 :=
        plainAt (i := 0) rfl rfl (by decide) (by decide) (by decide) (p_lw_s2 be m)
      have a2 : Steps be (mipsCode a b) base call (6 + a.length + b.length + 1) m1 [] (6 + a.length + b.length + 2) m2 :=
        plainAt (i := 1) rfl rfl (by decide) (by decide) (by decide) (p_lw_s3 be m1)
      have a3 : Steps be (mipsCode a b) base call (6 + a.length + b.length + 2) m2 [] (6 + a.length + b.length + 3) m3 :=
        plainAt (i := 2) rfl rfl (by decide) (by decide) (by decide) (p_add_s0 be m2)
      exact (a1.trans a2).trans a3
    obtain ⟨m4, i4, r16, s2⟩ := inner_loop (be := be) (a := a) (b := b) (base := base) hk (hc s (by simp)).2
      (fun i hlt => hP _ (Or.inr ⟨s, by simp, i, hlt, rfl⟩)) s.count (j := 0) (hc s (by simp)).1 (by omega) i3 e18 e19
    rw [e16] at r16
    have e17 : m4.reg 17 = t + BitVec.ofNat 32 (8 * (l.length + 1)) := by
      rw [i4.s1, ← hi.s1, h17]; rfl
    have s3 : Steps be (mipsCode a b) base call (6 + a.length + b.length + 8) m4 []
        (if m4.reg 16 ≠ m4.reg 17 then 6 + a.length + b.length else 6 + a.length + b.length + 10) m4 := by
      have := steps_bne (be := be) (code := mipsCode a b) (base := base) (call := call) (pc := 6 + a.length + b.length + 8) (m := m4) (m' := m4)
        (w := 0x1611fff7#32) (d := 0#32) (code_rest a b 8) (by rw [Nat.add_assoc]; exact code_rest a b 9) (by decide) (p_nop be m4)
      rw [target_outer] at this
      exact this
    have hf : (List.range' 0 s.count).map (fun j => loadWord be m₀ (s.address + BitVec.ofNat 32 (4 * j))) = Sec.functions be m₀ s := by
      unfold Sec.functions; rw [List.range_eq_range']
    have s123 := (s1.trans s2).trans s3
    rw [hf] at s123
    simp only [List.nil_append, List.append_nil] at s123
    rw [r16, e17] at s123
    by_cases hl : l = []
    · subst hl
      rw [if_neg (by simp)] at s123
      exact ⟨m4, i4, by simpa using s123⟩
    · have hpos : 0 < l.length := List.length_pos_iff.mpr hl
      simp only [List.length_cons] at hlen
      rw [if_pos (by rw [show (8#32) = BitVec.ofNat 32 8 from rfl]; exact add_ne (by omega) (by omega) (by omega))] at s123
      obtain ⟨m5, i5, s4⟩ := ih (t := t + 8#32) (m := m4) hl (by omega) (fun s hs => hc s (by simp [hs])) t3 (fun x hx => hP x (by
          rcases hx with ⟨i, h1, h2⟩ | ⟨s', h1, h2⟩
          · refine Or.inl ⟨8 + i, by simp; omega, ?_⟩
            rw [h2, show (8#32) = BitVec.ofNat 32 8 from rfl, ofNat_add]
          · exact Or.inr ⟨s', by simp [h1], h2⟩)) i4 r16 (by
          rw [e17, show (8#32) = BitVec.ofNat 32 8 from rfl, ofNat_add]; congr 2; omega)
      exact ⟨m5, i5, by simpa using s123.trans s4⟩

/-- One step at the start of the code. -/
theorem headAt {i : Nat} {m m' : Machine} {w : BitVec 32} (hi : i < 6) (hw : mipsHead[i]? = some w)
    (h5 : field w 26 6 ≠ 5) (h9 : ¬ (field w 26 6 = 0 ∧ field w 0 6 = 9)) (h8 : ¬ (field w 26 6 = 0 ∧ field w 0 6 = 8))
    (hp : plain be w m = some m') : Steps be (mipsCode a b) base call i m [] (i + 1) m' := by
  have hl : i + 1 < (mipsCode a b).length := by simp [mipsCode, mipsHead, mipsRest]; omega
  refine steps_plain ?_ (List.getElem?_eq_getElem hl) h5 h9 h8 hp
  rw [mipsCode, List.getElem?_append_left (by simpa [mipsHead] using hi), hw]

/-- A word in the frame that another store does not touch. -/
theorem load_store_other {m : Machine} {s v : BitVec 32} {i j : Nat} (hi : i < 20) (hj : j < 20) (h : i + 4 ≤ j ∨ j + 4 ≤ i) :
    loadWord be (storeWord be m (s + BitVec.ofNat 32 i) v) (s + BitVec.ofNat 32 j) = loadWord be m (s + BitVec.ofNat 32 j) :=
  load_congr fun k hk => storeWord_other _ _ _ _ fun l hl => by
    rw [ofNat_add, ofNat_add]
    exact add_ne (by omega) (by omega) (by omega)

/-- The start: registers are saved, the two ends of the table are loaded. -/
theorem head_steps {T E : BitVec 32} (ha : ∀ m, exec be a m = some (m.set 16 T)) (hb : ∀ m, exec be b m = some (m.set 17 E)) (m : Machine) :
    ∃ m', Steps be (mipsCode a b) base call 0 m [] (6 + a.length + b.length) m' ∧ m'.reg 16 = T ∧ m'.reg 17 = E ∧
      m'.reg 29 = m.reg 29 - 32#32 ∧ (∀ x, ¬ Frame (m.reg 29 - 32#32) x → m'.mem x = m.mem x) ∧
      loadWord be m' (m'.reg 29 + 0#32) = m.reg 31 ∧ loadWord be m' (m'.reg 29 + 4#32) = m.reg 16 ∧ loadWord be m' (m'.reg 29 + 8#32) = m.reg 17 ∧
      loadWord be m' (m'.reg 29 + 12#32) = m.reg 18 ∧ loadWord be m' (m'.reg 29 + 16#32) = m.reg 19 := by
  let s := m.reg 29 + 0xffffffe0#32
  have hs : s = m.reg 29 - 32#32 := by rw [BitVec.sub_eq_add_neg]; rfl
  let m1 := m.set 29 s
  let m2 := storeWord be m1 (s + BitVec.ofNat 32 0) (m.reg 31)
  let m3 := storeWord be m2 (s + BitVec.ofNat 32 4) (m.reg 16)
  let m4 := storeWord be m3 (s + BitVec.ofNat 32 8) (m.reg 17)
  let m5 := storeWord be m4 (s + BitVec.ofNat 32 12) (m.reg 18)
  let m6 := storeWord be m5 (s + BitVec.ofNat 32 16) (m.reg 19)
  have r6 : m6.reg = m1.reg := rfl
  have st1 : Steps be (mipsCode a b) base call 0 m [] 1 m1 := headAt (by decide) rfl (by decide) (by decide) (by decide) (p_down be m)
  have st2 : Steps be (mipsCode a b) base call 1 m1 [] 2 m2 := headAt (by decide) rfl (by decide) (by decide) (by decide) (p_save_ra be m1)
  have st3 : Steps be (mipsCode a b) base call 2 m2 [] 3 m3 := headAt (by decide) rfl (by decide) (by decide) (by decide) (p_save_s0 be m2)
  have st4 : Steps be (mipsCode a b) base call 3 m3 [] 4 m4 := headAt (by decide) rfl (by decide) (by decide) (by decide) (p_save_s1 be m3)
  have st5 : Steps be (mipsCode a b) base call 4 m4 [] 5 m5 := headAt (by decide) rfl (by decide) (by decide) (by decide) (p_save_s2 be m4)
  have st6 : Steps be (mipsCode a b) base call 5 m5 [] 6 m6 := headAt (by decide) rfl (by decide) (by decide) (by decide) (p_save_s3 be m5)
  have hlen : (mipsCode a b).length = 6 + a.length + b.length + 17 := by simp [mipsCode, mipsHead, mipsRest]; omega
  have st7 : Steps be (mipsCode a b) base call 6 m6 [] (6 + a.length) (m6.set 16 T) :=
    steps_exec (fun i hi => by
      rw [mipsCode, List.getElem?_append_right (by simp [mipsHead]), List.getElem?_append_left (by simp [mipsHead]; omega)]
      congr 1; simp [mipsHead]) (by omega) (ha m6)
  have st8 : Steps be (mipsCode a b) base call (6 + a.length) (m6.set 16 T) [] (6 + a.length + b.length) ((m6.set 16 T).set 17 E) :=
    steps_exec (fun i hi => by
      rw [mipsCode, List.getElem?_append_right (by simp [mipsHead]; omega), List.getElem?_append_right (by simp [mipsHead]; omega),
        List.getElem?_append_left (by simp [mipsHead]; omega)]
      congr 1; simp [mipsHead]; omega) (by omega) (hb _)
  have ld : ∀ x, loadWord be ((m6.set 16 T).set 17 E) x = loadWord be m6 x := fun x => load_congr fun i _ => by rw [set_mem, set_mem]
  refine ⟨(m6.set 16 T).set 17 E, (((((((st1.trans st2).trans st3).trans st4).trans st5).trans st6).trans st7).trans st8), rfl, rfl, hs, ?_, ?_, ?_, ?_, ?_, ?_⟩
  · intro x hx
    rw [set_mem, set_mem]
    have hne : ∀ i, i < 20 → x ≠ s + BitVec.ofNat 32 i := fun i hi he => hx ⟨i, hi, by rw [← hs]; exact he⟩
    show (storeWord be _ _ _).mem x = _
    rw [storeWord_other _ _ _ _ fun i hi => by rw [ofNat_add]; exact hne _ (by omega)]
    show (storeWord be _ _ _).mem x = _
    rw [storeWord_other _ _ _ _ fun i hi => by rw [ofNat_add]; exact hne _ (by omega)]
    show (storeWord be _ _ _).mem x = _
    rw [storeWord_other _ _ _ _ fun i hi => by rw [ofNat_add]; exact hne _ (by omega)]
    show (storeWord be _ _ _).mem x = _
    rw [storeWord_other _ _ _ _ fun i hi => by rw [ofNat_add]; exact hne _ (by omega)]
    show (storeWord be _ _ _).mem x = _
    rw [storeWord_other _ _ _ _ fun i hi => by rw [ofNat_add]; exact hne _ (by omega)]
    exact congrFun (set_mem m 29 s) x
  · rw [ld]
    show loadWord be m6 (s + BitVec.ofNat 32 0) = _
    show loadWord be (storeWord be (storeWord be (storeWord be (storeWord be (storeWord be m1 _ _) _ _) _ _) _ _) _ _) _ = _
    rw [load_store_other (by decide) (by decide) (by decide), load_store_other (by decide) (by decide) (by decide),
      load_store_other (by decide) (by decide) (by decide), load_store_other (by decide) (by decide) (by decide), load_store]
  · rw [ld]
    show loadWord be (storeWord be (storeWord be (storeWord be (storeWord be m2 _ _) _ _) _ _) _ _) (s + BitVec.ofNat 32 4) = _
    rw [load_store_other (by decide) (by decide) (by decide),
      load_store_other (by decide) (by decide) (by decide), load_store_other (by decide) (by decide) (by decide), load_store]
  · rw [ld]
    show loadWord be (storeWord be (storeWord be (storeWord be m3 _ _) _ _) _ _) (s + BitVec.ofNat 32 8) = _
    rw [load_store_other (by decide) (by decide) (by decide), load_store_other (by decide) (by decide) (by decide), load_store]
  · rw [ld]
    show loadWord be (storeWord be (storeWord be m4 _ _) _ _) (s + BitVec.ofNat 32 12) = _
    rw [load_store_other (by decide) (by decide) (by decide), load_store]
  · rw [ld]
    show loadWord be (storeWord be m5 _ _) (s + BitVec.ofNat 32 16) = _
    rw [load_store]

/-- The end: registers are loaded again. -/
theorem tail_run (m : Machine) : ∃ m1 m2, Steps be (mipsCode a b) base call (6 + a.length + b.length + 10) m [] (6 + a.length + b.length + 15) m1 ∧
    go be (mipsCode a b) base call 1 (6 + a.length + b.length + 15) m1 = some ([], loadWord be m (m.reg 29 + 0#32), m2) ∧
    m2.reg 16 = loadWord be m (m.reg 29 + 4#32) ∧ m2.reg 17 = loadWord be m (m.reg 29 + 8#32) ∧
    m2.reg 18 = loadWord be m (m.reg 29 + 12#32) ∧ m2.reg 19 = loadWord be m (m.reg 29 + 16#32) ∧ m2.reg 29 = m.reg 29 + 32#32 ∧ m2.mem = m.mem := by
  let s := m.reg 29
  let m1 := m.set 31 (loadWord be m (s + 0#32))
  let m2 := m1.set 16 (loadWord be m1 (s + 4#32))
  let m3 := m2.set 17 (loadWord be m2 (s + 8#32))
  let m4 := m3.set 18 (loadWord be m3 (s + 12#32))
  let m5 := m4.set 19 (loadWord be m4 (s + 16#32))
  let m6 := m5.set 29 (m5.reg 29 + 32#32)
  have st1 : Steps be (mipsCode a b) base call (6 + a.length + b.length + 10) m [] (6 + a.length + b.length + 11) m1 :=
    plainAt rfl rfl (by decide) (by decide) (by decide) (p_ra be m)
  have st2 : Steps be (mipsCode a b) base call (6 + a.length + b.length + 11) m1 [] (6 + a.length + b.length + 12) m2 :=
    plainAt rfl rfl (by decide) (by decide) (by decide) (p_s0 be m1)
  have st3 : Steps be (mipsCode a b) base call (6 + a.length + b.length + 12) m2 [] (6 + a.length + b.length + 13) m3 :=
    plainAt rfl rfl (by decide) (by decide) (by decide) (p_s1 be m2)
  have st4 : Steps be (mipsCode a b) base call (6 + a.length + b.length + 13) m3 [] (6 + a.length + b.length + 14) m4 :=
    plainAt rfl rfl (by decide) (by decide) (by decide) (p_s2 be m3)
  have st5 : Steps be (mipsCode a b) base call (6 + a.length + b.length + 14) m4 [] (6 + a.length + b.length + 15) m5 :=
    plainAt rfl rfl (by decide) (by decide) (by decide) (p_s3 be m4)
  refine ⟨m5, m6, (((st1.trans st2).trans st3).trans st4).trans st5, ?_, rfl, rfl, rfl, rfl, rfl, rfl⟩
  have := go_jr (be := be) (code := mipsCode a b) (base := base) (call := call) (pc := 6 + a.length + b.length + 15) (m := m5) (m' := m6)
    (w := 0x03e00008#32) (d := 0x27bd0020#32) (code_rest a b 15) (by rw [Nat.add_assoc]; exact code_rest a b 16) (by decide) (p_up be m5)
  exact this

theorem Table.congr {m m' : Machine} {l : List Sec} : ∀ {t : BitVec 32}, (∀ i, i < 8 * l.length → m'.mem (t + BitVec.ofNat 32 i) = m.mem (t + BitVec.ofNat 32 i)) →
    Table be m t l → Table be m' t l := by
  induction l with
  | nil => intro t _ _; trivial
  | cons s l ih =>
    intro t h ht
    simp only [List.length_cons] at h
    refine ⟨?_, ?_, ih (fun i hi => ?_) ht.2.2⟩
    · rw [load_congr fun i hi => h i (by omega), ht.1]
    · rw [← ht.2.1]
      exact load_congr fun i hi => by
        rw [show (4#32) = BitVec.ofNat 32 4 from rfl, ofNat_add]; exact h _ (by omega)
    · rw [show (8#32) = BitVec.ofNat 32 8 from rfl, ofNat_add]; exact h _ (by omega)

theorem functions_congr {m m' : Machine} {s : Sec} (h : ∀ i, i < 4 * s.count → m'.mem (s.address + BitVec.ofNat 32 i) = m.mem (s.address + BitVec.ofNat 32 i)) :
    Sec.functions be m' s = Sec.functions be m s := by
  unfold Sec.functions
  apply List.map_congr_left
  intro j hj
  have := List.mem_range.mp hj
  exact load_congr fun i hi => by rw [ofNat_add]; exact h _ (by omega)

end

section
variable {be : Bool} {a b : List (BitVec 32)} {base : BitVec 32} {call : BitVec 32 → Machine → Machine}

/-- The first instructions of the outer loop. -/
theorem outer_first (m : Machine) : ∃ m', Steps be (mipsCode a b) base call (6 + a.length + b.length) m [] (6 + a.length + b.length + 3) m' ∧
    m'.mem = m.mem ∧ m'.reg 18 = loadWord be m (m.reg 16) := by
  let m1 := m.set 18 (loadWord be m (m.reg 16 + 0#32))
  let m2 := m1.set 19 (loadWord be m1 (m1.reg 16 + 4#32))
  let m3 := m2.set 16 (m2.reg 16 + 8#32)
  have a1 : Steps be (mipsCode a b) base call (6 + a.length + b.length) m [] (6 + a.length + b.length + 1) m1 :=
    plainAt (i := 0) rfl rfl (by decide) (by decide) (by decide) (p_lw_s2 be m)
  have a2 : Steps be (mipsCode a b) base call (6 + a.length + b.length + 1) m1 [] (6 + a.length + b.length + 2) m2 :=
    plainAt (i := 1) rfl rfl (by decide) (by decide) (by decide) (p_lw_s3 be m1)
  have a3 : Steps be (mipsCode a b) base call (6 + a.length + b.length + 2) m2 [] (6 + a.length + b.length + 3) m3 :=
    plainAt (i := 2) rfl rfl (by decide) (by decide) (by decide) (p_add_s0 be m2)
  refine ⟨m3, (a1.trans a2).trans a3, rfl, ?_⟩
  show loadWord be m (m.reg 16 + 0#32) = _
  rw [BitVec.add_zero]
end

/-! ### Text -/

/-- A line with an instruction whose word depends on no address. -/
def isFixed (v : Mips.Version) (l : List Char) : Bool :=
  match lineItem v l with
  | some (.instr op _) => !op.has .ipcr
  | _ => false

theorem value_mono {labels : Str → Option Int} : ∀ {e : Expr} {x : Int}, value (fun _ => none) e = some x → value labels e = some x
  | .int _, _, h => h
  | .ident _ _ _, _, h => by simp [value] at h
  | .un .neg a, x, h => by
    simp only [value, Option.map_eq_some_iff] at h ⊢
    obtain ⟨y, h1, h2⟩ := h
    exact ⟨y, value_mono h1, h2⟩
  | .bin .add a b, x, h => by
    simp only [value, Option.bind_eq_bind, Option.bind_eq_some_iff] at h ⊢
    obtain ⟨y, h1, z, h2, h3⟩ := h
    exact ⟨y, value_mono h1, z, value_mono h2, h3⟩

theorem primary_fixed {op : Mips.Op} {t : Mips.ImmType} {x : BitVec 32} {va : Int} (h : op.has .ipcr = false) :
    Mips.primary op t x va = Mips.primary op t x 0 := by
  unfold Mips.primary Mips.adjust
  simp [h]

theorem lineWord_fixed {v : Mips.Version} {l : List Char} {w : BitVec 32} (h : lineWord v (fun _ => none) 0 l = some w) (hf : isFixed v l = true)
    (labels : Str → Option Int) (va : Int) : lineWord v labels va l = some w := by
  unfold lineWord at h ⊢
  unfold isFixed at hf
  cases hi : lineItem v l with
  | none => simp [hi] at h
  | some i =>
    cases i with
    | «macro» _ _ => simp [hi] at hf
    | instr op o =>
      simp only [hi, Bool.not_eq_eq_eq_not, Bool.not_true] at hf
      simp only [hi, Option.bind_some, itemWord] at h ⊢
      cases ht : Mips.primType op.syms with
      | none => simpa [ht] using h
      | some t =>
        simp only [ht] at h ⊢
        cases ho : o.imm with
        | none => simp only [ho] at h ⊢; rw [primary_fixed hf]; exact h
        | some e =>
          simp only [ho] at h ⊢
          cases hv : value (fun _ => none) e with
          | none => simp [hv] at h
          | some x =>
            simp only [hv] at h
            rw [value_mono hv]
            simp only []
            rw [primary_fixed hf]
            exact h

/-- A line with a branch to a label, which has a word if the distance has a value. -/
def isBranch (v : Mips.Version) (name : Str) (d w : BitVec 32) (l : List Char) : Bool :=
  match lineItem v l with
  | some (.instr op o) => op.has .ipcr && !op.has .immaligned && !op.has .negimm && !op.has .ipca && Mips.primType op.syms == some .i16 &&
      (match o.imm with | some (.ident n _ _) => n == name | _ => false) && Mips.encode op o ⟨false, d, 0#32⟩ == w
  | _ => false

theorem lineWord_branch {v : Mips.Version} {name : Str} {d w : BitVec 32} {l : List Char} (h : isBranch v name d w l = true)
    {labels : Str → Option Int} {va k : Int} (hl : labels name = some (va - k)) (hd : (BitVec.ofInt 32 (-k - 4)).sshiftRight 2 &&& 0xFFFF#32 = d)
    (hk : 0 ≤ k ∧ k < 0x1000) : lineWord v labels va l = some w := by
  unfold isBranch at h
  unfold lineWord
  cases hi : lineItem v l with
  | none => simp [hi] at h
  | some i =>
    cases i with
    | «macro» _ _ => simp [hi] at h
    | instr op o =>
      simp only [hi, Bool.and_eq_true, Bool.not_eq_eq_eq_not, Bool.not_true, beq_iff_eq] at h
      obtain ⟨⟨⟨⟨⟨⟨h1, h2⟩, h3⟩, h4⟩, h5⟩, h6⟩, h7⟩ := h
      simp only [Option.bind_some, itemWord, h5]
      cases ho : o.imm with
      | none => simp [ho] at h6
      | some e =>
        cases e with
        | ident n f s =>
          simp only [ho, beq_iff_eq] at h6
          subst h6
          simp only [value, hl]
          have e1 : BitVec.ofInt 32 ((BitVec.ofInt 32 (va - k)).toInt - va - 4) = BitVec.ofInt 32 (-k - 4) := by
            rw [show (BitVec.ofInt 32 (va - k)).toInt - va - 4 = (BitVec.ofInt 32 (va - k)).toInt + (-va - 4) by omega, BitVec.ofInt_add, BitVec.ofInt_toInt,
              ← BitVec.ofInt_add]
            congr 1; omega
          have e2 : (BitVec.ofInt 32 (-k - 4)).toInt = -k - 4 := by
            rw [BitVec.toInt_ofInt, Int.bmod_eq_of_le (by omega) (by omega)]
          have e3 : ((BitVec.ofInt 32 (-k - 4)).sshiftRight 2).toInt = (-k - 4) >>> 2 := by rw [BitVec.toInt_sshiftRight, e2]
          have e4 : (-k - 4) >>> 2 = (-k - 4) / 4 := by rw [Int.shiftRight_eq_div_pow]; rfl
          have hp : Mips.primary op .i16 (BitVec.ofInt 32 (va - k)) va = .ok d := by
            unfold Mips.primary Mips.adjust Mips.checkBits
            simp only [h1, h2, h3, h4, Bool.false_and, Bool.false_eq_true, if_false, if_true, e1, e2]
            rw [if_neg (by omega)]
            simp only []
            rw [if_neg, if_neg, ← hd]
            · rfl
            · show ¬ (_ > 2 ^ 16 - 1)
              rw [e3, e4]; omega
            · intro hc
              have := congrArg BitVec.toInt hc
              rw [e3, e4] at this
              have h8 : (BitVec.intMin 32).toInt = -2147483648 := by decide
              rw [h8] at this
              omega
          rw [hp]
          simp only [h7]
        | _ => simp [ho] at h6

end Armips.Ctor
