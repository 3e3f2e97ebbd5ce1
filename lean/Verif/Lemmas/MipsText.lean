import Verif.Lemmas.MipsExec
/-! The texts of the macros: the rules, and the text of `li`. -/
namespace Armips.MacroProof
open Spec Spec.Instr Spec.Mips Spec.Macro Spec.Isa
open Armips.Mips hiding validate encode names

theorem parse_cond {L : String → List Tok → Nat → Option (Cmd × Nat)} {e : Expr} {a b : Text} {k k' : Nat} {c : Cmd}
    (h : (Text.cond e a b).parse L k = some (c, k')) :
    ∃ ca k1 cb, a.parse L k = some (ca, k1) ∧ b.parse L k1 = some (cb, k') ∧ c = .cond (.if_ e) ca cb := by
  simp only [Text.parse, Option.bind_eq_bind, Option.bind_eq_some_iff] at h
  obtain ⟨⟨ca, k1⟩, h1, ⟨cb, k2⟩, h2, h3⟩ := h
  cases h3
  exact ⟨ca, k1, cb, h1, h2, rfl⟩

theorem parse_seq {L : String → List Tok → Nat → Option (Cmd × Nat)} {a b : Text} {k k' : Nat} {c : Cmd}
    (h : (Text.seq a b).parse L k = some (c, k')) :
    ∃ ca k1 cb, a.parse L k = some (ca, k1) ∧ b.parse L k1 = some (cb, k') ∧ c = .cons ca cb := by
  simp only [Text.parse, Option.bind_eq_bind, Option.bind_eq_some_iff] at h
  obtain ⟨⟨ca, k1⟩, h1, ⟨cb, k2⟩, h2, h3⟩ := h
  cases h3
  exact ⟨ca, k1, cb, h1, h2, rfl⟩

theorem parse_mono {L : String → List Tok → Nat → Option (Cmd × Nat)}
    (hL : ∀ n ts k c k', L n ts k = some (c, k') → k ≤ k') : ∀ (t : Text) (k : Nat) (c : Cmd) (k' : Nat),
    t.parse L k = some (c, k') → k ≤ k'
  | .nil, _, _, _, h => by cases h; exact Nat.le_refl _
  | .line n ts, k, c, k', h => hL n ts k c k' h
  | .error _, _, _, _, h => by cases h; exact Nat.le_refl _
  | .cond e a b, k, c, k', h => by
    obtain ⟨ca, k1, cb, h1, h2, -⟩ := parse_cond h
    exact Nat.le_trans (parse_mono hL a _ _ _ h1) (parse_mono hL b _ _ _ h2)
  | .seq a b, k, c, k', h => by
    obtain ⟨ca, k1, cb, h1, h2, -⟩ := parse_seq h
    exact Nat.le_trans (parse_mono hL a _ _ _ h1) (parse_mono hL b _ _ _ h2)

/-- A line that is a macro. -/
theorem line_macro {P : ParseEnv} {depth : Nat} {name : String} {ts : List Tok} {k k' : Nat} {c : Cmd} {kind : Kind} {p : Parsed}
    (hf : findMacro name ts = some (kind, p)) (h : parseLine P depth name ts k = some (c, k')) :
    ∃ d t content, depth = d + 1 ∧ kind.text P (P.labels k) p = some t ∧ t.parse (parseLine P d) (k + 1) = some (content, k') ∧
      c = .mipsMacro kind.dontWarn P.cfg.ignoreDelay (.cons (.label (P.labels k).id none) content) := by
  cases depth with
  | zero => simp [parseLine] at h
  | succ d =>
    simp only [parseLine, hf, Option.bind_eq_bind, Option.bind_eq_some_iff] at h
    obtain ⟨t, h1, ⟨content, k2⟩, h2, h3⟩ := h
    cases h3
    exact ⟨d, t, content, rfl, h1, h2, rfl⟩

theorem line_mono {P : ParseEnv} : ∀ (depth : Nat) (n : String) (ts : List Tok) (k : Nat) (c : Cmd) (k' : Nat),
    parseLine P depth n ts k = some (c, k') → k ≤ k'
  | 0, _, _, _, _, _, h => by simp [parseLine] at h
  | d + 1, n, ts, k, c, k', h => by
    cases hf : findMacro n ts with
    | none =>
      obtain ⟨rfl, -⟩ := line_select hf h
      exact Nat.le_refl _
    | some x =>
      obtain ⟨kind, p⟩ := x
      obtain ⟨d', t, content, hd, -, h2, -⟩ := line_macro hf h
      cases hd
      exact Nat.le_trans (Nat.le_succ k) (parse_mono (line_mono d) t _ _ _ h2)

/-- The commands of a text do what `Q` says, whatever labels are made up for it from number `k₀` on. -/
def TGood (P : ParseEnv) (d k₀ : Nat) (t : Text) (st : St) (Q : List (BitVec 32) → St → Prop) : Prop :=
  ∀ k c k', k₀ ≤ k → t.parse (parseLine P d) k = some (c, k') → Good P k₀ c st Q

section
variable {P : ParseEnv} {d k₀ : Nat} {st : St} {Q : List (BitVec 32) → St → Prop}

theorem tgood_nil (h : Q [] st) : TGood P d k₀ .nil st Q := by
  intro k c k' _ hp
  cases hp
  exact good_nil h

theorem tgood_error {s : String} : TGood P d k₀ (.error s) st Q := by
  intro k c k' _ hp
  cases hp
  exact good_error

theorem tgood_cond {e : Expr} {a b : Text} {x : Int} (hm : st.arch = .mips)
    (hx : Evaluates P.env .mips (st.ctx P.env) e (.int x))
    (ha : x ≠ 0 → ∀ st1, Frame P k₀ st st1 → st1.virt = st.virt → st1.archSt = st.archSt → TGood P d k₀ a st1 Q)
    (hb : x = 0 → ∀ st1, Frame P k₀ st st1 → st1.virt = st.virt → st1.archSt = st.archSt → TGood P d k₀ b st1 Q) :
    TGood P d k₀ (.cond e a b) st Q := by
  intro k c k' hk hp
  obtain ⟨ca, k1, cb, h1, h2, rfl⟩ := parse_cond hp
  have := parse_mono (line_mono d) a _ _ _ h1
  exact good_cond hm hx (fun h st1 f1 f2 f3 => ha h st1 f1 f2 f3 k ca k1 hk h1)
    (fun h st1 f1 f2 f3 => hb h st1 f1 f2 f3 k1 cb k' (Nat.le_trans hk this) h2)

/-- A condition given by a proposition. -/
theorem tgood_if {e : Expr} {a b : Text} {x : Int} (p : Prop) (hp : x ≠ 0 ↔ p) (hm : st.arch = .mips)
    (hx : Evaluates P.env .mips (st.ctx P.env) e (.int x))
    (ha : p → ∀ st1, Frame P k₀ st st1 → st1.virt = st.virt → st1.archSt = st.archSt → TGood P d k₀ a st1 Q)
    (hb : ¬p → ∀ st1, Frame P k₀ st st1 → st1.virt = st.virt → st1.archSt = st.archSt → TGood P d k₀ b st1 Q) :
    TGood P d k₀ (.cond e a b) st Q :=
  tgood_cond hm hx (fun h => ha (hp.1 h)) (fun h => hb fun h' => hp.2 h' h)

/-- A condition that is part of the template. -/
theorem tgood_flag {b : Bool} {a t : Text} (hm : st.arch = .mips)
    (ha : b = true → ∀ st1, Frame P k₀ st st1 → st1.virt = st.virt → st1.archSt = st.archSt → TGood P d k₀ a st1 Q)
    (hb : b = false → ∀ st1, Frame P k₀ st st1 → st1.virt = st.virt → st1.archSt = st.archSt → TGood P d k₀ t st1 Q) :
    TGood P d k₀ (.cond (flag b) a t) st Q :=
  tgood_if (b = true) (by cases b <;> simp) hm (ev_flag b) ha (fun h => hb (by simpa using h))

theorem tgood_seq {a b : Text} {Qa : List (BitVec 32) → St → Prop} (ha : TGood P d k₀ a st Qa)
    (hb : ∀ ws st1, Frame P k₀ st st1 → st1.virt = st.virt + 4 * ws.length → Qa ws st1 →
      TGood P d k₀ b st1 fun ws' st' => Q (ws ++ ws') st') : TGood P d k₀ (.seq a b) st Q := by
  intro k c k' hk hp
  obtain ⟨ca, k1, cb, h1, h2, rfl⟩ := parse_seq hp
  have := parse_mono (line_mono d) a _ _ _ h1
  exact good_cons (ha k ca k1 hk h1) fun ws st1 f1 f2 f3 => hb ws st1 f1 f2 f3 k1 cb k' (Nat.le_trans hk this) h2

theorem TGood.mono {t : Text} {Q' : List (BitVec 32) → St → Prop} (h : TGood P d k₀ t st Q)
    (hQ : ∀ ws st', Frame P k₀ st st' → st'.virt = st.virt + 4 * ws.length → Q ws st' → Q' ws st') : TGood P d k₀ t st Q' :=
  fun k c k' hk hp => (h k c k' hk hp).mono (Nat.le_refl _) hQ

theorem tgood_line {n : String} {ts : List Tok}
    (h : ∀ k k' c, parseLine P d n ts k = some (c, k') → k' = k ∧ Good P k c st Q) : TGood P d k₀ (.line n ts) st Q := by
  intro k c k' hk hp
  exact ((h k k' c hp).2).mono hk fun _ _ _ _ h => h
end

theorem dotted_settled {l : MacroLabel} : ∀ {e : Expr}, settled e = true → dotted l e = e
  | .int _, _ => rfl
  | .ident _ _ _, _ => rfl
  | .un _ a, h => by
    have := dotted_settled (l := l) (e := a) h
    simp only [dotted] at this
    simp only [dotted, Expr.replaceMemoryPos, this]
  | .bin _ a b, h => by
    simp only [settled, Bool.and_eq_true] at h
    have h1 := dotted_settled (l := l) h.1
    have h2 := dotted_settled (l := l) h.2
    simp only [dotted] at h1 h2
    simp only [dotted, Expr.replaceMemoryPos, h1, h2]
  | .cond a b d, h => by
    simp only [settled, Bool.and_eq_true] at h
    have h1 := dotted_settled (l := l) h.1.1
    have h2 := dotted_settled (l := l) h.1.2
    have h3 := dotted_settled (l := l) h.2
    simp only [dotted] at h1 h2 h3
    simp only [dotted, Expr.replaceMemoryPos, h1, h2, h3]
  | .invalid, h => nomatch h
  | .float _, h => nomatch h
  | .str _, h => nomatch h
  | .memoryPos, h => nomatch h
  | .toString_ _, h => nomatch h
  | .call _ _, h => nomatch h

/-! ## `li` -/

/-- What the upper part of `li` does. -/
def liU (r : Nat) (v : Int) (m : Machine) : Machine :=
  if (0 ≤ v ∧ v < 65536) ∨ v % 4294967296 ≥ 0xFFFF8000 then m else m.set r (BitVec.ofNat 32 (hiV v).toNat <<< 16)

/-- What the lower part does. -/
def liL (r : Nat) (v : Int) (m : Machine) : Machine :=
  if 0 ≤ v ∧ v < 65536 then m.set r (BitVec.ofInt 32 v)
  else if v % 4294967296 ≥ 0xFFFF8000 then m.set r (BitVec.ofInt 32 v)
  else if v % 65536 = 0 then m
  else m.set r (m.get r + BitVec.ofInt 32 (loV v))

def liParts (u l : Bool) (r : Nat) (v : Int) (m : Machine) : Machine :=
  let m := if u then liU r v m else m
  if l then liL r v m else m

theorem signed_lo (v : Int) : signed 16 (loV v % 2 ^ 16).toNat = loV v := by
  unfold signed loV; split <;> split <;> omega

theorem ofInt_eq {a b : Int} (h : a % 4294967296 = b % 4294967296) : BitVec.ofInt 32 a = BitVec.ofInt 32 b := by
  apply BitVec.eq_of_toNat_eq
  rw [BitVec.toNat_ofInt, BitVec.toNat_ofInt]
  omega

theorem hi_lo (v : Int) : BitVec.ofNat 32 (hiV v).toNat <<< 16 + BitVec.ofInt 32 (loV v) = BitVec.ofInt 32 v := by
  apply BitVec.eq_of_toNat_eq
  rw [BitVec.toNat_add, BitVec.toNat_shiftLeft, BitVec.toNat_ofNat, BitVec.toNat_ofInt, BitVec.toNat_ofInt, Nat.shiftLeft_eq]
  unfold hiV loV
  split <;> omega

theorem hi_only {v : Int} (h : v % 65536 = 0) : BitVec.ofNat 32 (hiV v).toNat <<< 16 = BitVec.ofInt 32 v := by
  rw [← hi_lo]
  have : loV v = 0 := by unfold loV; split <;> omega
  rw [this]; simp

theorem li_both (r : Nat) (v : Int) (m : Machine) : liL r v (liU r v m) = m.set r (BitVec.ofInt 32 v) := by
  unfold liL liU
  by_cases h1 : 0 ≤ v ∧ v < 65536
  · simp [h1]
  · by_cases h2 : v % 4294967296 ≥ 0xFFFF8000
    · simp only [h1, h2, if_true, if_false, or_true]
    · simp only [h1, h2, if_false, or_false]
      by_cases h3 : v % 65536 = 0
      · simp only [h3, if_true]; rw [hi_only h3]
      · simp only [h3, if_false]
        rw [set_set, get_set]
        by_cases h0 : r = 0
        · subst h0; rfl
        · simp only [h0, ne_eq, not_false_eq_true, and_self, if_true]; rw [hi_lo]

/-- After the upper part, with anything in between that keeps the register, the lower part completes the number. -/
theorem li_apart (r : Nat) (v : Int) (m m2 : Machine) (h : m2.get r = (liU r v m).get r) :
    liL r v m2 = m2.set r (BitVec.ofInt 32 v) := by
  unfold liL
  by_cases h1 : 0 ≤ v ∧ v < 65536
  · simp [h1]
  · by_cases h2 : v % 4294967296 ≥ 0xFFFF8000
    · simp only [h1, h2, if_true, if_false]
    · have : r ≠ 0 → m2.get r = BitVec.ofNat 32 (hiV v).toNat <<< 16 := by
        intro h0
        rw [h, liU, if_neg (by rw [not_or]; exact ⟨h1, h2⟩), get_set, if_pos ⟨rfl, h0⟩]
      simp only [h1, h2, if_false]
      by_cases h0 : r = 0
      · subst h0; split <;> rfl
      · rw [this h0, hi_lo]
        split
        · rename_i h3
          rw [← hi_only h3, ← this h0]
          unfold Machine.set Machine.get
          simp only [h0, if_false]
          cases m2
          congr 1
          funext x
          simp only
          split
          · rename_i hx; rw [hx]
          · rfl
        · rfl

theorem inI64_of {v : Int} (h : -(2 ^ 63) < v ∧ v < 2 ^ 63) : InI64 v := by unfold InI64; omega

theorem step_lui {be : Bool} {r imm : Nat} {w : BitVec 32} (h : IsI 15 0 r imm w) (m : Machine) :
    step be w m = some (m.set r (BitVec.ofNat 32 imm <<< 16)) := by
  obtain ⟨h1, h2, h3, h4⟩ := h
  simp [step, h1, h2, h3, h4]

theorem step_addiu {be : Bool} {r s imm : Nat} {w : BitVec 32} (h : IsI 9 s r imm w) (m : Machine) :
    step be w m = some (m.set r (m.get s + BitVec.ofInt 32 (signed 16 imm))) := by
  obtain ⟨h1, h2, h3, h4⟩ := h
  simp [step, h1, h2, h3, h4]

theorem step_ori {be : Bool} {r s imm : Nat} {w : BitVec 32} (h : IsI 13 s r imm w) (m : Machine) :
    step be w m = some (m.set r (m.get s ||| BitVec.ofNat 32 imm)) := by
  obtain ⟨h1, h2, h3, h4⟩ := h
  simp [step, h1, h2, h3, h4]

theorem get_zero (m : Machine) : m.get 0 = 0#32 := rfl

theorem tgood_li {P : ParseEnv} {d k₀ : Nat} {st : St} (hE : Functions P.env) {u l : Bool} {r : Nat} {e : Expr} {v : Int}
    (hr : r < 32) (hm : st.arch = .mips) (hv : Reads P k₀ st e v) :
    TGood P d k₀ (liText u l r e) st fun ws st' =>
      ((∀ be m, exec be ws m = some (liParts u l r v m)) ∧ (u = true → l = true → Settled P st')) ∧ v.natAbs ≤ 0xFFFFFFFF := by
  have hI := inI64_of hv.value.2
  refine tgood_if (v.natAbs > 0xFFFFFFFF) (x := if (v.natAbs : Int) > 0xFFFFFFFF then 1 else 0) ?_ hm
    (ev_greater (ev_abs hE hv.value.1 hv.value.2) (ev_int _)) (fun _ _ _ _ _ => tgood_error) ?_
  · split <;> omega
  intro hbig st1 f1 _ _
  refine TGood.mono (Q := fun ws st' =>
    (∀ be m, exec be ws m = some (liParts u l r v m)) ∧ (u = true → l = true → Settled P st')) ?_
    fun _ _ _ _ h => ⟨h, Nat.le_of_not_lt hbig⟩
  have hv1 := hv.frame f1
  have hm1 : st1.arch = .mips := f1.arch.trans hm
  refine tgood_if (¬ (0 ≤ v ∧ v < 65536)) (by rw [Ne, and_notFFFF hI]) hm1 (ev_and hv1.value.1 (ev_not (ev_int _))) ?_ ?_
  · intro h16 st2 f2 _ _
    have hv2 := hv1.frame f2
    have hm2 : st2.arch = .mips := f2.arch.trans hm1
    refine tgood_if (v % 4294967296 ≥ 0xFFFF8000) ?_ hm2 (ev_equal (ev_and hv2.value.1 (ev_int _)) (ev_int _)) ?_ ?_
    · rw [← and_FFFF8000]; split <;> simp_all
    · intro hneg st3 f3 _ _
      have hv3 := hv2.frame f3
      have hm3 : st3.arch = .mips := f3.arch.trans hm2
      refine tgood_flag hm3 ?_ ?_
      · intro hl st4 f4 _ _
        have hv4 := hv3.frame f4
        refine TGood.mono (tgood_line fun k k' c h =>
          good_rri (by decide) rfl hr (by decide) (ev_lo hE hv4.value.1) h) ?_
        rintro ws st' - - ⟨hw, hs⟩
        refine ⟨fun be m => ?_, fun _ _ => hs⟩
        rw [exec_writes hw fun w hw m => step_addiu hw m]
        simp only [liParts, hl, liL, liU, h16, hneg, or_true, if_true, if_false, ite_self, get_zero, signed_lo]
        congr 2
        rw [BitVec.zero_add]
        apply ofInt_eq
        unfold loV; split <;> omega
      · intro hl st4 f4 _ _
        refine tgood_nil ⟨fun be m => ?_, fun _ h => by rw [hl] at h; cases h⟩
        simp [exec, liParts, hl, liU, hneg]
    · intro hneg st3 f3 _ _
      have hv3 := hv2.frame f3
      have hm3 : st3.arch = .mips := f3.arch.trans hm2
      refine tgood_if (v % 65536 = 0) ?_ hm3 (ev_equal (ev_and hv3.value.1 (ev_int _)) (ev_int _)) ?_ ?_
      · rw [and_FFFF]; split <;> simp_all
      · intro hz st4 f4 _ _
        have hv4 := hv3.frame f4
        have hm4 : st4.arch = .mips := f4.arch.trans hm3
        refine tgood_flag hm4 ?_ ?_
        · intro hu st5 f5 _ _
          have hv5 := hv4.frame f5
          refine TGood.mono (tgood_line fun k k' c h =>
            good_lui (by decide) rfl hr (ev_hi hE hv5.value.1) h) ?_
          rintro ws st' - - ⟨hw, hs⟩
          refine ⟨fun be m => ?_, fun _ _ => hs⟩
          rw [exec_writes hw fun w hw m => step_lui hw m]
          have e1 : (hiV v % 2 ^ 16).toNat = (hiV v).toNat := by unfold hiV; omega
          rw [e1]
          cases l <;> simp [liParts, hu, liL, liU, h16, hneg, hz]
        · intro hu st5 f5 _ _
          have hm5 : st5.arch = .mips := f5.arch.trans hm4
          refine tgood_flag hm5 ?_ ?_
          · intro hl st6 f6 _ _
            refine TGood.mono (tgood_line fun k k' c h => good_nop (f := 0) (by decide) rfl h) ?_
            rintro ws st' - - ⟨hw, hs⟩
            refine ⟨fun be m => ?_, fun _ _ => hs⟩
            rw [exec_writes (F := id) hw fun w hw m => by rw [step_R hw]; simp [Isa.special, set_zero]]
            simp [liParts, hu, hl, liL, h16, hneg, hz]
          · intro hl st6 f6 _ _
            refine tgood_nil ⟨fun be m => ?_, fun _ h => by rw [hl] at h; cases h⟩
            simp [exec, liParts, hl, hu]
      · intro hz st4 f4 _ _
        have hv4 := hv3.frame f4
        have hm4 : st4.arch = .mips := f4.arch.trans hm3
        have e1 : (hiV v % 2 ^ 16).toNat = (hiV v).toNat := by unfold hiV; omega
        refine tgood_seq (Qa := fun ws _ => ∀ be m, exec be ws m = some (liParts u false r v m)) ?_ ?_
        · refine tgood_flag hm4 ?_ ?_
          · intro hu st5 f5 _ _
            have hv5 := hv4.frame f5
            refine TGood.mono (tgood_line fun k k' c h =>
              good_lui (by decide) rfl hr (ev_hi hE hv5.value.1) h) ?_
            rintro ws st' - - ⟨hw, hs⟩ be m
            rw [exec_writes hw fun w hw m => step_lui hw m]
            rw [e1]
            simp [liParts, hu, liU, h16, hneg]
          · intro hu st5 f5 _ _
            refine tgood_nil fun be m => ?_
            simp [exec, liParts, hu]
        · intro ws st5 f5 _ h5
          have hv5 := hv4.frame f5
          have hm5 : st5.arch = .mips := f5.arch.trans hm4
          refine tgood_seq (Qa := fun ws' st' => (∀ be m, exec be ws' m = some (liParts false l r v m)) ∧ (l = true → Settled P st')) ?_ ?_
          · refine tgood_flag hm5 ?_ ?_
            · intro hl st6 f6 _ _
              have hv6 := hv5.frame f6
              refine TGood.mono (tgood_line fun k k' c h =>
                good_ri (by decide) rfl hr (ev_lo hE hv6.value.1) h) ?_
              rintro ws st' - - ⟨hw, hs⟩
              refine ⟨fun be m => ?_, fun _ => hs⟩
              rw [exec_writes hw fun w hw m => step_addiu hw m]
              simp only [liParts, hl, liL, h16, hneg, hz, if_true, if_false, signed_lo, Bool.false_eq_true]
            · intro hl st6 f6 _ _
              refine tgood_nil ⟨fun be m => ?_, fun h => by rw [hl] at h; cases h⟩
              simp [exec, liParts, hl]
          · intro ws' st6 f6 _ h6
            refine tgood_nil ⟨fun be m => ?_, fun _ hl => h6.2 hl⟩
            rw [List.append_nil, exec_append, h5, Option.bind_some, h6.1]
            simp [liParts]
  · intro h16 st2 f2 _ _
    have hv2 := hv1.frame f2
    have hm2 : st2.arch = .mips := f2.arch.trans hm1
    have h16 : 0 ≤ v ∧ v < 65536 := by omega
    refine tgood_flag hm2 ?_ ?_
    · intro hl st3 f3 _ _
      have hv3 := hv2.frame f3
      refine TGood.mono (tgood_line fun k k' c h =>
        good_rri (by decide) rfl hr (by decide) hv3.value.1 h) ?_
      rintro ws st' - - ⟨hw, hs⟩
      refine ⟨fun be m => ?_, fun _ _ => hs⟩
      rw [exec_writes hw fun w hw m => step_ori hw m]
      have e2 : BitVec.ofNat 32 (v % 2 ^ 16).toNat = BitVec.ofInt 32 v := by
        apply BitVec.eq_of_toNat_eq
        rw [BitVec.toNat_ofNat, BitVec.toNat_ofInt]; omega
      simp only [liParts, hl, liL, liU, h16, get_zero, e2, and_self, true_or, if_true, ite_self, BitVec.zero_or]
    · intro hl st3 f3 _ _
      refine tgood_nil ⟨fun be m => ?_, fun _ h => by rw [hl] at h; cases h⟩
      simp [exec, liParts, hl, liU, h16]

end Armips.MacroProof
