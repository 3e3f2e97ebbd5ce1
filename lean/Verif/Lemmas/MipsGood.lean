import Verif.Spec.MipsMacros
import Verif.Lemmas.LayoutRel
import Verif.Props.MipsWords
/-! What the commands of a macro do, one command at a time. -/
namespace Armips.MacroProof
open Spec Spec.Instr Spec.Mips Spec.Macro
open Armips.Mips hiding validate encode names

/-- What a command of a macro leaves: everything but its own labels. -/
structure Frame (P : ParseEnv) (k : Nat) (st st' : St) : Prop where
  arch : st'.arch = st.arch
  symbols : st'.syms.symbols = st.syms.symbols
  len : st'.syms.labels.length = st.syms.labels.length
  labels : ∀ i, (∀ j, k ≤ j → i ≠ (P.labels j).id) → st'.syms.labels[i]? = st.syms.labels[i]?

theorem Frame.refl {P : ParseEnv} {k : Nat} (st : St) : Frame P k st st := ⟨rfl, rfl, rfl, fun _ _ => rfl⟩

theorem Frame.trans {P : ParseEnv} {k : Nat} {a b c : St} (h : Frame P k a b) (h' : Frame P k b c) : Frame P k a c :=
  ⟨h'.arch.trans h.arch, h'.symbols.trans h.symbols, h'.len.trans h.len, fun i hi => (h'.labels i hi).trans (h.labels i hi)⟩

theorem Frame.weaken {P : ParseEnv} {k k' : Nat} {a b : St} (h : Frame P k a b) (hk : k' ≤ k) : Frame P k' a b :=
  ⟨h.arch, h.symbols, h.len, fun i hi => h.labels i fun j hj => hi j (Nat.le_trans hk hj)⟩

theorem Frame.of_eq {P : ParseEnv} {k : Nat} {a b : St} (ha : b.arch = a.arch) (hs : b.syms = a.syms) : Frame P k a b :=
  ⟨ha, by rw [hs], by rw [hs], fun _ _ => by rw [hs]⟩

/-- The index that a name has. -/
theorem Frame.index {P : ParseEnv} {k : Nat} {a b : St} (h : Frame P k a b) (n : Str) (f s : Int) :
    (b.syms.getLabel n f s).2 = (a.syms.getLabel n f s).2 := by
  simp only [SymTab.getLabel]
  rw [h.symbols]
  split
  · rfl
  · split
    · simp [h.len]
    · rfl
    · rfl

theorem Frame.label {P : ParseEnv} {k : Nat} {a b : St} (h : Frame P k a b) {n : Str} {f s : Int}
    (hn : ∀ j, k ≤ j → (a.syms.getLabel n f s).2 ≠ some (P.labels j).id) :
    (b.ctx P.env).label n f s = (a.ctx P.env).label n f s := by
  simp only [St.ctx]
  simp only [SymTab.getLabel] at hn ⊢
  rw [h.symbols]
  cases hv : SymTab.isValidSymbolName n
  · rfl
  · rw [hv] at hn
    simp only [Bool.not_true, Bool.false_eq_true, if_false] at hn ⊢
    cases hx : a.syms.symbols (SymTab.key n f s) with
    | none =>
      simp only
      rw [List.getElem?_append_right (by omega), List.getElem?_append_right (by omega)]
      simp
    | some i =>
      cases i with
      | equation _ => rfl
      | label i =>
        rw [hx] at hn
        simp only at hn ⊢
        exact h.labels i fun j hj e => hn j hj (by rw [e])

/-- Expressions of symbols and integers. -/
def settled : Expr → Bool
  | .int _ | .ident _ _ _ => true
  | .un _ a => settled a
  | .bin _ a b => settled a && settled b
  | .cond a b c => settled a && settled b && settled c
  | _ => false

theorem settled_eval {H : Host} {F : Funcs} {c c' : Ctx} : ∀ {e : Expr}, settled e = true →
    (∀ x ∈ symbolsIn e, c'.label x.1 x.2.1 x.2.2 = c.label x.1 x.2.1 x.2.2) → e.eval H F c' = e.eval H F c
  | .int _, _, _ => by simp only [Expr.eval]
  | .ident n f s, _, h => by
    have := h (n, f, s) (by simp [symbolsIn])
    simp only at this
    simp only [Expr.eval]
    rw [this]
  | .un _ a, hs, h => by
    simp only [Expr.eval]
    rw [settled_eval (e := a) hs h]
  | .bin _ a b, hs, h => by
    simp only [settled, Bool.and_eq_true] at hs
    simp only [symbolsIn, List.mem_append] at h
    simp only [Expr.eval]
    rw [settled_eval hs.1 fun x hx => h x (.inl hx), settled_eval hs.2 fun x hx => h x (.inr hx)]
  | .cond a b d, hs, h => by
    simp only [settled, Bool.and_eq_true] at hs
    simp only [symbolsIn, List.mem_append] at h
    simp only [Expr.eval]
    rw [settled_eval hs.1.1 fun x hx => h x (.inl (.inl hx)), settled_eval hs.1.2 fun x hx => h x (.inl (.inr hx)),
      settled_eval hs.2 fun x hx => h x (.inr hx)]
  | .invalid, hs, _ => nomatch hs
  | .float _, hs, _ => nomatch hs
  | .str _, hs, _ => nomatch hs
  | .memoryPos, hs, _ => nomatch hs
  | .toString_ _, hs, _ => nomatch hs
  | .call _ _, hs, _ => nomatch hs

/-- A name or expression has the value `v` now and in the rest of the macro. -/
structure Reads (P : ParseEnv) (k : Nat) (st : St) (e : Expr) (v : Int) : Prop where
  settled : settled e = true
  usual : Usual P k st e
  value : HasValue P st e v
  plain : plain e = true

theorem usual_frame {P : ParseEnv} {k k' : Nat} {a b : St} {e : Expr} (h : Usual P k a e) (hf : Frame P k' a b) : Usual P k b e := by
  intro x hx j hj
  rw [hf.index]
  exact h x hx j hj

theorem Reads.frame {P : ParseEnv} {k : Nat} {a b : St} {e : Expr} {v : Int} (h : Reads P k a e v) (hf : Frame P k a b) :
    Reads P k b e v := by
  refine ⟨h.settled, usual_frame h.usual hf, ⟨?_, h.value.2⟩, h.plain⟩
  unfold Evaluates
  rw [settled_eval h.settled (c := a.ctx P.env)]
  · exact h.value.1
  · exact fun x hx => hf.label (h.usual x hx)

theorem Reads.weaken {P : ParseEnv} {k k' : Nat} {a : St} {e : Expr} {v : Int} (h : Reads P k a e v) (hk : k ≤ k') :
    Reads P k' a e v :=
  ⟨h.settled, fun x hx j hj => h.usual x hx j (Nat.le_trans hk hj), h.value, h.plain⟩

/-! ## Commands -/

/-- The command writes words with the property `Q`, whenever it is accepted in a pass beginning in `st`. -/
def Good (P : ParseEnv) (k : Nat) (c : Cmd) (st : St) (Q : List (BitVec 32) → St → Prop) : Prop :=
  ∀ passes nf m m' st' r, validate P.env passes c nf m st = some (m', st', r) → st'.Clean →
    Frame P k st st' ∧ ∃ ws, (∀ G f, encode G c m' f = some (writeUnits f (ws.map unit))) ∧
      st'.virt = st.virt + 4 * ws.length ∧ Q ws st'

theorem Good.mono {P : ParseEnv} {k k' : Nat} {c : Cmd} {st : St} {Q Q' : List (BitVec 32) → St → Prop} (h : Good P k c st Q)
    (hk : k' ≤ k) (hQ : ∀ ws st', Frame P k st st' → st'.virt = st.virt + 4 * ws.length → Q ws st' → Q' ws st') :
    Good P k' c st Q' := by
  intro passes nf m m' st' r hv hc
  obtain ⟨hf, ws, he, hp, hq⟩ := h passes nf m m' st' r hv hc
  exact ⟨hf.weaken hk, ws, he, hp, hQ ws st' hf hp hq⟩

theorem good_nil {P : ParseEnv} {k : Nat} {st : St} {Q : List (BitVec 32) → St → Prop} (h : Q [] st) : Good P k .nil st Q := by
  intro passes nf m m' st' r hv _
  simp only [validate] at hv
  obtain ⟨rfl, rfl, rfl⟩ := some3 hv
  exact ⟨.refl _, [], fun G f => rfl, by simp, h⟩

theorem writeUnits_append (f : FM) (a b : List (Width × Int)) : writeUnits f (a ++ b) = writeUnits (writeUnits f a) b :=
  List.foldl_append

theorem good_cons {P : ParseEnv} {k : Nat} {a b : Cmd} {st : St} {Qa Q : List (BitVec 32) → St → Prop} (ha : Good P k a st Qa)
    (hb : ∀ ws st1, Frame P k st st1 → st1.virt = st.virt + 4 * ws.length → Qa ws st1 →
      Good P k b st1 fun ws' st' => Q (ws ++ ws') st') : Good P k (.cons a b) st Q := by
  intro passes nf m m' st' r hv hc
  obtain ⟨m1, m2⟩ := m
  simp only [validate] at hv
  split at hv
  · exact nomatch hv
  · rename_i m1' st1 r1 h1
    split at hv
    · exact nomatch hv
    · rename_i m2' st2 r2 h2
      obtain ⟨rfl, rfl, rfl⟩ := some3 hv
      obtain ⟨hf, ws, he, hp, hq⟩ := ha _ _ _ _ _ _ h1 (hc.mono (le_validate h2))
      obtain ⟨hf', ws', he', hp', hq'⟩ := hb ws st1 hf hp hq _ _ _ _ _ _ h2 hc
      refine ⟨hf.trans hf', ws ++ ws', fun G f => ?_, ?_, hq'⟩
      · simp only [encode, he, he', List.map_append, writeUnits_append]
      · rw [hp', hp, List.length_append]; omega

theorem report_fields (st : St) (ds : List Diag) : (st.report ds).arch = st.arch ∧ (st.report ds).archSt = st.archSt ∧
    (st.report ds).syms = st.syms ∧ (st.report ds).virt = st.virt ∧
    (st.report ds).fm.active = st.fm.active ∧ (st.report ds).fm.files = st.fm.files := by
  induction ds generalizing st with
  | nil => exact ⟨rfl, rfl, rfl, rfl, rfl, rfl⟩
  | cons d ds ih =>
    have hx : St.report st (d :: ds) =
        St.report (if d.printed then st.printError d.type d.text else st.queueError d.type d.text) ds := rfl
    rw [hx]
    obtain ⟨h1, h2, h3, h4, h5, h6⟩ := ih (if d.printed then st.printError d.type d.text else st.queueError d.type d.text)
    rw [h1, h2, h3, h4, h5, h6]
    split <;> exact ⟨rfl, rfl, rfl, rfl, rfl, rfl⟩

theorem good_error {P : ParseEnv} {k : Nat} {s : String} {st : St} {Q : List (BitVec 32) → St → Prop} :
    Good P k (.message .error (.str (lit s))) st Q := by
  intro passes nf m m' st' r hv hc
  simp only [validate] at hv
  obtain ⟨st2, h1, h2⟩ := map_some hv
  obtain ⟨rfl, rfl, rfl⟩ := pair3 h2
  simp only [validateMessage, St.eval, Expr.eval] at h1
  have : (St.report st []).queueError .error "message" = st2 := Option.some.inj h1
  subst this
  have := Armips.clean_queue hc
  simp [ErrorType.mild] at this

theorem good_cond {P : ParseEnv} {k : Nat} {e : Expr} {x : Int} {a b : Cmd} {st : St} {Q : List (BitVec 32) → St → Prop}
    (hm : st.arch = .mips) (hx : Evaluates P.env .mips (st.ctx P.env) e (.int x))
    (ha : x ≠ 0 → ∀ st1, Frame P k st st1 → st1.virt = st.virt → st1.archSt = st.archSt → Good P k a st1 Q)
    (hb : x = 0 → ∀ st1, Frame P k st st1 → st1.virt = st.virt → st1.archSt = st.archSt → Good P k b st1 Q) :
    Good P k (.cond (.if_ e) a b) st Q := by
  intro passes nf m m' st' r hv hc
  obtain ⟨prev, m1, m2⟩ := m
  obtain ⟨ds, hx, hn⟩ := hx
  obtain ⟨f1, f2, f3, f4, f5, f6⟩ := report_fields st ds
  have hfr : Frame P k st (st.report ds) := .of_eq f1 f3
  simp only [validate, evalCond, St.evalInt, St.eval, hm, hx] at hv
  by_cases h0 : x = 0
  · have : decide (x ≠ 0) = false := by simp [h0]
    rw [this] at hv
    simp only at hv
    split at hv
    · exact nomatch hv
    · rename_i h2
      obtain ⟨rfl, rfl, rfl⟩ := some3 hv
      obtain ⟨hf, ws, he, hp, hq⟩ := hb h0 _ hfr f4 f2 _ _ _ _ _ _ h2 hc
      exact ⟨hfr.trans hf, ws, fun G f => by simp [encode, he], by rw [hp, f4], hq⟩
  · have : decide (x ≠ 0) = true := by simp [h0]
    rw [this] at hv
    simp only at hv
    split at hv
    · exact nomatch hv
    · rename_i h2
      obtain ⟨rfl, rfl, rfl⟩ := some3 hv
      obtain ⟨hf, ws, he, hp, hq⟩ := ha h0 _ hfr f4 f2 _ _ _ _ _ _ h2 hc
      exact ⟨hfr.trans hf, ws, fun G f => by simp [encode, he], by rw [hp, f4], hq⟩

theorem virt_advance {st : St} {n : Int} (hc : (st.advance n).Clean) : (st.advance n).virt = st.virt + n := by
  unfold St.advance St.liftFM at hc ⊢
  unfold St.virt FM.getVirtualAddress
  cases ha : st.fm.active with
  | none =>
    simp only [FM.advanceMemory, ha] at hc
    have := Armips.clean_queue (st := st) hc
    simp [ErrorType.mild] at this
  | some i =>
    simp only [FM.advanceMemory, ha, FM.seekVirtualAFile] at hc ⊢
    split at hc
    · have := Armips.clean_queue (st := st) hc
      simp [ErrorType.mild] at this
    · rename_i h1
      rw [if_neg h1]
      simp only [FM.setFile]
      have hact : (if (st.fm.files i).virtualAddress + n < 0 then
          st.fm.queueError ErrorType.warning "Seeking to negative virtual address" else st.fm).active = some i := by
        split <;> exact ha
      rw [hact]
      simp

/-- An instruction. -/
theorem good_instr {P : ParseEnv} {k : Nat} {op : Op} {o : Operands} {st : St} :
    Good P k (.instr (sem P.env P.cfg op o)) st fun ws st' => ∃ nop w,
      ws = (if nop then [0#32] else []) ++ [w] ∧ Mips.Emits (sem P.env P.cfg op o) (st.ctx P.env) st.archSt nop w ∧
      st'.archSt = nextState P.cfg op (omitted op o.regs) st.archSt := by
  intro passes nf m m' st' r hv hc
  simp only [validate, validateInstr] at hv
  cases hr : (sem P.env P.cfg op o).run (st.ctx P.env) st.archSt with
  | ub => rw [hr] at hv; exact nomatch hv
  | ok x ds =>
    obtain ⟨out, as⟩ := x
    rw [hr] at hv
    simp only at hv
    obtain ⟨rfl, hst, rfl⟩ := some3 hv
    obtain ⟨f1, f2, f3, f4, f5, f6⟩ := report_fields st ds
    have g : ∃ st2 : St, st' = st2.advance out.size ∧ st2.arch = st.arch ∧ st2.syms = st.syms ∧ st2.virt = st.virt ∧
        st2.archSt = as ∧ st2.fm = (st.report ds).fm := by
      refine ⟨_, hst.symm, ?_⟩
      split
      · exact ⟨f1, f3, f4, rfl, rfl⟩
      · exact ⟨f1, f3, f4, rfl, rfl⟩
    clear hst
    obtain ⟨st2, rfl, g⟩ := g
    have hc2 : st2.Clean := hc.quiet (St.le_advance _ _)
    have hcr : (st.report ds).Clean := by unfold St.Clean; rw [← g.2.2.2.2]; exact hc2
    have hclean : Clean ((sem P.env P.cfg op o).run (st.ctx P.env) st.archSt) (out, as) := by
      refine ⟨ds, hr, fun d hd => ?_⟩
      have := clean_report hcr d hd
      cases ht : d.type <;> simp_all
    have hacc : Accepts (sem P.env P.cfg op o) (st.ctx P.env) st.archSt out := ⟨as, hclean⟩
    obtain ⟨prim, sec, rfl, hk, hs⟩ := accepts_mips hacc
    have has : as = nextState P.cfg op (omitted op o.regs) st.archSt := by
      unfold sem at hclean
      simp only [clean_bind, clean_pure] at hclean
      obtain ⟨r, h1, h2⟩ := hclean
      obtain ⟨prim, sec, rfl, -, -⟩ := Armips.Mips.clean_validate h1
      exact (Prod.mk.inj h2).2.symm
    refine ⟨.of_eq (by exact g.1) (by exact g.2.1), _, ?_, ?_,
      _, _, rfl, Props.mips_emits_of (k := ⟨_, prim, sec⟩) hacc, ?_⟩
    · intro G f
      simp only [encode, outcome, written]
      cases (hazard P.cfg op (omitted op o.regs) st.archSt && P.cfg.fixLoadDelay) <;> rfl
    · rw [virt_advance hc, g.2.2.1]
      simp only [outcome, size]
      cases (hazard P.cfg op (omitted op o.regs) st.archSt && P.cfg.fixLoadDelay) <;> rfl
    · rw [← has, ← g.2.2.2.1]; rfl

theorem modify_id (ls : List Label) (i : Nat) : ls.modify i (fun l => l) = ls := List.modify_id i ls

theorem defines {st : St} {id : Nat} {l : Label} (hl : st.label id = some l) (d : Bool) :
    let st0 : St := if d then st else { st with syms := st.syms.modifyLabel id fun l => { l with defined := true } }
    let st1 : St := if l.value ≠ st0.virt then
      { st0 with syms := st0.syms.modifyLabel id fun l => { l with value := st0.virt } } else st0
    let st2 : St := if l.physicalValue ≠ some st0.phys then
      { st1 with syms := st1.syms.modifyLabel id fun l => { l with physicalValue := some st0.phys } } else st1
    st2.arch = st.arch ∧ st2.archSt = st.archSt ∧ st2.virt = st.virt ∧ st2.syms.symbols = st.syms.symbols ∧
    st2.syms.labels.length = st.syms.labels.length ∧
    (∃ l', st2.syms.labels[id]? = some l' ∧ (d = false ∨ l.defined = true → l'.defined = true) ∧ l'.value = st.virt) ∧
    (∀ i, i ≠ id → st2.syms.labels[i]? = st.syms.labels[i]?) := by
  have hl : st.syms.labels[id]? = some l := hl
  have hne : ∀ i, i ≠ id → ∀ (ls : List Label) g, (ls.modify id g)[i]? = ls[i]? := by
    intro i hi ls g
    rw [List.getElem?_modify]
    simp [Ne.symm hi]
  have hlen : ∀ (ls : List Label) g, (ls.modify id g).length = ls.length := by simp
  have heq : ∀ (ls : List Label) g, (ls.modify id g)[id]? = ls[id]?.map g := by
    intro ls g; rw [List.getElem?_modify]; simp
  intro st0 st1 st2
  have e0 : st0.virt = st.virt := by simp only [st0]; split <;> rfl
  have e1 : st0.phys = st.phys := by simp only [st0]; split <;> rfl
  have hcases : (st2.arch = st.arch ∧ st2.archSt = st.archSt ∧ st2.fm = st.fm ∧ st2.syms.symbols = st.syms.symbols) ∧
      ∃ g1 g2 g3 : Label → Label, st2.syms.labels = ((st.syms.labels.modify id g1).modify id g2).modify id g3 ∧
        (d = false ∨ l.defined = true → (g3 (g2 (g1 l))).defined = true) ∧ (g3 (g2 (g1 l))).value = st.virt := by
    refine ⟨?_, (if d then (fun l => l) else fun l => { l with defined := true }),
      (if l.value ≠ st0.virt then (fun l => { l with value := st0.virt }) else fun l => l),
      (if l.physicalValue ≠ some st0.phys then (fun l => { l with physicalValue := some st0.phys }) else fun l => l), ?_, ?_, ?_⟩
    · simp only [st2, st1, st0]; (repeat' split) <;> exact ⟨rfl, rfl, rfl, rfl⟩
    · simp only [st2, st1, SymTab.modifyLabel]
      have h0 : st0.syms.labels = st.syms.labels.modify id (if d then (fun l => l) else fun l => { l with defined := true }) := by
        simp only [st0, SymTab.modifyLabel]
        split
        · exact (modify_id _ _).symm
        · rfl
      rw [← h0]
      split <;> split <;> simp only [modify_id]
    · split <;> split <;> split <;> simp_all
    · rw [← e0]; split <;> split <;> split <;> simp_all
  obtain ⟨⟨c1, c2, c3, c4⟩, g1, g2, g3, c5, c6, c7⟩ := hcases
  refine ⟨c1, c2, ?_, c4, ?_, ⟨g3 (g2 (g1 l)), ?_, c6, c7⟩, ?_⟩
  · unfold St.virt; rw [c3]
  · rw [c5, hlen, hlen, hlen]
  · rw [c5, heq, heq, heq, hl]; rfl
  · intro i hi; rw [c5, hne i hi, hne i hi, hne i hi]

/-- A macro: the label at its start, and the rest. -/
theorem run_macro {P : ParseEnv} {k : Nat} {w i : Bool} {content : Cmd} {st : St} {Q : List (BitVec 32) → St → Prop} {D : Prop}
    (h : ∀ st1, Frame P k st st1 → st1.virt = st.virt → st1.archSt = st.archSt →
      (∃ l, st1.syms.labels[(P.labels k).id]? = some l ∧ (D → l.defined = true) ∧ l.value = st.virt) →
      (∀ i, i ≠ (P.labels k).id → st1.syms.labels[i]? = st.syms.labels[i]?) →
      Good P (k + 1) content st1 Q)
    (hQ : ∀ ws a b, a.archSt = b.archSt → a.arch = b.arch → a.syms = b.syms → a.virt = b.virt → Q ws a → Q ws b)
    {passes nf} {m1 : Bool} {m2 m' : content.Mem} {d' : Bool} {st' r}
    (hD : D → m1 = false ∨ ∃ l, st.syms.labels[(P.labels k).id]? = some l ∧ l.defined = true)
    (hv : validate P.env passes (.mipsMacro w i (.cons (.label (P.labels k).id none) content)) nf (m1, m2) st =
      some ((d', m'), st', r)) (hc : st'.Clean) :
    Frame P k st st' ∧ ∃ ws,
      (∀ G f, encode G (.mipsMacro w i (.cons (.label (P.labels k).id none) content)) (d', m') f =
        some (writeUnits f (ws.map unit))) ∧
      st'.virt = st.virt + 4 * ws.length ∧ Q ws st' := by
  simp only [validate] at hv
  split at hv
  · exact nomatch hv
  · rename_i mm st3 r3 h3
    split at h3
    · exact nomatch h3
    · rename_i d st1 r1 h1
      split at h3
      · exact nomatch h3
      · rename_i mc st2 r2 h2
        obtain ⟨rfl, rfl, rfl⟩ := some3 h3
        obtain ⟨hmm, hend, -⟩ := some3 hv
        cases hmm
        -- the warnings at the end change nothing
        have hq : st'.arch = st2.arch ∧ st'.archSt = st2.archSt ∧ st'.syms = st2.syms ∧ st'.virt = st2.virt ∧ St.Le st2 st' := by
          subst hend
          split <;> split
          · exact ⟨rfl, rfl, rfl, rfl, (St.le_queueError _ _ _).le.trans (St.le_queueError _ _ _).le⟩
          · exact ⟨rfl, rfl, rfl, rfl, (St.le_queueError _ _ _).le⟩
          · exact ⟨rfl, rfl, rfl, rfl, (St.le_queueError _ _ _).le⟩
          · exact ⟨rfl, rfl, rfl, rfl, .refl _⟩
        clear hend hv
        obtain ⟨q1, q2, q3, q4, q5⟩ := hq
        have hc2 : st2.Clean := hc.mono q5
        have hc1 : st1.Clean := hc2.mono (le_validate h2)
        -- the label
        have hl : st1.arch = st.arch ∧ st1.archSt = st.archSt ∧ st1.virt = st.virt ∧ st1.syms.symbols = st.syms.symbols ∧
            st1.syms.labels.length = st.syms.labels.length ∧
            (∃ l, st1.syms.labels[(P.labels k).id]? = some l ∧ (D → l.defined = true) ∧ l.value = st.virt) ∧
            (∀ i, i ≠ (P.labels k).id → st1.syms.labels[i]? = st.syms.labels[i]?) := by
          unfold validateLabel at h1
          split at h1
          · exact nomatch h1
          · rename_i l hl
            split at h1
            · obtain ⟨-, rfl, -⟩ := some3 h1
              have := Armips.clean_queue hc1
              simp [ErrorType.mild] at this
            · rename_i hdup
              simp only at h1
              obtain ⟨-, rfl, -⟩ := some3 h1
              obtain ⟨x1, x2, x3, x4, x5, ⟨l', x6, x7, x8⟩, x9⟩ := defines hl m1
              refine ⟨x1, x2, x3, x4, x5, ⟨l', x6, fun hd => x7 ?_, x8⟩, x9⟩
              rcases hD hd with h | ⟨l2, h, h'⟩
              · exact .inl h
              · have hl : st.syms.labels[(P.labels k).id]? = some l := hl
                rw [hl] at h
                cases h
                exact .inr h'
        obtain ⟨l1, l2, l3, l4, l5, l6, l7⟩ := hl
        have hf1 : Frame P k st st1 := ⟨l1, l4, l5, fun i hi => l7 i (hi k (Nat.le_refl k))⟩
        obtain ⟨hf, ws, he, hp, hw⟩ := h st1 hf1 l3 l2 l6 l7 _ _ _ _ _ _ h2 hc2
        have hf4 : Frame P k st2 st' := .of_eq q1 q3
        refine ⟨(hf1.trans (hf.weaken (Nat.le_succ k))).trans hf4, ws, fun G f => ?_, ?_, hQ ws st2 st' q2.symm q1.symm q3.symm q4.symm hw⟩
        · simp only [encode, he]
        · rw [q4, hp, l3]

theorem good_macro {P : ParseEnv} {k : Nat} {w i : Bool} {content : Cmd} {st : St} {Q : List (BitVec 32) → St → Prop}
    (h : ∀ st1, Frame P k st st1 → st1.virt = st.virt → st1.archSt = st.archSt → Good P (k + 1) content st1 Q)
    (hQ : ∀ ws a b, a.archSt = b.archSt → a.arch = b.arch → a.syms = b.syms → a.virt = b.virt → Q ws a → Q ws b) :
    Good P k (.mipsMacro w i (.cons (.label (P.labels k).id none) content)) st Q := by
  intro passes nf m m' st' r hv hc
  obtain ⟨m1, m2⟩ := m
  obtain ⟨d', m'⟩ := m'
  exact run_macro (D := False) (fun st1 h1 h2 h3 _ _ => h st1 h1 h2 h3) hQ (fun h => h.elim) hv hc

end Armips.MacroProof
