import Verif.Lemmas.MipsText
/-! A line that is a macro: the label at its beginning, and the words that are written for it. -/
namespace Armips.MacroProof
open Spec Spec.Instr Spec.Macro Spec.Isa
open Spec.Layout (unitBytes intBytes)
open Props (At)
open Armips.Mips hiding validate encode names

/-! ## The words are determined by what is written -/

theorem toLE_inj {n a b : Nat} (h : toLE n a = toLE n b) : a % 256 ^ n = b % 256 ^ n := by
  rw [← fromLE_toLE, ← fromLE_toLE, h]

theorem units_inj : ∀ {a b : List (BitVec 32)}, unitBytes .little (a.map unit) = unitBytes .little (b.map unit) → a = b
  | [], [], _ => rfl
  | [], w :: b, h => by
    have := congrArg List.length h
    simp [unitBytes, unit, intBytes, Width.bytes] at this
    omega
  | w :: a, [], h => by
    have := congrArg List.length h
    simp [unitBytes, unit, intBytes, Width.bytes] at this
  | w :: a, x :: b, h => by
    simp only [unitBytes, List.map_cons, List.flatMap_cons] at h
    have hl : (intBytes .little (unit w).1.bytes (unit w).2).length = (intBytes .little (unit x).1.bytes (unit x).2).length := by
      simp [intBytes, unit, Width.bytes]
    obtain ⟨h1, h2⟩ := List.append_inj h hl
    have := units_inj (a := a) (b := b) h2
    rw [this]
    have h3 := toLE_inj (show toLE 4 _ = toLE 4 _ from h1)
    simp only [unit, Width.bytes] at h3
    have e : w.toNat = x.toNat := by have := w.isLt; have := x.isLt; omega
    rw [BitVec.eq_of_toNat_eq e]

/-- An empty file. -/
def emptyFile : FM where
  active := some 0
  files _ := { mode := .create, originalHeaderSize := 0, headerSize := 0, virtualAddress := 0, stream := some 0, fileName := "" }
  disk _ := some []

theorem write_empty (bytes : List Byte) : ((emptyFile.write bytes).1.disk "") = some bytes := by
  simp only [emptyFile, FM.write, FM.writeAFile, FM.setDisk, FM.setFile, writeAt]
  cases bytes <;> simp

theorem words_unique {a b : List (BitVec 32)} (h : ∀ f, writeUnits f (a.map unit) = writeUnits f (b.map unit)) : a = b := by
  have hs : (emptyFile.disk (emptyFile.files 0).fileName).isSome = true := rfl
  have h1 := h emptyFile
  have hat : At emptyFile 0 ⟨0, 0⟩ := ⟨rfl, rfl, rfl, rfl⟩
  rw [writeUnits_eq hat hs, writeUnits_eq hat hs] at h1
  have h2 := congrArg (fun m : FM => m.disk "") h1
  simp only [write_empty] at h2
  exact units_inj (Option.some.inj h2)

/-! ## The operands -/

/-- Where the content of a macro begins. -/
structure Entry (P : ParseEnv) (k : Nat) (st st1 : St) : Prop where
  frame : Frame P k st st1
  virt : st1.virt = st.virt
  archSt : st1.archSt = st.archSt
  label : ∃ l, st1.syms.labels[(P.labels k).id]? = some l ∧ l.defined = true ∧ l.value = st.virt
  others : ∀ i, i ≠ (P.labels k).id → st1.syms.labels[i]? = st.syms.labels[i]?

theorem Entry.mips {P : ParseEnv} {k : Nat} {st st1 : St} (h : Entry P k st st1) (hm : st.arch = .mips) : st1.arch = .mips :=
  h.frame.arch.trans hm

theorem Entry.settled {P : ParseEnv} {k : Nat} {st st1 : St} (h : Entry P k st st1) (hs : Settled P st) : Settled P st1 := by
  unfold Settled at *
  rw [h.archSt]
  exact hs

theorem plain_un {op : UnOp} {a : Expr} (h : plain (.un op a) = true) : plain a = true := by
  cases a with
  | int v => simp only [plain, decide_eq_true_eq] at h ⊢; omega
  | _ => exact h

theorem plain_un_of {op : UnOp} {a : Expr} (h : plain a = true) (hn : ∀ v, a ≠ .int v) : plain (.un op a) = true := by
  cases a with
  | int v => exact absurd rfl (hn _)
  | _ => exact h

theorem dotted_un (l : MacroLabel) (op : UnOp) (a : Expr) : dotted l (.un op a) = .un op (dotted l a) := by
  simp only [dotted, Expr.replaceMemoryPos]
theorem dotted_bin (l : MacroLabel) (op : BinOp) (a b : Expr) : dotted l (.bin op a b) = .bin op (dotted l a) (dotted l b) := by
  simp only [dotted, Expr.replaceMemoryPos]
theorem dotted_cond (l : MacroLabel) (a b c : Expr) : dotted l (.cond a b c) = .cond (dotted l a) (dotted l b) (dotted l c) := by
  simp only [dotted, Expr.replaceMemoryPos]

theorem dotted_int {l : MacroLabel} {a : Expr} {v : Int} (h : dotted l a = .int v) : a = .int v := by
  cases a <;> simp [dotted, Expr.replaceMemoryPos] at h
  rw [h]

theorem plain_dotted {l : MacroLabel} : ∀ {e : Expr}, plain e = true → settled (dotted l e) = true ∧ plain (dotted l e) = true
  | .int v, h => ⟨rfl, h⟩
  | .ident _ _ _, _ => ⟨rfl, rfl⟩
  | .memoryPos, _ => ⟨rfl, rfl⟩
  | .un op a, h => by
    obtain ⟨h1, h2⟩ := plain_dotted (l := l) (plain_un h)
    rw [dotted_un]
    refine ⟨h1, ?_⟩
    by_cases hv : ∃ v, a = .int v
    · obtain ⟨v, rfl⟩ := hv
      exact h
    · exact plain_un_of h2 fun v he => hv ⟨v, dotted_int he⟩
  | .bin op a b, h => by
    simp only [plain, Bool.and_eq_true] at h
    have h1 := plain_dotted (l := l) h.1
    have h2 := plain_dotted (l := l) h.2
    rw [dotted_bin]
    exact ⟨by simp only [settled, h1.1, h2.1, Bool.and_true], by simp only [plain, h1.2, h2.2, Bool.and_true]⟩
  | .cond a b c, h => by
    simp only [plain, Bool.and_eq_true] at h
    have h1 := plain_dotted (l := l) h.1.1
    have h2 := plain_dotted (l := l) h.1.2
    have h3 := plain_dotted (l := l) h.2
    rw [dotted_cond]
    exact ⟨by simp only [settled, h1.1, h2.1, h3.1, Bool.and_true], by simp only [plain, h1.2, h2.2, h3.2, Bool.and_true]⟩
  | .invalid, h => nomatch h
  | .float _, h => nomatch h
  | .str _, h => nomatch h
  | .toString_ _, h => nomatch h
  | .call _ _, h => nomatch h

theorem virt_ctx (E : Env) (st : St) : (st.ctx E).virtualAddress = st.virt := by
  simp only [Ctx.virtualAddress, St.ctx, St.virt, FM.getVirtualAddress]
  cases st.fm.active <;> rfl

theorem ctx_label_of {E : Env} {st : St} {n : Str} {f s : Int} {i : Nat} (h : (st.syms.getLabel n f s).2 = some i) :
    (st.ctx E).label n f s = (st.syms.getLabel n f s).1.labels[i]? := by
  simp only [St.ctx]
  generalize st.syms.getLabel n f s = x at h
  obtain ⟨t, o⟩ := x
  simp only at h
  subst h
  rfl

theorem getLabel_labels {t : SymTab} {n : Str} {f s : Int} {i : Nat} {l : Label} (h : t.labels[i]? = some l) :
    (t.getLabel n f s).1.labels[i]? = some l := by
  simp only [SymTab.getLabel]
  split
  · exact h
  · split
    · simp only
      rw [List.getElem?_append_left]
      · exact h
      · exact (List.getElem?_eq_some_iff.1 h).1
    · exact h
    · exact h

theorem eval_dotted {P : ParseEnv} {k : Nat} {st st1 : St} (hn : Entry P k st st1) (hl : Labels P k st) :
    ∀ {e : Expr}, plain e = true → Usual P k st e →
      (dotted (P.labels k) e).eval P.env.host (P.env.funcs .mips) (st1.ctx P.env) =
        e.eval P.env.host (P.env.funcs .mips) (st.ctx P.env)
  | .int v, _, _ => by simp only [dotted, Expr.replaceMemoryPos, Expr.eval]
  | .ident n f s, _, hu => by
    have := hn.frame.label (n := n) (f := f) (s := s) (hu (n, f, s) (by simp [symbolsIn]))
    simp only [dotted, Expr.replaceMemoryPos, Expr.eval, this]
  | .memoryPos, _, _ => by
    obtain ⟨l, h1, h2, h3⟩ := hn.label
    have h4 : (st1.syms.getLabel (P.labels k).name (P.labels k).file (P.labels k).section_).2 = some (P.labels k).id := by
      rw [hn.frame.index]; exact hl.found
    have h5 := ctx_label_of (E := P.env) h4
    rw [getLabel_labels h1] at h5
    simp only [dotted, Expr.replaceMemoryPos, Expr.eval, h5, h2, h3, virt_ctx]
    rfl
  | .un op a, h, hu => by
    have := eval_dotted hn hl (e := a) (plain_un h) hu
    rw [dotted_un]
    simp only [Expr.eval, this]
  | .bin op a b, h, hu => by
    simp only [plain, Bool.and_eq_true] at h
    have h1 := eval_dotted hn hl h.1 fun x hx => hu x (by simp [symbolsIn, hx])
    have h2 := eval_dotted hn hl h.2 fun x hx => hu x (by simp [symbolsIn, hx])
    rw [dotted_bin]
    simp only [Expr.eval, h1, h2]
  | .cond a b c, h, hu => by
    simp only [plain, Bool.and_eq_true] at h
    have h1 := eval_dotted hn hl h.1.1 fun x hx => hu x (by simp [symbolsIn, hx])
    have h2 := eval_dotted hn hl h.1.2 fun x hx => hu x (by simp [symbolsIn, hx])
    have h3 := eval_dotted hn hl h.2 fun x hx => hu x (by simp [symbolsIn, hx])
    rw [dotted_cond]
    simp only [Expr.eval, h1, h2, h3]
  | .invalid, h, _ => nomatch h
  | .float _, h, _ => nomatch h
  | .str _, h, _ => nomatch h
  | .toString_ _, h, _ => nomatch h
  | .call _ _, h, _ => nomatch h

theorem symbols_dotted {l : MacroLabel} : ∀ {e : Expr}, plain e = true → ∀ x ∈ symbolsIn (dotted l e),
    x ∈ symbolsIn e ∨ x = (l.name, l.file, l.section_)
  | .int v, _, x, hx => by simp [dotted, Expr.replaceMemoryPos, symbolsIn] at hx
  | .ident _ _ _, _, x, hx => .inl hx
  | .memoryPos, _, x, hx => by
    simp only [dotted, Expr.replaceMemoryPos, symbolsIn, List.mem_singleton] at hx
    exact .inr hx
  | .un op a, h, x, hx => by
    rw [dotted_un] at hx
    exact symbols_dotted (e := a) (plain_un h) x hx
  | .bin op a b, h, x, hx => by
    simp only [plain, Bool.and_eq_true] at h
    rw [dotted_bin] at hx
    simp only [symbolsIn, List.mem_append] at hx ⊢
    rcases hx with hx | hx
    · exact (symbols_dotted h.1 x hx).imp .inl id
    · exact (symbols_dotted h.2 x hx).imp .inr id
  | .cond a b c, h, x, hx => by
    simp only [plain, Bool.and_eq_true] at h
    rw [dotted_cond] at hx
    simp only [symbolsIn, List.mem_append] at hx ⊢
    rcases hx with (hx | hx) | hx
    · exact (symbols_dotted h.1.1 x hx).imp (fun h => .inl (.inl h)) id
    · exact (symbols_dotted h.1.2 x hx).imp (fun h => .inl (.inr h)) id
    · exact (symbols_dotted h.2 x hx).imp .inr id
  | .invalid, h, _, _ => nomatch h
  | .float _, h, _, _ => nomatch h
  | .str _, h, _, _ => nomatch h
  | .toString_ _, h, _, _ => nomatch h
  | .call _ _, h, _, _ => nomatch h

/-- An operand keeps its value in the macro. -/
theorem reads_dotted {P : ParseEnv} {k : Nat} {st st1 : St} {e : Expr} {v : Int} (hn : Entry P k st st1) (hl : Labels P k st)
    (hp : plain e = true) (hu : Usual P k st e) (hv : HasValue P st e v) : Reads P (k + 1) st1 (dotted (P.labels k) e) v := by
  refine ⟨(plain_dotted hp).1, ?_, ⟨?_, hv.2⟩, (plain_dotted hp).2⟩
  · intro x hx j hj
    rw [hn.frame.index]
    rcases symbols_dotted hp x hx with h | h
    · exact hu x h j (by omega)
    · subst h
      simp only
      rw [hl.found]
      intro he
      have := hl.distinct _ _ (Option.some.inj he)
      omega
  · unfold Evaluates
    rw [eval_dotted hn hl hp hu]
    exact hv.1

/-! ## The line -/

/-- Whether a line is accepted in the first pass. -/
def accepted (P : ParseEnv) (k : Nat) (name : String) (ts : List Tok) (st : St) : Bool :=
  match parseLine P 3 name ts k with
  | none => false
  | some (c, _) =>
    match validate P.env 1 c false c.init st with
    | none => false
    | some (_, st', _) => (st'.fm.log.suppressLevel == 0 && !st'.fm.log.error) &&
      st'.fm.log.queue.all fun e => e.1 == .warning || e.1 == .notice

/-- What the words of a macro do, given what its text does. -/
theorem macro_does {P : ParseEnv} {k : Nat} {name : String} {ts : List Tok} {st st' : St} {ws : List (BitVec 32)}
    (hA : Assembles P k name ts st st' ws) {kind : Kind} {p : Parsed} (hf : findMacro name ts = some (kind, p))
    {Q : List (BitVec 32) → St → Prop}
    (hQ : ∀ ws a b, a.archSt = b.archSt → a.arch = b.arch → a.syms = b.syms → a.virt = b.virt → Q ws a → Q ws b)
    (h : ∀ d t, kind.text P (P.labels k) p = some t → ∀ st1, Entry P k st st1 → TGood P d (k + 1) t st1 Q) :
    Q ws st' ∧ st'.virt = st.virt + 4 * ws.length := by
  obtain ⟨depth, c, k', h1, passes, nf, m, m', r, h2, h3, h4⟩ := hA.accepted
  obtain ⟨d, t, content, -, ht, hp, rfl⟩ := line_macro hf h1
  have hc : st'.Clean := ⟨hA.clean.1, hA.clean.2.1, fun e he => by
    rcases hA.clean.2.2 e he with h | h <;> rw [h] <;> rfl⟩
  obtain ⟨m1, m2⟩ := m
  obtain ⟨d', m'⟩ := m'
  obtain ⟨-, ws', he, hv, hq⟩ := run_macro (D := True) (Q := Q)
    (fun st1 f1 f2 f3 ⟨l, f4, f5, f6⟩ f7 => h d t ht st1 ⟨f1, f2, f3, ⟨l, f4, f5 trivial, f6⟩, f7⟩ _ _ _ (Nat.le_refl _) hp) hQ
    (fun _ => h3.imp (fun h => by
      have := congrArg Prod.fst h
      exact this) id) h2 hc
  have : ws = ws' := words_unique fun f => by
    have a := h4 st f
    have b := he st f
    rw [a] at b
    exact Option.some.inj b
  subst this
  exact ⟨hq, hv⟩

/-- Some words are written for an accepted line. -/
theorem macro_exists {P : ParseEnv} {k : Nat} {name : String} {ts : List Tok} {st : St} (hm : st.arch = .mips)
    {kind : Kind} {p : Parsed} (hf : findMacro name ts = some (kind, p))
    (hs : accepted P k name ts st = true)
    (h : ∀ d t, kind.text P (P.labels k) p = some t → ∀ st1, Entry P k st st1 → TGood P d (k + 1) t st1 fun _ _ => True) :
    ∃ st' ws, Assembles P k name ts st st' ws := by
  unfold accepted at hs
  split at hs
  · cases hs
  · rename_i c k' h1
    split at hs
    · cases hs
    · rename_i m' st' r h2
      simp only [Bool.and_eq_true, beq_iff_eq, Bool.not_eq_true', List.all_eq_true, Bool.or_eq_true] at hs
      obtain ⟨⟨hs1, hs2⟩, hs3⟩ := hs
      have hc : st'.Clean := ⟨hs1, hs2, fun e he => by rcases hs3 e he with h | h <;> rw [h] <;> rfl⟩
      obtain ⟨d, t, content, -, ht, hp, rfl⟩ := line_macro hf h1
      obtain ⟨d', m'⟩ := m'
      obtain ⟨-, ws', he, hv, hq⟩ := run_macro (D := True) (Q := fun _ _ => True)
        (fun st1 f1 f2 f3 ⟨l, f4, f5, f6⟩ f7 => h d t ht st1 ⟨f1, f2, f3, ⟨l, f4, f5 trivial, f6⟩, f7⟩ _ _ _ (Nat.le_refl _) hp)
        (fun _ _ _ _ _ _ _ _ => trivial) (fun _ => .inl rfl) h2 hc
      exact ⟨st', ws', hm, ⟨hs1, hs2, hs3⟩, 3, _, k', h1, 1, false, _, _, r, h2, .inl rfl, he⟩

/-- A macro in the text of another one. -/
theorem tgood_macro {P : ParseEnv} {d k₀ : Nat} {name : String} {ts : List Tok} {st : St} {kind : Kind} {p : Parsed}
    (hf : findMacro name ts = some (kind, p)) {Q : List (BitVec 32) → St → Prop}
    (hQ : ∀ ws a b, a.archSt = b.archSt → a.arch = b.arch → a.syms = b.syms → a.virt = b.virt → Q ws a → Q ws b)
    (h : ∀ d k t, k₀ ≤ k → kind.text P (P.labels k) p = some t → ∀ st1, Frame P k st st1 → st1.virt = st.virt → st1.archSt = st.archSt →
      TGood P d (k + 1) t st1 Q) : TGood P d k₀ (.line name ts) st Q := by
  intro k c k' hk hp'
  obtain ⟨d', t, content, -, ht, hp, rfl⟩ := line_macro hf hp'
  refine (good_macro (fun st1 f1 f2 f3 => ?_) hQ).mono hk fun _ _ _ _ h => h
  exact h d' k t hk ht st1 f1 f2 f3 _ _ _ (Nat.le_refl _) hp

set_option maxRecDepth 4000 in
theorem find_li (n : String) (hn : n = "li" ∨ n = "la") (r : Nat) (e : Expr) :
    findMacro n [.reg r, .comma, .imm e] = some (.li true true, { grs := some r, sec := some e }) := by
  rcases hn with rfl | rfl <;> rfl

theorem li_operand_plain {E : Env} {e : Expr} (h : plain e = true) : liOperand E e = e := by
  cases e <;> first | rfl | exact nomatch h

theorem li_kind {P : ParseEnv} {l : MacroLabel} {u lo : Bool} {r : Nat} {e : Expr} {t : Text}
    (h : Kind.text P l (.li u lo) { grs := some r, sec := some e } = some t) :
    plain (liOperand P.env e) = true ∧ t = liText u lo r (dotted l (liOperand P.env e)) := by
  simp only [Kind.text, printed, Option.map_some] at h
  by_cases hp : plain (liOperand P.env e) = true
  · simp only [hp, if_true] at h
    cases h
    exact ⟨hp, rfl⟩
  · simp only [hp] at h
    exact nomatch h

/-- `li` in the text of another macro. -/
theorem tgood_li_line {P : ParseEnv} {d k₀ : Nat} {st : St} (hE : Functions P.env) {r : Nat} {e : Expr} {v : Int}
    (hr : r < 32) (hm : st.arch = .mips) (hv : Reads P k₀ st e v) :
    TGood P d k₀ (ri "li" r e) st fun ws st' =>
      (∀ be m, exec be ws m = some (m.set r (BitVec.ofInt 32 v))) ∧ Settled P st' := by
  refine tgood_macro (find_li "li" (.inl rfl) r e) ?_ ?_
  · rintro ws a b h1 h2 h3 h4 ⟨h5, h6⟩
    refine ⟨h5, ?_⟩
    unfold Settled at *
    rw [← h1]; exact h6
  · intro d k t hk ht st1 f1 _ _
    obtain ⟨-, rfl⟩ := li_kind ht
    rw [li_operand_plain hv.plain, dotted_settled hv.settled]
    have hv1 := ((hv.weaken hk).frame f1).weaken (Nat.le_succ k)
    refine TGood.mono (tgood_li hE hr (f1.arch.trans hm) hv1) ?_
    rintro ws st' - - ⟨⟨h1, h2⟩, -⟩
    refine ⟨fun be m => ?_, h2 rfl rfl⟩
    rw [h1]
    simp only [liParts, if_true, li_both]

end Armips.MacroProof
