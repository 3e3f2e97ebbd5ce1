import Verif.Lemmas.MipsEntry
import Verif.Spec.MipsMacroSample
/-!
# `li` and `la` (C29)

The words that are written for `li r,imm` leave the immediate, modulo 2^32, in the register and change nothing else, on
every processor and in both byte orders; so do those of `li.u r,imm` and, later, `li.l r,imm`. Larger immediates are refused.
-/
namespace Armips.Props
open Spec Spec.Instr Spec.Macro Spec.Isa MacroProof Sample
open Armips.Mips (ParseEnv Tok Kind Parsed plain Config Version)

/-- What is fixed about the operands of a macro: the registers exist, the functions that the macros use are those of the
assembler, and no operand is one of the labels that the assembler makes up for macros. -/
structure Ordinary (P : ParseEnv) (k : Nat) (st : St) (es : List Expr) : Prop where
  functions : Functions P.env
  labels : Labels P k st
  usual : ∀ e ∈ es, Usual P k st e

theorem settled_same {P : ParseEnv} {a b : St} (h : a.archSt = b.archSt) (hs : Settled P a) : Settled P b := by
  unfold Settled at *
  rw [← h]; exact hs

theorem li_general {P : ParseEnv} {k : Nat} {name : String} {u l : Bool} {r : Nat} {e : Expr} {v : Int} {st st' : St}
    {ws : List (BitVec 32)}
    (hf : Mips.findMacro name [.reg r, .comma, .imm e] = some (.li u l, { grs := some r, sec := some e }))
    (ho : Ordinary P k st [e]) (hr : r < 32) (hv : HasValue P st (Mips.liOperand P.env e) v)
    (hA : Assembles P k name [.reg r, .comma, .imm e] st st' ws) :
    (∀ be m, exec be ws m = some (liParts u l r v m)) ∧ v.natAbs ≤ 0xFFFFFFFF := by
  refine (macro_does (Q := fun ws _ => (∀ be m, exec be ws m = some (liParts u l r v m)) ∧ v.natAbs ≤ 0xFFFFFFFF)
    hA hf (fun _ _ _ _ _ _ _ h => h) fun d t ht st1 hn => ?_).1
  obtain ⟨hp, rfl⟩ := li_kind ht
  have hu : Usual P k st (Mips.liOperand P.env e) := by
    cases e with
    | float x => intro y hy; simp [Mips.liOperand, symbolsIn] at hy
    | _ => exact ho.usual _ (by simp [Mips.liOperand])
  refine TGood.mono (tgood_li ho.functions hr (hn.mips hA.mips) (reads_dotted hn ho.labels hp hu hv)) ?_
  rintro ws st' - - ⟨⟨h1, -⟩, h2⟩
  exact ⟨h1, h2⟩

theorem li_plain {P : ParseEnv} {st : St} {e : Expr} {v : Int} (hv : HasValue P st e v) : HasValue P st (Mips.liOperand P.env e) v := by
  cases e with
  | float x =>
    exfalso
    have := hv.1
    obtain ⟨ds, h, -⟩ := this
    simp only [Expr.eval] at h
    cases h
  | _ => exact hv

/-- `li r,imm` and `la r,imm` leave the value of `imm` modulo 2^32 in register `r`, and change nothing else. -/
theorem mips_li_loads {P : ParseEnv} {k : Nat} {name : String} {r : Nat} {e : Expr} {v : Int} {st st' : St}
    {ws : List (BitVec 32)} (hn : name = "li" ∨ name = "la") (ho : Ordinary P k st [e]) (hr : r < 32) (hv : HasValue P st e v)
    (hA : Assembles P k name [.reg r, .comma, .imm e] st st' ws) (be : Bool) (m : Machine) :
    exec be ws m = some (m.set r (BitVec.ofInt 32 v)) := by
  rw [(li_general (find_li name hn r e) ho hr (li_plain hv) hA).1]
  simp only [liParts, if_true, li_both]

/-- A floating point constant is loaded as the bits of a single. -/
theorem mips_li_float {P : ParseEnv} {k : Nat} {name : String} {r : Nat} {x : BitVec 64} {st st' : St}
    {ws : List (BitVec 32)} (hn : name = "li" ∨ name = "la") (hE : Functions P.env) (hl : Labels P k st) (hr : r < 32)
    (hA : Assembles P k name [.reg r, .comma, .imm (.float x)] st st' ws) (be : Bool) (m : Machine) :
    exec be ws m = some (m.set r (BitVec.ofInt 32 (P.env.floatBits x))) := by
  have hv : HasValue P st (Mips.liOperand P.env (.float x)) (BitVec.ofInt 32 (P.env.floatBits x)).toInt := by
    refine ⟨ev_int _, ?_⟩
    generalize BitVec.ofInt 32 (P.env.floatBits x) = y
    have := y.toInt_lt
    have := y.le_toInt
    omega
  have h := (li_general (find_li name hn r _) ⟨hE, hl, fun e he => by
    simp only [List.mem_singleton] at he
    subst he
    intro y hy
    simp [symbolsIn] at hy⟩ hr hv hA).1
  rw [h]
  simp only [liParts, if_true, li_both]
  rw [BitVec.ofInt_toInt]

/-- Immediates of 2^32 or more in absolute value are refused. -/
theorem mips_li_range {P : ParseEnv} {k : Nat} {name : String} {r : Nat} {e : Expr} {v : Int} {st st' : St}
    {ws : List (BitVec 32)} (hn : name = "li" ∨ name = "la") (ho : Ordinary P k st [e]) (hr : r < 32) (hv : HasValue P st e v)
    (hA : Assembles P k name [.reg r, .comma, .imm e] st st' ws) : v.natAbs < 2 ^ 32 := by
  have := (li_general (find_li name hn r e) ho hr (li_plain hv) hA).2
  omega

set_option maxRecDepth 4000 in
theorem find_li_u (n : String) (hn : n = "li.u" ∨ n = "la.u") (r : Nat) (e : Expr) :
    Mips.findMacro n [.reg r, .comma, .imm e] = some (.li true false, { grs := some r, sec := some e }) := by
  rcases hn with rfl | rfl <;> rfl

set_option maxRecDepth 4000 in
theorem find_li_l (n : String) (hn : n = "li.l" ∨ n = "la.l") (r : Nat) (e : Expr) :
    Mips.findMacro n [.reg r, .comma, .imm e] = some (.li false true, { grs := some r, sec := some e }) := by
  rcases hn with rfl | rfl <;> rfl

/-- The two halves: after `li.u r,imm`, anything that keeps the register, and `li.l r,imm` with an immediate of the same value,
the register has the value of the immediate. `li.u` changes at most the register. -/
theorem mips_li_halves {P P' : ParseEnv} {k k' : Nat} {name name' : String} {r : Nat} {e e' : Expr} {v : Int} {st st' s s' : St}
    {ws ws' : List (BitVec 32)} (hn : name = "li.u" ∨ name = "la.u") (hn' : name' = "li.l" ∨ name' = "la.l")
    (ho : Ordinary P k st [e]) (ho' : Ordinary P' k' s [e']) (hr : r < 32) (hv : HasValue P st e v) (hv' : HasValue P' s e' v)
    (hA : Assembles P k name [.reg r, .comma, .imm e] st st' ws)
    (hA' : Assembles P' k' name' [.reg r, .comma, .imm e'] s s' ws') (be : Bool) (m : Machine) :
    ∃ m1, exec be ws m = some m1 ∧ SameBut [r] m m1 ∧
      ∀ m2, m2.get r = m1.get r → exec be ws' m2 = some (m2.set r (BitVec.ofInt 32 v)) := by
  have h := (li_general (find_li_u name hn r e) ho hr (li_plain hv) hA).1 be m
  have h' := (li_general (find_li_l name' hn' r e') ho' hr (li_plain hv') hA').1 be
  simp only [liParts, if_true, Bool.false_eq_true, if_false] at h h'
  refine ⟨_, h, ?_, fun m2 hm => ?_⟩
  · unfold liU
    split
    · exact ⟨rfl, fun _ _ => rfl⟩
    · refine ⟨mem_set _ _ _, fun x hx => ?_⟩
      rw [get_set]
      simp only [List.mem_singleton] at hx
      rw [if_neg (fun h => hx h.1)]
  · rw [h', li_apart r v m m2 hm]

/-- A sample of ordinary operands. -/
theorem sample_ordinary {cfg : Config} {v w : Int} : Ordinary (mparse cfg) 0 mst [.int v, .bin .add .memoryPos (.int w)] where
  functions := ⟨⟨_, rfl⟩, ⟨_, rfl⟩, ⟨_, rfl⟩⟩
  labels := ⟨fun i j h => h, rfl⟩
  usual e he y hy := by
    simp only [List.mem_cons, List.not_mem_nil, or_false] at he
    rcases he with rfl | rfl <;> simp [symbolsIn] at hy

theorem Ordinary.sub {P : ParseEnv} {k : Nat} {st : St} {es es' : List Expr} (h : Ordinary P k st es) (hs : ∀ e ∈ es', e ∈ es) :
    Ordinary P k st es' := ⟨h.functions, h.labels, fun e he => h.usual e (hs e he)⟩

/-- The sample operands have values. -/
theorem sample_value {cfg : Config} {v : Int} (h : -(2 ^ 63) < v ∧ v < 2 ^ 63) : HasValue (mparse cfg) mst (.int v) v :=
  ⟨ev_int v, h⟩

-- `li a0,0x12345678`
example : ∃ st' ws, Assembles (mparse psx) 0 "li" [.reg 4, .comma, .imm (.int 0x12345678)] mst st' ws ∧
    Ordinary (mparse psx) 0 mst [.int 0x12345678] ∧ HasValue (mparse psx) mst (.int 0x12345678) 0x12345678 := by
  have ho : Ordinary (mparse psx) 0 mst [.int 0x12345678] := (sample_ordinary (v := 0x12345678) (w := 0)).sub (by simp)
  have hv : HasValue (mparse psx) mst (.int 0x12345678) 0x12345678 := sample_value (by omega)
  obtain ⟨st', ws, h⟩ := macro_exists (P := mparse psx) (k := 0) (st := mst) rfl (find_li "li" (.inl rfl) 4 (.int 0x12345678))
    (by decide +kernel) (fun d t ht st1 hn => by
      obtain ⟨hp, rfl⟩ := li_kind ht
      exact TGood.mono (tgood_li ho.functions (by decide) (hn.mips rfl) (reads_dotted hn ho.labels hp (ho.usual _ (by simp [Mips.liOperand])) hv))
        fun _ _ _ _ _ => trivial)
  exact ⟨st', ws, h, ho, hv⟩

end Armips.Props
