import Verif.Lemmas.MipsRotate
import Verif.Props.MipsLi
/-!
# `rol`, `ror` and `abs` (C32)

For every value of the registers. Register 1 is used for intermediate results, so it cannot be an operand.
-/
namespace Armips.Props
open Spec Spec.Instr Spec.Macro Spec.Isa MacroProof Sample
open Armips.Mips (ParseEnv Tok Kind Parsed Config Version)

/-- What a rotating macro gives. -/
def rotated (name : String) (x : BitVec 32) (n : Nat) : BitVec 32 := if name = "rol" then x.rotateLeft n else x.rotateRight n

set_option maxRecDepth 4000 in
theorem find_rotate_reg {name : String} (hn : name = "rol" ∨ name = "ror") (rd rs rt : Nat) :
    Mips.findMacro name [.reg rd, .comma, .reg rs, .comma, .reg rt] =
      some (.rotate (decide (name = "rol")) false, { grd := some rd, grs := some rs, grt := some rt }) := by
  rcases hn with rfl | rfl <;> rfl

set_option maxRecDepth 4000 in
theorem find_rotate_imm {name : String} (hn : name = "rol" ∨ name = "ror") (rd rs : Nat) (e : Expr) :
    Mips.findMacro name [.reg rd, .comma, .reg rs, .comma, .imm e] =
      some (.rotate (decide (name = "rol")) true, { grd := some rd, grs := some rs, prim := some e }) := by
  rcases hn with rfl | rfl <;> rfl

set_option maxRecDepth 4000 in
theorem find_abs (rd rs : Nat) :
    Mips.findMacro "abs" [.reg rd, .comma, .reg rs] = some (.abs false, { grd := some rd, grs := some rs }) := rfl

theorem rotated_eq (name : String) (x : BitVec 32) (n : Nat) :
    (if decide (name = "rol") = true then x.rotateLeft n else x.rotateRight n) = rotated name x n := by
  unfold rotated
  by_cases h : name = "rol" <;> simp [h]

/-- Words that leave the value in the register do so for every machine. -/
theorem Gives.spec {rd : Nat} {f : Machine → BitVec 32} {ws : List (BitVec 32)} (h : Gives rd f ws) (hd : rd ≠ 0) (be : Bool) (m : Machine) :
    ∃ m', exec be ws m = some m' ∧ SameBut [1, rd] m m' ∧ m'.get rd = f m := by
  obtain ⟨t, h⟩ := h be m
  refine ⟨_, h, ⟨by rw [mem_set, mem_set], fun x hx => ?_⟩, by rw [get_set, if_pos ⟨rfl, hd⟩]⟩
  simp only [List.mem_cons, List.not_mem_nil, or_false, not_or] at hx
  rw [get_set, if_neg (fun h => hx.2 h.1), get_set, if_neg (fun h => hx.1 h.1)]

section
variable {P : ParseEnv} {k : Nat} {name : String} {rd rs rt : Nat} {e : Expr} {v : Int} {st st' : St} {ws : List (BitVec 32)}

/-- **C32**, rotation by a register: the value of the source is rotated by the amount modulo 32. Partial: register 1 is no operand. -/
theorem mips_rotate_register_partial (hn : name = "rol" ∨ name = "ror") (hd : rd < 32) (hs : rs < 32) (ht : rt < 32)
    (hd0 : rd ≠ 0) (h1 : rd ≠ 1 ∧ rs ≠ 1 ∧ rt ≠ 1)
    (hA : Assembles P k name [.reg rd, .comma, .reg rs, .comma, .reg rt] st st' ws) (be : Bool) (m : Machine) :
    ∃ m', exec be ws m = some m' ∧ SameBut [1, rd] m m' ∧ m'.get rd = rotated name (m.get rs) ((m.get rt).toNat % 32) := by
  have h := (macro_does hA (find_rotate_reg hn rd rs rt) (fun _ _ _ _ _ _ _ h => h) fun d t htx st1 hn =>
    tgood_rotate_reg hd hs ht h1.1 h1.2.1 h1.2.2 (hn.mips hA.mips) htx).1
  obtain ⟨m', a, b, c⟩ := Gives.spec h hd0 be m
  refine ⟨m', a, b, c.trans ?_⟩
  rw [rotated_eq]
  unfold rotated
  rw [BitVec.rotateLeft_mod_eq_rotateLeft, BitVec.rotateRight_mod_eq_rotateRight]

/-- **C32**, rotation by a constant. -/
theorem mips_rotate_constant_partial (hn : name = "rol" ∨ name = "ror") (ho : Ordinary P k st [e]) (hd : rd < 32) (hs : rs < 32)
    (hd0 : rd ≠ 0) (h1 : rd ≠ 1 ∧ rs ≠ 1) (hv : HasValue P st e v)
    (hA : Assembles P k name [.reg rd, .comma, .reg rs, .comma, .imm e] st st' ws) (be : Bool) (m : Machine) :
    ∃ m', exec be ws m = some m' ∧ SameBut [1, rd] m m' ∧ m'.get rd = rotated name (m.get rs) (v % 32).toNat := by
  have h := (macro_does hA (find_rotate_imm hn rd rs e) (fun _ _ _ _ _ _ _ h => h) fun d t htx st1 hn => by
    obtain ⟨hp, neg, hneg, htx⟩ := rotate_imm_kind htx
    exact tgood_rotate_imm hd hs h1.1 h1.2 (hn.mips hA.mips) (reads_dotted hn ho.labels hp (ho.usual _ (by simp)) hv) hneg htx).1
  obtain ⟨m', a, b, c⟩ := Gives.spec h hd0 be m
  exact ⟨m', a, b, c.trans (rotated_eq _ _ _)⟩

/-- **C32**, absolute value: of the signed number in the source, modulo 2^32. Partial: register 1 is no operand. -/
theorem mips_abs_partial (hd : rd < 32) (hs : rs < 32) (hd0 : rd ≠ 0) (h1 : rd ≠ 1 ∧ rs ≠ 1)
    (hA : Assembles P k "abs" [.reg rd, .comma, .reg rs] st st' ws) (be : Bool) (m : Machine) :
    ∃ m', exec be ws m = some m' ∧ SameBut [1, rd] m m' ∧ m'.get rd = BitVec.ofInt 32 (m.get rs).toInt.natAbs := by
  have h := (macro_does hA (find_abs rd rs) (fun _ _ _ _ _ _ _ h => h) fun d t htx st1 hn => by
    cases htx
    exact tgood_abs hd hs h1.1 h1.2).1
  obtain ⟨m', a, b, c⟩ := Gives.spec h hd0 be m
  refine ⟨m', a, b, c.trans ?_⟩
  split
  · have : ((m.get rs).toInt.natAbs : Int) = -(m.get rs).toInt := by omega
    rw [this, BitVec.ofInt_neg, BitVec.ofInt_toInt]
  · have : ((m.get rs).toInt.natAbs : Int) = (m.get rs).toInt := by omega
    rw [this, BitVec.ofInt_toInt]
end

/-- Sample: a rotation by a constant is assembled. -/
theorem sample_rotate {cfg : Config} {name : String} {rd rs : Nat} {v : Int} (hn : name = "rol" ∨ name = "ror") (hd : rd < 32) (hs : rs < 32)
    (h1 : rd ≠ 1 ∧ rs ≠ 1) (hv : -(2 ^ 63) < v ∧ v < 2 ^ 63)
    (hc : accepted (mparse cfg) 0 name [.reg rd, .comma, .reg rs, .comma, .imm (.int v)] mst = true) :
    (∃ st' ws, Assembles (mparse cfg) 0 name [.reg rd, .comma, .reg rs, .comma, .imm (.int v)] mst st' ws) ∧
      Ordinary (mparse cfg) 0 mst [.int v] := by
  have ho : Ordinary (mparse cfg) 0 mst [.int v] := (sample_ordinary (v := v) (w := 0)).sub (by simp)
  refine ⟨macro_exists rfl (find_rotate_imm hn rd rs _) hc fun d t htx st1 hn => ?_, ho⟩
  obtain ⟨hp, neg, hneg, htx⟩ := rotate_imm_kind htx
  exact (tgood_rotate_imm hd hs h1.1 h1.2 (hn.mips rfl) (reads_dotted hn ho.labels hp (ho.usual _ (by simp)) (sample_value hv)) hneg htx).mono
    fun _ _ _ _ _ => trivial

-- `rol a0,a1,7` without and with rotation instructions
example : (∃ st' ws, Assembles (mparse psx) 0 "rol" [.reg 4, .comma, .reg 5, .comma, .imm (.int 7)] mst st' ws) ∧
    Ordinary (mparse psx) 0 mst [.int 7] := sample_rotate (.inl rfl) (by decide) (by decide) (by decide) (by omega) (by decide +kernel)
example : (∃ st' ws, Assembles (mparse psp) 0 "rol" [.reg 4, .comma, .reg 5, .comma, .imm (.int 7)] mst st' ws) ∧
    Ordinary (mparse psp) 0 mst [.int 7] := sample_rotate (.inl rfl) (by decide) (by decide) (by decide) (by omega) (by decide +kernel)

-- `ror a0,a1,a2`
example : ∃ st' ws, Assembles (mparse psx) 0 "ror" [.reg 4, .comma, .reg 5, .comma, .reg 6] mst st' ws :=
  macro_exists rfl (find_rotate_reg (.inr rfl) 4 5 6) (by decide +kernel) fun _ _ htx _ hn =>
    (tgood_rotate_reg (psp := false) (left := false) (rd := 4) (rs := 5) (rt := 6) (by decide) (by decide) (by decide) (by decide) (by decide)
      (by decide) (hn.mips rfl) htx).mono fun _ _ _ _ _ => trivial

-- `abs a0,a1`
example : ∃ st' ws, Assembles (mparse psx) 0 "abs" [.reg 4, .comma, .reg 5] mst st' ws :=
  macro_exists rfl (find_abs 4 5) (by decide +kernel) fun d t htx st1 hn => by
    cases htx
    exact (tgood_abs (by decide) (by decide) (by decide) (by decide)).mono fun _ _ _ _ _ => trivial

/-- A negative constant is not rotated by: `rol a0,a1,-5` is refused, whatever the state. -/
theorem mips_rotate_negative_refused {P : ParseEnv} {k : Nat} {name : String} {rd rs : Nat} {v : Int} {st st' : St} {ws : List (BitVec 32)}
    (hn : name = "rol" ∨ name = "ror") (hv : v < 0) : ¬ Assembles P k name [.reg rd, .comma, .reg rs, .comma, .imm (.int v)] st st' ws := by
  intro hA
  obtain ⟨depth, c, k', h1, -⟩ := hA.accepted
  obtain ⟨d, t, content, -, ht, -, rfl⟩ := line_macro (find_rotate_imm hn rd rs (.int v)) h1
  obtain ⟨-, neg, hneg, -⟩ := rotate_imm_kind ht
  simp [Mips.dotted, Expr.replaceMemoryPos, Mips.negated, hv] at hneg

/-- The destination cannot be register 1: `abs at,a0` always gives 0. -/
theorem mips_abs_at_wrong : ∃ st' ws, Assembles (mparse psx) 0 "abs" [.reg 1, .comma, .reg 4] mst st' ws ∧
    ∀ be m, exec be ws m = some (m.set 1 0#32) := by
  have hg : ∀ d t, Kind.text (mparse psx) ((mparse psx).labels 0) (.abs false) { grd := some 1, grs := some 4 } = some t → ∀ st1,
      Entry (mparse psx) 0 mst st1 → TGood (mparse psx) d 1 t st1 fun ws _ => ∀ be m, exec be ws m = some (m.set 1 0#32) := by
    intro d t htx st1 hn
    cases htx
    refine tgood_seq (tgood_shift (name := "sra") (by decide) (by decide) (by decide) (ev_int 31)) ?_
    rintro ws st1 _ _ h1
    refine tgood_seq (tgood_xor (by decide) (by decide) (by decide)) ?_
    rintro ws' st2 _ _ ⟨h2, -⟩
    refine tgood_seq (tgood_subu (by decide) (by decide) (by decide)) ?_
    rintro ws'' st3 _ _ h3
    refine tgood_nil fun be m => ?_
    rw [List.append_nil, exec_append, h1, Option.bind_some, exec_append, h2, Option.bind_some, h3, set_set, set_set, BitVec.sub_self]
  obtain ⟨st', ws, hA⟩ := macro_exists rfl (find_abs 1 4) (by decide +kernel) fun d t ht st1 hn => (hg d t ht st1 hn).mono fun _ _ _ _ _ => trivial
  exact ⟨st', ws, hA, (macro_does hA (find_abs 1 4) (fun _ _ _ _ _ _ _ h => h) hg).1⟩

end Armips.Props
