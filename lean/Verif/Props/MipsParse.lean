import Verif.Lemmas.MipsParseValid
import Verif.Props.MipsWords
import Verif.Props.ExprParse
/-!
# C71: MIPS instructions mean what is written

`Spec.MipsParse` says how registers, vectors, matrices, prefixes and the other operands are written and what they stand for (`Reg`, `VecName`,
`MatName`, `RotText`, …), and what the text of an instruction is (`Text`).
-/
namespace Armips.Props
open Armips.MipsParse Spec.MipsParse
open Armips.Mips (Slot Op Operands Version)
open ExprParse (Tok)

/-! ### Operands -/

/-- C71. A register is read exactly if one of its names is written, with or without `$`, or `$` and its number. -/
theorem mips_register {c : Cls} {ts rest : List Token} {n : Nat} :
    register c ts = some ((n : Int), rest) ↔ ∃ pre, Reg c n pre ∧ ts = pre ++ rest := register_iff

/-- C71. A vector of the VFPU is read exactly if its name is written, and the number is that of the cells that the name stands for. -/
theorem mips_vector {size : Nat} (hs : size < 4) {ts rest : List Token} {n : Nat} :
    vfpuRegister (some size) ts = some ((false, n), rest) ↔ ∃ name x, ts = (.ident name, x) :: rest ∧ VecName size name n := vfpuVector_iff hs

/-- C71. The same for matrices. -/
theorem mips_matrix {size : Nat} (hs : size < 4) {ts rest : List Token} {n : Nat} :
    vfpuRegister (some size) ts = some ((true, n), rest) ↔ ∃ name x, ts = (.ident name, x) :: rest ∧ MatName size name n := vfpuMatrix_iff hs

/-- C71. A rotation is read exactly if it is written, and the hardware puts the cosine and the sine into the cells where they are written. -/
theorem mips_rotation {k imm : Nat} {ts rest : List Token} (hk : k < 4) :
    vrot (some k) ts = some ((imm : Int), rest) ↔ ∃ pre, RotText (k + 1) imm pre ∧ ts = pre ++ rest := vrot_iff hk

/-- C71. What is read as a source prefix is one that is written, -/
theorem mips_source_prefix {ts rest : List Token} {n : Int} (h : vpfxs ts = some (n, rest)) :
    ∃ (v : Nat) (pre : List Token), n = (v : Int) ∧ SourcePrefix v pre ∧ ts = pre ++ rest := vpfxs_sound h

/-- C71. and every source prefix is read. -/
theorem mips_source_prefix_read {v : Nat} {pre rest : List Token} {y : Str} (h : SourcePrefix v pre) :
    vpfxs (pre ++ (.separator, y) :: rest) = some ((v : Int), (.separator, y) :: rest) := vpfxs_reads h

/-- C71. What is read as a destination prefix is one that is written, -/
theorem mips_dest_prefix {ts rest : List Token} {n : Int} (h : vpfxd ts = some (n, rest)) :
    ∃ (v : Nat) (pre : List Token), n = (v : Int) ∧ DestPrefix v pre ∧ ts = pre ++ rest := vpfxd_sound h

/-- C71. and every destination prefix is read. -/
theorem mips_dest_prefix_read {v : Nat} {pre rest : List Token} {y : Str} (h : DestPrefix v pre) :
    vpfxd (pre ++ (.separator, y) :: rest) = some ((v : Int), (.separator, y) :: rest) := vpfxd_reads h

/-- C71. The constants of `vcst` are those of the list, -/
theorem mips_constant {ts rest : List Token} {n : Int} (h : vcst ts = some (n, rest)) :
    ∃ (k : Nat) (pre : List Token), n = (k : Int) ∧ (k, pre.map Prod.fst) ∈ vcstNames ∧ ts = pre ++ rest := vcst_sound h

/-- C71. and all of them are read. -/
theorem mips_constant_read {k : Nat} {pre rest : List Token} (h : (k, pre.map Prod.fst) ∈ vcstNames) {x : Str} :
    vcst (pre ++ (.separator, x) :: rest) = some ((k : Int), (.separator, x) :: rest) := vcst_reads h

/-- C71. The elements of the vector unit of the RSP. -/
theorem mips_rsp_element {ts rest : List Token} {n : Nat} :
    rspElement ts = some ((n : Int), rest) ↔ ∃ pre, ElementText n pre ∧ ts = pre ++ rest ∧ (pre = [] → ∀ x, rest.head? ≠ some (Tok.lbrack, x)) := rspElement_iff

/-! ### Instructions -/

/-- C71. Every instruction of the table, with any of its operands, written in any way that `Spec.MipsParse` allows, is read as this instruction and
these operands, and the rest of the file is left. -/
theorem mips_line {E : ExprParse.Env} {v : Version} {op : Op} {name : Str} {ts : List Token} {o : Operands} (hm : op ∈ Mips.opcodes)
    (hv : op.available v = true) (hh : ¬ Hidden v op) (h : Text E op name ts o) (x y : Str) (rest : List Token) :
    line E v ((.ident name, x) :: (ts ++ (.separator, y) :: rest)) = some ((op, o), rest) :=
  line_reads hm hv (fun h => hh (hidden_mask hm h)) h x y rest

/-- C71. No text is two instructions. -/
theorem mips_unambiguous {E : ExprParse.Env} {v : Version} {op op' : Op} {name : Str} {ts : List Token} {o o' : Operands} (hm : op ∈ Mips.opcodes)
    (hm' : op' ∈ Mips.opcodes) (hv : op.available v = true) (hv' : op'.available v = true) (hh : ¬ Hidden v op) (hh' : ¬ Hidden v op')
    (h : Text E op name ts o) (h' : Text E op' name ts o') : op = op' ∧ o = o' := by
  have h1 := mips_line hm hv hh h [] [] []
  rw [mips_line hm' hv' hh' h' [] [] []] at h1
  simp only [Option.some.injEq, Prod.mk.injEq, and_true] at h1
  exact ⟨h1.1.symm, h1.2.symm⟩

/-- C71. The operands that are read are as the encoder needs them: no register number is too large, and exactly the registers of the syntax are
there. -/
theorem mips_line_valid {E : ExprParse.Env} {op : Op} {name : Str} {ts : List Token} {o : Operands} (hm : op ∈ Mips.opcodes)
    (h : Text E op name ts o) : Spec.Mips.Valid op o := text_valid hm h

/-- C71. From the text to the word: an instruction that is accepted writes a word in which every operand is in its field and all other bits are
the fixed ones. -/
theorem mips_line_word {E : ExprParse.Env} {v : Version} {op : Op} {name : Str} {ts : List Token} {o : Operands} (hm : op ∈ Mips.opcodes)
    (hv : op.available v = true) (hh : ¬ Hidden v op) (ho : op.name ∉ ["vcmovf.S", "vmfvc.S", "vmtvc.S"]) (h : Text E op name ts o)
    (x y : Str) (rest : List Token) :
    ∃ op' o', line E v ((.ident name, x) :: (ts ++ (.separator, y) :: rest)) = some ((op', o'), rest) ∧
      ∀ {M : Env} {cfg : Mips.Config} {c : Ctx} {st : ArchState} {nop : Bool} {w : BitVec 32}, Spec.Mips.FieldInside M c op o →
        Spec.Mips.Emits (Mips.sem M cfg op' o') c st nop w →
        ∃ imm sec, Spec.Mips.StoresImm M c op o imm ∧ Spec.Mips.StoresSec M c op o imm sec ∧ Spec.Mips.Holds op o imm sec w :=
  ⟨op, o, mips_line hm hv hh h x y rest, fun hi he => mips_word_holds hm ho (text_valid hm h) hi he⟩

/-- C71. What is read is a row of the table that the processor has, under its name. -/
theorem mips_line_row {E : ExprParse.Env} {v : Version} {ts rest : List Token} {op : Op} {o : Operands} (h : line E v ts = some ((op, o), rest)) :
    ∃ name x ts' size cond, ts = (.ident name, x) :: ts' ∧ op ∈ Mips.opcodes ∧ op.available v = true ∧ Named op.name.toList name size cond := by
  unfold line at h
  split at h
  · rename_i name x ts'
    obtain ⟨op', hm, hr⟩ := List.exists_of_findSome?_eq_some h
    unfold row at hr
    split at hr
    · rename_i hv
      split at hr
      · cases hr
      · rename_i n hn
        split at hr
        · cases hr
        · obtain ⟨r, -, e⟩ := Option.map_eq_some_iff.1 hr
          simp only [Prod.mk.injEq] at e
          obtain ⟨⟨rfl, -⟩, -⟩ := e
          exact ⟨name, x, ts', n.size, n.sec, rfl, hm, hv, decodeName_named (row_pattern hm) hn⟩
    · cases hr
  · cases h

/-- C71. On the PS2, `mult` and `multu` with `r0` as the first of three operands are the instructions with a destination, and this is `r0`. -/
theorem mips_mult_ps2 {E : ExprParse.Env} {op : Op} {name : Str} {ts : List Token} {o : Operands} (hm : op ∈ Mips.opcodes) (hh : Hidden .ps2 op)
    (h : Text E op name ts o) (x y : Str) (rest : List Token) :
    ∃ op' ∈ Mips.opcodes, op'.name = op.name ∧ op'.mask = "d,s,t" ∧
      line E .ps2 ((.ident name, x) :: (ts ++ (.separator, y) :: rest)) = some ((op', withReg o .grd 0), rest) := by
  obtain ⟨-, hname, hmask⟩ := hh
  obtain ⟨ps, size, cond, hps, hn, hp⟩ := h
  obtain ⟨-, -, hq, -⟩ := row_mem hm
  have he := parts_elements hp (hps ▸ hq)
  rw [← hps, hmask] at he
  have hf : elements "r\x00,s,t".toList = some [.forced 0, .sym ',', .reg .cpu .grs, .sym ',', .reg .cpu .grt] := by decide +kernel
  rw [hf] at he
  injection he with he
  subst he
  have key : ∀ op' : Op, op'.mask = "d,s,t" → op'.name = op.name → Text E op' name ts (withReg o .grd 0) := by
    intro op' h1 h2
    refine ⟨[.reg .cpu .grd, .sym ',', .reg .cpu .grs, .sym ',', .reg .cpu .grt], size, cond, by rw [h1]; decide +kernel, by rw [h2]; exact hn, ?_⟩
    cases hp with
    | cons a1 _ hp =>
    cases hp with
    | cons a2 _ hp =>
    cases hp with
    | cons a3 _ hp =>
    cases hp with
    | cons a4 _ hp =>
    cases hp with
    | cons a5 _ hp =>
    cases hp
    cases a1 with
    | forced r1 =>
    cases a2
    cases a3 with
    | reg r3 =>
    cases a4
    cases a5 with
    | reg r5 =>
    have comm : ∀ (o : Operands) (a b n m), a ≠ b → withReg (withReg o a n) b m = withReg (withReg o b m) a n := by
      intro o a b n m hab
      simp only [withReg, Operands.mk.injEq, and_true]
      funext s
      by_cases h1 : s = a
      · subst h1; simp [hab]
      · simp [h1]
    rw [comm _ .grt .grd _ _ (by decide), comm _ .grs .grd _ _ (by decide)]
    exact .cons (.reg r1) trivial (.cons .comma trivial (.cons (.reg r3) trivial (.cons .comma trivial (.cons (.reg r5) trivial .nil))))
  have nh : ∀ op' : Op, op'.mask = "d,s,t" → ¬ Hidden .ps2 op' := by
    intro op' h1 ⟨_, _, h3⟩
    rw [h1] at h3
    revert h3
    decide
  simp only [List.mem_cons, List.not_mem_nil, or_false] at hname
  rcases hname with e | e
  · have hm' : (⟨"mult", "d,s,t", 0x00000018#32, [.ps2], [], [.reg .grd, .reg .grs, .reg .grt]⟩ : Op) ∈ Mips.opcodes := by decide +kernel
    exact ⟨_, hm', e.symm, rfl, mips_line hm' (by decide) (nh _ rfl) (key _ rfl e.symm) x y rest⟩
  · have hm' : (⟨"multu", "d,s,t", 0x00000019#32, [.ps2], [], [.reg .grd, .reg .grs, .reg .grt]⟩ : Op) ∈ Mips.opcodes := by decide +kernel
    exact ⟨_, hm', e.symm, rfl, mips_line hm' (by decide) (nh _ rfl) (key _ rfl e.symm) x y rest⟩

/-! ### Examples -/

private def env : ExprParse.Env := ⟨0, 0, fun _ => false⟩

private theorem noRegister {ts : List Token} (h : ∀ c ∈ [Cls.cpu], register c ts = none ∧ (ts.head?.map Prod.fst ≠ some .lparen)) : ¬ BeginsWithRegister ts := by
  rintro ⟨n, pre, rest, hr, e | ⟨x, e⟩⟩
  · have := mips_register.2 ⟨pre, hr, e⟩
    rw [(h _ (by simp)).1] at this
    cases this
  · have := (h .cpu (by simp)).2
    rw [e] at this
    simp at this

/-- `lw t0,4(sp)`, with the number of `sp` instead of its name. -/
example : Text env ⟨"lw", "t,i16(s)", 0x8C000000#32, [.mips1], [.delayrt, .ignorertd], [.reg .grt, .imm .i16, .reg .grs]⟩ (lit "lw")
    ([(.ident (lit "t0"), [])] ++ ([(.comma, [])] ++ ([(.int 4, [])] ++ ([(.lparen, [])] ++ ([(.dollar, []), (.int 29, [])] ++ ([(.rparen, [])] ++ []))))))
    (withReg { withReg (blank none none) .grt 8 with imm := some (.int 4) } .grs 29) := by
  refine ⟨[.reg .cpu .grt, .sym ',', .imm .i16, .sym '(', .reg .cpu .grs, .sym ')'], none, none, by decide +kernel, ?_, ?_⟩
  · exact .letter (c := 'l') (by decide) (by decide) (.letter (c := 'w') (by decide) (by decide) .nil)
  · refine .cons (.reg (.name (s := "t0") (by decide) (by decide))) trivial (.cons .comma trivial (.cons (.imm ⟨?_, ?_⟩) ?_ (.cons .lparen trivial
      (.cons (.reg (.number (n := 29) (by decide) (by decide) (by decide))) trivial (.cons .rparen trivial .nil)))))
    · exact writes_le (.int 4) (by decide) (by decide)
    · exact noRegister (by decide)
    · intro i n h
      have := congrArg List.getLast? h
      simp at this

/-- `vrot.p C100,S000,[c,-s]`: the cosine is at place 0, the sine at place 1 and negative. -/
example : Text env ⟨"vrot.S", "vd,vSs,Wr", 0xF3A00000#32, [.psp], [.vfpu], [.size, .reg .vrd, .reg .vrs, .imm .i5]⟩ (lit "vrot.p")
    ([(.ident (lit "C100"), [])] ++ ([(.comma, [])] ++ ([(.ident (lit "S000"), [])] ++ ([(.comma, [])] ++
      ([(.lbrack, []), (.ident (lit "c"), []), (.comma, []), (.minus, []), (.ident (lit "s"), []), (.rbrack, [])] ++ [])))))
    { withReg (withReg (blank (some 1) none) .vrd 4) .vrs 0 with immValue := 0b10100#32 } := by
  refine ⟨[.vec .same .vrd, .sym ',', .vec .single .vrs, .sym ',', .arg .rot], some 1, none, by decide +kernel, ?_, ?_⟩
  · refine .letter (c := 'v') (by decide) (by decide) (.letter (c := 'r') (by decide) (by decide) (.letter (c := 'o') (by decide) (by decide)
      (.letter (c := 't') (by decide) (by decide) (.letter (c := '.') (by decide) (by decide) (.size (k := 1) (l := 'p') rfl .nil)))))
  · refine .cons (.vec (k' := 1) rfl (by decide) rfl ?_ (by decide)) trivial (.cons .comma trivial (.cons (.vecSingle ?_ (by decide)) trivial
      (.cons .comma trivial (.cons (.arg (a := .rot) (n := 0b10100) ⟨1, rfl, ?_⟩) trivial .nil))))
    · exact ⟨by decide, 'c', 1, 0, 0, ⟨by decide, by decide, by decide, .inr (by decide +kernel)⟩, by decide +kernel⟩
    · exact ⟨by decide, 's', 0, 0, 0, ⟨by decide, by decide, by decide, .inr (by decide +kernel)⟩, by decide +kernel⟩
    · exact ⟨[.cos, .negSin], [[(.ident (lit "c"), [])], [(.minus, []), (.ident (lit "s"), [])]], _, [], [], rfl, ⟨.cos, by decide⟩,
        .cons .cos (.cons .negSin .nil), .more _ [] (.one _), rfl, by decide +kernel⟩

/-! ### Cases in which it is otherwise -/

/-- Negative numbers are read as registers. -/
theorem mips_negative_register_wrong {x y : Str} : register .cpu [(.dollar, x), (.int (-1), y)] = some (-1, []) := rfl

/-- A rotation without sine and cosine is refused, although there are numbers for it. -/
theorem mips_zero_rotation_wrong {x y z : Str} : rotated 2 0b1110 = [.zero, .zero] ∧
    vrot (some 1) [(.lbrack, x), (.int 0, lit "0"), (.comma, y), (.int 0, lit "0"), (.rbrack, z)] = none := by
  exact ⟨by decide, rfl⟩

/-- The root of one half cannot be written as a number. -/
theorem mips_sqrt_half_wrong {v : F64} {x y z w : Str} {rest : List Token} :
    vcst ((.ident (lit "sqrt"), x) :: (.lparen, y) :: (.float v, z) :: (.rparen, w) :: rest) = none := rfl

end Armips.Props
