import Verif.Lemmas.ArmLineValid
/-!
# ARM and THUMB instructions: from the text to the operands (C72)

`stale` are the members that earlier rows of the table have left; `version` is the processor. The instruction ends with a separator.
-/
namespace Armips.Props
open Armips.ArmLine Armips.Spec.ArmLine
open Armips.ExprParse (Tok)

/-- C72. An ARM instruction that is written for a row is read as this row, with the operands that are written, whatever follows it and whatever other
rows have left. -/
theorem arm_line {E : ExprParse.Env} {version : Arm.Version} {op : Arm.Op} (hop : op ∈ Arm.opcodes) (hv : Available (op.has .arm9) version)
    {stale : Arm.Op → Vars} {name : Str} {ts : List Tok} {o : Arm.Operands} (h : ArmText E op (stale op) name ts o) (hh : ¬ ArmHidden op ts) (rest : List Tok) :
    armLine E version stale (.ident name :: ts ++ .separator :: rest) = some ((op, o), rest) := by
  obtain ⟨m, v, hr, hp, rfl⟩ := h
  obtain ⟨es, he, hp⟩ := arm_parts hp
  have hd : ArmParse.decode op.name.toList (text name) ArmParse.Vars.start = some m := by
    have := (arm_mnemonic_iff hop (String.ofList (text name)) m).2 (by simpa using hr)
    simpa [ArmParse.decodeOpcode] using this
  obtain ⟨s, t, hst⟩ := List.append_of_mem hop
  rw [List.cons_append]
  simp only [armLine]
  rw [hst]
  apply MipsParse.findSome_first
  · intro op' hop'
    exact arm_first hst hd he hp hh hop' _ rest
  · have hok := arm_ok op hop
    rw [he] at hok
    have hx : (op.has .arm9 && version == .gba) = false := by
      cases ha : op.has .arm9 with
      | false => rfl
      | true => cases version <;> first | rfl | exact absurd rfl (hv ha)
    unfold armRow
    rw [hx, hd, he]
    simp only [Bool.false_eq_true, if_false]
    rw [params_reads (v := reset (stale op)) hp rest (by simpa using hok)]
    rfl

/-- C72. The same for THUMB. -/
theorem thumb_line {E : ExprParse.Env} {version : Arm.Version} {op : Thumb.Op} (hop : op ∈ Thumb.opcodes) (hv : Available (op.has .arm9) version)
    {stale : Thumb.Op → Vars} {old : BitVec 32} {name : Str} {ts : List Tok} {o : Thumb.Operands} (h : ThumbText E op (stale op) old name ts o)
    (hh : ¬ ThumbHidden op o) (rest : List Tok) : thumbLine E version stale old (.ident name :: ts ++ .separator :: rest) = some ((op, o), rest) := by
  obtain ⟨v, rfl, hp, rfl⟩ := h
  obtain ⟨hok, h8⟩ := thumb_ok op hop
  obtain ⟨es, he, hp⟩ := thumb_parts hp h8
  obtain ⟨s, t, hst⟩ := List.append_of_mem hop
  rw [List.cons_append]
  simp only [thumbLine]
  rw [hst]
  apply MipsParse.findSome_first
  · intro op' hop'
    exact thumb_first hst he hp hh hop' _ _ rest
  · rw [he] at hok
    have hx : (op.has .arm9 && version == .gba) = false := by
      cases ha : op.has .arm9 with
      | false => rfl
      | true => cases version <;> first | rfl | exact absurd rfl (hv ha)
    unfold thumbRow
    rw [hx, he]
    simp only [Bool.false_eq_true, if_false, ne_eq, not_true_eq_false]
    rw [params_reads hp rest (by simpa using hok)]
    rfl

/-- C72. The operands are those for which C21-C25 and C58-C61 describe the machine code. -/
theorem arm_line_valid {E : ExprParse.Env} {op : Arm.Op} (hop : op ∈ Arm.opcodes) {old : Vars} {name : Str} {ts : List Tok} {o : Arm.Operands}
    (h : ArmText E op old name ts o) : Spec.Arm.Valid op o := by
  obtain ⟨m, v, hr, hp, rfl⟩ := h
  obtain ⟨es, he, hp⟩ := arm_parts hp
  exact arm_valid hop hr he hp

/-- C72. The same for THUMB. -/
theorem thumb_line_valid {E : ExprParse.Env} {op : Thumb.Op} (hop : op ∈ Thumb.opcodes) {old : Vars} {imm : BitVec 32} {name : Str} {ts : List Tok}
    {o : Thumb.Operands} (h : ThumbText E op old imm name ts o) : Spec.Thumb.Valid op o := by
  obtain ⟨v, -, hp, rfl⟩ := h
  obtain ⟨es, he, hp⟩ := thumb_parts hp (thumb_ok op hop).2
  exact thumb_valid hop he hp imm

/-- C72. A text is the text of one row at most. -/
theorem arm_line_unique {E : ExprParse.Env} {version : Arm.Version} {op op' : Arm.Op} (hop : op ∈ Arm.opcodes) (hop' : op' ∈ Arm.opcodes)
    (hv : Available (op.has .arm9) version) (hv' : Available (op'.has .arm9) version) {stale : Arm.Op → Vars} {name : Str} {ts : List Tok}
    {o o' : Arm.Operands} (h : ArmText E op (stale op) name ts o) (h' : ArmText E op' (stale op') name ts o') (hh : ¬ ArmHidden op ts)
    (hh' : ¬ ArmHidden op' ts) : op = op' ∧ o = o' := by
  have h1 := arm_line (version := version) hop hv h hh []
  rw [arm_line hop' hv' h' hh' []] at h1
  cases h1
  exact ⟨rfl, rfl⟩

/-- C72. The same for THUMB. -/
theorem thumb_line_unique {E : ExprParse.Env} {version : Arm.Version} {op op' : Thumb.Op} (hop : op ∈ Thumb.opcodes) (hop' : op' ∈ Thumb.opcodes)
    (hv : Available (op.has .arm9) version) (hv' : Available (op'.has .arm9) version) {stale : Thumb.Op → Vars} {old : BitVec 32} {name : Str}
    {ts : List Tok} {o o' : Thumb.Operands} (h : ThumbText E op (stale op) old name ts o) (h' : ThumbText E op' (stale op') old name ts o')
    (hh : ¬ ThumbHidden op o) (hh' : ¬ ThumbHidden op' o') : op = op' ∧ o = o' := by
  have h1 := thumb_line (version := version) hop hv h hh []
  rw [thumb_line hop' hv' h' hh' []] at h1
  cases h1
  exact ⟨rfl, rfl⟩

/-- C72. What is refused in the table is refused for the processor: a row that is only there for ARM9 is not read for the GBA. -/
theorem arm_line_version {E : ExprParse.Env} {version : Arm.Version} {stale : Arm.Op → Vars} {ts rest : List Tok} {op : Arm.Op} {o : Arm.Operands}
    (h : armLine E version stale ts = some ((op, o), rest)) : op ∈ Arm.opcodes ∧ Available (op.has .arm9) version := by
  unfold armLine at h
  split at h
  · obtain ⟨op', h1, h2⟩ := List.exists_of_findSome?_eq_some h
    unfold armRow at h2
    split at h2
    · cases h2
    · rename_i hx
      split at h2
      · cases h2
      · split at h2
        · cases h2
        · obtain ⟨r, -, h3⟩ := Option.map_eq_some_iff.1 h2
          cases h3
          refine ⟨h1, fun ha => ?_⟩
          rintro rfl
          rw [ha] at hx
          exact hx rfl
  · cases h

/-! ### Examples -/

/-- Members before the first row. -/
def armStale : Vars := ⟨0, 0, 0, 0, 0, 0, 0, 0, 0, .int 0, .int 0, .int 0, 0, 0, false, 0, none, false, false, false⟩

/-- No functions, file 1, section 2. -/
def armEnv : ExprParse.Env := ⟨1, 2, fun _ => false⟩

/-- The row of ARM with the name and the syntax. -/
def armRowNamed (n m : String) : Arm.Op := (Arm.opcodes.find? fun op => op.name = n ∧ op.mask = m).getD ⟨"", "", 0, .type3, []⟩

/-- The row of THUMB with the name and the syntax. -/
def thumbRowNamed (n m : String) : Thumb.Op := (Thumb.opcodes.find? fun op => op.name = n ∧ op.mask = m).getD ⟨"", "", 0, 0, []⟩

/-- `addnes r1,r2,sp,lsl 3` -/
example : ∃ o, ArmText armEnv (armRowNamed "addCS" "d0,n0,m0S0") armStale (lit "addnes")
      [.ident (lit "r1"), .comma, .ident (lit "r2"), .comma, .ident (lit "sp"), .comma, .ident (lit "lsl"), .int 3] o ∧
    o.c = 1 ∧ o.s = true ∧ o.rd = 1 ∧ o.rn = 2 ∧ o.rm = 13 ∧ o.shift = some ⟨0, false, 0, .int 3⟩ := by
  refine ⟨toArm ⟨1, 0, true, false, false⟩ { armStale with rd := 1, rn := 2, rm := 13, shift := some ⟨0, false, 0, .int 3⟩ },
    ⟨⟨1, 0, true, false, false⟩, _, ?_, ?_, rfl⟩, rfl, rfl, rfl, rfl, rfl, rfl⟩
  · have := (arm_mnemonic_iff (op := armRowNamed "addCS" "d0,n0,m0S0") (by decide +kernel) "addnes" ⟨1, 0, true, false, false⟩).1 (by decide +kernel)
    simpa [show text (lit "addnes") = "addnes".toList by decide +kernel] using this
  · rw [show (armRowNamed "addCS" "d0,n0,m0S0").mask.toList = ['d', '0'] ++ ([','] ++ (['n', '0'] ++ ([','] ++ (['m', '0'] ++ (['S', '0'] ++ []))))) by
      decide +kernel]
    refine .cons (ts := [_]) (.rd (k := 1) ⟨"r1", .inl ⟨by decide, rfl⟩, rfl⟩ (by decide)) ?_
    refine .cons (ts := [_]) (.sym (by decide)) ?_
    refine .cons (ts := [_]) (.rn (k := 2) ⟨"r2", .inl ⟨by decide, rfl⟩, rfl⟩ (by decide)) ?_
    refine .cons (ts := [_]) (.sym (by decide)) ?_
    refine .cons (ts := [_]) (.rm (k := 13) ⟨"sp", .inr (.inl ⟨rfl, rfl⟩), rfl⟩ (by decide)) ?_
    refine .cons (ts := [.comma, .ident (lit "lsl"), .int 3]) (us := []) (.shift (sh := some ⟨0, false, 0, .int 3⟩) ?_) .nil
    refine .amount (s := "lsl") (t := 0) (by decide) (.const ⟨?_, by simp⟩) (fun _ => rfl)
    have : ∀ k, k ≤ 12 → Spec.ExprParse.Writes armEnv k (.int 3) [.int 3] := by
      intro k
      induction k with
      | zero => exact fun _ => .int 3
      | succ k ih => exact fun hk => .weaker (by omega) (ih (by omega))
    exact this 12 (by omega)

/-- `pop {r0-r2,pc}` -/
example : ∃ o, ThumbText armEnv (thumbRowNamed "pop" "/{R\xff\x80/}") armStale 0 (lit "pop")
      [.lbrace, .ident (lit "r0"), .minus, .ident (lit "r2"), .comma, .ident (lit "r15"), .rbrace] o ∧ o.rlist = 0x8007 ∧
    ¬ ThumbHidden (thumbRowNamed "pop" "/{R\xff\x80/}") o := by
  refine ⟨toThumb 0 { armStale with rlist := 0x8007 }, ⟨_, by decide +kernel, ?_, rfl⟩, rfl, by
    rintro (⟨h, -⟩ | ⟨h, -⟩)
    · exact absurd h (by decide +kernel)
    · exact absurd h (by decide +kernel)⟩
  rw [show (thumbRowNamed "pop" "/{R\xff\x80/}").mask.toList = ['/', '{'] ++ (['R', '\xff', '\x80'] ++ (['/', '}'] ++ [])) by decide +kernel]
  refine .cons (ts := [_]) (.opt (by decide)) ?_
  refine .cons (ts := [.ident (lit "r0"), .minus, .ident (lit "r2"), .comma, .ident (lit "r15")]) (.list (m := 0x8007) ?_) (.cons (ts := [_]) (us := []) (.opt (by decide)) .nil)
  refine ⟨[.range "r0" "r2" 0 2, .one "r15" 15], by simp, ?_, rfl, ?_, ?_⟩
  · intro i hi
    simp only [List.mem_cons, List.not_mem_nil, or_false] at hi
    rcases hi with rfl | rfl
    · exact ⟨.inl ⟨by decide, rfl⟩, .inl ⟨by decide, rfl⟩, by decide⟩
    · exact .inl ⟨by decide, rfl⟩
  · intro i
    simp only [List.mem_cons, List.not_mem_nil, or_false, exists_eq_or_imp, exists_eq_left, Spec.Arm.Item.Has]
    by_cases h : i < 16
    · have : ∀ i : Fin 16, (0x8007 : Nat).testBit i.val = true ↔ (0 ≤ i.val ∧ i.val ≤ 2) ∨ i.val = 15 := by decide
      exact this ⟨i, h⟩
    · have : (0x8007 : Nat).testBit i = false := Nat.testBit_lt_two_pow (Nat.lt_of_lt_of_le (m := 2 ^ 16) (by decide) (Nat.pow_le_pow_right (by decide) (Nat.le_of_not_lt h)))
      rw [this]
      simp
      omega
  · intro it hit i hi
    simp only [List.mem_cons, List.not_mem_nil, or_false] at hit
    have : ∀ i : Fin 16, (0 ≤ i.val ∧ i.val ≤ 2) ∨ i.val = 15 → ('\xff'.toNat + 256 * '\x80'.toNat).testBit i.val = true := by decide
    rcases hit with rfl | rfl <;> simp only [Spec.Arm.Item.Has] at hi
    · exact this ⟨i, by omega⟩ (.inl hi)
    · exact this ⟨i, by omega⟩ (.inr hi)

/-- `ldrne r1,[r2,-r3,lsl4]!` from the text to the operands. -/
example : (armLine armEnv .gba (fun _ => armStale) [.ident (lit "ldrne"), .ident (lit "r1"), .comma, .lbrack, .ident (lit "r2"), .comma, .minus, .ident (lit "r3"),
    .comma, .ident (lit "lsl4"), .rbrack, .exclamation, .separator]).map (fun r => (r.1.1.mask, [r.1.2.c, r.1.2.rd, r.1.2.rn, r.1.2.rm], [r.1.2.signPlus, r.1.2.writeback], r.2.length)) =
    some ("d0,[n0,vm1S1]W", [1, 1, 2, 3], [false, true], 0) := by decide +kernel

/-! ### Findings -/

/-- `str r0,[r1],-r2` is not read as the row with a register: `-r2` is taken for a constant, and the instruction is refused later because `r2` is no
symbol. -/
theorem arm_store_sign_wrong : (armLine armEnv .gba (fun _ => armStale) [.ident (lit "str"), .ident (lit "r0"), .comma, .lbrack, .ident (lit "r1"), .rbrack, .comma, .minus,
    .ident (lit "r2"), .separator]).map (fun r => (r.1.1.mask, r.1.2.rd, r.1.2.rn, r.2)) = some ("d0,[n0],/#j\x0c", 0, 1, []) := by decide +kernel

/-- The load with the same operands is read. -/
theorem arm_load_sign : (armLine armEnv .gba (fun _ => armStale) [.ident (lit "ldr"), .ident (lit "r0"), .comma, .lbrack, .ident (lit "r1"), .rbrack, .comma, .minus,
    .ident (lit "r2"), .separator]).map (fun r => (r.1.1.mask, [r.1.2.rd, r.1.2.rn, r.1.2.rm], r.1.2.signPlus, r.2)) =
    some ("d0,[n0],vm1S1", [0, 1, 2], false, []) := by decide +kernel

/-- `mov r0,r1,rrx` is refused: the parser wants an amount, which `rrx` does not have. -/
theorem arm_rrx_wrong : (armLine armEnv .gba (fun _ => armStale) [.ident (lit "mov"), .ident (lit "r0"), .comma, .ident (lit "r1"), .comma, .ident (lit "rrx"),
    .separator]).isNone = true := by decide +kernel

/-- `msr cpsr_,r0` is accepted without any field, and letters after four fields are ignored. -/
theorem arm_fields_wrong :
    (armLine armEnv .gba (fun _ => armStale) [.ident (lit "msr"), .ident (lit "cpsr_"), .comma, .ident (lit "r0"), .separator]).map (fun r => r.1.2.field) = some 0 ∧
    (armLine armEnv .gba (fun _ => armStale) [.ident (lit "msr"), .ident (lit "cpsr_fsxcqwerty"), .comma, .ident (lit "r0"), .separator]).map
      (fun r => r.1.2.field) = some 15 := by decide +kernel

/-- `push {r8}` in THUMB mode is accepted, although the instruction has only the low registers and `lr`: the mask of the row is read from signed
characters and allows everything. The register is dropped from the machine code, and `push {pc}` pushes `lr`. -/
theorem thumb_push_wrong :
    (thumbLine armEnv .gba (fun _ => armStale) 0 [.ident (lit "push"), .lbrace, .ident (lit "r8"), .rbrace, .separator]).map
      (fun r => (r.1.2.rlist, Thumb.encode r.1.1 r.1.2 { value := 0 })) = some (0x100, [0xB400#32]) ∧
    (thumbLine armEnv .gba (fun _ => armStale) 0 [.ident (lit "push"), .lbrace, .ident (lit "pc"), .rbrace, .separator]).map
      (fun r => (r.1.2.rlist, Thumb.encode r.1.1 r.1.2 { value := 0 })) = some (0x8000, [0xB500#32]) := by decide +kernel

end Armips.Props
