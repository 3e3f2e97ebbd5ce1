import Verif.Lemmas.MipsGood
import Verif.Props.MipsBranch
/-! The words that are written for the lines of the macros. -/
namespace Armips.MacroProof
open Spec Spec.Instr Spec.Mips Spec.Macro
open Armips.Mips hiding validate encode names

/-- No load that is still under way. -/
def Settled (P : ParseEnv) (st : St) : Prop := P.cfg.hasLoadDelay = true → st.archSt.loadDelay = false

/-- What is written for an instruction: possibly a `nop`, and a word. -/
def Writes (P : ParseEnv) (st : St) (W : BitVec 32 → Prop) (ws : List (BitVec 32)) : Prop :=
  ∃ nop w, ws = (if nop then [0#32] else []) ++ [w] ∧ W w ∧ (Settled P st → nop = false)

theorem findMacro_none {name : String} {ts : List Tok}
    (h : ∀ m ∈ macros, m.name = name → macroParams m.args.toList ts {} = none) : findMacro name ts = none := by
  unfold findMacro
  rw [List.findSome?_eq_none_iff]
  intro m hm
  split
  · rename_i hn; rw [h m hm hn]; rfl
  · rfl

/-- The macros with one of these names have one of these syntaxes. -/
def argsAre (ns as : List String) : Bool := macros.all fun m => !ns.contains m.name || as.contains m.args

theorem argsAre_mem {ns as : List String} (h : argsAre ns as = true) {m : MacroRow} (hm : m ∈ macros) (hn : m.name ∈ ns) :
    m.args ∈ as := by
  have := List.all_eq_true.1 h m hm
  simp only [Bool.or_eq_true, Bool.not_eq_true', List.contains_iff_mem] at this
  rcases this with h | h
  · have : ns.contains m.name = true := by simp [hn]
    rw [this] at h; cases h
  · exact h

theorem select_inv {v : Version} {name : String} {ts : List Tok} {op : Op} {o : Operands} (h : select v name ts = some (op, o)) :
    op ∈ opcodes ∧ op.name = name ∧ params op.mask.toList ts noOperands = some o := by
  unfold select at h
  obtain ⟨x, hx, h⟩ := List.exists_of_findSome?_eq_some h
  split at h
  · rename_i hn
    cases hp : params x.mask.toList ts noOperands with
    | none => rw [hp] at h; cases h
    | some o' => rw [hp] at h; cases h; exact ⟨hx, hn.1, hp⟩
  · cases h

/-- The rows with one of these names have one of these syntaxes, and operands. -/
def rowsAre (load : Bool) (ns : List String) (ms : List (String × List Sym)) : Bool :=
  opcodes.all fun op => !ns.contains op.name || (ms.contains (op.mask, op.syms) && (load || !op.has .delayrt))

theorem rowsAre_mem {load : Bool} {ns : List String} {ms : List (String × List Sym)} (h : rowsAre load ns ms = true) {op : Op}
    (hm : op ∈ opcodes) (hn : op.name ∈ ns) : (op.mask, op.syms) ∈ ms ∧ (load = false → op.has .delayrt = false) := by
  have := List.all_eq_true.1 h op hm
  simp only [Bool.or_eq_true, Bool.not_eq_true', Bool.and_eq_true, List.contains_iff_mem] at this
  rcases this with h | h
  · have : ns.contains op.name = true := by simp [hn]
    rw [this] at h; cases h
  · refine ⟨h.1, fun hl => ?_⟩
    rcases h.2 with h | h
    · rw [hl] at h; cases h
    · exact h

/-- A line that is no macro. -/
theorem line_select {P : ParseEnv} {depth : Nat} {name : String} {ts : List Tok} {k k' : Nat} {c : Cmd}
    (hn : findMacro name ts = none) (h : parseLine P depth name ts k = some (c, k')) :
    k' = k ∧ ∃ op o, c = .instr (sem P.env P.cfg op o) ∧ op ∈ opcodes ∧ op.name = name ∧
      params op.mask.toList ts noOperands = some o := by
  cases depth with
  | zero => simp [parseLine] at h
  | succ d =>
    simp only [parseLine, hn] at h
    obtain ⟨x, hx, h⟩ := Option.map_eq_some_iff.1 h
    obtain ⟨op, o⟩ := x
    cases h
    obtain ⟨h1, h2, h3⟩ := select_inv hx
    exact ⟨rfl, op, o, rfl, h1, h2, h3⟩

theorem settled_next {P : ParseEnv} {op : Op} {r : Slot → Option Nat} {st st' : St} (hd : op.has .delayrt = false)
    (h : st'.archSt = nextState P.cfg op r st.archSt) : Settled P st' := by
  intro hl
  rw [h, nextState, if_pos hl]
  exact hd

theorem settled_nop {P : ParseEnv} {op : Op} {r : Slot → Option Nat} {st : St} (h : Settled P st) :
    (hazard P.cfg op r st.archSt && P.cfg.fixLoadDelay) = false := by
  unfold hazard
  cases hl : P.cfg.hasLoadDelay
  · simp
  · rw [h hl]; simp

/-- The words of an instruction whose row is known. -/
theorem good_row {P : ParseEnv} {k : Nat} {op : Op} {o : Operands} {st : St} {l : Layout}
    (hm : op ∈ opcodes) (hl : layout op = some l) (hsec : secType op.syms = none) (hp : op.mask ≠ "d")
    (hv : Mips.Valid op o) (load : Bool) (hd : load = false → op.has .delayrt = false) :
    Good P k (.instr (sem P.env P.cfg op o)) st fun ws st' =>
      Writes P st (fun w => ∃ imm, StoresImm P.env (st.ctx P.env) op o imm ∧ HasFields w (l.eval o imm 0) ∧
        (primType op.syms = none → imm = 0) ∧ ∃ nop, Mips.Emits (sem P.env P.cfg op o) (st.ctx P.env) st.archSt nop w) ws ∧
      (load = false → Settled P st') := by
  refine Good.mono good_instr (Nat.le_refl k) ?_
  rintro ws st' hf hp' ⟨nop, w, rfl, he, ha⟩
  refine ⟨⟨nop, w, rfl, ?_, fun hs => ?_⟩, fun h => settled_next (hd h) ha⟩
  · obtain ⟨imm, sec, h1, h2, h3, -⟩ := Props.mips_word_layout hm hl (fun h => hp h.1) hv (Props.inside_of (.inl hsec)) he
    have : sec = 0 := by unfold StoresSec at h2; rw [hsec] at h2; exact h2
    subst this
    refine ⟨imm, h1, h3, fun hn => ?_, nop, he⟩
    unfold StoresImm at h1; rw [hn] at h1; exact h1
  · obtain ⟨_, _, h, -⟩ := Props.mips_emits_inv he
    rw [h]; exact settled_nop hs

/-! ## The forms of lines -/

/-- Fields of a register instruction. -/
def IsR (rs rt rd sa fn : Nat) (w : BitVec 32) : Prop :=
  field w 26 6 = 0 ∧ field w 21 5 = rs ∧ field w 16 5 = rt ∧ field w 11 5 = rd ∧ field w 6 5 = sa ∧ field w 0 6 = fn

/-- Fields of an instruction with an immediate. -/
def IsI (op rs rt imm : Nat) (w : BitVec 32) : Prop :=
  field w 26 6 = op ∧ field w 21 5 = rs ∧ field w 16 5 = rt ∧ field w 0 16 = imm

theorem layout_standard {op : Op} (h : op.mask ≠ "S,T") : layout op = standard op.name op.mask := by
  unfold layout; rw [if_neg]; exact fun x => h x.2.1

/-- Operands that are registers and an immediate. -/
theorem valid_of {op : Op} {o : Operands} (hs : o.size = none) (hc : o.cond = none)
    (h1 : .size ∉ op.syms) (h2 : .cond ∉ op.syms) (h3 : .sec .branchType ∉ op.syms)
    (hreg : ∀ s, (o.regs s).isSome ↔ .reg s ∈ op.syms) (hr : ∀ s n, o.regs s = some n → regBits false s = 5 ∧ n < 32) :
    Mips.Valid op o where
  named := hreg
  range s n h := by
    obtain ⟨h5, hn⟩ := hr s n h
    have : regBits (op.has .vfpu6bit) s = 5 := by cases s <;> simp_all [regBits]
    rw [this]; exact hn
  size := by simp [hs, h1]
  sizeRange := by simp [hs]
  cond := by simp [hc, h2]
  condRange := by simp [hc]
  branchType h := absurd h h3

/-- The names of the lines without an address. -/
def plainNames : List String :=
  ["addiu", "ori", "slti", "sltiu", "xori", "lui", "sra", "srl", "sll", "rotr", "lb", "lbu", "lh", "lhu", "lw", "lwu", "ld", "ll",
    "lld", "lwl", "lwr", "sb", "sh", "sw", "sd", "sc", "scd", "swl", "swr", "lwc1", "ldc1", "swc1", "sdc1", "ldl", "ldr", "sdl", "sdr", "dsra32"]

theorem stored_plain {name : String} (h : name ∈ plainNames) (bits : Nat) (x a : Int) :
    stored name bits x a = (x % 2 ^ bits).toNat := by
  have : ∀ n ∈ plainNames, n ∉ branches ∧ n ∉ jumps ∧ n ∉ subtractions ∧ rspScale n = none := by decide +kernel
  obtain ⟨h1, h2, h3, h4⟩ := this name h
  unfold stored
  rw [if_neg h1, if_neg h2, if_neg h3, h4]

def rrrNames : List String := ["xor", "subu", "slt", "sltu", "or", "addu", "dsubu"]

theorem rrr_rows : rowsAre false rrrNames [("d,s,t", [.reg .grd, .reg .grs, .reg .grt]), ("s,t", [.reg .grs, .reg .grt])] = true := by
  decide +kernel
theorem rrr_macros : argsAre rrrNames ["d,s,I"] = true := by decide +kernel

theorem good_rrr {P : ParseEnv} {depth : Nat} {name : String} {a b d : Nat} {k k' : Nat} {c : Cmd} {st : St} {f : Nat}
    (hn : name ∈ rrrNames) (hf : number alu3 name = some f) (ha : a < 32) (hb : b < 32) (hd : d < 32)
    
    (h : parseLine P depth name [.reg a, .comma, .reg b, .comma, .reg d] k = some (c, k')) :
    k' = k ∧ Good P k c st fun ws st' => Writes P st (IsR b d a 0 f) ws ∧ Settled P st' := by
  have hmac : findMacro name [.reg a, .comma, .reg b, .comma, .reg d] = none := by
    refine findMacro_none fun m hm hx => ?_
    have := argsAre_mem rrr_macros hm (by rw [hx]; exact hn)
    simp only [List.mem_cons, List.not_mem_nil, or_false] at this
    rw [this]; simp [macroParams]
  obtain ⟨rfl, op, o, rfl, hm, hx, hp⟩ := line_select hmac h
  refine ⟨rfl, ?_⟩
  obtain ⟨hr, hdl⟩ := rowsAre_mem rrr_rows hm (by rw [hx]; exact hn)
  simp only [List.mem_cons, Prod.mk.injEq, List.not_mem_nil, or_false] at hr
  rcases hr with ⟨h1, h2⟩ | ⟨h1, h2⟩ <;> rw [h1] at hp <;> simp [params] at hp
  subst hp
  have hl : layout op = some (special (.reg .grs) (.reg .grt) (.reg .grd) (.num 0) f) := by
    rw [layout_standard (by rw [h1]; decide), h1, hx]; simp [standard, hf]
  refine Good.mono (good_row hm hl (by rw [h2]; rfl) (by rw [h1]; decide) ?_ false hdl) (Nat.le_refl _) ?_
  · refine valid_of rfl rfl (by rw [h2]; decide) (by rw [h2]; decide) (by rw [h2]; decide) ?_ ?_
    · intro s; rw [h2]; cases s <;> simp [Operands.set, noOperands]
    · intro s n; cases s <;> simp +contextual [Operands.set, noOperands, regBits] <;> omega
  · rintro ws st' - - ⟨⟨nop, w, rfl, ⟨imm, -, h3, -⟩, h4⟩, h5⟩
    refine ⟨⟨nop, w, rfl, ?_, h4⟩, h5 rfl⟩
    simpa [HasFields, special, iType, Layout.eval, Content.eval, Operands.set, noOperands, IsR, IsI, ImmType.bits] using h3

def rriNames : List String := ["addiu", "ori", "slti", "sltiu", "xori"]

theorem rri_rows : rowsAre false rriNames [("t,s,i16", [.reg .grt, .reg .grs, .imm .i16]), ("s,i16", [.reg .grs, .imm .i16])] = true := by
  decide +kernel
theorem rri_macros : argsAre rriNames [] = true := by decide +kernel

theorem good_rri {P : ParseEnv} {depth : Nat} {name : String} {a b : Nat} {e : Expr} {x : Int} {k k' : Nat} {c : Cmd} {st : St} {f : Nat}
    (hn : name ∈ rriNames) (hf : number aluI name = some f) (ha : a < 32) (hb : b < 32)
    (he : Evaluates P.env .mips (st.ctx P.env) e (.int x))
    (h : parseLine P depth name [.reg a, .comma, .reg b, .comma, .imm e] k = some (c, k')) :
    k' = k ∧ Good P k c st fun ws st' => Writes P st (IsI f b a (x % 2 ^ 16).toNat) ws ∧ Settled P st' := by
  have hmac : findMacro name [.reg a, .comma, .reg b, .comma, .imm e] = none := by
    refine findMacro_none fun m hm hx => ?_
    have := argsAre_mem rri_macros hm (by rw [hx]; exact hn)
    simp only [List.mem_cons, List.not_mem_nil, or_false] at this
    
  obtain ⟨rfl, op, o, rfl, hm, hx, hp⟩ := line_select hmac h
  refine ⟨rfl, ?_⟩
  obtain ⟨hr, hdl⟩ := rowsAre_mem rri_rows hm (by rw [hx]; exact hn)
  simp only [List.mem_cons, Prod.mk.injEq, List.not_mem_nil, or_false] at hr
  rcases hr with ⟨h1, h2⟩ | ⟨h1, h2⟩ <;> rw [h1] at hp <;> simp [params] at hp
  subst hp
  have hl : layout op = some (iType f (.reg .grs) (.reg .grt) .imm) := by
    rw [layout_standard (by rw [h1]; decide), h1, hx]; simp [standard, hf]
  refine Good.mono (good_row hm hl (by rw [h2]; rfl) (by rw [h1]; decide) ?_ false hdl) (Nat.le_refl _) ?_
  · refine valid_of rfl rfl (by rw [h2]; decide) (by rw [h2]; decide) (by rw [h2]; decide) ?_ ?_
    · intro s; rw [h2]; cases s <;> simp [Operands.set, noOperands]
    · intro s n; cases s <;> simp +contextual [Operands.set, noOperands, regBits] <;> omega
  · rintro ws st' - - ⟨⟨nop, w, rfl, ⟨imm, hi, h3, -⟩, h4⟩, h5⟩
    refine ⟨⟨nop, w, rfl, ?_, h4⟩, h5 rfl⟩
    simp only [h2, StoresImm, primType, List.findSome?, ImmValue, Operands.set, noOperands] at hi
    obtain ⟨y, hy, hi⟩ := hi
    cases evaluates_unique he hy
    have hpl : op.name ∈ plainNames := by
      have : ∀ n ∈ rriNames, n ∈ plainNames := by decide
      rw [hx]; exact this _ hn
    rw [stored_plain hpl] at hi
    subst hi
    simpa [HasFields, special, iType, Layout.eval, Content.eval, Operands.set, noOperands, IsR, IsI, ImmType.bits] using h3

def riNames : List String := ["addiu", "ori", "slti", "sltiu", "xori"]

theorem ri_rows : rowsAre false riNames [("s,i16", [.reg .grs, .imm .i16]), ("t,s,i16", [.reg .grt, .reg .grs, .imm .i16])] = true := by
  decide +kernel
theorem ri_macros : argsAre riNames [] = true := by decide +kernel

theorem good_ri {P : ParseEnv} {depth : Nat} {name : String} {a : Nat} {e : Expr} {x : Int} {k k' : Nat} {c : Cmd} {st : St} {f : Nat}
    (hn : name ∈ riNames) (hf : number aluI name = some f) (ha : a < 32)
    (he : Evaluates P.env .mips (st.ctx P.env) e (.int x))
    (h : parseLine P depth name [.reg a, .comma, .imm e] k = some (c, k')) :
    k' = k ∧ Good P k c st fun ws st' => Writes P st (IsI f a a (x % 2 ^ 16).toNat) ws ∧ Settled P st' := by
  have hmac : findMacro name [.reg a, .comma, .imm e] = none := by
    refine findMacro_none fun m hm hx => ?_
    have := argsAre_mem ri_macros hm (by rw [hx]; exact hn)
    simp only [List.mem_cons, List.not_mem_nil, or_false] at this
    
  obtain ⟨rfl, op, o, rfl, hm, hx, hp⟩ := line_select hmac h
  refine ⟨rfl, ?_⟩
  obtain ⟨hr, hdl⟩ := rowsAre_mem ri_rows hm (by rw [hx]; exact hn)
  simp only [List.mem_cons, Prod.mk.injEq, List.not_mem_nil, or_false] at hr
  rcases hr with ⟨h1, h2⟩ | ⟨h1, h2⟩ <;> rw [h1] at hp <;> simp [params] at hp
  subst hp
  have hl : layout op = some (iType f (.reg .grs) (.reg .grs) .imm) := by
    rw [layout_standard (by rw [h1]; decide), h1, hx]; simp [standard, hf]
  refine Good.mono (good_row hm hl (by rw [h2]; rfl) (by rw [h1]; decide) ?_ false hdl) (Nat.le_refl _) ?_
  · refine valid_of rfl rfl (by rw [h2]; decide) (by rw [h2]; decide) (by rw [h2]; decide) ?_ ?_
    · intro s; rw [h2]; cases s <;> simp [Operands.set, noOperands]
    · intro s n; cases s <;> simp +contextual [Operands.set, noOperands, regBits] <;> omega
  · rintro ws st' - - ⟨⟨nop, w, rfl, ⟨imm, hi, h3, -⟩, h4⟩, h5⟩
    refine ⟨⟨nop, w, rfl, ?_, h4⟩, h5 rfl⟩
    simp only [h2, StoresImm, primType, List.findSome?, ImmValue, Operands.set, noOperands] at hi
    obtain ⟨y, hy, hi⟩ := hi
    cases evaluates_unique he hy
    have hpl : op.name ∈ plainNames := by
      have : ∀ n ∈ riNames, n ∈ plainNames := by decide
      rw [hx]; exact this _ hn
    rw [stored_plain hpl] at hi
    subst hi
    simpa [HasFields, special, iType, Layout.eval, Content.eval, Operands.set, noOperands, IsR, IsI, ImmType.bits] using h3

def luiNames : List String := ["lui"]

theorem lui_rows : rowsAre false luiNames [("t,i16", [.reg .grt, .imm .i16])] = true := by
  decide +kernel
theorem lui_macros : argsAre luiNames [] = true := by decide +kernel

theorem good_lui {P : ParseEnv} {depth : Nat} {name : String} {a : Nat} {e : Expr} {x : Int} {k k' : Nat} {c : Cmd} {st : St} {f : Nat}
    (hn : name ∈ luiNames) (hf : f = 15) (ha : a < 32)
    (he : Evaluates P.env .mips (st.ctx P.env) e (.int x))
    (h : parseLine P depth name [.reg a, .comma, .imm e] k = some (c, k')) :
    k' = k ∧ Good P k c st fun ws st' => Writes P st (IsI f 0 a (x % 2 ^ 16).toNat) ws ∧ Settled P st' := by
  have hmac : findMacro name [.reg a, .comma, .imm e] = none := by
    refine findMacro_none fun m hm hx => ?_
    have := argsAre_mem lui_macros hm (by rw [hx]; exact hn)
    simp only [List.mem_cons, List.not_mem_nil, or_false] at this
    
  obtain ⟨rfl, op, o, rfl, hm, hx, hp⟩ := line_select hmac h
  refine ⟨rfl, ?_⟩
  obtain ⟨hr, hdl⟩ := rowsAre_mem lui_rows hm (by rw [hx]; exact hn)
  simp only [List.mem_cons, Prod.mk.injEq, List.not_mem_nil, or_false] at hr
  obtain ⟨h1, h2⟩ := hr
  rw [h1] at hp; simp [params] at hp
  subst hp
  have hl : layout op = some (iType f (.num 0) (.reg .grt) .imm) := by
    rw [layout_standard (by rw [h1]; decide), h1, hx]
    have hnm : name = "lui" := by simpa [luiNames] using hn
    subst hf hnm; decide
  refine Good.mono (good_row hm hl (by rw [h2]; rfl) (by rw [h1]; decide) ?_ false hdl) (Nat.le_refl _) ?_
  · refine valid_of rfl rfl (by rw [h2]; decide) (by rw [h2]; decide) (by rw [h2]; decide) ?_ ?_
    · intro s; rw [h2]; cases s <;> simp [Operands.set, noOperands]
    · intro s n; cases s <;> simp +contextual [Operands.set, noOperands, regBits] <;> omega
  · rintro ws st' - - ⟨⟨nop, w, rfl, ⟨imm, hi, h3, -⟩, h4⟩, h5⟩
    refine ⟨⟨nop, w, rfl, ?_, h4⟩, h5 rfl⟩
    simp only [h2, StoresImm, primType, List.findSome?, ImmValue, Operands.set, noOperands] at hi
    obtain ⟨y, hy, hi⟩ := hi
    cases evaluates_unique he hy
    have hpl : op.name ∈ plainNames := by
      have : ∀ n ∈ luiNames, n ∈ plainNames := by decide
      rw [hx]; exact this _ hn
    rw [stored_plain hpl] at hi
    subst hi
    simpa [HasFields, special, iType, Layout.eval, Content.eval, Operands.set, noOperands, IsR, IsI, ImmType.bits] using h3

def nopNames : List String := ["nop"]

theorem nop_rows : rowsAre false nopNames [("", [])] = true := by
  decide +kernel
theorem nop_macros : argsAre nopNames [] = true := by decide +kernel

theorem good_nop {P : ParseEnv} {depth : Nat} {name : String} {k k' : Nat} {c : Cmd} {st : St} {f : Nat}
    (hn : name ∈ nopNames) (hf : f = 0) 
    
    (h : parseLine P depth name [] k = some (c, k')) :
    k' = k ∧ Good P k c st fun ws st' => Writes P st (IsR 0 0 0 0 f) ws ∧ Settled P st' := by
  have hmac : findMacro name [] = none := by
    refine findMacro_none fun m hm hx => ?_
    have := argsAre_mem nop_macros hm (by rw [hx]; exact hn)
    simp only [List.mem_cons, List.not_mem_nil, or_false] at this
    
  obtain ⟨rfl, op, o, rfl, hm, hx, hp⟩ := line_select hmac h
  refine ⟨rfl, ?_⟩
  obtain ⟨hr, hdl⟩ := rowsAre_mem nop_rows hm (by rw [hx]; exact hn)
  simp only [List.mem_cons, Prod.mk.injEq, List.not_mem_nil, or_false] at hr
  obtain ⟨h1, h2⟩ := hr
  rw [h1] at hp; simp [params] at hp
  subst hp
  have hl : layout op = some (special (.num 0) (.num 0) (.num 0) (.num 0) f) := by
    rw [layout_standard (by rw [h1]; decide), h1, hx]
    have hnm : name = "nop" := by simpa [nopNames] using hn
    subst hf hnm; decide
  refine Good.mono (good_row hm hl (by rw [h2]; rfl) (by rw [h1]; decide) ?_ false hdl) (Nat.le_refl _) ?_
  · refine valid_of rfl rfl (by rw [h2]; decide) (by rw [h2]; decide) (by rw [h2]; decide) ?_ ?_
    · intro s; rw [h2]; cases s <;> simp [Operands.set, noOperands]
    · intro s n; cases s <;> simp +contextual [Operands.set, noOperands, regBits]
  · rintro ws st' - - ⟨⟨nop, w, rfl, ⟨imm, -, h3, -⟩, h4⟩, h5⟩
    refine ⟨⟨nop, w, rfl, ?_, h4⟩, h5 rfl⟩
    simpa [HasFields, special, iType, Layout.eval, Content.eval, Operands.set, noOperands, IsR, IsI, ImmType.bits] using h3

def memNames : List String := ["lb", "lbu", "lh", "lhu", "lw", "lwu", "ld", "ll", "lld", "lwl", "lwr", "sb", "sh", "sw", "sd", "sc", "scd", "swl", "swr",
  "ldl", "ldr", "sdl", "sdr"]

theorem mem_rows : rowsAre true memNames [("t,i16(s)", [.reg .grt, .imm .i16, .reg .grs]), ("t,(s)", [.reg .grt, .reg .grs])] = true := by
  decide +kernel
theorem mem_macros : argsAre memNames ["s,I"] = true := by decide +kernel

theorem good_mem {P : ParseEnv} {depth : Nat} {name : String} {a b : Nat} {e : Expr} {x : Int} {k k' : Nat} {c : Cmd} {st : St} {f : Nat}
    (hn : name ∈ memNames) (hf : number memory name = some f) (ha : a < 32) (hb : b < 32)
    (he : Evaluates P.env .mips (st.ctx P.env) e (.int x))
    (h : parseLine P depth name [.reg a, .comma, .imm e, .lpar, .reg b, .rpar] k = some (c, k')) :
    k' = k ∧ Good P k c st fun ws st' => Writes P st (IsI f b a (x % 2 ^ 16).toNat) ws := by
  have hmac : findMacro name [.reg a, .comma, .imm e, .lpar, .reg b, .rpar] = none := by
    refine findMacro_none fun m hm hx => ?_
    have := argsAre_mem mem_macros hm (by rw [hx]; exact hn)
    simp only [List.mem_cons, List.not_mem_nil, or_false] at this
    rw [this]; simp [macroParams]
  obtain ⟨rfl, op, o, rfl, hm, hx, hp⟩ := line_select hmac h
  refine ⟨rfl, ?_⟩
  obtain ⟨hr, hdl⟩ := rowsAre_mem mem_rows hm (by rw [hx]; exact hn)
  simp only [List.mem_cons, Prod.mk.injEq, List.not_mem_nil, or_false] at hr
  rcases hr with ⟨h1, h2⟩ | ⟨h1, h2⟩ <;> rw [h1] at hp <;> simp [params] at hp
  subst hp
  have hl : layout op = some (iType f (.reg .grs) (.reg .grt) .imm) := by
    rw [layout_standard (by rw [h1]; decide), h1, hx]; simp [standard, hf]
  refine Good.mono (good_row hm hl (by rw [h2]; rfl) (by rw [h1]; decide) ?_ true hdl) (Nat.le_refl _) ?_
  · refine valid_of rfl rfl (by rw [h2]; decide) (by rw [h2]; decide) (by rw [h2]; decide) ?_ ?_
    · intro s; rw [h2]; cases s <;> simp [Operands.set, noOperands]
    · intro s n; cases s <;> simp +contextual [Operands.set, noOperands, regBits] <;> omega
  · rintro ws st' - - ⟨⟨nop, w, rfl, ⟨imm, hi, h3, -⟩, h4⟩, h5⟩
    refine ⟨nop, w, rfl, ?_, h4⟩
    simp only [h2, StoresImm, primType, List.findSome?, ImmValue, Operands.set, noOperands] at hi
    obtain ⟨y, hy, hi⟩ := hi
    cases evaluates_unique he hy
    have hpl : op.name ∈ plainNames := by
      have : ∀ n ∈ memNames, n ∈ plainNames := by decide
      rw [hx]; exact this _ hn
    rw [stored_plain hpl] at hi
    subst hi
    simpa [HasFields, special, iType, Layout.eval, Content.eval, Operands.set, noOperands, IsR, IsI, ImmType.bits] using h3

def fmemNames : List String := ["lwc1", "ldc1", "swc1", "sdc1"]

theorem fmem_rows : rowsAre true fmemNames [("T,i16(s)", [.reg .frt, .imm .i16, .reg .grs]), ("T,(s)", [.reg .frt, .reg .grs])] = true := by
  decide +kernel
theorem fmem_macros : argsAre fmemNames ["S,I"] = true := by decide +kernel

theorem good_fmem {P : ParseEnv} {depth : Nat} {name : String} {a b : Nat} {e : Expr} {x : Int} {k k' : Nat} {c : Cmd} {st : St} {f : Nat}
    (hn : name ∈ fmemNames) (hf : number memory1 name = some f) (ha : a < 32) (hb : b < 32)
    (he : Evaluates P.env .mips (st.ctx P.env) e (.int x))
    (h : parseLine P depth name [.freg a, .comma, .imm e, .lpar, .reg b, .rpar] k = some (c, k')) :
    k' = k ∧ Good P k c st fun ws st' => Writes P st (IsI f b a (x % 2 ^ 16).toNat) ws := by
  have hmac : findMacro name [.freg a, .comma, .imm e, .lpar, .reg b, .rpar] = none := by
    refine findMacro_none fun m hm hx => ?_
    have := argsAre_mem fmem_macros hm (by rw [hx]; exact hn)
    simp only [List.mem_cons, List.not_mem_nil, or_false] at this
    rw [this]; simp [macroParams]
  obtain ⟨rfl, op, o, rfl, hm, hx, hp⟩ := line_select hmac h
  refine ⟨rfl, ?_⟩
  obtain ⟨hr, hdl⟩ := rowsAre_mem fmem_rows hm (by rw [hx]; exact hn)
  simp only [List.mem_cons, Prod.mk.injEq, List.not_mem_nil, or_false] at hr
  rcases hr with ⟨h1, h2⟩ | ⟨h1, h2⟩ <;> rw [h1] at hp <;> simp [params] at hp
  subst hp
  have hl : layout op = some (iType f (.reg .grs) (.reg .frt) .imm) := by
    rw [layout_standard (by rw [h1]; decide), h1, hx]; simp [standard, hf]
  refine Good.mono (good_row hm hl (by rw [h2]; rfl) (by rw [h1]; decide) ?_ true hdl) (Nat.le_refl _) ?_
  · refine valid_of rfl rfl (by rw [h2]; decide) (by rw [h2]; decide) (by rw [h2]; decide) ?_ ?_
    · intro s; rw [h2]; cases s <;> simp [Operands.set, noOperands]
    · intro s n; cases s <;> simp +contextual [Operands.set, noOperands, regBits] <;> omega
  · rintro ws st' - - ⟨⟨nop, w, rfl, ⟨imm, hi, h3, -⟩, h4⟩, h5⟩
    refine ⟨nop, w, rfl, ?_, h4⟩
    simp only [h2, StoresImm, primType, List.findSome?, ImmValue, Operands.set, noOperands] at hi
    obtain ⟨y, hy, hi⟩ := hi
    cases evaluates_unique he hy
    have hpl : op.name ∈ plainNames := by
      have : ∀ n ∈ fmemNames, n ∈ plainNames := by decide
      rw [hx]; exact this _ hn
    rw [stored_plain hpl] at hi
    subst hi
    simpa [HasFields, special, iType, Layout.eval, Content.eval, Operands.set, noOperands, IsR, IsI, ImmType.bits] using h3

def moveNames : List String := ["move"]

theorem move_rows : rowsAre false moveNames [("d,s", [.reg .grd, .reg .grs])] = true := by
  decide +kernel
theorem move_macros : argsAre moveNames [] = true := by decide +kernel

theorem good_move {P : ParseEnv} {depth : Nat} {name : String} {a b : Nat} {k k' : Nat} {c : Cmd} {st : St} {f : Nat}
    (hn : name ∈ moveNames) (hf : f = 33) (ha : a < 32) (hb : b < 32)
    
    (h : parseLine P depth name [.reg a, .comma, .reg b] k = some (c, k')) :
    k' = k ∧ Good P k c st fun ws st' => Writes P st (IsR b 0 a 0 f) ws ∧ Settled P st' := by
  have hmac : findMacro name [.reg a, .comma, .reg b] = none := by
    refine findMacro_none fun m hm hx => ?_
    have := argsAre_mem move_macros hm (by rw [hx]; exact hn)
    simp only [List.mem_cons, List.not_mem_nil, or_false] at this
    
  obtain ⟨rfl, op, o, rfl, hm, hx, hp⟩ := line_select hmac h
  refine ⟨rfl, ?_⟩
  obtain ⟨hr, hdl⟩ := rowsAre_mem move_rows hm (by rw [hx]; exact hn)
  simp only [List.mem_cons, Prod.mk.injEq, List.not_mem_nil, or_false] at hr
  obtain ⟨h1, h2⟩ := hr
  rw [h1] at hp; simp [params] at hp
  subst hp
  have hl : layout op = some (special (.reg .grs) (.num 0) (.reg .grd) (.num 0) f) := by
    rw [layout_standard (by rw [h1]; decide), h1, hx]
    have hnm : name = "move" := by simpa [moveNames] using hn
    subst hf hnm; decide
  refine Good.mono (good_row hm hl (by rw [h2]; rfl) (by rw [h1]; decide) ?_ false hdl) (Nat.le_refl _) ?_
  · refine valid_of rfl rfl (by rw [h2]; decide) (by rw [h2]; decide) (by rw [h2]; decide) ?_ ?_
    · intro s; rw [h2]; cases s <;> simp [Operands.set, noOperands]
    · intro s n; cases s <;> simp +contextual [Operands.set, noOperands, regBits] <;> omega
  · rintro ws st' - - ⟨⟨nop, w, rfl, ⟨imm, -, h3, -⟩, h4⟩, h5⟩
    refine ⟨⟨nop, w, rfl, ?_, h4⟩, h5 rfl⟩
    simpa [HasFields, special, iType, Layout.eval, Content.eval, Operands.set, noOperands, IsR, IsI, ImmType.bits] using h3

def rrNames : List String := ["or"]

theorem rr_rows : rowsAre false rrNames [("s,t", [.reg .grs, .reg .grt]), ("d,s,t", [.reg .grd, .reg .grs, .reg .grt])] = true := by
  decide +kernel
theorem rr_macros : argsAre rrNames [] = true := by decide +kernel

theorem good_rr {P : ParseEnv} {depth : Nat} {name : String} {a b : Nat} {k k' : Nat} {c : Cmd} {st : St} {f : Nat}
    (hn : name ∈ rrNames) (hf : f = 37) (ha : a < 32) (hb : b < 32)
    
    (h : parseLine P depth name [.reg a, .comma, .reg b] k = some (c, k')) :
    k' = k ∧ Good P k c st fun ws st' => Writes P st (IsR a b a 0 f) ws ∧ Settled P st' := by
  have hmac : findMacro name [.reg a, .comma, .reg b] = none := by
    refine findMacro_none fun m hm hx => ?_
    have := argsAre_mem rr_macros hm (by rw [hx]; exact hn)
    simp only [List.mem_cons, List.not_mem_nil, or_false] at this
    
  obtain ⟨rfl, op, o, rfl, hm, hx, hp⟩ := line_select hmac h
  refine ⟨rfl, ?_⟩
  obtain ⟨hr, hdl⟩ := rowsAre_mem rr_rows hm (by rw [hx]; exact hn)
  simp only [List.mem_cons, Prod.mk.injEq, List.not_mem_nil, or_false] at hr
  rcases hr with ⟨h1, h2⟩ | ⟨h1, h2⟩ <;> rw [h1] at hp <;> simp [params] at hp
  subst hp
  have hl : layout op = some (special (.reg .grs) (.reg .grt) (.reg .grs) (.num 0) f) := by
    rw [layout_standard (by rw [h1]; decide), h1, hx]
    have hnm : name = "or" := by simpa [rrNames] using hn
    subst hf hnm; decide
  refine Good.mono (good_row hm hl (by rw [h2]; rfl) (by rw [h1]; decide) ?_ false hdl) (Nat.le_refl _) ?_
  · refine valid_of rfl rfl (by rw [h2]; decide) (by rw [h2]; decide) (by rw [h2]; decide) ?_ ?_
    · intro s; rw [h2]; cases s <;> simp [Operands.set, noOperands]
    · intro s n; cases s <;> simp +contextual [Operands.set, noOperands, regBits] <;> omega
  · rintro ws st' - - ⟨⟨nop, w, rfl, ⟨imm, -, h3, -⟩, h4⟩, h5⟩
    refine ⟨⟨nop, w, rfl, ?_, h4⟩, h5 rfl⟩
    simpa [HasFields, special, iType, Layout.eval, Content.eval, Operands.set, noOperands, IsR, IsI, ImmType.bits] using h3

def neguNames : List String := ["negu"]

theorem negu_rows : rowsAre false neguNames [("d,t", [.reg .grd, .reg .grt])] = true := by
  decide +kernel
theorem negu_macros : argsAre neguNames [] = true := by decide +kernel

theorem good_negu {P : ParseEnv} {depth : Nat} {name : String} {a b : Nat} {k k' : Nat} {c : Cmd} {st : St} {f : Nat}
    (hn : name ∈ neguNames) (hf : f = 35) (ha : a < 32) (hb : b < 32)
    
    (h : parseLine P depth name [.reg a, .comma, .reg b] k = some (c, k')) :
    k' = k ∧ Good P k c st fun ws st' => Writes P st (IsR 0 b a 0 f) ws ∧ Settled P st' := by
  have hmac : findMacro name [.reg a, .comma, .reg b] = none := by
    refine findMacro_none fun m hm hx => ?_
    have := argsAre_mem negu_macros hm (by rw [hx]; exact hn)
    simp only [List.mem_cons, List.not_mem_nil, or_false] at this
    
  obtain ⟨rfl, op, o, rfl, hm, hx, hp⟩ := line_select hmac h
  refine ⟨rfl, ?_⟩
  obtain ⟨hr, hdl⟩ := rowsAre_mem negu_rows hm (by rw [hx]; exact hn)
  simp only [List.mem_cons, Prod.mk.injEq, List.not_mem_nil, or_false] at hr
  obtain ⟨h1, h2⟩ := hr
  rw [h1] at hp; simp [params] at hp
  subst hp
  have hl : layout op = some (special (.num 0) (.reg .grt) (.reg .grd) (.num 0) f) := by
    rw [layout_standard (by rw [h1]; decide), h1, hx]
    have hnm : name = "negu" := by simpa [neguNames] using hn
    subst hf hnm; decide
  refine Good.mono (good_row hm hl (by rw [h2]; rfl) (by rw [h1]; decide) ?_ false hdl) (Nat.le_refl _) ?_
  · refine valid_of rfl rfl (by rw [h2]; decide) (by rw [h2]; decide) (by rw [h2]; decide) ?_ ?_
    · intro s; rw [h2]; cases s <;> simp [Operands.set, noOperands]
    · intro s n; cases s <;> simp +contextual [Operands.set, noOperands, regBits] <;> omega
  · rintro ws st' - - ⟨⟨nop, w, rfl, ⟨imm, -, h3, -⟩, h4⟩, h5⟩
    refine ⟨⟨nop, w, rfl, ?_, h4⟩, h5 rfl⟩
    simpa [HasFields, special, iType, Layout.eval, Content.eval, Operands.set, noOperands, IsR, IsI, ImmType.bits] using h3

def shvNames : List String := ["rotrv", "srlv", "sllv"]

theorem shv_rows : rowsAre false shvNames [("d,t,s", [.reg .grd, .reg .grt, .reg .grs]), ("d,s", [.reg .grd, .reg .grs])] = true := by
  decide +kernel
theorem shv_macros : argsAre shvNames [] = true := by decide +kernel

theorem good_shv {P : ParseEnv} {depth : Nat} {name : String} {a b d : Nat} {k k' : Nat} {c : Cmd} {st : St} {f : Nat}
    (hn : name ∈ shvNames) (hf : number shiftV name = some f) (ha : a < 32) (hb : b < 32) (hd : d < 32)
    
    (h : parseLine P depth name [.reg a, .comma, .reg b, .comma, .reg d] k = some (c, k')) :
    k' = k ∧ Good P k c st fun ws st' => Writes P st (IsR d b a (if name = "rotrv" then 1 else 0) f) ws ∧ Settled P st' := by
  have hmac : findMacro name [.reg a, .comma, .reg b, .comma, .reg d] = none := by
    refine findMacro_none fun m hm hx => ?_
    have := argsAre_mem shv_macros hm (by rw [hx]; exact hn)
    simp only [List.mem_cons, List.not_mem_nil, or_false] at this
    
  obtain ⟨rfl, op, o, rfl, hm, hx, hp⟩ := line_select hmac h
  refine ⟨rfl, ?_⟩
  obtain ⟨hr, hdl⟩ := rowsAre_mem shv_rows hm (by rw [hx]; exact hn)
  simp only [List.mem_cons, Prod.mk.injEq, List.not_mem_nil, or_false] at hr
  rcases hr with ⟨h1, h2⟩ | ⟨h1, h2⟩ <;> rw [h1] at hp <;> simp [params] at hp
  subst hp
  have hl : layout op = some (special (.reg .grs) (.reg .grt) (.reg .grd) (rot name) f) := by
    rw [layout_standard (by rw [h1]; decide), h1, hx]; simp [standard, hf]
  refine Good.mono (good_row hm hl (by rw [h2]; rfl) (by rw [h1]; decide) ?_ false hdl) (Nat.le_refl _) ?_
  · refine valid_of rfl rfl (by rw [h2]; decide) (by rw [h2]; decide) (by rw [h2]; decide) ?_ ?_
    · intro s; rw [h2]; cases s <;> simp [Operands.set, noOperands]
    · intro s n; cases s <;> simp +contextual [Operands.set, noOperands, regBits] <;> omega
  · rintro ws st' - - ⟨⟨nop, w, rfl, ⟨imm, -, h3, -⟩, h4⟩, h5⟩
    refine ⟨⟨nop, w, rfl, ?_, h4⟩, h5 rfl⟩
    have hrot : rot name = .num (if name = "rotrv" then 1 else 0) := by
      simp only [shvNames, List.mem_cons, List.not_mem_nil, or_false] at hn
      rcases hn with rfl | rfl | rfl <;> rfl
    rw [hrot] at h3; simpa [HasFields, special, iType, Layout.eval, Content.eval, Operands.set, noOperands, IsR, IsI, ImmType.bits] using h3

def shNames : List String := ["sra", "srl", "sll", "rotr", "dsra32"]

theorem sh_rows : rowsAre false shNames [("d,t,i5", [.reg .grd, .reg .grt, .imm .i5]), ("d,i5", [.reg .grd, .imm .i5])] = true := by
  decide +kernel
theorem sh_macros : argsAre shNames [] = true := by decide +kernel

theorem good_sh {P : ParseEnv} {depth : Nat} {name : String} {a b : Nat} {e : Expr} {x : Int} {k k' : Nat} {c : Cmd} {st : St} {f : Nat}
    (hn : name ∈ shNames) (hf : number shiftC name = some f) (ha : a < 32) (hb : b < 32)
    (he : Evaluates P.env .mips (st.ctx P.env) e (.int x))
    (h : parseLine P depth name [.reg a, .comma, .reg b, .comma, .imm e] k = some (c, k')) :
    k' = k ∧ Good P k c st fun ws st' => Writes P st (IsR (if name = "rotr" then 1 else 0) b a (x % 2 ^ 5).toNat f) ws ∧ Settled P st' := by
  have hmac : findMacro name [.reg a, .comma, .reg b, .comma, .imm e] = none := by
    refine findMacro_none fun m hm hx => ?_
    have := argsAre_mem sh_macros hm (by rw [hx]; exact hn)
    simp only [List.mem_cons, List.not_mem_nil, or_false] at this
    
  obtain ⟨rfl, op, o, rfl, hm, hx, hp⟩ := line_select hmac h
  refine ⟨rfl, ?_⟩
  obtain ⟨hr, hdl⟩ := rowsAre_mem sh_rows hm (by rw [hx]; exact hn)
  simp only [List.mem_cons, Prod.mk.injEq, List.not_mem_nil, or_false] at hr
  rcases hr with ⟨h1, h2⟩ | ⟨h1, h2⟩ <;> rw [h1] at hp <;> simp [params] at hp
  subst hp
  have hl : layout op = some (special (rot name) (.reg .grt) (.reg .grd) .imm f) := by
    rw [layout_standard (by rw [h1]; decide), h1, hx]; simp [standard, hf]
  refine Good.mono (good_row hm hl (by rw [h2]; rfl) (by rw [h1]; decide) ?_ false hdl) (Nat.le_refl _) ?_
  · refine valid_of rfl rfl (by rw [h2]; decide) (by rw [h2]; decide) (by rw [h2]; decide) ?_ ?_
    · intro s; rw [h2]; cases s <;> simp [Operands.set, noOperands]
    · intro s n; cases s <;> simp +contextual [Operands.set, noOperands, regBits] <;> omega
  · rintro ws st' - - ⟨⟨nop, w, rfl, ⟨imm, hi, h3, -⟩, h4⟩, h5⟩
    refine ⟨⟨nop, w, rfl, ?_, h4⟩, h5 rfl⟩
    simp only [h2, StoresImm, primType, List.findSome?, ImmValue, Operands.set, noOperands] at hi
    obtain ⟨y, hy, hi⟩ := hi
    cases evaluates_unique he hy
    have hpl : op.name ∈ plainNames := by
      have : ∀ n ∈ shNames, n ∈ plainNames := by decide
      rw [hx]; exact this _ hn
    rw [stored_plain hpl] at hi
    subst hi
    have hrot : rot name = .num (if name = "rotr" then 1 else 0) := by
      simp only [shNames, List.mem_cons, List.not_mem_nil, or_false] at hn
      rcases hn with rfl | rfl | rfl | rfl | rfl <;> rfl
    rw [hrot] at h3; simpa [HasFields, special, iType, Layout.eval, Content.eval, Operands.set, noOperands, IsR, IsI, ImmType.bits] using h3

def sh1Names : List String := ["sll"]

theorem sh1_rows : rowsAre false sh1Names [("d,i5", [.reg .grd, .imm .i5]), ("d,t,i5", [.reg .grd, .reg .grt, .imm .i5])] = true := by
  decide +kernel
theorem sh1_macros : argsAre sh1Names [] = true := by decide +kernel

theorem good_sh1 {P : ParseEnv} {depth : Nat} {name : String} {a : Nat} {e : Expr} {x : Int} {k k' : Nat} {c : Cmd} {st : St} {f : Nat}
    (hn : name ∈ sh1Names) (hf : f = 0) (ha : a < 32)
    (he : Evaluates P.env .mips (st.ctx P.env) e (.int x))
    (h : parseLine P depth name [.reg a, .comma, .imm e] k = some (c, k')) :
    k' = k ∧ Good P k c st fun ws st' => Writes P st (IsR 0 a a (x % 2 ^ 5).toNat f) ws ∧ Settled P st' := by
  have hmac : findMacro name [.reg a, .comma, .imm e] = none := by
    refine findMacro_none fun m hm hx => ?_
    have := argsAre_mem sh1_macros hm (by rw [hx]; exact hn)
    simp only [List.mem_cons, List.not_mem_nil, or_false] at this
    
  obtain ⟨rfl, op, o, rfl, hm, hx, hp⟩ := line_select hmac h
  refine ⟨rfl, ?_⟩
  obtain ⟨hr, hdl⟩ := rowsAre_mem sh1_rows hm (by rw [hx]; exact hn)
  simp only [List.mem_cons, Prod.mk.injEq, List.not_mem_nil, or_false] at hr
  rcases hr with ⟨h1, h2⟩ | ⟨h1, h2⟩ <;> rw [h1] at hp <;> simp [params] at hp
  subst hp
  have hl : layout op = some (special (.num 0) (.reg .grd) (.reg .grd) .imm f) := by
    rw [layout_standard (by rw [h1]; decide), h1, hx]
    have hnm : name = "sll" := by simpa [sh1Names] using hn
    subst hf hnm; decide
  refine Good.mono (good_row hm hl (by rw [h2]; rfl) (by rw [h1]; decide) ?_ false hdl) (Nat.le_refl _) ?_
  · refine valid_of rfl rfl (by rw [h2]; decide) (by rw [h2]; decide) (by rw [h2]; decide) ?_ ?_
    · intro s; rw [h2]; cases s <;> simp [Operands.set, noOperands]
    · intro s n; cases s <;> simp +contextual [Operands.set, noOperands, regBits] <;> omega
  · rintro ws st' - - ⟨⟨nop, w, rfl, ⟨imm, hi, h3, -⟩, h4⟩, h5⟩
    refine ⟨⟨nop, w, rfl, ?_, h4⟩, h5 rfl⟩
    simp only [h2, StoresImm, primType, List.findSome?, ImmValue, Operands.set, noOperands] at hi
    obtain ⟨y, hy, hi⟩ := hi
    cases evaluates_unique he hy
    have hpl : op.name ∈ plainNames := by
      have : ∀ n ∈ sh1Names, n ∈ plainNames := by decide
      rw [hx]; exact this _ hn
    rw [stored_plain hpl] at hi
    subst hi
    simpa [HasFields, special, iType, Layout.eval, Content.eval, Operands.set, noOperands, IsR, IsI, ImmType.bits] using h3

def b2Names : List String := ["beq", "bne", "beql", "bnel"]

theorem b2_rows : rowsAre false b2Names [("s,t,i16", [.reg .grs, .reg .grt, .imm .i16])] = true := by
  decide +kernel
theorem b2_macros : argsAre b2Names ["s,i,I"] = true := by decide +kernel

theorem good_b2 {P : ParseEnv} {depth : Nat} {name : String} {a b : Nat} {e : Expr} {x : Int} {k k' : Nat} {c : Cmd} {st : St} {f : Nat}
    (hn : name ∈ b2Names) (hf : number branch2 name = some f) (ha : a < 32) (hb : b < 32)
    (he : Evaluates P.env .mips (st.ctx P.env) e (.int x))
    (h : parseLine P depth name [.reg a, .comma, .reg b, .comma, .imm e] k = some (c, k')) :
    k' = k ∧ Good P k c st fun ws st' => Writes P st (fun w => IsI f a b ((x - ((st.ctx P.env).virtualAddress + 4)) / 4 % 2 ^ 16).toNat w ∧ Reaches (st.ctx P.env).virtualAddress x w) ws ∧ Settled P st' := by
  have hmac : findMacro name [.reg a, .comma, .reg b, .comma, .imm e] = none := by
    refine findMacro_none fun m hm hx => ?_
    have := argsAre_mem b2_macros hm (by rw [hx]; exact hn)
    simp only [List.mem_cons, List.not_mem_nil, or_false] at this
    rw [this]; simp [macroParams]
  obtain ⟨rfl, op, o, rfl, hm, hx, hp⟩ := line_select hmac h
  refine ⟨rfl, ?_⟩
  obtain ⟨hr, hdl⟩ := rowsAre_mem b2_rows hm (by rw [hx]; exact hn)
  simp only [List.mem_cons, Prod.mk.injEq, List.not_mem_nil, or_false] at hr
  obtain ⟨h1, h2⟩ := hr
  rw [h1] at hp; simp [params] at hp
  subst hp
  have hl : layout op = some (iType f (.reg .grs) (.reg .grt) .imm) := by
    rw [layout_standard (by rw [h1]; decide), h1, hx]; simp [standard, hf]
  refine (fun hval => Good.mono (good_row hm hl (by rw [h2]; rfl) (by rw [h1]; decide) hval false hdl) (Nat.le_refl _) ?_) ?_
  rotate_left
  · refine valid_of rfl rfl (by rw [h2]; decide) (by rw [h2]; decide) (by rw [h2]; decide) ?_ ?_
    · intro s; rw [h2]; cases s <;> simp [Operands.set, noOperands]
    · intro s n; cases s <;> simp +contextual [Operands.set, noOperands, regBits] <;> omega
  · rintro ws st' - - ⟨⟨nop, w, rfl, ⟨imm, hi, h3, -, hem⟩, h4⟩, h5⟩
    refine ⟨⟨nop, w, rfl, ?_, h4⟩, h5 rfl⟩
    simp only [h2, StoresImm, primType, List.findSome?, ImmValue, Operands.set, noOperands] at hi
    obtain ⟨y, hy, hi⟩ := hi
    cases evaluates_unique he hy
    have hpl : op.name ∈ branches := by
      have : ∀ n ∈ b2Names, n ∈ branches := by decide
      rw [hx]; exact this _ hn
    have hgo : Reaches (st.ctx P.env).virtualAddress x w := by
      obtain ⟨nop', he'⟩ := hem
      refine fun hal hfar => Props.branch_goes hm hpl hval ?_ hal hfar he'
      exact he
    unfold stored at hi
    rw [if_pos hpl] at hi
    subst hi
    refine ⟨?_, hgo⟩
    simpa [HasFields, special, iType, Layout.eval, Content.eval, Operands.set, noOperands, IsR, IsI, ImmType.bits] using h3

def b1Names : List String := ["beqz", "bnez", "beqzl", "bnezl"]

theorem b1_rows : rowsAre false b1Names [("s,i16", [.reg .grs, .imm .i16])] = true := by
  decide +kernel
theorem b1_macros : argsAre b1Names [] = true := by decide +kernel

theorem good_b1 {P : ParseEnv} {depth : Nat} {name : String} {a : Nat} {e : Expr} {x : Int} {k k' : Nat} {c : Cmd} {st : St} {f : Nat}
    (hn : name ∈ b1Names) (hf : number branch1 name = some f) (ha : a < 32)
    (he : Evaluates P.env .mips (st.ctx P.env) e (.int x))
    (h : parseLine P depth name [.reg a, .comma, .imm e] k = some (c, k')) :
    k' = k ∧ Good P k c st fun ws st' => Writes P st (fun w => IsI f a 0 ((x - ((st.ctx P.env).virtualAddress + 4)) / 4 % 2 ^ 16).toNat w ∧ Reaches (st.ctx P.env).virtualAddress x w) ws ∧ Settled P st' := by
  have hmac : findMacro name [.reg a, .comma, .imm e] = none := by
    refine findMacro_none fun m hm hx => ?_
    have := argsAre_mem b1_macros hm (by rw [hx]; exact hn)
    simp only [List.mem_cons, List.not_mem_nil, or_false] at this
    
  obtain ⟨rfl, op, o, rfl, hm, hx, hp⟩ := line_select hmac h
  refine ⟨rfl, ?_⟩
  obtain ⟨hr, hdl⟩ := rowsAre_mem b1_rows hm (by rw [hx]; exact hn)
  simp only [List.mem_cons, Prod.mk.injEq, List.not_mem_nil, or_false] at hr
  obtain ⟨h1, h2⟩ := hr
  rw [h1] at hp; simp [params] at hp
  subst hp
  have hl : layout op = some (iType f (.reg .grs) (.num 0) .imm) := by
    rw [layout_standard (by rw [h1]; decide), h1, hx]
    simp only [b1Names, List.mem_cons, List.not_mem_nil, or_false] at hn
    rcases hn with rfl | rfl | rfl | rfl <;> (simp only [number, branch1, List.find?] at hf; cases hf; decide)
  refine (fun hval => Good.mono (good_row hm hl (by rw [h2]; rfl) (by rw [h1]; decide) hval false hdl) (Nat.le_refl _) ?_) ?_
  rotate_left
  · refine valid_of rfl rfl (by rw [h2]; decide) (by rw [h2]; decide) (by rw [h2]; decide) ?_ ?_
    · intro s; rw [h2]; cases s <;> simp [Operands.set, noOperands]
    · intro s n; cases s <;> simp +contextual [Operands.set, noOperands, regBits] <;> omega
  · rintro ws st' - - ⟨⟨nop, w, rfl, ⟨imm, hi, h3, -, hem⟩, h4⟩, h5⟩
    refine ⟨⟨nop, w, rfl, ?_, h4⟩, h5 rfl⟩
    simp only [h2, StoresImm, primType, List.findSome?, ImmValue, Operands.set, noOperands] at hi
    obtain ⟨y, hy, hi⟩ := hi
    cases evaluates_unique he hy
    have hpl : op.name ∈ branches := by
      have : ∀ n ∈ b1Names, n ∈ branches := by decide
      rw [hx]; exact this _ hn
    have hgo : Reaches (st.ctx P.env).virtualAddress x w := by
      obtain ⟨nop', he'⟩ := hem
      refine fun hal hfar => Props.branch_goes hm hpl hval ?_ hal hfar he'
      exact he
    unfold stored at hi
    rw [if_pos hpl] at hi
    subst hi
    refine ⟨?_, hgo⟩
    simpa [HasFields, special, iType, Layout.eval, Content.eval, Operands.set, noOperands, IsR, IsI, ImmType.bits] using h3

end Armips.MacroProof
