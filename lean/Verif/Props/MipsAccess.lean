import Verif.Lemmas.MipsAccess
import Verif.Props.MipsLi
/-!
# Loads and stores with an address (C30)

`lw r,address` and the like access exactly that address, with the register that is named. The base address is built in the
register itself for a load and in register 1 for a store; where these are the wrong register, the macro is wrong.
-/
namespace Armips.Props
open Spec Spec.Instr Spec.Macro Spec.Isa MacroProof Sample
open Armips.Mips (ParseEnv Tok Kind Parsed Config Version)
open Spec.Mips (number memory memory1)

/-- The loads: whole, upper half, lower half. -/
def loadNames : List (String × String × String) :=
  [("lb", "lb.u", "lb.l"), ("lbu", "lbu.u", "lbu.l"), ("lh", "lh.u", "lh.l"), ("lhu", "lhu.u", "lhu.l"), ("lw", "lw.u", "lw.l"),
    ("lwu", "lwu.u", "lwu.l"), ("ld", "ld.u", "ld.l"), ("ll", "ll.u", "ll.l"), ("lld", "lld.u", "lld.l")]

/-- The stores. -/
def storeNames : List (String × String × String) :=
  [("sb", "sb.u", "sb.l"), ("sh", "sh.u", "sh.l"), ("sw", "sw.u", "sw.l"), ("sd", "sd.u", "sd.l"), ("sc", "sc.u", "sc.l"),
    ("scd", "scd.u", "scd.l")]

/-- Loads and stores of the floating point unit. -/
def fpuNames : List (String × String × String) :=
  [("lwc1", "lwc1.u", "lwc1.l"), ("l.s", "l.s.u", "l.s.l"), ("ldc1", "ldc1.u", "ldc1.l"), ("l.d", "l.d.u", "l.d.l"),
    ("swc1", "swc1.u", "swc1.l"), ("s.s", "s.s.u", "s.s.l"), ("sdc1", "sdc1.u", "sdc1.l"), ("s.d", "s.d.u", "s.d.l")]

/-- The three forms of a macro. -/
def partName (x : String × String × String) (u l : Bool) : String := if u then (if l then x.1 else x.2.1) else x.2.2

set_option maxRecDepth 4000 in
theorem find_load {x : String × String × String} (hx : x ∈ loadNames) (u l : Bool) (hul : u = true ∨ l = true) (r : Nat) (e : Expr) :
    Mips.findMacro (partName x u l) [.reg r, .comma, .imm e] =
      some (.loadStore x.1 false false u l, { grs := some r, sec := some e }) := by
  revert x
  simp only [loadNames, List.forall_mem_cons]
  cases u <;> cases l <;> first | exact ⟨rfl, rfl, rfl, rfl, rfl, rfl, rfl, rfl, rfl, by simp⟩ | exact absurd hul (by simp)

set_option maxRecDepth 4000 in
theorem find_store {x : String × String × String} (hx : x ∈ storeNames) (u l : Bool) (hul : u = true ∨ l = true) (r : Nat) (e : Expr) :
    Mips.findMacro (partName x u l) [.reg r, .comma, .imm e] =
      some (.loadStore x.1 false true u l, { grs := some r, sec := some e }) := by
  revert x
  simp only [storeNames, List.forall_mem_cons]
  cases u <;> cases l <;> first | exact ⟨rfl, rfl, rfl, rfl, rfl, rfl, by simp⟩ | exact absurd hul (by simp)

/-- The instruction of a macro for the floating point unit. -/
def fpuBase (name : String) : String :=
  if name = "l.s" then "lwc1" else if name = "l.d" then "ldc1" else if name = "s.s" then "swc1" else if name = "s.d" then "sdc1" else name

set_option maxRecDepth 4000 in
theorem find_fpu {x : String × String × String} (hx : x ∈ fpuNames) (u l : Bool) (hul : u = true ∨ l = true) (r : Nat) (e : Expr) :
    ∃ s, Mips.findMacro (partName x u l) [.freg r, .comma, .imm e] =
      some (.loadStore (fpuBase x.1) true s u l, { frs := some r, sec := some e }) := by
  revert x
  simp only [fpuNames, List.forall_mem_cons]
  cases u <;> cases l <;> first
    | exact ⟨⟨_, rfl⟩, ⟨_, rfl⟩, ⟨_, rfl⟩, ⟨_, rfl⟩, ⟨_, rfl⟩, ⟨_, rfl⟩, ⟨_, rfl⟩, ⟨_, rfl⟩, by simp⟩
    | exact absurd hul (by simp)

section
variable {P : ParseEnv} {k : Nat} {x : String × String × String} {r f : Nat} {e : Expr} {v : Int} {st st' : St} {ws : List (BitVec 32)}

theorem access_general {name op : String} {u l : Bool} {store : Bool}
    (hf : Mips.findMacro name [.reg r, .comma, .imm e] = some (.loadStore op false store u l, { grs := some r, sec := some e }))
    (hop : op ∈ memNames) (hnum : number memory op = some f)
    (ho : Ordinary P k st [e]) (hr : r < 32) (hv : HasValue P st e v)
    (hA : Assembles P k name [.reg r, .comma, .imm e] st st' ws) :
    LsWords u l f r (if store then 1 else r) v ws ∧ 0 ≤ v ∧ v < 4294967296 := by
  refine (macro_does (Q := fun ws _ => LsWords u l f r (if store then 1 else r) v ws ∧ 0 ≤ v ∧ v < 4294967296)
    hA hf (fun _ _ _ _ _ _ _ h => h) fun d t ht st1 hn => ?_).1
  obtain ⟨hp, rfl⟩ := ls_kind ht
  refine tgood_access ho.functions (by split <;> omega) (hn.mips hA.mips)
    (reads_dotted hn ho.labels hp (ho.usual _ (by simp)) hv) fun st1 b e' x hb he => ?_
  exact tgood_line fun k k' c h => good_mem hop hnum hr hb he h

theorem fpu_general {name op : String} {u l : Bool} {store : Bool}
    (hf : Mips.findMacro name [.freg r, .comma, .imm e] = some (.loadStore op true store u l, { frs := some r, sec := some e }))
    (hop : op ∈ fmemNames) (hnum : number memory1 op = some f)
    (ho : Ordinary P k st [e]) (hr : r < 32) (hv : HasValue P st e v)
    (hA : Assembles P k name [.freg r, .comma, .imm e] st st' ws) :
    LsWords u l f r 1 v ws ∧ 0 ≤ v ∧ v < 4294967296 := by
  refine (macro_does (Q := fun ws _ => LsWords u l f r 1 v ws ∧ 0 ≤ v ∧ v < 4294967296)
    hA hf (fun _ _ _ _ _ _ _ h => h) fun d t ht st1 hn => ?_).1
  obtain ⟨hp, rfl⟩ := lsf_kind ht
  refine tgood_access ho.functions (by decide) (hn.mips hA.mips)
    (reads_dotted hn ho.labels hp (ho.usual _ (by simp)) hv) fun st1 b e' x hb he => ?_
  exact tgood_line fun k k' c h => good_fmem hop hnum hr hb he h

/-- The whole of the macro. -/
theorem access_whole {temp : Nat} (ht : temp ≠ 0) (h : LsWords true true f r temp v ws ∧ 0 ≤ v ∧ v < 4294967296) (be : Bool) (m : Machine) :
    ∃ pre w m1, ws = pre ++ [w] ∧ exec be pre m = some m1 ∧ SameBut [temp] m m1 ∧ access w m1 = (f, r, BitVec.ofInt 32 v) := by
  obtain ⟨pre, w, h1, h2, h3⟩ := h.1.lower rfl
  refine ⟨pre, w, _, h1, h2 be m, ?_, ?_⟩
  · rw [if_pos rfl]; exact lsU_same _ _ _
  · rw [if_pos rfl]; exact access_at ht h3 m _ rfl h.2.1 h.2.2

/-- The two halves. -/
theorem access_halves {temp : Nat} {ws' : List (BitVec 32)} (ht : temp ≠ 0)
    (h : LsWords true false f r temp v ws ∧ 0 ≤ v ∧ v < 4294967296)
    (h' : LsWords false true f r temp v ws' ∧ 0 ≤ v ∧ v < 4294967296) (be : Bool) (m : Machine) :
    ∃ m1, exec be ws m = some m1 ∧ SameBut [temp] m m1 ∧ ∀ m2, m2.get temp = m1.get temp →
      ∃ pre w, ws' = pre ++ [w] ∧ exec be pre m2 = some m2 ∧ access w m2 = (f, r, BitVec.ofInt 32 v) := by
  refine ⟨_, h.1.upper rfl be m, ?_, fun m2 hm => ?_⟩
  · rw [if_pos rfl]; exact lsU_same _ _ _
  · obtain ⟨pre, w, h1, h2, h3⟩ := h'.1.lower rfl
    refine ⟨pre, w, h1, ?_, ?_⟩
    · have := h2 be m2; simpa using this
    · rw [if_pos rfl] at hm
      exact access_at ht h3 m _ hm h.2.1 h.2.2

theorem load_op {x : String × String × String} (hx : x ∈ loadNames) : x.1 ∈ memNames := by
  revert x; decide
theorem store_op {x : String × String × String} (hx : x ∈ storeNames) : x.1 ∈ memNames := by
  revert x; decide
theorem fpu_op {x : String × String × String} (hx : x ∈ fpuNames) :
    fpuBase x.1 ∈ fmemNames ∧ number memory1 (fpuBase x.1) = number memory1 x.1 := by
  revert x; decide

/-- A load from an address: the last word loads the register from the address; the words before it change at most that
register. The address is a 32-bit number.

Partial: the register is not 0, see `mips_load_zero_wrong`. -/
theorem mips_load_address_partial (hx : x ∈ loadNames) (hnum : number memory x.1 = some f) (ho : Ordinary P k st [e])
    (hr : r < 32) (hr0 : r ≠ 0) (hv : HasValue P st e v) (hA : Assembles P k x.1 [.reg r, .comma, .imm e] st st' ws)
    (be : Bool) (m : Machine) :
    (0 ≤ v ∧ v < 2 ^ 32) ∧
    ∃ pre w m1, ws = pre ++ [w] ∧ exec be pre m = some m1 ∧ SameBut [r] m m1 ∧ access w m1 = (f, r, BitVec.ofInt 32 v) := by
  have h := access_general (find_load hx true true (.inl rfl) r e) (load_op hx) hnum ho hr hv hA
  exact ⟨⟨h.2.1, by omega⟩, access_whole hr0 h be m⟩

/-- A store to an address: the last word stores the register at the address, and the register has the value that it had
before; the words before it change at most register 1.

Partial: the register is not 1, see `mips_store_at_wrong`. -/
theorem mips_store_address_partial (hx : x ∈ storeNames) (hnum : number memory x.1 = some f) (ho : Ordinary P k st [e])
    (hr : r < 32) (hr1 : r ≠ 1) (hv : HasValue P st e v) (hA : Assembles P k x.1 [.reg r, .comma, .imm e] st st' ws)
    (be : Bool) (m : Machine) :
    (0 ≤ v ∧ v < 2 ^ 32) ∧
    ∃ pre w m1, ws = pre ++ [w] ∧ exec be pre m = some m1 ∧ SameBut [1] m m1 ∧ m1.get r = m.get r ∧
      access w m1 = (f, r, BitVec.ofInt 32 v) := by
  have h := access_general (find_store hx true true (.inl rfl) r e) (store_op hx) hnum ho hr hv hA
  obtain ⟨pre, w, m1, h1, h2, h3, h4⟩ := access_whole (temp := 1) (by decide) h be m
  exact ⟨⟨h.2.1, by omega⟩, pre, w, m1, h1, h2, h3, h3.2 r (by simpa using hr1), h4⟩

/-- A load or store of a floating point register. -/
theorem mips_fpu_address (hx : x ∈ fpuNames) (hnum : number memory1 x.1 = some f) (ho : Ordinary P k st [e])
    (hr : r < 32) (hv : HasValue P st e v) (hA : Assembles P k x.1 [.freg r, .comma, .imm e] st st' ws)
    (be : Bool) (m : Machine) :
    (0 ≤ v ∧ v < 2 ^ 32) ∧
    ∃ pre w m1, ws = pre ++ [w] ∧ exec be pre m = some m1 ∧ SameBut [1] m m1 ∧ access w m1 = (f, r, BitVec.ofInt 32 v) := by
  obtain ⟨s, hs⟩ := find_fpu hx true true (.inl rfl) r e
  have h := fpu_general hs (fpu_op hx).1 (by rw [(fpu_op hx).2]; exact hnum) ho hr hv hA
  exact ⟨⟨h.2.1, by omega⟩, access_whole (by decide) h be m⟩

variable {P' : ParseEnv} {k' : Nat} {e' : Expr} {s s' : St} {ws' : List (BitVec 32)}

/-- The halves of a load in sequence, with anything in between that keeps the register. -/
theorem mips_load_halves_partial (hx : x ∈ loadNames) (hnum : number memory x.1 = some f) (ho : Ordinary P k st [e])
    (ho' : Ordinary P' k' s [e']) (hr : r < 32) (hr0 : r ≠ 0) (hv : HasValue P st e v) (hv' : HasValue P' s e' v)
    (hA : Assembles P k x.2.1 [.reg r, .comma, .imm e] st st' ws)
    (hA' : Assembles P' k' x.2.2 [.reg r, .comma, .imm e'] s s' ws') (be : Bool) (m : Machine) :
    ∃ m1, exec be ws m = some m1 ∧ SameBut [r] m m1 ∧ ∀ m2, m2.get r = m1.get r →
      ∃ pre w, ws' = pre ++ [w] ∧ exec be pre m2 = some m2 ∧ access w m2 = (f, r, BitVec.ofInt 32 v) :=
  access_halves hr0 (access_general (find_load hx true false (.inl rfl) r e) (load_op hx) hnum ho hr hv hA)
    (access_general (find_load hx false true (.inr rfl) r e') (load_op hx) hnum ho' hr hv' hA') be m

/-- The halves of a store in sequence, with anything in between that keeps register 1. -/
theorem mips_store_halves (hx : x ∈ storeNames) (hnum : number memory x.1 = some f) (ho : Ordinary P k st [e])
    (ho' : Ordinary P' k' s [e']) (hr : r < 32) (hv : HasValue P st e v) (hv' : HasValue P' s e' v)
    (hA : Assembles P k x.2.1 [.reg r, .comma, .imm e] st st' ws)
    (hA' : Assembles P' k' x.2.2 [.reg r, .comma, .imm e'] s s' ws') (be : Bool) (m : Machine) :
    ∃ m1, exec be ws m = some m1 ∧ SameBut [1] m m1 ∧ ∀ m2, m2.get 1 = m1.get 1 →
      ∃ pre w, ws' = pre ++ [w] ∧ exec be pre m2 = some m2 ∧ access w m2 = (f, r, BitVec.ofInt 32 v) :=
  access_halves (temp := 1) (by decide) (access_general (find_store hx true false (.inl rfl) r e) (store_op hx) hnum ho hr hv hA)
    (access_general (find_store hx false true (.inr rfl) r e') (store_op hx) hnum ho' hr hv' hA') be m

/-- The halves of a load or store of a floating point register. -/
theorem mips_fpu_halves (hx : x ∈ fpuNames) (hnum : number memory1 x.1 = some f) (ho : Ordinary P k st [e])
    (ho' : Ordinary P' k' s [e']) (hr : r < 32) (hv : HasValue P st e v) (hv' : HasValue P' s e' v)
    (hA : Assembles P k x.2.1 [.freg r, .comma, .imm e] st st' ws)
    (hA' : Assembles P' k' x.2.2 [.freg r, .comma, .imm e'] s s' ws') (be : Bool) (m : Machine) :
    ∃ m1, exec be ws m = some m1 ∧ SameBut [1] m m1 ∧ ∀ m2, m2.get 1 = m1.get 1 →
      ∃ pre w, ws' = pre ++ [w] ∧ exec be pre m2 = some m2 ∧ access w m2 = (f, r, BitVec.ofInt 32 v) := by
  obtain ⟨s1, h1⟩ := find_fpu hx true false (.inl rfl) r e
  obtain ⟨s2, h2⟩ := find_fpu hx false true (.inr rfl) r e'
  exact access_halves (by decide) (fpu_general h1 (fpu_op hx).1 (by rw [(fpu_op hx).2]; exact hnum) ho hr hv hA)
    (fpu_general h2 (fpu_op hx).1 (by rw [(fpu_op hx).2]; exact hnum) ho' hr hv' hA') be m
end

/-- Sample: a load or store is assembled. -/
theorem sample_access {cfg : Config} {name op : String} {r : Nat} {v : Int} {store : Bool} {f : Nat}
    (hf : Mips.findMacro name [.reg r, .comma, .imm (.int v)] =
      some (.loadStore op false store true true, { grs := some r, sec := some (.int v) }))
    (hop : op ∈ memNames) (hnum : number memory op = some f) (hr : r < 32) (hv : -(2 ^ 63) < v ∧ v < 2 ^ 63)
    (hs : accepted (mparse cfg) 0 name [.reg r, .comma, .imm (.int v)] mst = true) :
    (∃ st' ws, Assembles (mparse cfg) 0 name [.reg r, .comma, .imm (.int v)] mst st' ws) ∧ Ordinary (mparse cfg) 0 mst [.int v] := by
  have ho : Ordinary (mparse cfg) 0 mst [.int v] := (sample_ordinary (v := v) (w := 0)).sub (by simp)
  refine ⟨macro_exists (P := mparse cfg) (k := 0) (st := mst) rfl hf hs fun d t ht st1 hn => ?_, ho⟩
  obtain ⟨hp, rfl⟩ := ls_kind ht
  refine TGood.mono (tgood_access (f := f) (n := r) ho.functions (by split <;> omega) (hn.mips rfl)
    (reads_dotted hn ho.labels hp (ho.usual _ (by simp)) (sample_value hv)) fun st1 b e' x hb he => ?_)
    fun _ _ _ _ _ => trivial
  exact tgood_line fun k k' c h => good_mem hop hnum hr hb he h

-- `lw a0,0x80001234`
example : (∃ st' ws, Assembles (mparse psx) 0 "lw" [.reg 4, .comma, .imm (.int 0x80001234)] mst st' ws) ∧
    Ordinary (mparse psx) 0 mst [.int 0x80001234] :=
  sample_access (find_load (x := ("lw", "lw.u", "lw.l")) (by decide) true true (.inl rfl) 4 _) (by decide) (f := 35) rfl (by decide)
    (by omega) (by decide +kernel)

-- `sb a0,0x8000FFFF`
example : (∃ st' ws, Assembles (mparse psp) 0 "sb" [.reg 4, .comma, .imm (.int 0x8000FFFF)] mst st' ws) ∧
    Ordinary (mparse psp) 0 mst [.int 0x8000FFFF] :=
  sample_access (find_store (x := ("sb", "sb.u", "sb.l")) (by decide) true true (.inl rfl) 4 _) (by decide) (f := 40) rfl (by decide)
    (by omega) (by decide +kernel)

/-- A load to register 0 accesses another address: `lw r0,0x80001234` reads at 0x1234. -/
theorem mips_load_zero_wrong : ∃ st' ws, Assembles (mparse psx) 0 "lw" [.reg 0, .comma, .imm (.int 0x80001234)] mst st' ws ∧
    ∀ be m, ∃ pre w m1, ws = pre ++ [w] ∧ exec be pre m = some m1 ∧ access w m1 = (35, 0, 0x00001234#32) := by
  obtain ⟨⟨st', ws, hA⟩, ho⟩ := sample_access (cfg := psx) (v := 0x80001234)
    (find_load (x := ("lw", "lw.u", "lw.l")) (by decide) true true (.inl rfl) 0 _) (by decide) (f := 35) rfl (by decide)
    (by omega) (by decide +kernel)
  refine ⟨st', ws, hA, fun be m => ?_⟩
  have h := access_general (find_load (x := ("lw", "lw.u", "lw.l")) (by decide) true true (.inl rfl) 0 _) (by decide) (f := 35) rfl
    ho (by decide) (sample_value (by omega)) hA
  obtain ⟨pre, w, h1, h2, h3⟩ := h.1.lower rfl
  refine ⟨pre, w, _, h1, h2 be m, ?_⟩
  obtain ⟨a1, a2, a3, a4⟩ := h3
  have a2 : Spec.field w 21 5 = 0 := by rw [a2]; decide
  simp only [access, a1, a2, a3, a4, Machine.address, signed_lo, get_zero]
  decide

/-- A store of register 1 stores another value: `sw at,0x80001234` always stores 0x80000000. -/
theorem mips_store_at_wrong : ∃ st' ws, Assembles (mparse psx) 0 "sw" [.reg 1, .comma, .imm (.int 0x80001234)] mst st' ws ∧
    ∀ be m, ∃ pre w m1, ws = pre ++ [w] ∧ exec be pre m = some m1 ∧ access w m1 = (43, 1, 0x80001234#32) ∧
      m1.get 1 = 0x80000000#32 := by
  obtain ⟨⟨st', ws, hA⟩, ho⟩ := sample_access (cfg := psx) (v := 0x80001234)
    (find_store (x := ("sw", "sw.u", "sw.l")) (by decide) true true (.inl rfl) 1 _) (by decide) (f := 43) rfl (by decide)
    (by omega) (by decide +kernel)
  refine ⟨st', ws, hA, fun be m => ?_⟩
  have h := access_general (find_store (x := ("sw", "sw.u", "sw.l")) (by decide) true true (.inl rfl) 1 _) (by decide) (f := 43) rfl
    ho (by decide) (sample_value (by omega)) hA
  obtain ⟨pre, w, h1, h2, h3⟩ := h.1.lower rfl
  refine ⟨pre, w, _, h1, h2 be m, ?_, ?_⟩
  · rw [if_pos rfl]
    exact access_at (by decide) h3 m _ rfl h.2.1 h.2.2
  · rw [if_pos rfl, if_pos rfl, lsU, if_neg (by decide), get_set, if_pos ⟨rfl, by decide⟩]
    decide

end Armips.Props
