import Verif.Lemmas.ThumbBranch
import Verif.Props.ThumbWords
/-!
# C24: THUMB branches and addresses relative to the program counter

Addresses are those of a 32-bit processor: two integers denote the same address if they are equal modulo 2^32. `int32 x` is
`x` modulo 2^32 as a signed number, so `int32 (v - a - 4)` is the distance of the target `v` from the program counter.
-/
namespace Armips.Props
open Armips.Thumb Spec Spec.Thumb Spec.Instr
open Arm (fld orIf field_fld field_fld_ne hasFields_cons hasFields_nil)

theorem signed_mod {y : Int} {k : Nat} (hk : 0 < k) (h1 : -(2 ^ (k - 1)) ≤ y) (h2 : y < 2 ^ (k - 1)) {n : Nat}
    (hn : (n : Int) = y % 2 ^ k) : signed k n = y := by
  have hp : (2 : Int) ^ k = 2 * 2 ^ (k - 1) := by
    obtain ⟨j, rfl⟩ : ∃ j, k = j + 1 := ⟨k - 1, by omega⟩
    simp [Int.pow_succ, Int.mul_comm]
  have hpn : ((2 ^ (k - 1) : Nat) : Int) = (2 : Int) ^ (k - 1) := by simp
  have hpos : (0 : Int) < 2 ^ (k - 1) := Int.pow_pos (by decide)
  unfold signed
  by_cases hy : 0 ≤ y
  · rw [Int.emod_eq_of_lt hy (by omega)] at hn
    rw [if_pos (by omega)]; exact hn
  · have : y % 2 ^ k = y + 2 ^ k := by
      rw [← Int.add_emod_right, Int.emod_eq_of_lt (by omega) (by omega)]
    rw [this] at hn
    rw [if_neg (by omega)]
    omega

/-- C24. Conditional branches and `b`: a halfword aligned target whose distance fits the field is accepted; the word holds the
condition, and the processor goes to the target. -/
theorem thumb_branch_reaches {E : Env} {op : Op} {o : Operands} {c : Ctx} {st : ArchState} {f : Format} {v : Int}
    (h : op ∈ opcodes) (hf : format op.name op.mask = some f) (hb : f = .branch ∨ ∃ k, f = .conditional k) (hv : Valid op o)
    (hval : Evaluates E .arm c o.imm (.int v)) (ha : c.virtualAddress % 2 = 0)
    (hal : v % 2 = 0)    (h1 : -2 ^ f.bits ≤ int32 (v - c.virtualAddress - 4)) (h2 : int32 (v - c.virtualAddress - 4) < 2 ^ f.bits) :
    ∃ w off, Emits (sem E op o) c st w ∧ HasFields w (f.layout (args op o off)) ∧
      BitVec.ofInt 32 (if f = .branch then branchTarget w c.virtualAddress else conditionalTarget w c.virtualAddress) =
        BitVec.ofInt 32 v := by
  obtain ⟨r, hfields⟩ := row_table op h f (by simp [hf])
  have hrow := branch_table op h f (by simp [hf]) (by rcases hb with rfl | ⟨k, rfl⟩ <;> simp [formatType])
  have hbits : f.bits ≤ 22 := by rcases hb with rfl | ⟨k, rfl⟩ <;> simp [Format.bits]
  obtain ⟨m, hm, hp, henc, n, hmv, hn, hnv⟩ := branch_ok hrow hbits (a := c.virtualAddress) (by simpa using hal) h1 h2
  rw [← hv.bits hrow.imm] at hm
  have hfin := final_of hrow.imm hval hm
  have h19 : f ≠ .linkLow := by rcases hb with rfl | ⟨k, rfl⟩ <;> simp
  have hreg : regular f = true := by rcases hb with rfl | ⟨k, rfl⟩ <;> simp [regular]
  have hF : HasFields ((encodeType op o m.value op.encoding).setWidth 16) (f.layout (args op o n)) :=
    hasFields_setWidth (layout_small _ _)
      (encode_fields r hv hfields hreg hn (fun _ => hmv) (by simp [hrow.imm]) (by simp [hrow.imm]))
  have hone := encode_one (o := o) (m := m) r h19
  simp only [henc, Option.getD_none] at hone
  refine ⟨_, n, emits_of hfin hp hone, hF, ?_⟩
  apply ofInt_eq_of_int32
  simp only [Bool.false_eq_true, if_false, Int.add_zero] at hnv
  have hd2 : int32 (v - c.virtualAddress - 4) % 2 = c.virtualAddress % 2 := by unfold int32; omega
  have hoff : field ((encodeType op o m.value op.encoding).setWidth 16) 0 f.bits = n := by
    rcases hb with rfl | ⟨k, rfl⟩
    · exact hF (0, 11, n) (by simp [Format.layout, args])
    · exact hF (0, 8, n) (by simp [Format.layout, args])
  have hsig : signed f.bits n = int32 (v - c.virtualAddress - 4) / 2 := by
    have hp0 : 0 < f.bits := by rcases hb with rfl | ⟨k, rfl⟩ <;> simp [Format.bits]
    have hp : (2 : Int) ^ f.bits = 2 * 2 ^ (f.bits - 1) := by
      obtain ⟨j, hj⟩ : ∃ j, f.bits = j + 1 := ⟨f.bits - 1, by omega⟩
      rw [hj]; simp [Int.pow_succ, Int.mul_comm]
    exact signed_mod hp0 (by omega) (by omega) hnv
  have hcong : int32 (c.virtualAddress + 4 + 2 * (int32 (v - c.virtualAddress - 4) / 2)) = int32 v := by
    apply int32_congr
    unfold int32 at hd2 ⊢
    omega
  rcases hb with rfl | ⟨k, rfl⟩
  · simp only [if_true, branchTarget]
    rw [show field _ 0 11 = n from hoff, show signed 11 n = _ from hsig]
    exact hcong
  · simp only [conditionalTarget]
    rw [if_neg (by simp), show field _ 0 8 = n from hoff, show signed 8 n = _ from hsig]
    exact hcong

/-- C24. A misaligned or too distant target of a conditional branch or `b` is reported as an error. -/
theorem thumb_branch_rejects {E : Env} {op : Op} {o : Operands} {c : Ctx} {st : ArchState} {f : Format} {v : Int}
    (h : op ∈ opcodes) (hf : format op.name op.mask = some f) (hb : f = .branch ∨ ∃ k, f = .conditional k) (hv : Valid op o)
    (hval : Evaluates E .arm c o.imm (.int v))
    (hbad : v % 2 ≠ 0 ∨ int32 (v - c.virtualAddress - 4) < -2 ^ f.bits ∨ 2 ^ f.bits ≤ int32 (v - c.virtualAddress - 4)) :
    Rejects (sem E op o) c st := by
  have hrow := branch_table op h f (by simp [hf]) (by rcases hb with rfl | ⟨k, rfl⟩ <;> simp [formatType])
  obtain ⟨t, ht⟩ := branch_bad hrow (a := c.virtualAddress) (by simpa using hbad)
  rw [← hv.bits hrow.imm] at ht
  exact rejects_of hrow.imm hval ht



theorem link_words {op : Op} {o : Operands} {m : Imm} {n : Nat} (ht : op.type = 19) (hl : op.has .long = true)
    (hm : m.value = fld n 0) (he : m.encoding = none) (hn : n < 2 ^ 22) (henc : op.encoding = 0xF000#32) :
    written op o m = [0xF000#32 ||| fld (n / 2048) 0,
      (if op.has .exchange = true then 0xE800#32 else 0xF800#32) ||| fld (n % 2048) 0] := by
  have h1 : (fld n 0).sshiftRight 11 &&& 0x7FF#32 = fld (n / 2048) 0 := by
    have : (fld n 0).sshiftRight 11 = fld (n / 2048) 0 := by
      apply fld_of_toInt
      rw [toInt_sshift]
      have : (fld n 0).toInt = n := by
        simp only [fld, BitVec.shiftLeft_zero]
        rw [BitVec.toInt_ofNat', Int.bmod_def]
        split <;> omega
      rw [this]
      omega
    rw [this, fld_and11 (by omega)]
  have h2 : fld n 0 &&& 0x7FF#32 = fld (n % 2048) 0 := by
    apply BitVec.eq_of_toNat_eq
    rw [BitVec.toNat_and, show (0x7FF#32).toNat = 2 ^ 11 - 1 from rfl, Nat.and_two_pow_sub_one_eq_mod]
    simp only [fld, BitVec.shiftLeft_zero, BitVec.toNat_ofNat]
    omega
  simp only [written, hl, Thumb.encode, ht, hm, he, h1, h2, henc, Option.getD_none]
  simp

theorem half_fields {b : BitVec 32} {n k : Nat} (hb : field b 11 5 = k) (hb' : field b 0 11 = 0) (hn : n < 2 ^ 11) :
    HasFields ((b ||| fld n 0).setWidth 16) [(11, 5, k), (0, 11, n)] := by
  refine hasFields_setWidth (by simp) ?_
  simp only [hasFields_cons, hasFields_nil, field_or, hb, hb', field_fld hn (show 0 + 11 ≤ 32 by decide),
    field_fld_ne (k := 11) hn (.inl (Nat.le_refl 11) : 0 + 11 ≤ 11 ∨ 11 + 5 ≤ 0)]
  simp

/-- C24. `bl`: a halfword aligned target at a distance of less than 4 MiB is accepted and reached. -/
theorem thumb_bl_reaches {E : Env} {op : Op} {o : Operands} {c : Ctx} {st : ArchState} {v : Int}
    (h : longRow "bl" = some op) (hv : Valid op o) (hval : Evaluates E .arm c o.imm (.int v))
    (ha : c.virtualAddress % 2 = 0) (hal : v % 2 = 0)
    (h1 : -2 ^ 22 ≤ int32 (v - c.virtualAddress - 4)) (h2 : int32 (v - c.virtualAddress - 4) < 2 ^ 22) :
    ∃ w1 w2 hi lo, Emits2 (sem E op o) c st w1 w2 ∧ HasFields w1 (linkHigh hi) ∧
      HasFields w2 (Format.linkLow.layout { imm := lo }) ∧
      BitVec.ofInt 32 (linkTarget w1 w2 c.virtualAddress) = BitVec.ofInt 32 v := by
  obtain ⟨hrow, ht, hl, henc⟩ := long_table.1 op (by simp [h])
  obtain ⟨m, hm, hp, he, n, hmv, hn, hnv⟩ := branch_ok hrow (by decide) (a := c.virtualAddress) (by simpa using hal) h1 h2
  rw [← hv.bits hrow.imm] at hm
  have hfin := final_of hrow.imm hval hm
  have hw := link_words (o := o) ht hl hmv he hn henc
  simp only [hrow.exchange, Bool.false_eq_true, if_false, Int.add_zero] at hw hnv
  have f1 : HasFields ((0xF000#32 ||| fld (n / 2048) 0).setWidth 16) (linkHigh (n / 2048)) :=
    half_fields (by decide) (by decide) (by omega)
  have f2 : HasFields ((0xF800#32 ||| fld (n % 2048) 0).setWidth 16) (Format.linkLow.layout { imm := n % 2048 }) :=
    half_fields (by decide) (by decide) (by omega)
  refine ⟨_, _, _, _, emits2_of hfin hp hw, f1, f2, ?_⟩
  rw [linkTarget, f1 (0, 11, n / 2048) (by simp [linkHigh]), f2 (0, 11, n % 2048) (by simp [Format.layout])]
  have hd2 : int32 (v - c.virtualAddress - 4) % 2 = 0 := by unfold int32; omega
  have hs : signed 11 (n / 2048) = int32 (v - c.virtualAddress - 4) / 4096 := by
    apply signed_mod (by decide) (by omega) (by omega)
    omega
  rw [hs]
  apply ofInt_eq_of_int32
  apply int32_congr
  generalize hD : int32 (v - c.virtualAddress - 4) = D at *
  have hc : (D - (v - c.virtualAddress - 4)) % 4294967296 = 0 := by rw [← hD]; unfold int32; omega
  dsimp only
  omega

/-- C24. `blx` to ARM code: a word aligned target in range is accepted and reached.
The largest distance 4 MiB - 2 is excluded, see `thumb_blx_wraps`. -/
theorem thumb_blx_reaches_partial {E : Env} {op : Op} {o : Operands} {c : Ctx} {st : ArchState} {v : Int}
    (h : longRow "blx" = some op) (hv : Valid op o) (hval : Evaluates E .arm c o.imm (.int v))
    (ha : c.virtualAddress % 2 = 0) (hal : v % 4 = 0)
    (h1 : -2 ^ 22 ≤ int32 (v - c.virtualAddress - 4)) (h2 : int32 (v - c.virtualAddress - 4) < 2 ^ 22 - 2) :
    ∃ w1 w2 hi lo, Emits2 (sem E op o) c st w1 w2 ∧ HasFields w1 (linkHigh hi) ∧ HasFields w2 (exchangeLow lo) ∧
      BitVec.ofInt 32 (exchangeTarget w1 w2 c.virtualAddress) = BitVec.ofInt 32 v := by
  obtain ⟨hrow, ht, hl, henc⟩ := long_table.2 op (by simp [h])
  obtain ⟨m, hm, hp, he, n, hmv, hn, hnv⟩ := branch_ok hrow (by decide) (a := c.virtualAddress) (by simpa using hal) h1 (by omega)
  rw [← hv.bits hrow.imm] at hm
  have hfin := final_of hrow.imm hval hm
  have hw := link_words (o := o) ht hl hmv he hn henc
  simp only [hrow.exchange, if_true] at hw hnv
  have f1 : HasFields ((0xF000#32 ||| fld (n / 2048) 0).setWidth 16) (linkHigh (n / 2048)) :=
    half_fields (by decide) (by decide) (by omega)
  have f2 : HasFields ((0xE800#32 ||| fld (n % 2048) 0).setWidth 16) (exchangeLow (n % 2048)) :=
    half_fields (by decide) (by decide) (by omega)
  refine ⟨_, _, _, _, emits2_of hfin hp hw, f1, f2, ?_⟩
  rw [exchangeTarget, linkTarget, f1 (0, 11, n / 2048) (by simp [linkHigh]), f2 (0, 11, n % 2048) (by simp [exchangeLow])]
  generalize hD : int32 (v - c.virtualAddress - 4) = D at *
  have hc : (D - (v - c.virtualAddress - 4)) % 4294967296 = 0 := by rw [← hD]; unfold int32; omega
  have hs : signed 11 (n / 2048) = (D / 2 + D / 2 % 2) / 2048 := by
    apply signed_mod (by decide) (by omega) (by omega)
    omega
  rw [hs]
  apply ofInt_eq_of_int32
  apply int32_congr
  dsimp only
  omega

/-- C24. A misaligned or too distant target of `bl` or `blx` is reported as an error. -/
theorem thumb_long_rejects {E : Env} {op : Op} {o : Operands} {c : Ctx} {st : ArchState} {v : Int} {ex : Bool}
    (h : longRow (if ex = true then "blx" else "bl") = some op) (hv : Valid op o) (hval : Evaluates E .arm c o.imm (.int v))
    (hbad : v % (if ex = true then 4 else 2) ≠ 0 ∨ int32 (v - c.virtualAddress - 4) < -2 ^ 22 ∨
      2 ^ 22 ≤ int32 (v - c.virtualAddress - 4)) : Rejects (sem E op o) c st := by
  have hrow : BranchRow op ex 22 := by
    cases ex
    · exact (long_table.1 op (by simp at h; simp [h])).1
    · exact (long_table.2 op (by simp at h; simp [h])).1
  obtain ⟨t, ht⟩ := branch_bad hrow (a := c.virtualAddress) hbad
  rw [← hv.bits hrow.imm] at ht
  exact rejects_of hrow.imm hval ht

/-! ### Loads and additions relative to the program counter -/

/-- C24. `ldr rd,[address]` and `add rd,=address`: an address that is a multiple of 4, up to 1020 bytes after the program
counter, is accepted; the processor accesses (or computes) that address. -/
theorem thumb_literal_reaches {E : Env} {op : Op} {o : Operands} {c : Ctx} {st : ArchState} {f : Format} {v : Int}
    (h : op ∈ opcodes) (hf : format op.name op.mask = some f) (hm : op.mask = "d,[/#I\x20]" ∨ op.mask = "d,=/#i\x20")
    (hv : Valid op o) (hval : Evaluates E .arm c o.imm (.int v)) (ha : c.virtualAddress % 2 = 0) (hal : v % 4 = 0)
    (h1 : 0 ≤ int32 (v - (c.virtualAddress + 4 - (c.virtualAddress + 4) % 4)))
    (h2 : int32 (v - (c.virtualAddress + 4 - (c.virtualAddress + 4) % 4)) ≤ 1020) :
    ∃ w off, Emits (sem E op o) c st w ∧ HasFields w (f.layout (args op o off)) ∧
      BitVec.ofInt 32 (literalAddress w c.virtualAddress) = BitVec.ofInt 32 v := by
  obtain ⟨r, hfields⟩ := row_table op h f (by simp [hf])
  obtain ⟨t1, t2, t3, t4, t5, t6, t7, t8, t9, t10⟩ := pcr_table op h f (by simp [hf]) hm
  have hpc := pcOffset_eq (p := (BitVec.ofInt 32 v).toInt) ha
  rw [toInt_int32] at hpc
  have hpc' : (pcOffset c.virtualAddress (int32 v)).toInt = int32 (v - (c.virtualAddress + 4 - (c.virtualAddress + 4) % 4)) := by
    rw [hpc]
    apply int32_congr
    unfold int32; omega
  have h3 : BitVec.ofInt 32 v &&& 3#32 = 0#32 := (and3 _).2 (by rw [toInt_int32]; unfold int32; omega)
  generalize hD : int32 (v - (c.virtualAddress + 4 - (c.virtualAddress + 4) % 4)) = D at *
  have himm : immediate op o.bitLen (BitVec.ofInt 32 v) c.virtualAddress =
      .ok { value := (pcOffset c.virtualAddress (int32 v)).sshiftRight 2 } := by
    have : ¬ ((pcOffset c.virtualAddress (int32 v)).toInt < 0 ∨ (pcOffset c.virtualAddress (int32 v)).toInt > 1020) := by
      rw [hpc']; omega
    simp [immediate, immCases, t2, t3, t4, t5, t6, immPcr, h3, toInt_int32, -BitVec.toInt_ofInt, this, addSub, t7, checkRange, t8]
  have hfin := final_of t1 hval himm
  have hval' := fld_div (N := pcOffset c.virtualAddress (int32 v)) (by omega)
  rw [hpc'] at hval'
  have hF : HasFields ((encodeType op o ((pcOffset c.virtualAddress (int32 v)).sshiftRight 2) op.encoding).setWidth 16)
      (f.layout (args op o (D / 4).toNat)) :=
    hasFields_setWidth (layout_small _ _)
      (encode_fields r hv hfields t9 (by rw [t10.1]; omega) (fun _ => hval') (by simp [t1]) (by simp [t1]))
  have h19 : f ≠ .linkLow := by rintro rfl; simp [regular] at t9
  refine ⟨_, _, emits_of hfin rfl (encode_one r h19), hF, ?_⟩
  have hoff : field ((encodeType op o ((pcOffset c.virtualAddress (int32 v)).sshiftRight 2) op.encoding).setWidth 16) 0 8 =
      (D / 4).toNat := by
    rcases t10.2 with rfl | rfl
    · exact hF (0, 8, (D / 4).toNat) (by simp [Format.layout, args])
    · exact hF (0, 8, (D / 4).toNat) (by simp [Format.layout, args])
  simp only [literalAddress, Option.getD_none]
  rw [hoff]
  apply ofInt_eq_of_int32
  apply int32_congr
  have hc : (D - (v - (c.virtualAddress + 4 - (c.virtualAddress + 4) % 4))) % 4294967296 = 0 := by
    rw [← hD]; unfold int32; omega
  omega

/-- C24. Other addresses are reported as an error. -/
theorem thumb_literal_rejects {E : Env} {op : Op} {o : Operands} {c : Ctx} {st : ArchState} {f : Format} {v : Int}
    (h : op ∈ opcodes) (hf : format op.name op.mask = some f) (hm : op.mask = "d,[/#I\x20]" ∨ op.mask = "d,=/#i\x20")
    (hval : Evaluates E .arm c o.imm (.int v)) (ha : c.virtualAddress % 2 = 0)
    (hbad : v % 4 ≠ 0 ∨ int32 (v - (c.virtualAddress + 4 - (c.virtualAddress + 4) % 4)) < 0 ∨
      1020 < int32 (v - (c.virtualAddress + 4 - (c.virtualAddress + 4) % 4))) : Rejects (sem E op o) c st := by
  obtain ⟨t1, t2, t3, t4, t5, t6, t7, t8, t9, t10⟩ := pcr_table op h f (by simp [hf]) hm
  have hpc := pcOffset_eq (p := (BitVec.ofInt 32 v).toInt) ha
  rw [toInt_int32] at hpc
  have hpc' : (pcOffset c.virtualAddress (int32 v)).toInt = int32 (v - (c.virtualAddress + 4 - (c.virtualAddress + 4) % 4)) := by
    rw [hpc]
    apply int32_congr
    unfold int32; omega
  have h3 : BitVec.ofInt 32 v &&& 3#32 = 0#32 ↔ v % 4 = 0 := by rw [and3, toInt_int32]; unfold int32; omega
  suffices hs : ∃ t, immediate op o.bitLen (BitVec.ofInt 32 v) c.virtualAddress = .error t by
    obtain ⟨t, ht⟩ := hs
    exact rejects_of t1 hval ht
  by_cases h4 : v % 4 = 0
  · have h5 : (pcOffset c.virtualAddress (int32 v)).toInt < 0 ∨ (pcOffset c.virtualAddress (int32 v)).toInt > 1020 := by
      rw [hpc']; omega
    refine ⟨"PC relative address out of range", ?_⟩
    simp [immediate, immCases, t2, t3, t4, t5, t6, immPcr, h3.2 h4, toInt_int32, -BitVec.toInt_ofInt, h5]
  · refine ⟨"PC relative address must be word aligned", ?_⟩
    have := mt h3.1 h4
    simp [immediate, immCases, t2, t3, t4, t5, t6, immPcr, this]

/-- C20. `ldr rd,=constant`: the instruction asks for a pool word with the constant. If it is given the address of the word and
reports no error then the processor loads from that address. -/
theorem thumb_pool_reaches {E : Env} {op : Op} {o : Operands} {c : Ctx} {st : ArchState} {out : InstrOut} {v p : Int}
    (h : op ∈ opcodes) (hn : op.name = "ldr") (hm : op.mask = "d,=/#I\x20") (hv : Valid op o)
    (hval : Evaluates E .arm c o.imm (.int v)) (ha : c.virtualAddress % 2 = 0) (hout : Accepts (sem E op o) c st out) :
    out.pool = some (int32 v) ∧ (out.poolDiags p = [] → p % 4 = 0 →
      ∃ (w : BitVec 16) (off : Nat), out.words (some p) = [(Width.w16, (w.toNat : Int))] ∧
        HasFields w (Format.literal.layout (args op o off)) ∧
        BitVec.ofInt 32 (literalAddress w c.virtualAddress) = BitVec.ofInt 32 p) := by
  have hf : format op.name op.mask = some .literal := by rw [hn, hm]; rfl
  obtain ⟨r, hfields⟩ := row_table op h .literal (by rw [hf]; simp)
  obtain ⟨t1, t2, t3, t4, t5, t7, t8⟩ := pool_table op h hm
  obtain ⟨m, hfin, rfl⟩ := accepts_iff.1 hout
  have him := final_imm hfin t1 hval
  have hme : m = { value := BitVec.ofInt 32 v, pool := true } := by
    simp [immediate, immCases, t2, t3, t4, t5, addSub, t7, checkRange, t8] at him
    exact him.symm
  subst hme
  refine ⟨by simp [outcome, toInt_int32, -BitVec.toInt_ofInt], ?_⟩
  intro hd hp4
  have hnf : poolFar c.virtualAddress p = false := by
    simp only [outcome] at hd
    cases hfar : poolFar c.virtualAddress p <;> simp [hfar] at hd ⊢
  have hpc := pcOffset_eq (p := p) ha
  have hrange : 0 ≤ (pcOffset c.virtualAddress p).toInt ∧ (pcOffset c.virtualAddress p).toInt ≤ 1020 := by
    simp only [poolFar, decide_eq_false_iff_not] at hnf
    omega
  have hval' := fld_div hrange.1
  have hF : HasFields ((encodeType op o ((pcOffset c.virtualAddress p).sshiftRight 2) op.encoding).setWidth 16)
      (Format.literal.layout (args op o ((pcOffset c.virtualAddress p).toInt / 4).toNat)) :=
    hasFields_setWidth (layout_small _ _)
      (encode_fields r hv hfields rfl (by simp only [Format.bits]; omega) (fun _ => hval') (by simp [t1]) (by simp [t1]))
  refine ⟨_, _, ?_, hF, ?_⟩
  · have hone := encode_one (o := o) (m := { value := (pcOffset c.virtualAddress p).sshiftRight 2, pool := true }) r (by simp)
    simp only [Option.getD_none] at hone
    have hpi : poolImm c.virtualAddress { value := BitVec.ofInt 32 v, pool := true } (some p) =
        { value := (pcOffset c.virtualAddress p).sshiftRight 2, pool := true } := by
      simp [poolImm, hnf]
    simp only [outcome, hpi, hone, List.map, unit]
  · have hoff := hF (0, 8, ((pcOffset c.virtualAddress p).toInt / 4).toNat) (by simp [Format.layout, args])
    dsimp only at hoff
    rw [literalAddress, hoff]
    apply ofInt_eq_of_int32
    apply int32_congr
    rw [hpc] at hrange ⊢
    generalize hD : int32 (p - (c.virtualAddress + 4 - (c.virtualAddress + 4) % 4)) = D at *
    have hc : (D - (p - (c.virtualAddress + 4 - (c.virtualAddress + 4) % 4))) % 4294967296 = 0 := by
      rw [← hD]; unfold int32; omega
    omega

end Armips.Props
