import Verif.Lemmas.MipsDouble
import Verif.Props.MipsUnaligned
/-!
# The 64-bit macros (C32, C33)

`uld` and `usd` with an offset from a register and `dabs`, on a 64-bit machine (`Spec/MipsIsa64.lean`), for every address and value.
-/
namespace Armips.Props
open Spec Spec.Instr Spec.Macro Spec.Isa64 MacroProof Sample
open Armips.Mips (ParseEnv Tok Kind Parsed Config Version Access)

set_option maxRecDepth 4000 in
theorem find_uld (rd rs : Nat) (e : Expr) :
    Mips.findMacro "uld" (unalignedToks rd e rs) = some (.loadUnaligned .dw, { grd := some rd, grs := some rs, prim := some e }) := rfl
set_option maxRecDepth 4000 in
theorem find_usd (rd rs : Nat) (e : Expr) :
    Mips.findMacro "usd" (unalignedToks rd e rs) = some (.storeUnaligned .dw, { grd := some rd, grs := some rs, prim := some e }) := rfl
set_option maxRecDepth 4000 in
theorem find_dabs (rd rs : Nat) :
    Mips.findMacro "dabs" [.reg rd, .comma, .reg rs] = some (.abs true, { grd := some rd, grs := some rs }) := rfl

section
variable {P : ParseEnv} {k : Nat} {rd rs : Nat} {e : Expr} {v : Int} {st st' : St} {ws : List (BitVec 32)}

theorem load_double_does (ho : Ordinary P k st [e]) (hd : rd < 32) (hs : rs < 32)
    (hv : HasValue P st e v) (hr : -0x8000 ≤ v ∧ v < 0x8000)
    {d : Nat} {t : Mips.Text} {st1 : St} (hm : st.arch = .mips)
    (htx : Kind.text P (P.labels k) (.loadUnaligned .dw) { grd := some rd, grs := some rs, prim := some e } = some t)
    (hn : Entry P k st st1) : TGood P d (k + 1) t st1 fun ws _ => ∀ be m, Isa64.exec be ws m =
      some (m.set rd (let a := m.get rs + BitVec.ofInt 64 v
        Isa64.loadRight be m a (if rd = 0 then 0#64 else Isa64.loadLeft be m (a + 7#64) (m.get rd)))) := by
  obtain ⟨hp, htx⟩ := load_unaligned_kind htx
  exact D.tgood_load hd hs (hn.mips hm) (reads_dotted hn ho.labels hp (ho.usual _ (by simp)) hv) hr htx

/-- **C33**, doublewords: the bytes of the register are then the eight bytes at the address, the first one being the least significant, whatever
the address. Nothing else changes. Partial: the offset is below 2^15, and this is a little-endian machine. -/
theorem mips_uld_partial (ho : Ordinary P k st [e]) (hd : rd < 32) (hs : rs < 32) (hd0 : rd ≠ 0)
    (hv : HasValue P st e v) (hr : -0x8000 ≤ v ∧ v < 0x8000)
    (hA : Assembles P k "uld" (unalignedToks rd e rs) st st' ws) (m : Isa64.Machine) :
    ∃ m', Isa64.exec false ws m = some m' ∧ Isa64.SameBut [rd] m m' ∧
      ∀ i < 8, Isa64.byte (m'.get rd) i = m.mem (m.get rs + BitVec.ofInt 64 v + BitVec.ofNat 64 i) := by
  have h := (macro_does hA (find_uld rd rs e) (fun _ _ _ _ _ _ _ h => h) fun d t htx st1 hn =>
    load_double_does ho hd hs hv hr hA.mips htx hn).1 false m
  simp only [hd0, if_false] at h
  refine ⟨_, h, ⟨D.mem_set .., fun x hx => ?_⟩, fun i hi => ?_⟩
  · rw [D.get_set, if_neg (fun h => hx (by simp [h.1]))]
  · rw [D.get_set, if_pos ⟨rfl, hd0⟩, D.unaligned_load _ _ _ hi]

/-- On a big-endian machine, `uld` from an aligned address keeps the six middle bytes of the register. -/
theorem mips_uld_big_endian_wrong (ho : Ordinary P k st [e]) (hd : rd < 32) (hs : rs < 32) (hd0 : rd ≠ 0)
    (hv : HasValue P st e v) (hr : -0x8000 ≤ v ∧ v < 0x8000)
    (hA : Assembles P k "uld" (unalignedToks rd e rs) st st' ws) (m : Isa64.Machine)
    (ha : Isa64.lane (m.get rs + BitVec.ofInt 64 v) = 0) :
    ∃ m', Isa64.exec true ws m = some m' ∧ ∀ i, 1 ≤ i → i ≤ 6 → Isa64.byte (m'.get rd) i = Isa64.byte (m.get rd) i := by
  have h := (macro_does hA (find_uld rd rs e) (fun _ _ _ _ _ _ _ h => h) fun d t htx st1 hn =>
    load_double_does ho hd hs hv hr hA.mips htx hn).1 true m
  simp only [hd0, if_false] at h
  refine ⟨_, h, fun i h1 h6 => ?_⟩
  rw [D.get_set, if_pos ⟨rfl, hd0⟩, Isa64.loadRight, D.byte_ofBytes _ (by omega)]
  simp only [if_true, ha]
  rw [if_neg (by omega), Isa64.loadLeft, D.byte_ofBytes _ (by omega)]
  simp only [if_true, D.lane_last, ha]
  rw [if_neg (by omega)]

theorem store_double_does (ho : Ordinary P k st [e]) (hd : rd < 32) (hs : rs < 32)
    (hv : HasValue P st e v) (hr : -0x8000 ≤ v ∧ v < 0x8000)
    {d : Nat} {t : Mips.Text} {st1 : St} (hm : st.arch = .mips)
    (htx : Kind.text P (P.labels k) (.storeUnaligned .dw) { grd := some rd, grs := some rs, prim := some e } = some t)
    (hn : Entry P k st st1) : TGood P d (k + 1) t st1 fun ws _ => ∀ be m, Isa64.exec be ws m =
      some (let a := m.get rs + BitVec.ofInt 64 v
        Isa64.storeRight be (Isa64.storeLeft be m (a + 7#64) (m.get rd)) a (m.get rd)) := by
  obtain ⟨hp, htx⟩ := store_unaligned_kind htx
  exact D.tgood_store hd hs (hn.mips hm) (reads_dotted hn ho.labels hp (ho.usual _ (by simp)) hv) hr htx

/-- **C33**, storing doublewords: the eight bytes at the address are then those of the register, the least significant one first, and no other
byte and no register changes. Partial: the offset is below 2^15, and this is a little-endian machine. -/
theorem mips_usd_partial (ho : Ordinary P k st [e]) (hd : rd < 32) (hs : rs < 32)
    (hv : HasValue P st e v) (hr : -0x8000 ≤ v ∧ v < 0x8000)
    (hA : Assembles P k "usd" (unalignedToks rd e rs) st st' ws) (m : Isa64.Machine) :
    ∃ m', Isa64.exec false ws m = some m' ∧ (∀ r, m'.get r = m.get r) ∧
      (∀ i < 8, m'.mem (m.get rs + BitVec.ofInt 64 v + BitVec.ofNat 64 i) = Isa64.byte (m.get rd) i) ∧
      ∀ x, (∀ i < 8, x ≠ m.get rs + BitVec.ofInt 64 v + BitVec.ofNat 64 i) → m'.mem x = m.mem x := by
  have h := (macro_does hA (find_usd rd rs e) (fun _ _ _ _ _ _ _ h => h) fun d t htx st1 hn =>
    store_double_does ho hd hs hv hr hA.mips htx hn).1 false m
  refine ⟨_, h, fun r => ?_, fun i hi => ?_, fun x hx => ?_⟩
  · simp only [Isa64.storeRight, Isa64.storeLeft, Bool.false_eq_true, if_false, D.store_get]
  · simp only [D.unaligned_store]
    have : (m.get rs + BitVec.ofInt 64 v + BitVec.ofNat 64 i - (m.get rs + BitVec.ofInt 64 v)).toNat = i := by
      rw [BitVec.add_comm, BitVec.add_sub_cancel, BitVec.toNat_ofNat]
      omega
    rw [this, if_pos hi]
  · simp only [D.unaligned_store]
    rw [if_neg]
    intro hlt
    refine hx _ hlt ?_
    rw [BitVec.ofNat_toNat, BitVec.setWidth_eq, BitVec.add_comm, BitVec.sub_add_cancel]

/-- **C32**, absolute value of doublewords: of the signed number in the source, modulo 2^64. Partial: register 1 is no operand. -/
theorem mips_dabs_partial (hd : rd < 32) (hs : rs < 32) (hd0 : rd ≠ 0) (h1 : rd ≠ 1 ∧ rs ≠ 1)
    (hA : Assembles P k "dabs" [.reg rd, .comma, .reg rs] st st' ws) (be : Bool) (m : Isa64.Machine) :
    ∃ m', Isa64.exec be ws m = some m' ∧ Isa64.SameBut [1, rd] m m' ∧ m'.get rd = BitVec.ofInt 64 (m.get rs).toInt.natAbs := by
  have h := (macro_does hA (find_dabs rd rs) (fun _ _ _ _ _ _ _ h => h) fun d t htx st1 hn => by
    cases htx
    exact D.tgood_dabs hd hs h1.1 h1.2).1
  replace h := h be m
  refine ⟨_, h, ⟨by rw [D.mem_set, D.mem_set], fun x hx => ?_⟩, ?_⟩
  · simp only [List.mem_cons, List.not_mem_nil, or_false, not_or] at hx
    rw [D.get_set, if_neg (fun h => hx.2 h.1), D.get_set, if_neg (fun h => hx.1 h.1)]
  · rw [D.get_set, if_pos ⟨rfl, hd0⟩]
    split
    · have : ((m.get rs).toInt.natAbs : Int) = -(m.get rs).toInt := by omega
      rw [this, BitVec.ofInt_neg, BitVec.ofInt_toInt]
    · have : ((m.get rs).toInt.natAbs : Int) = (m.get rs).toInt := by omega
      rw [this, BitVec.ofInt_toInt]
end

/-- A load or store of a doubleword whose base is also its data register is refused. -/
theorem mips_usd_same_refused {P : ParseEnv} {k r : Nat} {e : Expr} {st st' : St} {ws : List (BitVec 32)} :
    ¬ Assembles P k "usd" (unalignedToks r e r) st st' ws := by
  intro hA
  obtain ⟨depth, c, k', h1, -⟩ := hA.accepted
  obtain ⟨d, t, content, -, ht, -, rfl⟩ := line_macro (find_usd r r e) h1
  obtain ⟨-, ht⟩ := store_unaligned_kind ht
  simp [Mips.storeUnalignedText] at ht

/-- The PlayStation 2, which is a little-endian machine. -/
def ps2 : Config := ⟨.ps2, false, false⟩

theorem sample_double {v : Int} : Ordinary (mparse ps2) 0 mst [.int v] := (sample_ordinary (v := v) (w := 0)).sub (by simp)

-- `uld a0,5(a1)`, `usd a0,5(a1)` and `dabs a0,a1` on the PlayStation 2
example : (∃ st' ws, Assembles (mparse ps2) 0 "uld" (unalignedToks 4 (.int 5) 5) mst st' ws) ∧ Ordinary (mparse ps2) 0 mst [.int 5] ∧
    HasValue (mparse ps2) mst (.int 5) 5 :=
  ⟨macro_exists rfl (find_uld 4 5 _) (by decide +kernel) fun _ _ htx _ hn =>
    (load_double_does sample_double (by decide) (by decide) (sample_value (by omega)) (by decide) rfl htx hn).mono
      fun _ _ _ _ _ => trivial, sample_double, sample_value (by omega)⟩
example : ∃ st' ws, Assembles (mparse ps2) 0 "usd" (unalignedToks 4 (.int 5) 5) mst st' ws :=
  macro_exists rfl (find_usd 4 5 _) (by decide +kernel) fun _ _ htx _ hn =>
    (store_double_does sample_double (by decide) (by decide) (sample_value (by omega)) (by decide) rfl htx hn).mono fun _ _ _ _ _ => trivial
example : ∃ st' ws, Assembles (mparse ps2) 0 "dabs" [.reg 4, .comma, .reg 5] mst st' ws :=
  macro_exists rfl (find_dabs 4 5) (by decide +kernel) fun d t htx st1 hn => by
    cases htx
    exact (D.tgood_dabs (by decide) (by decide) (by decide) (by decide)).mono fun _ _ _ _ _ => trivial

end Armips.Props
