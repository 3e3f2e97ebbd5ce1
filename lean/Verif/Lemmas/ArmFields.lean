import Verif.Model.Arm
import Verif.Spec.Arm
import Verif.Lemmas.Fields
/-! Fields of encoded ARM words. -/
namespace Armips.Arm
open Spec

theorem field_fld {v sh len : Nat} (h : v < 2 ^ len) (hn : sh + len ≤ 32) : field (fld v sh) sh len = v :=
  field_shl_same h hn
theorem field_fld_ne {v sh len lo k : Nat} (h : v < 2 ^ k) (hd : sh + k ≤ lo ∨ lo + len ≤ sh) : field (fld v sh) lo len = 0 :=
  field_shl_other h hd

theorem f4 {v sh : Nat} (h : v ≤ 15) (hn : sh + 4 ≤ 32) : field (fld v sh) sh 4 = v := field_fld (by omega) hn
theorem f4_ne {v sh lo len : Nat} (h : v ≤ 15) (hd : sh + 4 ≤ lo ∨ lo + len ≤ sh) : field (fld v sh) lo len = 0 :=
  field_fld_ne (k := 4) (by omega) hd

theorem bit_eq {sh : Nat} (hn : sh + 1 ≤ 32) : field (1#32 <<< sh) sh 1 = 1 :=
  field_shl_same (v := 1) (by decide) hn
theorem bit_ne {sh lo len : Nat} (hd : sh + 1 ≤ lo ∨ lo + len ≤ sh) : field (1#32 <<< sh) lo len = 0 :=
  field_shl_other (v := 1) (k := 1) (by decide) hd

theorem field_orIf (b : Bool) (x e : BitVec 32) (lo len : Nat) :
    field (orIf b x e) lo len = field e lo len ||| (if b = true then field x lo len else 0) := by
  unfold orIf
  split <;> simp [*, field_or]

theorem field_clearU_ne (b : Bool) (e : BitVec 32) {lo len : Nat} (h : 23 < lo ∨ lo + len ≤ 23) :
    field (clearU b e) lo len = field e lo len := by
  unfold clearU
  split
  · exact field_clear_other e h
  · rfl
theorem field_clearU (b : Bool) (e : BitVec 32) : field (clearU b e) 23 1 = if b = true then 0 else field e 23 1 := by
  unfold clearU
  split
  · exact field_clear_same e
  · rfl

end Armips.Arm
