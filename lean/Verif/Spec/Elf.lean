import Verif.Model.Elf
import Verif.Spec.Arm
import Verif.Spec.Thumb
/-!
# Object files: what the statements need

`getWord` is the 32-bit word at a position of a section.
-/
namespace Armips.Spec.Elf
open Armips.Elf

/-- Lower and upper halfword. -/
def lowHalf (w : BitVec 32) : Nat := w.toNat % 2 ^ 16
/-- Upper halfword. -/
def highHalf (w : BitVec 32) : Nat := w.toNat / 2 ^ 16

/-- What `lui` with the immediate of `hi` followed by `addiu`, or a load or store, with the immediate of `lo` computes. -/
def pairValue (hi lo : BitVec 32) : Int := 2 ^ 16 * lowHalf hi + signed 16 (lowHalf lo)

/-- The relocations of a section concern different words inside of it. -/
def Separate (s : Section) : Prop :=
  (∀ r ∈ s.rels, r.offset + 4 ≤ s.data.length) ∧ s.rels.Pairwise fun r r' => r.offset + 4 ≤ r'.offset ∨ r'.offset + 4 ≤ r.offset

/-- Relocating the section succeeds and gives the contents `d`. -/
def Relocated (M : Machine) (f : File) (ext : String → Option Ext) (m : List (Nat × Int)) (s : Section) (d : List Byte) : Prop :=
  ∃ o, relocSection M f ext m s M.init = some (d, o) ∧ o.ok = true

/-- Relocating the section fails with an error message. -/
def RelocFails (M : Machine) (f : File) (ext : String → Option Ext) (m : List (Nat × Int)) (s : Section) : Prop :=
  ∃ d o, relocSection M f ext m s M.init = some (d, o) ∧ o.ok = false ∧ o.errors ≠ []

/-- The relocation refers to a Thumb function: a function (ELF symbol type 2) whose lowest address bit was set, or a label in Thumb code. -/
def Thumb (x : RelocData) : Prop := x.symbolType = 2 ∧ x.symbolInfo ≠ 0

instance (x : RelocData) : Decidable (Thumb x) := inferInstanceAs (Decidable (_ ∧ _))

/-- The two halfwords of a Thumb call; the first one is the lower half of the word. -/
def firstHalf (w : BitVec 32) : BitVec 16 := w.extractLsb' 0 16
/-- The second halfword. -/
def secondHalf (w : BitVec 32) : BitVec 16 := w.extractLsb' 16 16

/-- Equal as 32-bit addresses. -/
def SameAddress (a b : Int) : Prop := (a - b) % 2 ^ 32 = 0

/-- The sections are what an ELF file describes: numbered differently, and all but NOBITS sections hold as many bytes as they say. -/
def WellFormed (f : File) : Prop :=
  (f.sections.map (·.index)).Nodup ∧ ∀ s ∈ f.sections, s.nobits = false → s.data.length = s.size

end Armips.Spec.Elf
