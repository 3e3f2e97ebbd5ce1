/-!
# Blocks placed in regions

Vocabulary for `.region`/`.autoregion`: a block is a range of addresses that was handed out inside a region.
-/
namespace Armips.Spec

/-- A block handed out by the allocator: the file and start address of the region it is in, its address and size. -/
structure Block where
  file : Int
  region : Int
  position : Int
  size : Int
  deriving DecidableEq, Repr

def Block.stop (b : Block) : Int := b.position + b.size

def Block.sameRegion (a b : Block) : Prop := a.file = b.file ∧ a.region = b.region

/-- No address belongs to both. -/
def Block.disjoint (a b : Block) : Prop :=
  ∀ x : Int, ¬ ((a.position ≤ x ∧ x < a.stop) ∧ (b.position ≤ x ∧ x < b.stop))

/-- An optional bound; -1 stands for "no bound" in the assembler. -/
def bounded (bound : Int) (p : Prop) : Prop := bound = -1 ∨ p

end Armips.Spec
