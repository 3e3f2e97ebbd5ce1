import Verif.Model.Mips
/-!
# The operands listed in the table of MIPS instructions
-/
namespace Armips.Mips

set_option maxRecDepth 10000 in
/-- The operands listed in the table are those that the parser's functions find. -/
theorem syms_eq : ∀ op ∈ opcodes, op.syms = nameSyms op.name.toList ++ scan op.mask.toList := by decide +kernel

end Armips.Mips
