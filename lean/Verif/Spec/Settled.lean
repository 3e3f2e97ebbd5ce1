import Verif.Model.Assembler
/-!
# Nothing changes size any more

What a command occupies, and that two passes agree about it.
-/
namespace Armips.Spec

/-- `SameSizes c m m'`: with the members `m` and `m'` the program `c` takes the same branches of its conditionals, and padding, data, literal pools,
areas and the places of automatic regions have the same size and place. -/
def SameSizes : (c : Cmd) → c.Mem → c.Mem → Prop
  | .cons c rest, m, m' => SameSizes c m.1 m'.1 ∧ SameSizes rest m.2 m'.2
  | .function _ content, m, m' => SameSizes content m.2 m'.2
  | .align _ _ _, m, m' => m.1 = m'.1
  | .data mode _ _, m, m' => (if mode = .sjis ∨ mode = .custom then m.2.length = m'.2.length else m.1.length = m'.1.length)
  | .area _ _ _ _ content, m, m' => m.1.areaSize = m'.1.areaSize ∧ m.1.contentSize = m'.1.contentSize ∧ SameSizes content m.2 m'.2
  | .autoRegion _ _ content, m, m' => m.1.position = m'.1.position ∧ m.1.contentSize = m'.1.contentSize ∧ SameSizes content m.2 m'.2
  | .cond _ a b, m, m' => m.1 = m'.1 ∧ if m'.1 then SameSizes a m.2.1 m'.2.1 else SameSizes b m.2.2 m'.2.2
  | .mipsMacro _ _ content, m, m' => SameSizes content m m'
  | .pool, m, m' => m.2.length = m'.2.length
  | _, _, _ => True

end Armips.Spec
