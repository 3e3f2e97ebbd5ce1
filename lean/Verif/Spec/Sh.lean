import Verif.Model.Sh
import Verif.Spec.Fields
import Verif.Spec.Instr
/-!
# The SuperH instruction set, as far as the statements need it

Taken from the SH-1/SH-2 programming manual, not from the assembler: the instructions, their operands and their bit patterns, and
how a processor computes the addresses of branches and of data relative to the program counter.
-/
namespace Armips.Spec.Sh
open Armips.Sh (Tok)
open Armips.Spec.Instr

/-- Operands: `n` and `m` are registers, `imm` is an immediate, `label` an address, `disp` a displacement, `dec` is `@-Rn`, `inc` is
`@Rm+`, `idx` is `@(R0,…)` and `ctl` a register with a special name. -/
inductive Operand
  | imm | label | rn | rm | r0 | atRn | atRm | decRn | incRm | incRn
  | dispPc | dispRn | dispRm | dispGbr | idxRn | idxRm | idxGbr | ctl (name : String)
  deriving DecidableEq, Repr

/-- An instruction: mnemonic, operands, bits from the highest to the lowest. -/
abbrev Entry := String × List Operand × String

/-- The instruction set. -/
def manual : List Entry := [
  ("mov", [.imm, .rn], "1110nnnndddddddd"),
  ("mov.w", [.label, .rn], "1001nnnndddddddd"),
  ("mov.l", [.label, .rn], "1101nnnndddddddd"),
  ("mov.w", [.dispPc, .rn], "1001nnnndddddddd"),
  ("mov.l", [.dispPc, .rn], "1101nnnndddddddd"),
  ("mov", [.rm, .rn], "0110nnnnmmmm0011"),
  ("mov.b", [.rm, .atRn], "0010nnnnmmmm0000"),
  ("mov.w", [.rm, .atRn], "0010nnnnmmmm0001"),
  ("mov.l", [.rm, .atRn], "0010nnnnmmmm0010"),
  ("mov.b", [.atRm, .rn], "0110nnnnmmmm0000"),
  ("mov.w", [.atRm, .rn], "0110nnnnmmmm0001"),
  ("mov.l", [.atRm, .rn], "0110nnnnmmmm0010"),
  ("mov.b", [.rm, .decRn], "0010nnnnmmmm0100"),
  ("mov.w", [.rm, .decRn], "0010nnnnmmmm0101"),
  ("mov.l", [.rm, .decRn], "0010nnnnmmmm0110"),
  ("mov.b", [.incRm, .rn], "0110nnnnmmmm0100"),
  ("mov.w", [.incRm, .rn], "0110nnnnmmmm0101"),
  ("mov.l", [.incRm, .rn], "0110nnnnmmmm0110"),
  ("mov.b", [.r0, .dispRn], "10000000nnnndddd"),
  ("mov.w", [.r0, .dispRn], "10000001nnnndddd"),
  ("mov.l", [.rm, .dispRn], "0001nnnnmmmmdddd"),
  ("mov.b", [.dispRm, .r0], "10000100mmmmdddd"),
  ("mov.w", [.dispRm, .r0], "10000101mmmmdddd"),
  ("mov.l", [.dispRm, .rn], "0101nnnnmmmmdddd"),
  ("mov.b", [.rm, .idxRn], "0000nnnnmmmm0100"),
  ("mov.w", [.rm, .idxRn], "0000nnnnmmmm0101"),
  ("mov.l", [.rm, .idxRn], "0000nnnnmmmm0110"),
  ("mov.b", [.idxRm, .rn], "0000nnnnmmmm1100"),
  ("mov.w", [.idxRm, .rn], "0000nnnnmmmm1101"),
  ("mov.l", [.idxRm, .rn], "0000nnnnmmmm1110"),
  ("mov.b", [.r0, .dispGbr], "11000000dddddddd"),
  ("mov.w", [.r0, .dispGbr], "11000001dddddddd"),
  ("mov.l", [.r0, .dispGbr], "11000010dddddddd"),
  ("mov.b", [.dispGbr, .r0], "11000100dddddddd"),
  ("mov.w", [.dispGbr, .r0], "11000101dddddddd"),
  ("mov.l", [.dispGbr, .r0], "11000110dddddddd"),
  ("mova", [.label, .r0], "11000111dddddddd"),
  ("mova", [.dispPc, .r0], "11000111dddddddd"),
  ("movt", [.rn], "0000nnnn00101001"),
  ("swap.b", [.rm, .rn], "0110nnnnmmmm1000"),
  ("swap.w", [.rm, .rn], "0110nnnnmmmm1001"),
  ("xtrct", [.rm, .rn], "0010nnnnmmmm1101"),
  ("add", [.rm, .rn], "0011nnnnmmmm1100"),
  ("add", [.imm, .rn], "0111nnnndddddddd"),
  ("addc", [.rm, .rn], "0011nnnnmmmm1110"),
  ("addv", [.rm, .rn], "0011nnnnmmmm1111"),
  ("cmp/eq", [.imm, .r0], "10001000dddddddd"),
  ("cmp/eq", [.rm, .rn], "0011nnnnmmmm0000"),
  ("cmp/hs", [.rm, .rn], "0011nnnnmmmm0010"),
  ("cmp/ge", [.rm, .rn], "0011nnnnmmmm0011"),
  ("cmp/hi", [.rm, .rn], "0011nnnnmmmm0110"),
  ("cmp/gt", [.rm, .rn], "0011nnnnmmmm0111"),
  ("cmp/pl", [.rn], "0100nnnn00010101"),
  ("cmp/pz", [.rn], "0100nnnn00010001"),
  ("cmp/str", [.rm, .rn], "0010nnnnmmmm1100"),
  ("div1", [.rm, .rn], "0011nnnnmmmm0100"),
  ("div0s", [.rm, .rn], "0010nnnnmmmm0111"),
  ("div0u", [], "0000000000011001"),
  ("dmuls.l", [.rm, .rn], "0011nnnnmmmm1101"),
  ("dmulu.l", [.rm, .rn], "0011nnnnmmmm0101"),
  ("dt", [.rn], "0100nnnn00010000"),
  ("exts.b", [.rm, .rn], "0110nnnnmmmm1110"),
  ("exts.w", [.rm, .rn], "0110nnnnmmmm1111"),
  ("extu.b", [.rm, .rn], "0110nnnnmmmm1100"),
  ("extu.w", [.rm, .rn], "0110nnnnmmmm1101"),
  ("mac.l", [.incRm, .incRn], "0000nnnnmmmm1111"),
  ("mac.w", [.incRm, .incRn], "0100nnnnmmmm1111"),
  ("mul.l", [.rm, .rn], "0000nnnnmmmm0111"),
  ("muls.w", [.rm, .rn], "0010nnnnmmmm1111"),
  ("mulu.w", [.rm, .rn], "0010nnnnmmmm1110"),
  ("neg", [.rm, .rn], "0110nnnnmmmm1011"),
  ("negc", [.rm, .rn], "0110nnnnmmmm1010"),
  ("sub", [.rm, .rn], "0011nnnnmmmm1000"),
  ("subc", [.rm, .rn], "0011nnnnmmmm1010"),
  ("subv", [.rm, .rn], "0011nnnnmmmm1011"),
  ("and", [.rm, .rn], "0010nnnnmmmm1001"),
  ("and", [.imm, .r0], "11001001dddddddd"),
  ("and.b", [.imm, .idxGbr], "11001101dddddddd"),
  ("not", [.rm, .rn], "0110nnnnmmmm0111"),
  ("or", [.rm, .rn], "0010nnnnmmmm1011"),
  ("or", [.imm, .r0], "11001011dddddddd"),
  ("or.b", [.imm, .idxGbr], "11001111dddddddd"),
  ("tas.b", [.atRn], "0100nnnn00011011"),
  ("tst", [.rm, .rn], "0010nnnnmmmm1000"),
  ("tst", [.imm, .r0], "11001000dddddddd"),
  ("tst.b", [.imm, .idxGbr], "11001100dddddddd"),
  ("xor", [.rm, .rn], "0010nnnnmmmm1010"),
  ("xor", [.imm, .r0], "11001010dddddddd"),
  ("xor.b", [.imm, .idxGbr], "11001110dddddddd"),
  ("rotl", [.rn], "0100nnnn00000100"),
  ("rotr", [.rn], "0100nnnn00000101"),
  ("rotcl", [.rn], "0100nnnn00100100"),
  ("rotcr", [.rn], "0100nnnn00100101"),
  ("shal", [.rn], "0100nnnn00100000"),
  ("shar", [.rn], "0100nnnn00100001"),
  ("shll", [.rn], "0100nnnn00000000"),
  ("shlr", [.rn], "0100nnnn00000001"),
  ("shll2", [.rn], "0100nnnn00001000"),
  ("shlr2", [.rn], "0100nnnn00001001"),
  ("shll8", [.rn], "0100nnnn00011000"),
  ("shlr8", [.rn], "0100nnnn00011001"),
  ("shll16", [.rn], "0100nnnn00101000"),
  ("shlr16", [.rn], "0100nnnn00101001"),
  ("bf", [.label], "10001011dddddddd"),
  ("bf/s", [.label], "10001111dddddddd"),
  ("bt", [.label], "10001001dddddddd"),
  ("bt/s", [.label], "10001101dddddddd"),
  ("bra", [.label], "1010dddddddddddd"),
  ("bsr", [.label], "1011dddddddddddd"),
  ("braf", [.rm], "0000mmmm00100011"),
  ("bsrf", [.rm], "0000mmmm00000011"),
  ("jmp", [.atRm], "0100mmmm00101011"),
  ("jsr", [.atRm], "0100mmmm00001011"),
  ("rts", [], "0000000000001011"),
  ("clrt", [], "0000000000001000"),
  ("clrmac", [], "0000000000101000"),
  ("ldc", [.rm, .ctl "sr"], "0100mmmm00001110"),
  ("ldc", [.rm, .ctl "gbr"], "0100mmmm00011110"),
  ("ldc", [.rm, .ctl "vbr"], "0100mmmm00101110"),
  ("ldc.l", [.incRm, .ctl "sr"], "0100mmmm00000111"),
  ("ldc.l", [.incRm, .ctl "gbr"], "0100mmmm00010111"),
  ("ldc.l", [.incRm, .ctl "vbr"], "0100mmmm00100111"),
  ("lds", [.rm, .ctl "mach"], "0100mmmm00001010"),
  ("lds", [.rm, .ctl "macl"], "0100mmmm00011010"),
  ("lds", [.rm, .ctl "pr"], "0100mmmm00101010"),
  ("lds.l", [.incRm, .ctl "mach"], "0100mmmm00000110"),
  ("lds.l", [.incRm, .ctl "macl"], "0100mmmm00010110"),
  ("lds.l", [.incRm, .ctl "pr"], "0100mmmm00100110"),
  ("nop", [], "0000000000001001"),
  ("rte", [], "0000000000101011"),
  ("sett", [], "0000000000011000"),
  ("sleep", [], "0000000000011011"),
  ("stc", [.ctl "sr", .rn], "0000nnnn00000010"),
  ("stc", [.ctl "gbr", .rn], "0000nnnn00010010"),
  ("stc", [.ctl "vbr", .rn], "0000nnnn00100010"),
  ("stc.l", [.ctl "sr", .decRn], "0100nnnn00000011"),
  ("stc.l", [.ctl "gbr", .decRn], "0100nnnn00010011"),
  ("stc.l", [.ctl "vbr", .decRn], "0100nnnn00100011"),
  ("sts", [.ctl "mach", .rn], "0000nnnn00001010"),
  ("sts", [.ctl "macl", .rn], "0000nnnn00011010"),
  ("sts", [.ctl "pr", .rn], "0000nnnn00101010"),
  ("sts.l", [.ctl "mach", .decRn], "0100nnnn00000010"),
  ("sts.l", [.ctl "macl", .decRn], "0100nnnn00010010"),
  ("sts.l", [.ctl "pr", .decRn], "0100nnnn00100010"),
  ("trapa", [.imm], "11000011dddddddd")]

/-- How an operand is written, with registers `n` and `m` and the expression `e`. -/
def Operand.toks (n m : Nat) (e : Expr) : Operand → List Tok
  | .imm => [.hash, .imm e]
  | .label => [.imm e]
  | .rn => [.reg false n]
  | .rm => [.reg false m]
  | .r0 => [.reg false 0]
  | .atRn => [.reg true n]
  | .atRm => [.reg true m]
  | .decRn => [.ident "@", .minus, .reg false n]
  | .incRm => [.reg true m, .plus]
  | .incRn => [.reg true n, .plus]
  | .dispPc => [.ident "@", .lpar, .imm e, .comma, .ident "pc", .rpar]
  | .dispRn => [.ident "@", .lpar, .imm e, .comma, .reg false n, .rpar]
  | .dispRm => [.ident "@", .lpar, .imm e, .comma, .reg false m, .rpar]
  | .dispGbr => [.ident "@", .lpar, .imm e, .comma, .ident "gbr", .rpar]
  | .idxRn => [.ident "@", .lpar, .reg false 0, .comma, .reg false n, .rpar]
  | .idxRm => [.ident "@", .lpar, .reg false 0, .comma, .reg false m, .rpar]
  | .idxGbr => [.ident "@", .lpar, .reg false 0, .comma, .ident "gbr", .rpar]
  | .ctl s => [.ident s]

/-- The operands, separated by commas. -/
def toks (n m : Nat) (e : Expr) : List Operand → List Tok
  | [] => []
  | [x] => x.toks n m e
  | x :: y :: l => x.toks n m e ++ .comma :: toks n m e (y :: l)

/-- The bits of a pattern, the highest first: a letter stands for a bit of the number that it names, its last occurrence for the
lowest bit. -/
def patternBits (val : Char → Nat) : List Char → List Bool
  | [] => []
  | c :: l => (if c = '0' then false else if c = '1' then true else (val c).testBit (l.count c)) :: patternBits val l

/-- The numbers in a pattern. -/
def letters (n m d : Nat) (c : Char) : Nat := if c = 'n' then n else if c = 'm' then m else d

/-- The word has the bits of the pattern, with these numbers. -/
def Shows (p : String) (n m d : Nat) (w : BitVec 16) : Prop :=
  (List.range 16).map w.getMsbD = patternBits (letters n m d) p.toList

/-- Width of the number in a pattern. -/
def width (p : String) : Nat := p.toList.count 'd'

/-- A line with this mnemonic and these operands is accepted in this context, and its machine code is the halfword `w`. -/
def Assembles (E : Env) (name : String) (ts : List Tok) (c : Ctx) (st : ArchState) (w : BitVec 16) : Prop :=
  ∃ op o, Armips.Sh.parseOpcode name ts = some (op, o) ∧
    ∃ out, Accepts (Armips.Sh.sem E op o) c st out ∧ ∀ p, out.words p = [(Width.w16, (w.toNat : Int))]

/-- A line is refused. -/
def Refused (E : Env) (name : String) (ts : List Tok) (c : Ctx) (st : ArchState) : Prop :=
  ∀ op o, Armips.Sh.parseOpcode name ts = some (op, o) → Rejects (Armips.Sh.sem E op o) c st

/-- Size of the data that an instruction accesses, which is the unit of its displacement. -/
def unit (name : String) : Nat := if name = "mov.w" then 2 else if name = "mov.l" ∨ name = "mova" then 4 else 1

/-- Where a branch at address `a` with displacement field `d` of `k` bits goes. -/
def branchTarget (k d : Nat) (a : Int) : Int := a + 4 + 2 * signed k d

/-- The data that an instruction at address `a` refers to relative to the program counter, whose two lowest bits are ignored for
longwords. -/
def dataAddress (name : String) (d : Nat) (a : Int) : Int :=
  (if unit name = 4 then a + 4 - (a + 4) % 4 else a + 4) + unit name * d

/-- The number as a signed 32-bit number. -/
def int32 (v : Int) : Int := (v + 2 ^ 31) % 2 ^ 32 - 2 ^ 31

end Armips.Spec.Sh
