import Verif.Spec.MipsIsa
import Verif.Spec.Mips
import Verif.Model.MipsMacros
/-!
# What the MIPS macros are for

A macro is a line that stands for several instructions. What is said about it: the words that are written for it, executed
one after the other, have the effect of the mnemonic.
-/
namespace Armips.Spec.Macro
open Armips.Mips (ParseEnv Tok)

/-- The symbols in an expression. -/
def symbolsIn : Expr → List (Str × Int × Int)
  | .ident n f s => [(n, f, s)]
  | .un _ a => symbolsIn a
  | .bin _ a b => symbolsIn a ++ symbolsIn b
  | .cond a b c => symbolsIn a ++ symbolsIn b ++ symbolsIn c
  | _ => []

/-- The expression does not use the labels that the assembler makes up for this and later macros. -/
def Usual (P : ParseEnv) (k : Nat) (st : St) (e : Expr) : Prop :=
  ∀ x ∈ symbolsIn e, ∀ j, k ≤ j → (st.syms.getLabel x.1 x.2.1 x.2.2).2 ≠ some (P.labels j).id

/-- The labels that the assembler makes up are different, and the next one is found under its name. -/
structure Labels (P : ParseEnv) (k : Nat) (st : St) : Prop where
  distinct : ∀ i j, (P.labels i).id = (P.labels j).id → i = j
  found : (st.syms.getLabel (P.labels k).name (P.labels k).file (P.labels k).section_).2 = some (P.labels k).id

/-- The functions that the macros use have not been redefined. -/
structure Functions (E : Env) : Prop where
  lo : ∃ s, E.funcs .mips (lit "lo") = some ⟨.builtin .lo, 1, 1, s⟩
  hi : ∃ s, E.funcs .mips (lit "hi") = some ⟨.builtin .hi, 1, 1, s⟩
  abs : ∃ s, E.funcs .mips (lit "abs") = some ⟨.builtin .abs, 1, 1, s⟩

/-- The value of an operand where the macro begins: a signed 64-bit integer, except the smallest one, which has no absolute
value. -/
def HasValue (P : ParseEnv) (st : St) (e : Expr) (v : Int) : Prop :=
  Instr.Evaluates P.env .mips (st.ctx P.env) e (.int v) ∧ -(2 ^ 63) < v ∧ v < 2 ^ 63

/-- A line is accepted, as the code of a MIPS processor, in a pass that begins in the state `st`, ends with members `m'`, and
leaves nothing but warnings and notices in the log; `ws` are the words that are then written for it. It is the first pass,
or the label at the beginning of the line was defined by an earlier one. -/
structure Assembles (P : ParseEnv) (k : Nat) (name : String) (ts : List Tok) (st st' : St) (ws : List (BitVec 32)) : Prop where
  mips : st.arch = .mips
  clean : st'.fm.log.suppressLevel = 0 ∧ st'.fm.log.error = false ∧
    ∀ e ∈ st'.fm.log.queue, e.1 = .warning ∨ e.1 = .notice
  accepted : ∃ depth c k', Armips.Mips.parseLine P depth name ts k = some (c, k') ∧
    ∃ passes nf m m' r, validate P.env passes c nf m st = some (m', st', r) ∧
      (m = c.init ∨ ∃ l, st.syms.labels[(P.labels k).id]? = some l ∧ l.defined = true) ∧
      ∀ G f, encode G c m' f = some (writeUnits f (ws.map Armips.Mips.unit))

/-- A branch at address `va` goes to address `x`, if that is a whole number of words away and not the one distance, of 2^17
bytes after the delay slot, that is accepted without being in reach. -/
def Reaches (va x : Int) (w : BitVec 32) : Prop :=
  (x - va) % 4 = 0 → Mips.int32 (x - va - 4) ≠ 0x20000 → (Mips.branchTarget va w - x) % 2 ^ 32 = 0

/-- What the words of a branching macro at address `start` do: all but the last change nothing but register 1, and the last one
is a branch to `x`, which is taken if and only if `rel`. If `l`, its delay slot is skipped otherwise. -/
def Branches (be : Bool) (ws : List (BitVec 32)) (start x : Int) (rel l : Bool) (m : Isa.Machine) : Prop :=
  ∃ pre w m1, ws = pre ++ [w] ∧ Isa.exec be pre m = some m1 ∧ Isa.SameBut [1] m m1 ∧ Isa.taken w m1 = some rel ∧
    Isa.likely w = l ∧ Reaches (start + 4 * pre.length) x w

/-- No load is under way, so that `.fixloaddelay` adds nothing. -/
def NoLoad (P : ParseEnv) (st : St) : Prop := P.cfg.hasLoadDelay = true → st.archSt.loadDelay = false

end Armips.Spec.Macro
