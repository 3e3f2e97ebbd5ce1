import Verif.Model.MipsMacroLine
import Verif.Model.Tokenizer
/-!
# The function that calls the constructors of imported object files

Models `Core/ELF/ElfRelocator.cpp:272-279` (`generateCtor`), `Archs/MIPS/MipsElfRelocator.cpp:78-135`, `Archs/ARM/ArmElfRelocator.cpp:172-233`,
`Archs/SuperH/ShElfRelocator.cpp:48-108` (`generateCtorStub`), `Util/Util.cpp:240-254` (`replaceAll`) and `Parser/Parser.cpp:197-219`
(`parseTemplate`).

* Texts are lists of characters. The lines of a template are assembled one by one.
* Simplified: `lineWord` takes the values of labels as given and knows integers, labels, sums and signs only.
-/
namespace Armips.Ctor
open Armips.MipsParse (Item anyLine Token)

/-- The rest of a text behind a prefix. -/
def afterPrefix : List Char → List Char → Option (List Char)
  | [], s => some s
  | _ :: _, [] => none
  | c :: p, d :: s => if c = d then afterPrefix p s else none

/-- `Util.cpp:240-254` `replaceAll`, for a text that is not longer than the first argument; the replaced text is not looked at again. -/
def replaceAll (old new : List Char) : Nat → List Char → List Char
  | 0, s => s
  | _ + 1, [] => []
  | n + 1, c :: s =>
    match afterPrefix old (c :: s) with
    | some r => new ++ replaceAll old new n r
    | none => c :: replaceAll old new n s

/-- `Parser.cpp:197-219` `parseTemplate`: the text that is parsed. -/
def instantiate (text : List Char) (vars : List (List Char × List Char)) : List Char :=
  vars.foldl (fun s v => replaceAll v.1 v.2 s.length s) text

/-- The lines of a text. -/
def linesOf : List Char → List (List Char)
  | [] => [[]]
  | c :: s =>
    if c = '\n' then [] :: linesOf s
    else match linesOf s with
      | [] => [[c]]
      | l :: ls => (c :: l) :: ls

/-- A text, given as lines that end in a line break. -/
def joined (ls : List String) : List Char := ls.flatMap fun l => l.toList ++ ['\n']

/-- `MipsElfRelocator.cpp:78-108`, line by line. -/
def mipsTemplate : List String := [
  "",
  "\taddiu\tsp,-32",
  "\tsw\t\tra,0(sp)",
  "\tsw\t\ts0,4(sp)",
  "\tsw\t\ts1,8(sp)",
  "\tsw\t\ts2,12(sp)",
  "\tsw\t\ts3,16(sp)",
  "\tli\t\ts0,%ctorTable%",
  "\tli\t\ts1,%ctorTable%+%ctorTableSize%",
  "\t%outerLoopLabel%:",
  "\tlw\t\ts2,(s0)",
  "\tlw\t\ts3,4(s0)",
  "\taddiu\ts0,8",
  "\t%innerLoopLabel%:",
  "\tlw\t\ta0,(s2)",
  "\tjalr\ta0",
  "\taddiu\ts2,4h",
  "\tbne\t\ts2,s3,%innerLoopLabel%",
  "\tnop",
  "\tbne\t\ts0,s1,%outerLoopLabel%",
  "\tnop",
  "\tlw\t\tra,0(sp)",
  "\tlw\t\ts0,4(sp)",
  "\tlw\t\ts1,8(sp)",
  "\tlw\t\ts2,12(sp)",
  "\tlw\t\ts3,16(sp)",
  "\tjr\t\tra",
  "\taddiu\tsp,32",
  "\t%ctorTable%:",
  "\t.word\t%ctorContent%"]

/-- `ArmElfRelocator.cpp:172-203`, line by line. -/
def armTemplate : List String := [
  "",
  "\tpush\tr4-r7,r14",
  "\tldr\tr4,=%ctorTable%",
  "\tldr\tr5,=%ctorTable%+%ctorTableSize%",
  "\t%outerLoopLabel%:",
  "\tldr\tr6,[r4]",
  "\tldr\tr7,[r4,4]",
  "\tadd\tr4,8",
  "\t%innerLoopLabel%:",
  "\tldr\tr0,[r6]",
  "\tadd\tr6,4",
  "\t.if %simpleMode%",
  "\t\tblx\tr0",
  "\t.else",
  "\t\tbl\t%stubName%",
  "\t.endif",
  "\tcmp\tr6,r7",
  "\tblt\t%innerLooplabel%",
  "\tcmp\tr4,r5",
  "\tblt\t%outerLoopLabel%",
  "\t.if %simpleMode%",
  "\t\tpop\tr4-r7,r15",
  "\t.else",
  "\t\tpop\tr4-r7",
  "\t\tpop\tr0",
  "\t\t%stubName%:",
  "\t\tbx\tr0",
  "\t.endif",
  "\t.pool",
  "\t%ctorTable%:",
  "\t.word %ctorContent%\""]

/-- `ShElfRelocator.cpp:51-81`, line by line. -/
def shTemplate : List String := [
  "",
  "\tmov.l\tr8,@-r15",
  "\tmov.l\tr9,@-r15",
  "\tmov.l\tr10,@-r15",
  "\tmov.l\tr11,@-r15",
  "\tsts.l\tpr,@-r15",
  "\tmova\t%ctorTable%,r0",
  "\tmov\t\tr0,r8",
  "\tmova\t%ctorTable%+%ctorTableSize%,r0",
  "\tmov\t\tr0,r9",
  "\t%outerLoopLabel%:",
  "\tmov.l\t@r8,r10",
  "\tmov.l\t@(4,r9),r11",
  "\tadd\t\t#8,r8",
  "\t%innerLoopLabel%:",
  "\tmov.l\t@r10,r4",
  "\tjsr\t\tr4",
  "\tadd\t\t#4,r10",
  "\tcmp/eq \tr10,r11",
  "\tbf\t\t%innerLoopLabel%",
  "\tcmp/eq\tr8,r9",
  "\tbf\t\t%outerLoopLabel%",
  "\tlds.l\t@r15+,pr",
  "\tmov.l\t@r15+,r11",
  "\tmov.l\t@r15+,r10",
  "\tmov.l\t@r15+,r9",
  "\trts",
  "\tmov.l\t@r15+,r8",
  "\t.align 4",
  "\t%ctorTable%:",
  "\t.word\t%ctorContent%"]

/-- `tfm::format("0x%08X", n)`, of a constructor table entry. -/
def hex8 (n : Nat) : List Char := ['0', 'x'] ++ List.replicate (8 - (Nat.toDigits 16 n).length) '0' ++ (Nat.toDigits 16 n).map Char.toUpper

/-- `MipsElfRelocator.cpp:116-122` the table: name and size of each section of constructors. -/
def tableText : List (List Char × Nat) → List Char
  | [] => []
  | [c] => c.1 ++ [','] ++ c.1 ++ ['+'] ++ hex8 c.2
  | c :: l => c.1 ++ [','] ++ c.1 ++ ['+'] ++ hex8 c.2 ++ [','] ++ tableText l

/-- `MipsElfRelocator.cpp:110-135` `generateCtorStub`: the text, with the three generated labels. -/
def mipsText (table outer inner : List Char) (ctors : List (List Char × Nat)) : List Char :=
  if ctors.isEmpty then "jr ra :: nop".toList
  else instantiate (joined mipsTemplate) [("%ctorTable%".toList, table), ("%ctorTableSize%".toList, (Nat.repr (ctors.length * 8)).toList),
    ("%outerLoopLabel%".toList, outer), ("%innerLoopLabel%".toList, inner), ("%ctorContent%".toList, tableText ctors)]

/-- The value of an immediate. -/
def value (labels : Str → Option Int) : Expr → Option Int
  | .int v => some v
  | .ident n _ _ => labels n
  | .un .neg a => (value labels a).map (-·)
  | .bin .add a b => do some ((← value labels a) + (← value labels b))
  | _ => none

/-- The instruction on a line, if it is one. -/
def lineItem (v : Mips.Version) (l : List Char) : Option Item :=
  match Tokenizer.tokenize (fun _ => none) [l] with
  | .ok ts => (anyLine ⟨0, 0, fun _ => false⟩ v ((ts.map fun t => (t, [])))).map (·.1)
  | _ => none

/-- The word of an instruction at an address: `CMipsInstruction::Validate` and `Encode` (`Model/Mips.lean`) for one without second immediate. -/
def itemWord (labels : Str → Option Int) (va : Int) : Item → Option (BitVec 32)
  | .instr op o =>
    match Mips.primType op.syms with
    | none => some (Mips.encode op o ⟨false, 0#32, 0#32⟩)
    | some t =>
      match o.imm with
      | none => match Mips.primary op t o.immValue va with
        | .ok p => some (Mips.encode op o ⟨false, p, 0#32⟩)
        | .error _ => none
      | some e =>
        match value labels e with
        | none => none
        | some x => match Mips.primary op t (BitVec.ofInt 32 x) va with
          | .ok p => some (Mips.encode op o ⟨false, p, 0#32⟩)
          | .error _ => none
  | .macro _ _ => none

/-- The word of a line. -/
def lineWord (v : Mips.Version) (labels : Str → Option Int) (va : Int) (l : List Char) : Option (BitVec 32) :=
  (lineItem v l).bind (itemWord labels va)

/-- `MipsElfRelocator.cpp:79-84`, in words. -/
def mipsHead : List (BitVec 32) := [0x27bdffe0#32, 0xafbf0000#32, 0xafb00004#32, 0xafb10008#32, 0xafb2000c#32, 0xafb30010#32]

/-- `MipsElfRelocator.cpp:87-105`, in words. -/
def mipsRest : List (BitVec 32) := [0x8e120000#32, 0x8e130004#32, 0x26100008#32, 0x8e440000#32, 0x0080f809#32, 0x26520004#32, 0x1653fffc#32, 0#32,
  0x1611fff7#32, 0#32, 0x8fbf0000#32, 0x8fb00004#32, 0x8fb10008#32, 0x8fb2000c#32, 0x8fb30010#32, 0x03e00008#32, 0x27bd0020#32]

/-- `MipsElfRelocator.cpp:78-108`: the instructions, where `a` and `b` are the words of the two `li` (lines 85 and 86). -/
def mipsCode (a b : List (BitVec 32)) : List (BitVec 32) := mipsHead ++ (a ++ (b ++ mipsRest))

end Armips.Ctor
