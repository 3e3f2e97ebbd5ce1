import Verif.Props.Utf8
import Verif.Props.Crc
import Verif.Props.ByteArray
import Verif.Props.StringToInt
import Verif.Props.HalfFloat
import Verif.Props.EncodingTable
import Verif.Props.Logger
import Verif.Props.FileManager
import Verif.Props.SymbolTable
import Verif.Props.FunctionRegistry
import Verif.Props.Expression
import Verif.Props.ExpressionFunctions
import Verif.Props.StringFunctions
import Verif.Props.Allocations
import Verif.Props.Assembler
import Verif.Props.Layout
import Verif.Props.ArmImmediate
import Verif.Props.ArmBranch
import Verif.Props.ArmWords
import Verif.Props.ArmLoad
import Verif.Props.ArmAddress
import Verif.Props.Values
import Verif.Props.ThumbWords
import Verif.Props.ThumbBranch
import Verif.Props.ThumbMore
import Verif.Model.MipsTable
import Verif.Model.Mips
import Verif.Spec.Mips
import Verif.Spec.MipsDelay
import Verif.Spec.MipsSample
import Verif.Lemmas.MipsSyms
import Verif.Lemmas.MipsTable
import Verif.Lemmas.MipsWord
import Verif.Lemmas.MipsRun
import Verif.Lemmas.MipsAccept
import Verif.Lemmas.MipsScaled
import Verif.Lemmas.MipsDelay
import Verif.Props.MipsWords
import Verif.Props.MipsBranch
import Verif.Props.MipsImm
import Verif.Props.MipsDelay
import Verif.Spec.MipsIsa
import Verif.Model.MipsMacros
import Verif.Spec.MipsMacros
import Verif.Spec.MipsMacroSample
import Verif.Lemmas.MipsGood
import Verif.Lemmas.MipsLines
import Verif.Lemmas.MipsExec
import Verif.Lemmas.MipsText
import Verif.Lemmas.MipsEntry
import Verif.Lemmas.MipsAccess
import Verif.Lemmas.MipsCompare
import Verif.Props.MipsLi
import Verif.Props.MipsAccess
import Verif.Props.MipsCompare
import Verif.Lemmas.MipsRotate
import Verif.Lemmas.MipsUnaligned
import Verif.Props.MipsRotate
import Verif.Props.MipsUnaligned
import Verif.Model.Sh
import Verif.Spec.Sh
import Verif.Lemmas.Sh
import Verif.Lemmas.ShRows
import Verif.Lemmas.ShImm
import Verif.Lemmas.ShWord
import Verif.Props.Sh
import Verif.Model.Elf
import Verif.Spec.Elf
import Verif.Lemmas.Elf
import Verif.Lemmas.ElfMips
import Verif.Lemmas.ElfArm
import Verif.Lemmas.ElfLayout
import Verif.Props.ElfMips
import Verif.Props.ElfArm
import Verif.Props.ElfLayout
import Verif.Model.ArmParse
import Verif.Spec.ArmParse
import Verif.Lemmas.ArmParse
import Verif.Props.ArmParse
import Verif.Model.TextFile
import Verif.Spec.TextFile
import Verif.Lemmas.TextFile
import Verif.Props.TextFile
import Verif.Model.SymFile
import Verif.Spec.SymFile
import Verif.Lemmas.SymFile
import Verif.Props.SymFile
import Verif.Model.ExprParse
import Verif.Spec.ExprParse
import Verif.Lemmas.ExprParse
import Verif.Props.ExprParse
import Verif.Model.Expand
import Verif.Spec.Expand
import Verif.Lemmas.Expand
import Verif.Props.Expand
import Verif.Model.Nesting
import Verif.Spec.Nesting
import Verif.Lemmas.Nesting
import Verif.Props.Nesting
import Verif.Model.Tokenizer
import Verif.Spec.Tokenizer
import Verif.Lemmas.Tokenizer
import Verif.Props.Tokenizer
import Verif.Model.ElfFile
import Verif.Spec.ElfFile
import Verif.Lemmas.Slice
import Verif.Lemmas.ElfFile
import Verif.Lemmas.ElfFile2
import Verif.Lemmas.ElfFile3
import Verif.Lemmas.ElfFile4
import Verif.Lemmas.ElfFile5
import Verif.Props.ElfFile
import Verif.Spec.Object
import Verif.Model.Object
import Verif.Lemmas.ObjectAr
import Verif.Lemmas.Object
import Verif.Lemmas.Object2
import Verif.Lemmas.Object3
import Verif.Props.Object
import Verif.Model.ObjectLabels
import Verif.Spec.ObjectLabels
import Verif.Lemmas.ObjectLabels
import Verif.Props.ObjectLabels
import Verif.Model.Ctor
import Verif.Spec.MipsCalls
import Verif.Lemmas.MipsCalls
import Verif.Lemmas.Ctor
import Verif.Props.Ctor
import Verif.Lemmas.CtorText
import Verif.Props.CtorText
import Verif.Spec.Settled
import Verif.Props.Settled
import Verif.Spec.MipsParse
import Verif.Model.MipsParse
import Verif.Lemmas.MipsParse
import Verif.Lemmas.MipsParseVfpu
import Verif.Lemmas.MipsParseArgs
import Verif.Lemmas.MipsParsePrefix
import Verif.Lemmas.MipsParseLine
import Verif.Lemmas.MipsParseTable
import Verif.Lemmas.MipsParseRows
import Verif.Lemmas.MipsParseValid
import Verif.Props.MipsParse
import Verif.Model.ArmLine
import Verif.Spec.ArmLine
import Verif.Lemmas.ArmLine
import Verif.Lemmas.ArmLineRead
import Verif.Lemmas.ArmLineRows
import Verif.Lemmas.ArmLineSound
import Verif.Lemmas.ArmLineTable
import Verif.Lemmas.ArmLineValid
import Verif.Props.ArmLine
import Verif.Model.Directive
import Verif.Spec.Directive
import Verif.Lemmas.Directive
import Verif.Lemmas.DirectiveRead
import Verif.Lemmas.DirectiveText
import Verif.Props.Directive
import Verif.Model.CommandLine
import Verif.Spec.CommandLine
import Verif.Lemmas.CommandLine
import Verif.Props.CommandLine
import Verif.Model.Psx
import Verif.Spec.Psx
import Verif.Lemmas.PsxRead
import Verif.Lemmas.PsxLib
import Verif.Props.Psx
import Verif.Lemmas.PsxPlace
import Verif.Lemmas.PsxReloc
import Verif.Props.PsxPlace
import Verif.Model.ShLine
import Verif.Spec.ShLine
import Verif.Lemmas.ShLine
import Verif.Lemmas.ShLineRead
import Verif.Props.ShLine
import Verif.Model.MipsMacroLine
import Verif.Spec.MipsMacroLine
import Verif.Lemmas.MipsMacroLine
import Verif.Lemmas.MipsMacroTokens
import Verif.Lemmas.MipsMacroProgram
import Verif.Props.MipsMacroLine
import Verif.Props.MipsDouble
