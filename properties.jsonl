{"id": "C01", "title": "Assembly passes terminate and never emit code from an unsettled layout", "statement": "Running the assembler on any program performs at most 101 validation passes. Output encoding starts only when the last pass reported no change in any command and no error is queued; if the pass limit is hit or any error is reported, the run fails and nothing is encoded.", "quantifier": "every program (arbitrary command tree, arbitrary per-command change/error behaviour in every pass)", "why_tests_cant": "the number of passes is data dependent; a test sees one program and one convergence history, not programs that oscillate", "anchors": ["Core/Assembler.cpp: encodeAssembly", "Core/Misc.cpp: Logger"]}
{"id": "C02", "title": "Labels in a successful output point at the bytes emitted for them", "statement": "If assembly succeeds, every label that is defined at a source position has as its value the virtual address the output cursor has when that position is reached during encoding, whatever forward references, alignments, fills, .org moves, conditionals and header-size changes precede it.", "quantifier": "every program built from labels, data, fill, align, skip, org/orga, headersize, area, conditional and sequence commands; every number of passes", "why_tests_cant": "needs the fixpoint argument over an unbounded number of passes and arbitrary forward references", "anchors": ["Core/Assembler.cpp: encodeAssembly", "Commands/CAssemblerLabel.cpp: Validate", "Commands/CommandSequence.cpp", "Commands/CDirectiveFile.cpp", "Commands/CDirectiveData.cpp"]}
{"id": "C03", "title": "The validated size of every command equals the number of bytes it encodes", "statement": "After a pass that reports no error, encoding a command moves the output address by exactly the amount its last validation did, for every command kind, so the layout validation promised is the layout written.", "quantifier": "all commands and command trees, all states reachable at the end of an error-free pass", "why_tests_cant": "a mismatch shows only for particular sizes and nestings, and shifts everything after it", "anchors": ["Commands/*.cpp: Validate/Encode"]}
{"id": "C04", "title": "Expressions in the final output use the final values of all labels", "statement": "If assembly succeeds, each data value, fill amount, alignment, position and branch target that was written is what its expression evaluates to under the final label values; no stale forward-reference value from an earlier pass survives in the output.", "quantifier": "all programs, expressions and label dependency shapes (including cycles through sizes)", "why_tests_cant": "depends on the convergence history; tests only ever see the programs they contain", "anchors": ["Core/Assembler.cpp: encodeAssembly", "Commands/CAssemblerLabel.cpp: Validate", "Commands/CDirectiveData.cpp: Validate", "Core/Expression.cpp: evaluate"]}
{"id": "C05", "title": ".align emits the minimal padding to reach the boundary", "statement": "A .align/.aligna with value n is accepted exactly when n is a power of two; it then moves a nonnegative address to the least multiple of n that is not below it and the padding bytes all carry the fill value; other n give an error.", "quantifier": "all alignment values and all addresses", "why_tests_cant": "boundary and minimality must hold for every residue of every power of two", "anchors": ["Commands/CDirectiveFile.cpp: CDirectiveAlignFill", "Core/Common.cpp: isPowerOfTwo"]}
{"id": "C06", "title": ".fill/.skip account for exactly the requested bytes", "statement": ".fill n,v writes exactly n bytes equal to v at consecutive addresses for every n >= 0, independent of the internal chunk size; .skip n moves the address by n and writes nothing.", "quantifier": "all sizes n and fill values", "why_tests_cant": "chunk-boundary errors only show at particular sizes", "anchors": ["Commands/CDirectiveFile.cpp: CDirectiveAlignFill, CDirectiveSkip"]}
{"id": "C07", "title": "Virtual and physical addresses differ by the header size in every reachable file state", "statement": "While a file is open, after any sequence of .org, .orga, .headersize, writes and memory advances, virtual address minus physical address equals the current header size, and .headersize leaves the physical position unchanged; the physical position never becomes negative.", "quantifier": "all sequences of file operations with arbitrary arguments", "why_tests_cant": "it is an invariant over unbounded histories", "anchors": ["Core/FileManager.cpp: GenericAssemblerFile, FileManager", "Commands/CDirectiveFile.cpp: CDirectivePosition, CDirectiveHeaderSize"]}
{"id": "C08", "title": "The output file holds exactly the last byte written at each position", "statement": "After any sequence of seeks and writes to an opened or created file, each byte of the file is the last byte written at that position, bytes never written keep their original value (zero when created past the end), and check-only mode never changes a file.", "quantifier": "all operation histories and file contents", "why_tests_cant": "overlap and ordering of writes is unbounded", "anchors": ["Core/FileManager.cpp: GenericAssemblerFile::write/open/seek*"]}
{"id": "C09", "title": "Multi-byte values are emitted in the selected byte order on any host", "statement": "Writing an 8/16/32/64-bit value produces, for little-endian output, its bytes from least to most significant and, for big-endian, the reverse, irrespective of the byte order of the host machine.", "quantifier": "all values, widths, target and host byte orders", "why_tests_cant": "a test runs on one host with a few values", "anchors": ["Core/FileManager.cpp: writeU8/16/32/64, swapEndianness*"]}
{"id": "C10", "title": "Integer expression operators compute two's-complement arithmetic with documented edge cases", "statement": "For 64-bit integer operands inside the defined range + - * give the mathematical result, / truncates toward zero and % satisfies a = (a/b)*b + a%b with |a%b|<|b|; division by zero yields -1, modulo by zero yields the dividend, INT64_MIN / -1 yields INT64_MIN and INT64_MIN % -1 yields 0, each with a warning; << multiplies modulo 2^64; >> is a logical shift; comparisons are the mathematical order.", "quantifier": "all pairs of 64-bit integers", "why_tests_cant": "2^128 operand pairs, with edge cases at the extremes", "anchors": ["Core/Expression.cpp: ExpressionValue operators"]}
{"id": "C11", "title": "Logical operators return only 0 or 1", "statement": "&&, || and ! applied to any valid numeric operands return integer 1 when the logical statement is true and integer 0 otherwise, treating any nonzero number as true.", "quantifier": "all operand pairs of integer and float kind", "why_tests_cant": "mixed-type combinations are easily missed", "anchors": ["Core/Expression.cpp: operator&&, operator||, operator!"]}
{"id": "C12", "title": "Constant folding never changes the value of an expression", "statement": "Simplifying an expression when it is parsed (folding constants) yields an expression that evaluates to the same value as the original in every environment of labels, functions and memory positions.", "quantifier": "all expression trees and evaluation environments", "why_tests_cant": "expression trees are unbounded", "anchors": ["Core/Expression.cpp: ExpressionInternal::simplify, evaluate"]}
{"id": "C13", "title": "Operator precedence and associativity follow the C-like table", "statement": "Parsing the token sequence of any expression written with only the parentheses that the precedence table requires yields that expression; in particular binary operators associate to the left, and printing an expression fully parenthesised and parsing it again gives the same expression.", "quantifier": "all expression trees / token sequences", "why_tests_cant": "the set of operator combinations and nestings is infinite", "anchors": ["Parser/ExpressionParser.cpp", "Core/Expression.cpp: toString"]}
{"id": "C14", "title": "Label scoping: local, static and global labels never collide across scopes and names are case-insensitive", "statement": "Two lookups return the same symbol if and only if their names are equal ignoring case and, for static (@) names, the files agree, and for local (@@) names, the sections agree; globals ignore both.", "quantifier": "all names, files, sections and lookup histories", "why_tests_cant": "needs quantification over all pairs of names and scopes and over arbitrary histories of the table", "anchors": ["Core/SymbolTable.cpp: getLabel, setFileSectionValues"]}
{"id": "C15", "title": "A label has at most one definition", "statement": "If assembly succeeds, no symbol is defined by two label commands that were both executed in the same pass; a second definition in the same scope is an error, as is defining a label with the name of an existing equ or vice versa.", "quantifier": "all programs and definition orders", "why_tests_cant": "all pairs of definition sites across files/sections", "anchors": ["Commands/CAssemblerLabel.cpp: Validate", "Core/SymbolTable.cpp: addEquation, getLabel"]}
{"id": "C16", "title": "Generated label names are always fresh", "statement": "Names produced for internal labels are pairwise distinct over the whole run, valid symbol names.", "quantifier": "all numbers of generated names (below 2^32) and both local and global kinds", "why_tests_cant": "unbounded history", "anchors": ["Core/SymbolTable.cpp: getUniqueLabelName"]}
{"id": "C17", "title": "Label section lookup returns the closest preceding labelled section", "statement": "Finding the section of an address returns the section of a label whose value is the largest not exceeding the address (within 2^31-1), and -1 when there is none.", "quantifier": "all tables and addresses", "why_tests_cant": "needs all label sets", "anchors": ["Core/SymbolTable.cpp: findSection"]}
{"id": "C18", "title": "Auto-placed regions never overlap and stay inside their region", "statement": "After any sequence of region definitions and .autoregion allocations in a pass, every allocated block lies inside the space of one shared region of the same file, after that region's own content, and no two blocks in the same region overlap; blocks lie within the requested address range when one is given.", "quantifier": "all sequences of setArea/allocateSubArea/clearSubAreas operations with arbitrary sizes and ranges", "why_tests_cant": "interaction of keep-position heuristics and ranges over unbounded histories", "anchors": ["Core/Allocations.cpp: allocateSubArea, getSubAreaUsage", "Commands/CDirectiveArea.cpp: CDirectiveAutoRegion"]}
{"id": "C19", "title": "An area that overflows is always reported", "statement": "A .area of size n whose content takes more than n bytes produces an error (so nothing is written), and one that fits and has a fill value is padded to exactly n bytes.", "quantifier": "all sizes, contents and fill values", "why_tests_cant": "sizes are unbounded and depend on layout", "anchors": ["Commands/CDirectiveArea.cpp: CDirectiveArea Validate/Encode"]}
{"id": "C20", "title": "Every literal-pool load reads its own constant", "statement": "After a pool command is validated, each pending pool request is given the address of a pool slot that will be encoded with exactly the requested value; the slots lie consecutively at the pool's address, 4 bytes each, and duplicates share a slot without changing any value.", "quantifier": "all sequences of pool requests, deduplication on or off", "why_tests_cant": "unbounded request lists", "anchors": ["Archs/ARM/Pool.cpp: ArmPoolCommand::Validate/Encode"]}
{"id": "C21", "title": "ARM rotated-immediate encodings denote the requested constant", "statement": "When an ARM data-processing immediate is accepted, the encoded 8-bit value rotated right by twice the 4-bit rotation field is exactly the requested 32-bit constant, and a constant is rejected only if no 8-bit value and even rotation produce it.", "quantifier": "all 2^32 constants", "why_tests_cant": "soundness and completeness over the whole 32-bit domain", "anchors": ["Archs/ARM/CArmInstruction.cpp: getShiftedImmediate, Validate"]}
{"id": "C22", "title": "ARM immediate opcode substitution preserves the instruction's effect", "statement": "When mov/mvn, and/bic, cmp/cmn or add/sub are swapped because only the complemented or negated constant is encodable, the resulting instruction computes the same result for every register value.", "quantifier": "all constants and register values", "why_tests_cant": "64 bits of input per instruction", "anchors": ["Archs/ARM/CArmInstruction.cpp: Validate (ARM_OPTIMIZE)", "Archs/ARM/ArmOpcodes.cpp"]}
{"id": "C23", "title": "ARM branch encodings reach their target", "statement": "An accepted ARM b/bl/blx to an address encodes an offset for which the processor's target computation yields exactly that address; unreachable or misaligned targets are rejected.", "quantifier": "all instruction addresses and targets", "why_tests_cant": "2^64 address pairs", "anchors": ["Archs/ARM/CArmInstruction.cpp: Validate/Encode"]}
{"id": "C24", "title": "THUMB branch encodings reach their target", "statement": "An accepted THUMB conditional/unconditional branch or bl/blx pair encodes an offset for which the processor's target computation yields exactly that address; unreachable or misaligned targets are rejected.", "quantifier": "all instruction addresses and targets", "why_tests_cant": "2^64 address pairs", "anchors": ["Archs/ARM/CThumbInstruction.cpp: Validate/Encode"]}
{"id": "C25", "title": "ARM and THUMB instruction words are decodable field by field", "statement": "The word emitted for an accepted instruction contains each operand in its documented bit field and the opcode's fixed bits unchanged: distinct operand choices give distinct words and no operand leaks into another field.", "quantifier": "all opcodes of the table and all operand values the parser/validator accepts", "why_tests_cant": "operand combinations exceed 2^30 per opcode", "anchors": ["Archs/ARM/CArmInstruction.cpp: Encode", "Archs/ARM/CThumbInstruction.cpp: Encode", "Archs/ARM/ArmOpcodes.cpp", "Archs/ARM/ThumbOpcodes.cpp"]}
{"id": "C26", "title": "MIPS branches reach their target", "statement": "An accepted MIPS relative branch at address a to target t encodes a 16-bit offset o with a + 4 + 4*signext(o) = t; a target outside the reachable window is rejected.", "quantifier": "all instruction addresses and targets", "why_tests_cant": "off-by-one at the window edges", "anchors": ["Archs/MIPS/CMipsInstruction.cpp: Validate"]}
{"id": "C27", "title": "MIPS immediates are encoded without silent corruption", "statement": "An accepted n-bit immediate v is either representable in the n-bit field as signed or unsigned value and the field holds v modulo 2^n; values not representable in either reading are rejected.", "quantifier": "all immediates and field widths", "why_tests_cant": "needs the whole integer domain at every width", "anchors": ["Archs/MIPS/CMipsInstruction.cpp: Validate"]}
{"id": "C28", "title": "MIPS instruction words are decodable field by field", "statement": "The word emitted for an accepted non-VFPU MIPS instruction carries each register and immediate in its field, keeps the opcode's fixed bits, and is uniquely determined by the operands.", "quantifier": "all opcodes of the table and all operands", "why_tests_cant": "operand combinations exceed 2^30 per opcode", "anchors": ["Archs/MIPS/CMipsInstruction.cpp: encodeNormal", "Archs/MIPS/MipsOpcodes.cpp"]}
{"id": "C29", "title": "li/la load the requested constant", "statement": "For every immediate with absolute value below 2^32, executing the instruction sequence li (or la, or li.u followed by li.l) expands to leaves the immediate modulo 2^32 in the destination register; larger immediates are rejected.", "quantifier": "all immediates and register states", "why_tests_cant": "2^33 immediates, boundary cases at 0x8000 and sign extension", "anchors": ["Archs/MIPS/MipsMacros.cpp: generateMipsMacroLi", "Archs/MIPS/MipsExpressionFunctions.cpp"]}
{"id": "C30", "title": "Absolute-address load/store macros access the requested address", "statement": "For every 32-bit address, executing the expansion of a load/store macro (including the .u/.l halves in sequence) accesses exactly that effective address with the requested register.", "quantifier": "all addresses and register states", "why_tests_cant": "hi/lo carry cases", "anchors": ["Archs/MIPS/MipsMacros.cpp: generateMipsMacroLoadStore"]}
{"id": "C31", "title": "Compare-and-branch and set macros decide the stated relation", "statement": "blt/bgt/ble/bge (signed/unsigned, register/immediate forms), beq/bne with immediates and slt/sgt/sge/sle/seq/sne macros take the branch / set 1 exactly when the relation named by the mnemonic holds between the operands.", "quantifier": "all register values and immediates", "why_tests_cant": "signed/unsigned edges; 2^64 operand pairs", "anchors": ["Archs/MIPS/MipsMacros.cpp: generateMipsMacroBranch, generateMipsMacroSet"]}
{"id": "C32", "title": "Rotate and abs macros compute rotation and absolute value", "statement": "rol/ror (register and immediate) rotate the source by the amount modulo 32 and abs gives the two's complement absolute value, for every register value.", "quantifier": "all register values and amounts", "why_tests_cant": "2^37 combinations", "anchors": ["Archs/MIPS/MipsMacros.cpp: generateMipsMacroRotate, generateMipsMacroAbs"]}
{"id": "C33", "title": "Unaligned load/store macros access the right bytes", "statement": "ulh/ulhu/ulw/uld/ush/usw/usd read or write exactly the bytes at the given address in the target's byte order with the documented extension.", "quantifier": "all memories, addresses and values", "why_tests_cant": "all byte contents and alignments", "anchors": ["Archs/MIPS/MipsMacros.cpp: generateMipsMacroLoadUnaligned, generateMipsMacroStoreUnaligned"]}
{"id": "C34", "title": "hi() and lo() recombine to the original value", "statement": "(hi(v) << 16) + lo(v) is congruent to v modulo 2^32, hi(v) fits 16 unsigned bits and lo(v) fits 16 signed bits.", "quantifier": "all 64-bit integers", "why_tests_cant": "carry at bit 15", "anchors": ["Archs/MIPS/MipsExpressionFunctions.cpp"]}
{"id": "C35", "title": "MIPS HI16/LO16 relocation pairs produce the relocated address", "statement": "For any sequence of HI16 relocations followed by their LO16 relocation against the same base, executing each lui with the final addiu yields original addend plus base modulo 2^32; unmatched or mismatched pairs are reported.", "quantifier": "all opcode words, addends, bases and numbers of HI16 entries", "why_tests_cant": "carry propagation and unbounded HI16 queues", "anchors": ["Archs/MIPS/MipsElfRelocator.cpp: relocateOpcode, processHi16Entries, finish"]}
{"id": "C36", "title": "ARM call relocations reach their target", "statement": "A relocated R_ARM_CALL/JUMP24/THM_CALL instruction that is accepted branches to symbol address plus addend; out-of-range ones are reported; ABS32 adds the base.", "quantifier": "all opcodes, addresses and symbol values", "why_tests_cant": "2^96 combinations", "anchors": ["Archs/ARM/ArmElfRelocator.cpp: relocateOpcode"]}
{"id": "C37", "title": "PlayStation load delays are always respected", "statement": "On a target with load delay and nop insertion enabled, no emitted instruction that reads a register directly follows the load that defines it: a nop is inserted in between, and the layout accounts for it.", "quantifier": "all straight-line instruction sequences", "why_tests_cant": "unbounded sequences and register combinations", "anchors": ["Archs/MIPS/CMipsInstruction.cpp: Validate", "Archs/MIPS/Mips.cpp"]}
{"id": "C38", "title": "SuperH branch and PC-relative encodings reach their target", "statement": "An accepted SuperH branch or PC-relative move encodes a displacement for which the processor's address computation gives the target; unreachable or misaligned targets are rejected.", "quantifier": "all instruction addresses and targets", "why_tests_cant": "window edges and alignment of PC", "anchors": ["Archs/SuperH/CShInstruction.cpp: Validate/Encode", "Archs/SuperH/ShOpcodes.cpp"]}
{"id": "C39", "title": "SuperH instruction words are decodable field by field", "statement": "The word emitted for an accepted instruction carries registers and immediate in the fields given by its format with the fixed bits unchanged.", "quantifier": "all opcodes of the table and operand values", "why_tests_cant": "operand combinations", "anchors": ["Archs/SuperH/CShInstruction.cpp: Encode", "Archs/SuperH/ShOpcodes.cpp"]}
{"id": "C40", "title": "CRC routines compute the standard CRC-32 and reflected CRC-16", "statement": "getCrc32 and getCrc16 equal bit-by-bit polynomial division (CRC-32: reflected polynomial 0xEDB88320, initial value and final complement 0xFFFFFFFF; CRC-16: reflected polynomial 0xA001, initial value 0xFFFF) for every byte string, and getChecksum is the byte sum.", "quantifier": "all byte strings", "why_tests_cant": "table-driven code must agree on all 256 entries and all lengths", "anchors": ["Util/CRC.cpp"]}
{"id": "C41", "title": "Table string encoding is longest-match-first and complete", "statement": "Encoding a string with a loaded table replaces, from left to right, the longest table key that is a prefix of the remaining text by its bytes; encoding fails exactly when at some position no key matches; a later entry for the same key replaces or is rejected consistently with the table.", "quantifier": "all tables and strings", "why_tests_cant": "trie and greedy matching over unbounded keys", "anchors": ["Util/EncodingTable.cpp: Trie, EncodingTable"]}
{"id": "C42", "title": "UTF-8 encoding and decoding are inverse on the basic multilingual plane", "statement": "Encoding any code point below 0x10000 to UTF-8 and decoding the bytes with the source-file reader or the tokenizer returns that code point and consumes exactly the emitted bytes.", "quantifier": "all code points and following bytes", "why_tests_cant": "boundary lengths, arbitrary surrounding text", "anchors": ["Util/Util.cpp: convertUnicodeCharToUtf8", "Util/FileClasses.cpp: TextFile::readCharacter", "Parser/Tokenizer.cpp: decodeUtf8Character"]}
{"id": "C43", "title": "Integer literal parsing returns the denoted number", "statement": "A literal accepted by the number parser (decimal, 0x/h hex, 0b/b binary, 0o/o octal) denotes its value in that base modulo 2^64, no string has two readings, and any string with an invalid digit is rejected.", "quantifier": "all strings", "why_tests_cant": "unbounded digit strings in four notations", "anchors": ["Util/Util.cpp: stringToInt"]}
{"id": "C44", "title": "Byte-array word accessors are consistent", "statement": "Reading a 16/32-bit word just written at an in-range position returns it for either byte order, other bytes are unchanged, and out-of-range reads return -1 while out-of-range writes do nothing.", "quantifier": "all arrays, positions and values", "why_tests_cant": "all sizes and offsets", "anchors": ["Util/ByteArray.cpp"]}
{"id": "C45", "title": "Line endings are normalised and no text is lost when reading sources", "statement": "Reading a text file yields the decoded characters with every CR LF pair replaced by LF and nothing else changed, and the lines joined by LF give back that text.", "quantifier": "all file contents in each supported encoding", "why_tests_cant": "all CR/LF adjacency patterns", "anchors": ["Util/FileClasses.cpp: TextFile::readCharacter, readLine, readAll"]}
{"id": "C46", "title": "Buffered text output equals unbuffered output", "statement": "The bytes that reach the file after any sequence of writes and a close are the concatenation of the written pieces, regardless of buffer boundaries.", "quantifier": "all sequences of write sizes", "why_tests_cant": "buffer-boundary coincidences", "anchors": ["Util/FileClasses.cpp: bufPut, bufDrainWrite, write"]}
{"id": "C47", "title": "A run fails if and only if an error was reported", "statement": "The error state after any sequence of diagnostics is set exactly when an unsuppressed Error or FatalError, or (in error-on-warning mode) a Warning was printed; notices never matter; queued errors discarded with the pass do not count.", "quantifier": "all sequences of logger calls and mode switches", "why_tests_cant": "unbounded histories", "anchors": ["Core/Misc.cpp: Logger"]}
{"id": "C48", "title": ".incbin inserts exactly the requested slice of the file", "statement": "An accepted .incbin with start s and size n inserts bytes [s, min(s+n,fileSize)) of the file; a start beyond the end is an error and truncation produces a warning.", "quantifier": "all file contents, starts and sizes", "why_tests_cant": "edge arithmetic at the end of file", "anchors": ["Commands/CDirectiveFile.cpp: CDirectiveIncbin"]}
{"id": "C49", "title": "Conditional blocks: exactly the selected branch takes effect", "statement": "A conditional command contributes exactly the content of the branch its condition selects, identically in validation and encoding of the final pass; the other branch contributes no bytes, labels or errors.", "quantifier": "all conditions, nestings and pass histories", "why_tests_cant": "condition results may change from pass to pass", "anchors": ["Commands/CDirectiveConditional.cpp"]}
{"id": "C50", "title": "Data directives emit each element truncated to the element size, in order", "statement": ".byte/.halfword/.word/.doubleword emit for each integer element its low 8/16/32/64 bits in the output byte order and for each string one element per byte, in source order.", "quantifier": "all element lists", "why_tests_cant": "unbounded lists with mixed elements", "anchors": ["Commands/CDirectiveData.cpp"]}
{"id": "C51", "title": "Half-precision conversion is exact on representable values", "statement": "Converting a half-precision zero, normal or infinite bit pattern to float and back returns the same pattern; a float in the normal half range is converted to a nearest half value, larger ones saturate at 65504, smaller ones become a signed zero, NaN stays NaN and the sign is always kept.", "quantifier": "all 2^16 half patterns / all floats", "why_tests_cant": "denormals and rounding edges", "anchors": ["Util/Util.cpp: toHalfFloat, fromHalfFloat"]}
{"id": "C52", "title": "Function argument counts are enforced and architecture functions replace each other cleanly", "statement": "Calling an expression function with a number of parameters outside its declared range gives an invalid result; registering never overwrites an existing function; after switching architectures only the generic functions and those of the current architecture are callable.", "quantifier": "all registration/switch histories and calls", "why_tests_cant": "unbounded histories", "anchors": ["Core/ExpressionFunctionHandler.cpp"]}
{"id": "C53", "title": "max/min return the greatest/least argument", "statement": "max(a,...) and min(a,...) return a value that is one of the arguments and no argument is greater/less.", "quantifier": "all nonempty argument lists", "why_tests_cant": "arbitrary numbers and mixes of arguments", "anchors": ["Core/ExpressionFunctions.cpp: expFuncMin, expFuncMax"]}
{"id": "C54", "title": "Symbol file output is sorted, deduplicated and complete", "statement": "The nocash symbol file lists each distinct (address,name) label exactly once, and each function and data run, ordered by address.", "quantifier": "all sequences of symbol registrations", "why_tests_cant": "sorting and deduplication over unbounded sets", "anchors": ["Core/SymbolData.cpp"]}
{"id": "C55", "title": "Text replacements (equ) always terminate", "statement": "Expanding a name defined with equ always terminates: no accepted set of equ definitions makes expansion loop.", "quantifier": "all sequences of equ definitions and uses over several files", "why_tests_cant": "cyclic definitions across scopes", "anchors": ["Parser/Tokenizer.cpp: processElement", "Parser/DirectivesParser.cpp/Parser.cpp: equ checks"]}
{"id": "C56", "title": "Macro-local labels are distinct between expansions", "statement": "Labels local to a macro receive different names in different expansions and never coincide with each other within one expansion.", "quantifier": "all macros and numbers of expansions", "why_tests_cant": "unbounded expansions", "anchors": ["Parser/Parser.cpp: parseMacroCall"]}
{"id": "C57", "title": "Imported ELF sections are aligned, disjoint and in order", "statement": "When object files are imported, each allocated section is placed at an address that is a multiple of its alignment, sections do not overlap, follow the import address, and the copied bytes are the (relocated) section contents.", "quantifier": "all lists of sections, sizes, alignments and import addresses", "why_tests_cant": "unbounded section lists", "anchors": ["Core/ELF/ElfRelocator.cpp: relocateFile"]}
{"id": "C58", "title": "Block transfer register lists and addressing modes", "statement": "A register list operand denotes exactly the set of listed registers (ranges inclusive), and ldm/stm mode suffixes select the documented P/U bits.", "quantifier": "all register lists", "why_tests_cant": "2^16 sets and arbitrary list spellings", "anchors": ["Archs/ARM/ArmParser.cpp: parseRegisterList, decodeAddressingMode"]}
{"id": "C59", "title": "Condition codes and mnemonics decode uniquely", "statement": "An ARM condition suffix denotes the condition number of the architecture manual; every accepted suffix maps to exactly one number and empty means always.", "quantifier": "all suffix strings", "why_tests_cant": "finite table lifted over all strings", "anchors": ["Archs/ARM/ArmParser.cpp: decodeCondition"]}
{"id": "C60", "title": "Nested includes, macros and blocks are bounded", "statement": "Command parsing never nests deeper than the fixed limit: deeper input yields an error instead of unbounded recursion.", "quantifier": "all inputs", "why_tests_cant": "unbounded nesting", "anchors": ["Parser/Parser.cpp: parseFile, parseCommandSequence"]}
{"id": "C61", "title": "String functions locate and cut exactly", "statement": "find(s,t,start) is the first position at or after start where t occurs in s, or -1 if there is none; rfind(s,t,start) is the last position at or before start, or -1; substr(s,start,count) with start inside the string is the bytes from start on, at most count of them.", "quantifier": "all strings and non-negative positions", "why_tests_cant": "strings are unbounded", "anchors": ["Core/ExpressionFunctions.cpp: expFuncFind, expFuncRFind, expFuncSubstr"]}
{"id": "C62", "title": "readu8..reads64 return the number stored at the offset", "statement": "readuN(file,offset) and readsN(file,offset) return the unsigned (modulo 2^64) or two's complement value of the N/8 bytes at the offset in the byte order of the machine; a missing file, a negative offset or a file that is too short give an invalid value and an error.", "quantifier": "all file contents, offsets and widths 1, 2, 4, 8", "why_tests_cant": "unbounded files; sign and end-of-file boundaries", "anchors": ["Core/ExpressionFunctions.cpp: expFuncRead"]}
{"id": "C63", "title": "Conditional assembly carries out the selected parts only", "statement": "The commands carried out are exactly those of the parts that the conditions select, of the macros called and of the files included there, in source order, whatever the conditions turn out to be that are not known at parse time.", "quantifier": "all programs of nested conditionals, blocks, macro calls and includes, and all outcomes of conditions", "why_tests_cant": "unbounded nesting; every combination of outcomes", "anchors": ["Parser/Parser.cpp: parseCommandSequence, parseMacroCall, pushConditionalResult", "Parser/DirectivesParser.cpp: parseDirectiveConditional, parseDirectiveInclude"]}
{"id": "C64", "title": "Macro arguments are put in once", "statement": "In a macro call every parameter in the content is replaced by the tokens of its argument, all at the same time: parameters may be exchanged, and tokens of an argument are not taken for parameters again.", "quantifier": "all macros, contents and arguments", "why_tests_cant": "unbounded contents and arguments; names that meet", "anchors": ["Parser/Tokenizer.cpp: processElement", "Parser/Parser.cpp: parseMacroCall"]}
{"id": "C65", "title": "Source text is split into tokens by the lexical rules", "statement": "A source text that follows the documented lexical rules (operators with the longest one taken, names without regard to case, integers in all bases, numbers with a fraction or exponent, strings with \\\" and \\\\, character constants in UTF-8, blanks, line and block comments, continued lines, equ with its value) is read as exactly the tokens these rules give, with one separator for each line. Reading ends for every text, names contain only small letters, digits, _ . and @, and an unclosed string or block comment is reported.", "quantifier": "all texts, lines, spellings, numbers and comments of any length", "why_tests_cant": "The rules interact at every position: operators that begin other operators or comments, letters that are digits, exponents or suffixes, comments over any number of lines. Tests can only try some texts.", "anchors": ["Parser/Tokenizer.cpp: FileTokenizer::init, loadToken, parseOperator, skipWhitespace, decodeUtf8Character", "Util/Util.cpp: stringToInt"]}
{"id": "C66", "title": "The text of an expression is read back as that expression", "statement": "The text that is written for an expression (in messages and in temporary files), read as a line of source, gives the same expression again.", "quantifier": "all expressions of any depth", "why_tests_cant": "Expressions nest without bound and each operator and operand has its own spelling; tests try some expressions.", "anchors": ["Core/Expression.cpp: ExpressionInternal::toString", "Parser/Tokenizer.cpp: loadToken", "Parser/ExpressionParser.cpp: expression"]}
{"id": "C67", "title": "Opening and saving an ELF file keeps the program in it", "statement": "An executable ELF file that is opened as output and saved has the same identification, header fields, program headers and section headers as before, except for positions in the file (and physical addresses of segments); every segment and every section has the same bytes; sections keep their place in their segment; sections outside of the segments are aligned as they ask; all tables and contents lie inside of the saved file.", "quantifier": "all well-formed ELF files: any number, order and overlap of segments and sections, both byte orders, any header sizes, any order in which std::sort leaves equal positions", "why_tests_cant": "Every segment and section is moved and the tables are written over reserved space at the end; whether something overlaps or is lost depends on the whole layout of the file.", "anchors": ["Core/ELF/ElfFile.cpp: ElfFile::load, save, determinePartOrder, ElfSegment::writeData, ElfSection::writeData, isSectionPartOf"]}
{"id": "C68", "title": "Directives in an ELF file change exactly the bytes they address", "statement": "In an opened ELF file, .org and .orga choose the byte of the first segment and section that covers the address; what is then emitted replaces the bytes from there on, in the saved file as well; all other bytes of all segments and sections and all headers stay as they were; the current address is the one chosen plus the number of emitted bytes; an address outside of all sections is an error and changes nothing.", "quantifier": "all well-formed executable ELF files and all sequences of directives", "why_tests_cant": "Addresses are translated through segment, section and offset in it, and back through the positions of the saved file; tests cover single files and addresses.", "anchors": ["Archs/MIPS/MipsElfFile.cpp: seekVirtual, seekPhysical, write, getVirtualAddress, load", "Core/ELF/ElfFile.cpp: ElfSegment::writeToData, ElfFile::save"]}
{"id": "C69", "title": "All object files of an archive are found", "statement": "From an archive of static libraries exactly the members that are ELF files are taken, in the order of the archive, each with exactly its bytes, whatever the other members (symbol index, table of long names, texts) and the dates, owners and modes in the headers are; names that fit into the header are the names of the files. A file that is an ELF file itself is taken as the only one, and any other file is refused with an error. Every object file of an archive is imported, or the import fails.", "quantifier": "all archives with any number of members, names, sizes and contents; all other files", "why_tests_cant": "Sizes are decimal text, members are padded to even positions and their number is unbounded; the position of each depends on all before it.", "anchors": ["Core/ELF/ElfRelocator.cpp: loadArArchive, ElfRelocator::init"]}
{"id": "C70", "title": "An imported object file arrives as it is in the file", "statement": "Only relocatable ELF files for the machine and byte order, without segments, are imported, and such a file is never refused. Its sections that occupy memory, and no others, get addresses that are aligned as they ask, in their order and without overlap; at these addresses the output has the bytes of the file, except for words that are relocated, and zeros for sections without contents. Relocations, symbols, addends and names are those of the tables in the file. Global and weak symbols that are defined are exported with the address of their section plus their value; common symbols get memory behind the sections. A 32-bit reference becomes the word of the file plus the address of its symbol.", "quantifier": "all readable object files, any number and order of sections, relocations and symbols, both byte orders, all starting addresses", "why_tests_cant": "The tables refer to each other by numbers and positions; relocations, symbols and sections can be in any order and number.", "anchors": ["Core/ELF/ElfRelocator.cpp: ElfRelocator::init, loadRelocation, relocateFile, exportSymbols", "Core/ELF/ElfFile.cpp: getSymbol, getStrTableString, load"]}
{"id": "C71", "title": "MIPS instructions mean what is written", "statement": "An instruction of the processor, written with its mnemonic and its operands, is read as this instruction with these operands, whichever of the allowed spellings is used: names of registers with and without $, register numbers, vectors and matrices of the VFPU by their cells, prefixes, rotations, constants and conditions, elements of the RSP, and any expression as an immediate. No text is two instructions, and instructions of other processors are not read. The operands that are read are in range, and the word that is written carries them in their fields. Names and numbers that stand for no register are refused.", "quantifier": "all 702 rows of the table, all processors, all operands in all spellings, any expression, any text behind the instruction", "why_tests_cant": "The rows are tried one after another and share names, so every row must refuse the texts of all later ones; the operands have thousands of spellings that combine freely.", "anchors": ["Archs/MIPS/MipsParser.cpp: parseOpcode, parseParameters, decodeOpcode, parseRegister, parseVfpuRegister, parseVfpuVrot, parseVpfxsParameter, parseVpfxdParameter, parseVcstParameter, parseRspVectorElement", "Archs/MIPS/MipsOpcodes.cpp: MipsOpcodes"]}
{"id": "C72", "title": "ARM and THUMB instructions mean what is written", "statement": "An instruction of the ARM or THUMB set, written with its mnemonic and its operands, is read as this instruction with these operands, whichever of the allowed spellings is used: names of registers, coprocessors and status registers with their fields, lists and ranges of registers, shifts with and without a blank before the number, signs, writeback, optional # and any expression as a constant. No text is two instructions, instructions of the ARM9 are not read for the GBA, and the operands that are read are in range, so that the machine code carries them in their fields. Registers that an instruction does not have are refused.", "quantifier": "all rows of both opcode tables, both processors, all operands in all spellings, any expression, any text behind the instruction, anything that rows tried before have left in the parser", "why_tests_cant": "The rows are tried one after another, share names and leave their operands behind, so every row must refuse the texts of all later ones; the spellings combine freely.", "anchors": ["Archs/ARM/ArmParser.cpp: parseArmOpcode, parseThumbOpcode, parseArmParameters, parseThumbParameters, parseRegister, parseRegisterList, parseShift, parsePseudoShift, parsePsr, parseCopRegister, parseCopNumber, parseImmediate, parseWriteback, parsePsrTransfer, matchSymbol, decodeArmOpcode", "Archs/ARM/ArmOpcodes.cpp: ArmOpcodes", "Archs/ARM/ThumbOpcodes.cpp: ThumbOpcodes"]}
{"id": "C73", "title": "Directives, labels, blocks and conditionals mean what is written", "statement": "A program is read as the statements it consists of, in their order and nesting: every directive under all of its names and with its parameters, labels with the section they begin, areas, regions and functions with what stands between their begin and their end, and conditionals with exactly the branches that count. No text has two meanings. A program is read to its end or refused; it is refused if a block is not closed, if an end has no block, or if a directive has too few or too many parameters. A block that does not count gives no statements and leaves everything behind it as it would be without it.", "quantifier": "all programs of any length and depth of nesting, all processors, all expressions as parameters, every way to write instructions", "why_tests_cant": "Nesting is unbounded, and every directive can stand in every block and behind every other one.", "anchors": ["Parser/Parser.cpp: parseCommandSequence, parseCommand, parseLabel, parseExpressionList, parseDirective", "Parser/DirectivesParser.cpp: directives, parseDirectiveConditional, parseDirectiveArea, parseDirectiveRegion, parseDirectiveAutoRegion, parseDirectiveFunction, parseDirectiveData", "Archs/ARM/ArmParser.cpp: directivesArm", "Archs/MIPS/MipsParser.cpp: directivesMips"]}
{"id": "C74", "title": "The command line means what is written", "statement": "A command line is taken as what it says, whatever the order of its options: the last file given for a purpose counts, switches are on if they are given, equations and labels are defined with the names and values given, before the program is read and as if they stood at its beginning, relative names are those in the directory changed to, and what follows -- is the name of the file. Anything else is refused: unknown options, options without their values, invalid or repeated names, values that are no numbers, no file or several files. The exit status is 0 only if the command line was accepted and the assembly succeeded.", "quantifier": "all lists of arguments of any length and content, all file systems", "why_tests_cant": "Options combine and repeat freely, and values may look like options.", "anchors": ["Main/CommandLineInterface.cpp: parseArguments, runFromCommandLine", "Core/Assembler.cpp: runArmips", "Core/SymbolTable.cpp: addLabels", "Parser/Parser.cpp: addEquation"]}
{"id": "C75", "title": "A PlayStation library is imported as what it holds", "statement": "A PlayStation object is read as its segments with their names, numbers, contents and relocations and its symbols, in their order: contents of a segment are the data and zero-filled pieces recorded for it, one after another, however the records of several segments alternate, and a relocation refers to the place it is recorded for, with the kind, the reference and the added number that are written. A library is read as its entries, in their order and with their names; a single object is its own only entry. What is not an object or a library, records of unknown kinds and relocations of unknown kinds are refused.", "quantifier": "all object files of any number and order of records, all libraries of any number of entries, all names and contents", "why_tests_cant": "Records follow each other without lengths, so each must be read to its last byte; the place of a relocation depends on all records before it.", "anchors": ["Archs/MIPS/PsxRelocator.cpp: loadPsxLibrary, loadString, parseObject, parseRelocation, readAll, init"]}
{"id": "C76", "title": "A PlayStation object is placed and relocated as its records say", "statement": "The segments of an imported object are at the given address, one after another at multiples of 4, its variables behind them, and the objects of a library one after another. The output has the contents of the segments at these addresses, zeros between and behind them, and is as long as the memory taken. Symbols that the object defines become labels with their addresses, no other label changes, and a symbol that is nowhere defined is an error. Words and jumps get the address of what they refer to, plus the added number; two instructions with the upper and the lower half of a reference together compute the old value plus the address. All else is unchanged.", "quantifier": "all objects with any segments, symbols and relocations in any order, all addresses and labels, libraries of any number of objects", "why_tests_cant": "Relocations are sorted and upper halves wait for their lower ones, so the result depends on all relocations of a segment at once.", "anchors": ["Archs/MIPS/PsxRelocator.cpp: relocateFile, relocate, Validate", "Archs/MIPS/MipsElfRelocator.cpp: relocateOpcode, finish, processHi16Entries"]}
{"id": "C77", "title": "SuperH instructions mean what is written", "statement": "Every instruction of the SH-1 and SH-2, written as in the manual with any registers and any expression as its constant, displacement or label, is read as this instruction, up to the end of the line: its machine code is that of the manual with these registers, the value of the expression in its field, and branches and loads reach the addresses that were written. The # in front of a constant can be left out. A line has one machine code, and programs for this processor are read as the statements and instructions they consist of.", "quantifier": "all instructions of the manual, all registers, all expressions that do not use names of registers, any text behind the line, all programs", "why_tests_cant": "Rows of the table share mnemonics and are tried one after another; an expression can begin like an operand of another row, so that every row has to refuse the texts of the others, whatever the expression is.", "anchors": ["Archs/SuperH/ShParser.cpp: parseOpcode, parseParameters, parseRegister, parseImmediate, matchSymbol, decodeOpcode, decodeCharacters", "Archs/SuperH/ShOpcodes.cpp: ShOpcodes"]}
{"id": "C78", "title": "MIPS lines are the macros and instructions that are written", "statement": "Every macro and every instruction of the processor, with any of its operands written in any of the ways there are, is read as this macro or instruction with these operands, up to the end of the line. Many macros have the name of an instruction; no line is both, none is two macros, and no macro keeps an instruction from being reached. What is read is what the statements about the macros are about, so that for example the line li, a register and an expression loads the value of the expression. Programs for MIPS processors are read as the statements, macros and instructions they consist of.", "quantifier": "all macros and all instructions of the tables, all processors, all registers and expressions, any text behind the line, all programs", "why_tests_cant": "The 160 macros are tried before the 702 rows of the instructions and share 33 names with them; which one a line is depends on where an expression ends and on what follows it, whatever the expression is.", "anchors": ["Archs/MIPS/MipsParser.cpp: parseMacro, parseMacroParameters, parseOpcode", "Archs/MIPS/Mips.cpp: CMipsArchitecture::parseOpcode", "Archs/MIPS/MipsMacros.cpp: mipsMacros"]}
{"id": "C79", "title": "Symbols of imported object files become labels", "statement": "An import is accepted exactly if the names of the exported symbols of all its files are valid names of labels, different from each other in more than upper and lower case, not equations, and not defined yet. Then each symbol has a label, found under its name in any case, with its kind; nothing else changes its meaning. Every pass gives these labels the addresses of their symbols, whatever happened in between, and touches no other label. When a pass, which is not the first one, reports no change, labels and data are the same as before it, and the data is that of the files relocated with exactly these labels, so that references between the files and from the program to them reach their targets.", "quantifier": "all object files, any number of files and symbols, all earlier and later uses of the symbol table, any number of passes at any addresses, MIPS, ARM and SuperH", "why_tests_cant": "A file is relocated with the labels of the pass before or of this pass, depending on the order of the files; whether the final data is consistent is a statement about all histories of passes.", "anchors": ["Core/ELF/ElfRelocator.cpp: exportSymbols, relocateFile, relocate, hasDataChanged", "Commands/CDirectiveFile.cpp: DirectiveObjImport", "Core/SymbolTable.cpp: getLabel"]}
{"id": "C80", "title": "The function generated for constructors calls each of them once", "statement": "For an import with constructors (sections .ctors and .init_array) the assembler generates a function. Running it calls every constructor of every section exactly once, section by section and in each from the first to the last, then returns to its caller with the registers that a function has to keep, for any number of sections and constructors, any addresses, and whatever the constructors do within the calling convention. The text of the function is assembled to the words that do this, at any address.", "quantifier": "all numbers and sizes of sections, all addresses of code, table, sections and stack that do not overlap, both byte orders, all behaviours of the constructors, all MIPS processors with general registers", "why_tests_cant": "The loops run as often as there are sections and constructors, around calls to unknown code; tests run a few. That the registers and the return address survive is a statement about all constructors.", "anchors": ["Archs/MIPS/MipsElfRelocator.cpp: generateCtorStub", "Archs/ARM/ArmElfRelocator.cpp: generateCtorStub", "Archs/SuperH/ShElfRelocator.cpp: generateCtorStub", "Core/ELF/ElfRelocator.cpp: generateCtor, init", "Parser/Parser.cpp: parseTemplate"]}
