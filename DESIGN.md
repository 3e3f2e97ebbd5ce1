# Formal model of armips in Lean 4 — design

## 1. Shape of the model

* `lean/Verif/Model/*.lean` — executable transcriptions of C++ functions, one Lean definition per C++
  function where possible. Each definition cites file and lines in `/repo`, and names every simplification.
* `lean/Verif/Spec/*.lean` — small independent specifications (bit-level machine semantics, polynomial CRC,
  longest-match relation, reference layout, ...). They do not import the model's helper functions
  (they may share plain data types).
* `lean/Verif/Lemmas/*.lean` — helper lemmas only.
* `lean/Verif/Props/*.lean` — the property theorems, each followed by an `example` showing that a concrete
  non-trivial case meets its hypotheses.

Machine integers are modelled as `Int`/`Nat` with explicit wrap-around where the C++ type wraps, or as
`BitVec n` where the code is bit manipulation. C++ undefined behaviour (signed overflow, over-wide shifts,
out-of-range indexing, `std::string::substr` out-of-range exceptions) is a distinct outcome of the model
(`none`, `.ub` or an explicit error constructor, stated per definition).

## 2. Trusted base

* Lean 4.33.0 kernel. Axioms: at most `propext`, `Classical.choice`, `Quot.sound`. No further axioms, no
  `sorry`, `native_decide`, `bv_decide`, `implemented_by`.
* The fidelity of the transcription: `/repo` was read as text, never executed.
* Floating point arithmetic, `strtod`, tinyformat's `%g`, file-system calls and threads are parameters or absent, except where a definition
  says otherwise.

What of `/repo` is modelled, by file (each definition cites its lines):

| files | modelled | not modelled |
|-------|----------|--------------|
| `Core/Assembler.cpp`, `Core/Misc.cpp`, `Core/FileManager.cpp`, `Core/Common.cpp` | pass loop, logger, file manager, writing of integers | symbol and temp file names, the check for missing architectures |
| `Core/Expression.cpp`, `ExpressionFunctions.cpp`, `ExpressionFunctionHandler.cpp` | values, operators, evaluation, simplification, text, registry, string/integer/label functions | `readbyte` family and `fileexists` (file system), trigonometry and `round` |
| `Core/SymbolTable.cpp`, `SymbolData.cpp`, `Allocations.cpp` | all of it but the statistics printed by `-stat` | |
| `Core/ELF/*` | reading archives and object files, section layout, symbols and relocations of imported object files, the labels of their symbols, ARM/MIPS/SuperH relocators; loading, changing and saving an ELF file | that sections of constructors are found by their names and given labels; names of sections are read but nothing is proved about them |
| `Commands/*` | sequence, labels, area, conditional, data, fill, align, skip, incbin, open/create/close, org, pool, message, object import | temp file and symbol data output except the symbol file |
| `Archs/ARM/*` | opcode tables, encoding and validation, pool, relocation, parsers of all operands and of instructions | |
| `Archs/MIPS/*` | opcode table, parsers of all operands and of instructions, encoding and validation, load delay, all macros with their text expanded by hand, relocation | `MipsElfFile::setSection` (not called); of `PsxRelocator` everything is modelled |
| `Archs/SuperH/*` | table, parser of operands, encoding and validation, relocation | |
| `Parser/Tokenizer.cpp` | all, but line and column numbers | |
| `Parser/ExpressionParser.cpp` | all | texts of error messages |
| `Parser/Parser.cpp`, `DirectivesParser.cpp` | text replacement (equ, macros), nesting and conditionals, recursion guard, all directives with their parameters, labels, blocks | definitions inside of the text of C73 (they have their own models), texts of messages |
| `Util/*` | UTF-8, CRC, byte arrays, number literals, half floats, encoding tables, text files | |
| `Main/*` | command line | texts of messages, conversion of arguments on Windows, the test runner |

## 3. Plan per property

| id | what is modelled | how it is proved |
|----|------------------|------------------|
| C01 | `encodeAssembly` pass loop with an arbitrary validation step and the logger | induction on the pass bound; decision logic |
| C02 | command trees with `Validate`/`Encode` on a file/symbol state, loop of `encodeAssembly` | fixpoint lemma for the last pass + induction over the tree, against a reference layout |
| C03 | same | induction over the tree: encode follows validate's address |
| C04 | same, with expressions evaluated under the symbol table | last pass leaves the table unchanged, so all evaluations use the final table |
| C05 | `isPowerOfTwo`, `CDirectiveAlignFill` | arithmetic, induction on bits for the power-of-two test |
| C06 | `CDirectiveAlignFill::Encode` chunk loop, `CDirectiveSkip` | induction on remaining size |
| C07 | `GenericAssemblerFile`/`FileManager` address state machine | invariant by induction over operations |
| C08 | same with file contents | refinement to an abstract `position → byte` map |
| C09 | `writeU*`, `swapEndianness*`, host byte order as parameter | case analysis, byte lists |
| C10 | `ExpressionValue` integer operators with UB outcome | arithmetic on `Int` |
| C11 | `&&`, `||`, `!` including the float branches writing the union | table; expected to fail for floats: negation with witness |
| C12 | expression trees, `simplify`, `evaluate` | structural induction |
| C13 | recursive-descent parser over tokens, printer | induction over trees; round trip |
| C14 | symbol table key normalisation and map | decision logic; invariant over histories |
| C15 | label commands and equ table | invariant over a pass |
| C16 | `getUniqueLabelName` | injectivity of the hex rendering |
| C17 | `findSection` | induction over the label list |
| C18 | `Allocations` | invariant by induction over operations (range clause: see findings) |
| C19 | `CDirectiveArea` | arithmetic on validate/encode |
| C20 | `ArmPoolCommand::Validate/Encode` | induction over the request list |
| C21 | `getShiftedImmediate` | bit-vector reasoning, soundness and completeness against `rotateRight` |
| C22 | opcode substitution | bit-vector laws against an ALU specification |
| C23,C24 | branch validation and encoding | bit-field decoding against the architecture's target computation |
| C25,C28,C39 | `Encode` of ARM/THUMB/MIPS/SuperH with the opcode tables | bit-field lemmas, whole tables by `decide +kernel` |
| C26,C27 | MIPS `Validate` immediates | arithmetic; edge cases expected to fail: negation with witness, `_partial` |
| C29–C33 | macro templates as instruction lists and a small MIPS ISA specification (32-bit and, for `uld`, `usd`, `dabs`, 64-bit) | symbolic execution in Lean for all register values |
| C34,C35 | `hi`/`lo`, HI16/LO16 relocation state machine | arithmetic modulo 2^32, induction over queue |
| C36 | ARM relocations | bit-field decoding |
| C37 | load-delay state machine of `CMipsInstruction::Validate` | invariant over instruction lists |
| C38 | SuperH validation | arithmetic |
| C40 | table CRC | `decide +kernel` over the 256-entry table, induction over bytes |
| C41 | trie and greedy encoder | refinement to the association list / longest-prefix relation |
| C42 | UTF-8 encoder and both decoders | arithmetic by length class |
| C43 | `stringToInt` | induction over digits |
| C44 | `ByteArray` accessors | list lemmas |
| C45,C46 | `TextFile` reading and buffered writing | induction over characters / operations |
| C47 | `Logger` | invariant over histories |
| C48 | `CDirectiveIncbin` | arithmetic on lists |
| C49 | `CDirectiveConditional` | case analysis inside the command-tree model |
| C50 | `CDirectiveData` integer and string elements | induction over element lists (float elements not modelled) |
| C51 | `toHalfFloat`/`fromHalfFloat` on bit patterns | bit-vector reasoning |
| C52 | `ExpressionFunctionHandler` registry | invariant over histories |
| C53 | `min`/`max` integer branch; float branch on an ordered carrier | induction; float branch expected to fail: negation |
| C54 | `SymbolData` | list sorting/dedup lemmas |
| C55 | equ tables and expansion | termination measure for one scope; cross-file counterexample |
| C56 | macro label renaming | injectivity of the counter suffix |
| C57 | `relocateFile` layout | induction over sections |
| C58,C59 | register lists, condition table | induction over list; finite table lifted to all strings |
| C60 | parser depth guard | induction over the depth left |
| C63 | descent of the parser into conditionals, macros, includes | refinement to a relational meaning of programs |
| C64 | replacement of macro parameters | the reader delivers the simultaneous substitution |
| C65 | `FileTokenizer` | the reading of a text against a relational grammar; measure for termination; invariant over the loop |
| C66 | printer, tokenizer and expression parser together | induction over the expression, on top of C65 and C13 |
| C67 | `ElfFile::load`, `save`, `determinePartOrder`; the sorting functions of the library are a parameter | pieces of the output that do not overlap, as an invariant over the parts; induction over segments and sections; a reader of the file as specification |
| C68 | `MipsElfFile`: `load`, `seekVirtual`, `seekPhysical`, `write`, `getVirtualAddress` | refinement to a step relation over the contents of segments |
| C69 | `loadArArchive`, `ElfRelocator::init` | a writer of archives as specification; induction over the members |
| C70 | `ElfRelocator::init`, reading of relocations and symbols, with `ElfFile::load` and `relocateFile` | invariant over the loading of sections; the fields of the file as specification; combined with C35, C36 and C57 |
| C71 | `MipsParser::parseOpcode` with all parsers of operands and the table of 702 rows | small grammar as specification; per operand both directions; a check of all pairs of rows that no row takes the text of a later one; combined with C28 |
| C72 | `ArmParser::parseArmOpcode` and `parseThumbOpcode` with all parsers of operands and both tables | small grammar as specification, independent of stale members; per row a finite set of classes of tokens that it may take at a position, proved sound once, and a check of all pairs of rows that no row takes the text of a later one; combined with C21-C25, C58-C61 |
| C73 | `parseCommandSequence`, `parseCommand`, `parseLabel`, `parseExpressionList`, all functions and tables of directives of the parser, ARM and MIPS | small grammar of programs as inductive specification, parametric in the way instructions are written; induction over the derivation, with the fuel bounded by the length of the text; refusals by the same induction; combined with C72 |
| C74 | `parseArguments`, `runFromCommandLine`, the use of the settings in `runArmips` | items of a command line as specification, with a declarative meaning; equivalence with the loop by induction over the items; combined with C14, C43, C55 and C65 |
| C75 | `PsxRelocator.cpp:31-390` | records and members as specification with their bytes; reading what is written, by induction over the records; state of the reader as a function of the records before |
| C76 | `PsxRelocator.cpp:393-586` | addresses by recursion as specification; invariants of the loops over segments and symbols; a segment is relocated like a section of an ELF file with made-up symbols, so that C35 applies; stability of the sorting for pairs of halves |
| C77 | `ShParser.cpp`, with the tokens of the text | how operands are written as specification; simulation between the parser on tokens and the parser on operands of C38 and C39, in which the text of an expression is one step; the condition for the simulation is checked for all rows of the table that share a name with a line; programs by C73 |
| C78 | `MipsParser::parseMacro`, `parseMacroParameters`, `CMipsArchitecture::parseOpcode`, with the tokens of the text | grammar of the macros as specification; checks of all pairs of macros, and of all macros with all rows of the instructions, that none takes the text of another; the lines of operands of C29 to C33 are what is read; combined with C71, C29 and C73 |
| C79 | `exportSymbols`, the labels in `relocateFile` and `relocate`, with the symbol table of C14 | invariant that every symbol has its own label; induction over symbols, files and histories of passes; a pass that changes nothing is `relocate` with fixed labels (C35, C36 and C57) |
| C80 | `generateCtorStub` of the three processors, `parseTemplate`, `replaceAll`; the MIPS text as words | a processor with calls and delay slots as specification (`Spec/MipsCalls.lean`), constructors as any change of the machine within the calling convention; induction over the two loops; the text as pieces and variables, for all names; the lines of the text by the kernel, for every address |

## 4. Findings (places where the code violates the plain-English property)

Names in `code` are theorems under `Armips.Props` that prove the deviation of the modelled code, unless a file is named.

Assembler core
* `headersize_without_file_ub`: a `.headersize` without an open file dereferences a null pointer.
* `autoregion_stale`, `kept_block_out_of_range`: a block of an auto region can stay where its region no longer is, and a kept
  position is not checked against a changed upper bound.
* `area_overflow_unreported`: content that passes the end of an area and moves back (`.org`) is not reported. Two areas at the
  same position of the same file make the fill length of the outer one underflow.
* `label_of_earlier_pass`, `definelabel_forward_fails`: a label whose definition is not executed in the last pass keeps its value;
  `.definelabel` with a forward reference fails.
* The current architecture and the current encoding table are not reset between passes.
* `align_negative`, `negative_fill_ub`: alignment of negative addresses; negative fill sizes.
* Errors queued while encoding (not while validating) are never printed.
* `table_reload_stale`: reloading an encoding table keeps old entries; odd hex digits and lines without `=` are dropped silently.
* `logical_operators_can_exceed_one`, `max_of_negative_floats_wrong`, `abs_integer` (undefined for the smallest integer),
  `substr_out_of_range`, `findSection_counts_undefined`, `generated_names_can_clash`.
* Command line: `-definelabel name -5` defines -25; an empty value reads out of bounds; values from 2^63 overflow
  (`stringToInt` is modelled, the command line is not).

ARM and THUMB
* `ror_32_wrong`, `rrx_by_register_wrong`, `mcr_number_spills`, `smlal_halfword_wrong`, `user_mode_wrong` (`ldrt`, `strt`),
  `ldrd_odd_register`.
* `thumb_blx_wraps`, `thumb_ldr_pc_wrong`, `thumb_block_drops`, `thumb_push_pc_wrong`.
* A branch offset of -32 MiB is encodable but refused (`arm_branch_rejects`).

MIPS
* `mips_branch_boundary_wrong`: a branch of 0x20000 bytes is accepted, and goes backwards.
* `mips_branch_after_nop_wrong`: a `nop` inserted by `.fixloaddelay` before a branch is not counted: the branch goes one word
  too far.
* `mips_branch_misaligned_wrong`: branch targets that are not aligned are rounded down silently.
* `mips_jump_region_wrong`: the region of a jump target is not checked.
* `mips_immediate_wraps`: an n-bit immediate may be anything from -(2^n - 1) to 2^n - 1; `mips_immediate_min_undefined`.
* `mips_ins_spills`: `ins` with a field beyond bit 31 changes the target register.
* `mips_seb_short_wrong`: the one-operand forms of `seb`, `seh`, `wsbh`, `wsbw`, `bitrev` read `r0`.
* `mips_vcmov_clash`, `mips_vmtvc_size_lost`: `vcmovt` with condition 8 is `vcmovf`; the size suffix of `vmtvc` (and `vmfvc`) is
  lost.
* `mips_move_delay_ignored`: moves from a coprocessor have a load delay that is not tracked.
* `mips_load_zero_wrong`: a load macro with register 0 and a far address reads another address.
* `mips_store_at_wrong`: a store macro of register 1 stores a part of the address.
* `mips_branch_at_wrong`, `mips_set_same_wrong`: comparing macros load their immediate to register 1 (branches) or to the destination
  (setting macros), even if that is the register to be compared.
* `mips_rotate_negative_refused`, `mips_abs_at_wrong`: `rol` and `ror` refuse negative constants; `abs at,a0` gives 0.
* `mips_ulh_wrong`: `ulh` extends the sign of the low byte too, which destroys the high byte when the low byte is 0x80 or more.
* `mips_ulw_big_endian_wrong`, `mips_uld_big_endian_wrong`: `ulw` and `uld` (and `usw`, `usd`, `ulh`, `ush`) always use the little-endian order, also for the N64.
* `mips_usw_same_refused`, `mips_usd_same_refused`: `usw a0,0(a0)` and `usd a0,0(a0)` are refused although they would be right.
* The forms of the unaligned macros without an offset, `ulw a0,(a1)`, never assemble: their text has an empty offset
  (`MipsMacros.cpp:226-332`).
* `mips_lwc2_wrong`: the macros of `lwc2` and `swc2` take the names of floating point registers, the instructions those of the GTE, so that the
  macros can be used with `$` and a number only (`MipsMacros.cpp:619`, `673`).
* `mips_ldc2_wrong`: there are macros of `ldc2` and `sdc2` but no such instructions (`MipsMacros.cpp:622`, `676`).

SuperH
* `sh_immediate_wrong`: immediates from -255 to -129 are accepted and become positive. For the smallest 32-bit number the absolute
  value is undefined behaviour (`CShInstruction.cpp:123`).
* `sh_displacement_wrong`: negative displacements are accepted: `mov.w @(-2,r1),r0` reads from `r1 + 30`.
* `sh_branch_lowest_wrong`: the furthest backward branch that can be encoded is refused.
* `sh_branch_high_wrong`: between addresses from 0x80000000 on no branch is accepted.
* `sh_pc_displacement_wrong`: `@(disp,pc)` is relative to the instruction, not to the program counter.
* `sh_at_register_wrong`, `sh_line_at_wrong`: `add @r1,r2` is assembled as `add r1,r2`.
* `sh_line_special_wrong`: special registers are taken as names of labels where a label is expected, as in `bra sr`.
* `trapa` is the only instruction whose constant needs its `#` (`ShOpcodes.cpp`).

Object files
* `mips_hi_alone_wrong`: a HI16 relocation without LO16 is not reported; it is relocated as if the other half were 0
  (`MipsElfRelocator.cpp:65-71`). `mips_hi_lo_undefined`: the halves 0x8000 and 0x8000 overflow an `int`.
* `thumb_blx_bit_wrong`: a Thumb call of ARM code from an address that is 2 modulo 4 becomes a `blx` with its lowest bit set
  (`ArmElfRelocator.cpp:86-90`).
* `arm_blx_kept_wrong`, `thumb_blx_kept_wrong`: a `blx` in the object file stays a `blx` if its target is in the same mode.
* `arm_call_undefined`: far apart addresses overflow an `int` instead of being reported.
* `elf_alignment_zero_undefined`: sections with alignment 0 divide by zero (`ElfRelocator.cpp:304`).
* `elf_common_symbol_wrong`: relocations against a common symbol of the same file use its alignment as address.
* `elf_no_symbol_wrong`: a relocation with symbol number 0 only gives a warning, although the import fails. The caller ignores that
  (`CDirectiveFile.cpp`, `DirectiveObjImport::Validate`).

Text files
* `text_lone_cr_wrong`: in a file (not in memory) the character after a CR without LF is lost, because `seek` does not take back what was read
  from the buffer (`FileClasses.cpp:783-789, 865-876`). `text_lone_cr_repeats`: in a file of more than 4096 bytes the text after the CR is then read
  again, and as much is missing at the end.
* `text_tiny_hangs`: a file of one or two bytes makes armips hang: reading three bytes for the byte order mark sets the failure bit of the stream,
  so that nothing can be read after that (`FileClasses.cpp:725`).
* `text_ascii_wrong`: with the encoding `ascii` only half of a file is read (`FileClasses.cpp:857`).
* `text_sjis_katakana_wrong`: one-byte katakana are taken for the first byte of a two-byte code (`FileClasses.cpp:846`).

Tokenizer
* `tokens_quote_wrong`: a `'` at the end of a line reads behind the end of the line (`Tokenizer.cpp:571-581`).
* `tokens_character_wrong`: a character constant of four UTF-8 bytes is not read as its code point; at the end of a line it reads out of bounds.
* `tokens_equ_string_wrong`: the value of an equ is cut at a `;` or `//` inside of a string.
* `tokens_equ_line_wrong`: an equ without a value takes the next line as its value.
* `expr_text_quote_wrong`: strings are printed without escapes (`Expression.cpp:722-729` returns the wrong variable);
  `expr_text_negative_wrong`: negative numbers are printed without parentheses.

Parser of expressions
* `expr_unclosed_wrong`, `expr_broken_wrong`: when a parenthesis or a call is malformed, `unaryExpression` goes on after the tokens it has
  taken (`ExpressionParser.cpp:80-88`). `.word (1 2 -3` and `.word (1 +) * -3` are assembled as -3 without an error.
* `expr_two_prefixes`: only one prefix operator may stand before an operand, `- -1` and `!~1` are errors.

Text replacement
* `equ_loop_wrong`: the check for recursive definitions sees what is defined in the current file only. `@a equ c` in one file and `c equ @a` in a
  file it includes are both accepted, and `c` then hangs the assembler.
* `equ_capital_wrong`: `-equ Foo foo` hangs: the check compares names with their capitals, the lookup is without (`Parser.cpp:319`).
* `equ_empty_wrong`: `x equ ::` and `-equ x ""` make empty values; using them asks for 2^64-1 tokens (`Tokenizer.cpp:100`).
* `macro_argument_wrong`: with a parameter `a`, the argument `1+a` is expanded for ever (`Tokenizer.cpp:62-84`: the guard against endless
  replacement looks at the first token only; its comparison in line 79 moreover compares the new token with itself).
* `macro_labels_meet_wrong`: the name of a label in an expansion is `macro_label_counter`; label `c` of `a_b` is label `b_c` of `a`.
* An `equ` in a macro is renamed only if it was in a true conditional in the first expansion (`Parser.cpp:363`, before line 376).
* `nesting_blocks_wrong`: only files and macros count for the limit of 150; nested `.if`, `.area` and `.func` recurse without a limit.
* `conditional_macro_wrong`: a macro call in a false conditional is expanded if a conditional around it is not known at parse time
  (`Parser.cpp:736`, `&&` of the two flags): a recursive macro inside of `.ifdef` always ends in "Max include/recursion depth reached".

Symbol file
* `symfile_twice_wrong`: a label registered in two modules (ELF files) is listed twice; each module removes its own duplicates only.
* `symfile_unnamed_function`: only labels and data are listed. A function appears as the size of a label, so without a label it is missing.
* `symfile_function_across_wrong`: `.func`, `.loadelf`, `.endfunc` ends the function in the list of the new module, out of range
  (`SymbolData.cpp:232`, `MipsElfFile.cpp:29-32`).

ELF files
* `elf_stripped_wrong`: a segment without sections loses its contents when the file is saved (`ElfFile.cpp:121-129` returns before the data is
  written). This also concerns segments all of whose sections lie in an earlier segment, such as `PT_DYNAMIC` and `PT_TLS`.
* `elf_segment_alignment_wrong`: segments are aligned to their first section, or 16, and not to `p_align`; loaders refuse such files.
* `elf_orga_function_wrong`: `orga()` in an ELF file is the start of the current section (`MipsElfFile.cpp:54-61`).
* `elf_last_byte_wrong`: assembling up to the very end of the last section is an error, since the address behind it is sought
  (`FileManager.cpp:365-372`).
* `elf_free_section_wrong`: bytes for a section outside of the segments are dropped without an error (`MipsElfFile.cpp:191-195`; the result is ignored).
* `elf_write_outside_wrong`: the size of what is emitted is not compared with the segment (`ElfFile.cpp:177-183`).
* `archive_long_name_wrong`: object files with a long name in an archive of BSD (`#1/20`) are passed over without a message
  (`ElfRelocator.cpp:66` looks for the mark at the start of the name).
* `archive_short_member_wrong`: four bytes are compared although the last member may have fewer (`ElfRelocator.cpp:66`).
* `object_string_table_wrong`: names of symbols come from the last string table of the file, not from the one the symbol table names
  (`ElfFile.cpp:417-421` does not look at `sh_link`). A second table of relocations for the same section is ignored
  (`ElfRelocator.cpp:166-178`).
* `import_first_pass_wrong`: `relocatedAddress` is compared before it is ever set (`ElfRelocator.cpp:440`, `464`), so that the first pass can
  report no change although labels moved. The checksum of the data is the only other sign of a change (`473`, `485`). Labels of constructor
  sections are set without looking whether they changed (`307-308`).
* `import_twice_refused`: symbols of object files that differ in case only are refused, and so is a weak symbol that two files define
  (`ElfRelocator.cpp:236`, `244`). The label of a refused symbol is kept, so that the passes overwrite the label that was defined before.

MIPS operands
* `mips_negative_register_wrong`: numbers of registers are only compared with the upper bound. The token of `0xFFFFFFFFFFFFFFFF` is -1, so `$0xFFFFFFFFFFFFFFFF`
  is read as register -1 (`MipsParser.cpp:225-242`); the same holds for elements, branch conditions and control registers of the vector units.
* `mips_sqrt_half_wrong`: `vcst` with `sqrt(0.5)` is in the table but never matches, since sequences compare identifiers and integers only
  (`MipsParser.cpp:629-739`, `Parser.cpp:904-952`).
* `mips_zero_rotation_wrong`: a rotation whose cells are all zero is refused, although the hardware has numbers for it (`MipsParser.cpp:810-850`).
* The row `mult r0,s,t` is never reached on the PS2; the row with a destination is read, with the same effect (`mips_mult_ps2`).
* In names of matrices, the digits of `M` are column and row and those of `E` row and column of the first cell.

ARM and THUMB operands
* `arm_store_sign_wrong`: `str r0,[r1],-r2` and `+r2` are taken by an earlier row as a constant `-r2`, so that assembly fails because of an unknown symbol;
  loads have the rows in the other order and work (`arm_load_sign`, table in `ArmOpcodes.cpp`).
* `arm_rrx_wrong`: `mov r0,r1,rrx` is refused: an amount is wanted, and it must be 1 (`ArmParser.cpp`, `parseShift`).
* `arm_fields_wrong`: `cpsr_` without fields is accepted as no field at all, and letters behind four fields are ignored (`parsePsr`).
* `thumb_push_wrong`: the mask of allowed registers is put together from signed characters, so that `push {r8}` is accepted and `r8` is dropped;
  `push {pc}` pushes `lr` (`parseThumbParameters`).
* Texts that an earlier row takes with the same meaning are listed in `ArmHidden` and `ThumbHidden` (`Spec/ArmLine.lean`).

Directives
* `false_block_changes_wrong`, `false_block_cpu_wrong`: directives that act while they are read act in blocks that do not count, too. Behind `.if 0` / `.nocash on`
  / `.endif` the directive `.dw` writes 16 bits; behind `.if 0` / `.gba` / `.endif` the instructions are those of THUMB (`DirectivesParser.cpp`,
  `parseDirectiveConditional` reads both blocks, `Parser.cpp:124-170` only drops the commands).
* `elseifdef_null_wrong`: `.elseifdef 5` gives no command and no error, and the conditional is over; what follows is assembled without `.endif`.
* `ifdef_section_wrong`: the section of a local name of `.ifdef` is taken when the command is created, which is behind the blocks.
* `message_without_text`: `.notice` without a text is accepted.

Command line
* `cli_negative_wrong`: `-definelabel z -5` defines `z` as -25, since `stringToInt` takes the sign for a digit (`CommandLineInterface.cpp:150-155`, `Util.cpp:95-99`).
* `cli_empty_value_wrong`: an empty value of `-definelabel` is read outside of the text (`Util.cpp:75`).
* `cli_label_case_wrong`, `cli_equ_case_wrong`: the check for repeated names looks at capital letters, the symbol table does not. Of two such labels the
  last value counts, of two such equations the first, without a message (`CommandLineInterface.cpp:81-87`, `142-148`).
* `cli_label_equ_wrong`: a label with the name of an equation is dropped without a message (`SymbolTable.cpp:190-207`).
* `cli_equ_loop_wrong`: `-equ X x` is accepted, since the check for recursion compares with the name as it was written; the use of `x` never ends.
* `cli_strequ_quote_wrong`, `cli_strequ_backslash_wrong`: the value of `-strequ` is put between quotation marks as it is (`CommandLineInterface.cpp:116`).
* `cli_empty_argument`: empty arguments before the name of the file are ignored, behind it they are refused.

PlayStation objects
* `psx_library_endless_wrong`: an entry of size 0 in a library is read again and again (`PsxRelocator.cpp`, `loadPsxLibrary`).
* `psx_truncated_wrong`: a file that ends where the contents of a segment should begin is accepted without them.
* `psx_two_shifts_wrong`: of two numbers that are added to a reference, only the second one counts.
* `psx_part_wrong`: a relocation counts from the last data that were read, also if they belong to another segment.
* `psx_no_segment_undefined`: data before any segment is defined are written through an invalid index.
* `psx_two_numbers_wrong`: relocations are sorted by symbol and kind, so that the first lower half meets all upper halves of the symbol. If two of them add
  different numbers (`x` and `x+8`), the import fails, whatever the lower halves are.
* `psx_unknown_symbol_wrong`, `psx_unknown_segment_wrong`: numbers that no symbol or segment has are looked up with `operator[]` and count as address 0.
* `psx_negative_labels_wrong`: addresses are `int`, so that labels from 0x80000000 on, where all programs of this machine are, get negative values.

Constructors of imported object files
* `mips_ctor_empty_wrong`: a section of constructors without contents is not skipped, since the loop tests behind the call: the word that follows is called
  (`MipsElfRelocator.cpp:91-95`).
* `mips_ctor_home_wrong`: the return address and `s0` to `s2` are kept in the first 16 bytes of the frame, which belong to the called function in the usual
  calling convention (O32). A constructor that stores a register there makes the function return elsewhere (`MipsElfRelocator.cpp:80-83`).
* `mips_ctor_delay_wrong`: `jalr a0` follows `lw a0,(s2)`; on a PlayStation the register is not available yet, and the assembler warns about its own text.
* `arm_ctor_wrong`: `%innerLooplabel%` is used and `%innerLoopLabel%` is replaced, so that the line is no instruction; the text also ends in a quotation mark that
  is not closed (`ArmElfRelocator.cpp:189`, `202`). No import with constructors and a name for their function can be assembled for ARM.
* `sh_ctor_wrong`: the end of a section is loaded from `@(4,r9)`, behind the table, instead of `@(4,r8)` (`ShElfRelocator.cpp:63`).
