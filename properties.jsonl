{"id": "C01", "title": "Exact acceptance of read_module", "statement": "read_module(bytes, sets) returns Ok(m) if and only if bytes is a spelling of m in the SPIR-V 1.0 physical layout: header words, then for each instruction of m in order one head word (opcode, word count) followed by exactly the words that spell its operands in the standard's order, with the standard's enumerant and opcode numbers. The don't-care bits the reader tolerates are listed explicitly in the specification of a spelling.", "quantifier": "every byte string, every RawModule, every list of extended instruction sets", "why_tests_cant": "An if-and-only-if over all byte strings and all modules; tests check five sample binaries in one direction.", "anchors": ["src/spv/raw/reader.rs: read_module, read_instruction, def_op_read!, CoreRead", "src/spv/raw/mod.rs: MemoryBlockRead impls"]}
{"id": "C02", "title": "Serialise/read round trip", "statement": "For every module whose instructions the format can express, reading the canonical little-endian or big-endian serialisation of the module returns Ok of exactly that module.", "quantifier": "every serialisable RawModule (any number of instructions, any operands), both byte orders, every list of instruction sets that provides its imports", "why_tests_cant": "The space of modules is infinite; each operand kind interacts with what follows it (greedy vectors, optional operands, strings).", "anchors": ["src/spv/raw/reader.rs: read_module, Stream", "src/spv/raw/mod.rs: MemoryBlockRead impls"]}
{"id": "C03", "title": "Byte order independence", "statement": "Reversing the bytes inside every 32-bit word of the input does not change the result of read_module: same Ok module or same error.", "quantifier": "every byte string (also misaligned and malformed ones), every list of instruction sets", "why_tests_cant": "Needs a relation between two runs on all inputs, including all failing inputs.", "anchors": ["src/spv/raw/reader.rs: read_module, Stream::read_word, Stream::invert_endianness"]}
{"id": "C04", "title": "read_module is total: no panic, no hang", "statement": "For every byte string read_module returns Ok or a ReadError: no slice index, division or unwrap panics and no loop runs forever, provided the caller's instruction sets do not panic themselves (the GLSL.std.450 set does not).", "quantifier": "every byte string, every list of non-panicking instruction sets", "why_tests_cant": "Absence of a panic or hang over all inputs cannot be observed by finitely many runs.", "anchors": ["src/spv/raw/reader.rs: read_module, read_instruction", "src/spv/raw/mod.rs: MemoryBlock, Vec<T>::read, LitString::read", "src/glsl450/mod.rs: InstSet"]}
{"id": "C05", "title": "Truncated input", "statement": "If read_module accepts bytes as m, then for every prefix of bytes the result is either Ok of a module with the same header and a prefix of m's instructions, or one of the errors UnexpectedEndOfStream / UnexpectedStreamAlignment. In particular cutting inside an instruction is always detected.", "quantifier": "every accepted byte string and every cut point", "why_tests_cant": "Quantifies over every cut point of every module.", "anchors": ["src/spv/raw/reader.rs: Stream::read_word, Stream::is_end, read_module"]}
{"id": "C06", "title": "Instruction framing", "statement": "In an accepted module the words after the header split into consecutive chunks, one per returned instruction, in order; each chunk has the length declared by its word count (a declared 0 counts as 1) and its head word carries the instruction's opcode. Nothing between, before or after the chunks is skipped.", "quantifier": "every accepted byte string", "why_tests_cant": "Resynchronisation errors show only on particular instruction mixes; the claim is for all of them.", "anchors": ["src/spv/raw/reader.rs: read_instruction, read_module"]}
{"id": "C07", "title": "No operand word is ignored or invented", "statement": "If the operand words of an instruction spell the instruction and at least one extra word follows inside the declared word count, read_module fails with InstructionHadExcessData; if operand words are missing it fails with UnexpectedEndOfInstruction (for instructions with only fixed-size mandatory operands).", "quantifier": "every instruction, every operand value, every number of extra or missing words", "why_tests_cant": "All instructions times all operand values times all excess lengths.", "anchors": ["src/spv/raw/reader.rs: read_instruction", "src/spv/raw/mod.rs: MemoryBlock::read_word"]}
{"id": "C08", "title": "String literals", "statement": "A string operand is exactly the bytes before the first NUL byte, least significant byte of each word first, accepted iff they are valid UTF-8; it consumes exactly len/4+1 words; the returned string contains no NUL; a string without terminator inside its instruction is an error and never reads into the next instruction.", "quantifier": "every operand word sequence", "why_tests_cant": "All byte contents, lengths modulo 4 and terminator positions.", "anchors": ["src/spv/raw/mod.rs: impl MemoryBlockRead for LitString"]}
{"id": "C09", "title": "Only version 1.0 modules are accepted", "statement": "read_module returns Ok only for streams whose version word is 0x00010000, and otherwise reports the version. (The unchanged code violates this: it masks three of the four version bytes with 0xF; the exact accepted set is proved instead.)", "quantifier": "every version word", "why_tests_cant": "2^32 version words; the sample binaries all carry the same one.", "anchors": ["src/spv/raw/reader.rs: read_module (ver_high .. UnknownVersion)"]}
{"id": "C10", "title": "Header fields and header errors", "statement": "The first failing header check determines the error, in the order magic, version, generator, bound, schema; on success generator id/version and bound are the bit fields of the header words, distinct generator ids give distinct tools, and the error UnknownVersion is never returned.", "quantifier": "every byte string", "why_tests_cant": "All header words and all truncation lengths.", "anchors": ["src/spv/raw/reader.rs: read_module", "src/spv/types.rs: Generator, Tool, Version"]}
{"id": "C11", "title": "Reserved flag bits", "statement": "Bit-mask operands (function control, memory access, fast-math, loop control, selection control) set exactly the flags whose bit is set, and a mask with any bit outside the defined ones is rejected with the offending word. (The unchanged code violates the second half: high 16 bits, and 0x20 of fast-math and all bits of function control, are ignored; the exact accepted set is proved instead.)", "quantifier": "every 32-bit mask word", "why_tests_cant": "2^32 masks per operand.", "anchors": ["src/spv/raw/mod.rs: impl MemoryBlockRead for FunctionControl, MemoryAccess, FpFastMathMode, LoopControl, SelectionControl"]}
{"id": "C12", "title": "Enumerants", "statement": "For each enumerated operand the accepted words are exactly those of the SPIR-V table, distinct words give distinct variants, and every other word is rejected with an error that carries it (source language and tool never fail).", "quantifier": "every 32-bit word, every enumerated operand type", "why_tests_cant": "2^32 words per enumeration.", "anchors": ["src/spv/raw/mod.rs: impl MemoryBlockRead for AddressingModel .. LinkageType, Decoration, ExecutionMode"]}
{"id": "C13", "title": "Opcode classification", "statement": "For a complete instruction whose opcode is not supported, the error is UnimplementedOp with the standard's name for listed opcodes and UnknownOp(opcode, word count) for all others; supported opcodes produce only the instruction of that name, and the instruction kinds OpTypeEvent, OpTypeDeviceEvent, OpTypeQueue, OpTypePipe, OpTypeForwardPointer are never produced.", "quantifier": "every 16-bit opcode and every instruction content", "why_tests_cant": "65536 opcodes times all contents.", "anchors": ["src/spv/raw/reader.rs: read_instruction"]}
{"id": "C14", "title": "Imports have distinct ids", "statement": "In an accepted module no two OpExtInstImport instructions have the same result id; a duplicate is rejected with DuplicateResultId carrying that id.", "quantifier": "every accepted module", "why_tests_cant": "Invariant of an unbounded instruction sequence.", "anchors": ["src/spv/raw/reader.rs: impl CoreRead for OpExtInstImport"]}
{"id": "C15", "title": "Extended instructions are decoded by the set they name", "statement": "In an accepted module every OpExtInst is preceded by an OpExtInstImport with the id it names, and its instruction is what the first known set with the imported name decodes from its operand words; an OpExtInst naming an id not imported before is rejected with UnknownInstSetId.", "quantifier": "every accepted module, every list of instruction sets", "why_tests_cant": "Relates arbitrary distant instructions of unbounded modules.", "anchors": ["src/spv/raw/reader.rs: impl CoreRead for OpExtInst, OpExtInstImport", "src/spv/mod.rs: ExtInstSet"]}
{"id": "C16", "title": "Extra instruction sets do not change accepted modules", "statement": "If read_module accepts bytes with a list of instruction sets, it returns the same module when further sets are appended to the list; an import of a name in no set is rejected with UnknownInstSet(name).", "quantifier": "every byte string, every pair of lists of instruction sets", "why_tests_cant": "Compares two runs for all inputs and all sets.", "anchors": ["src/spv/raw/reader.rs: impl CoreRead for OpExtInstImport"]}
{"id": "C17", "title": "Errors are local", "statement": "If read_module fails on bytes with an error other than UnexpectedEndOfStream / UnexpectedStreamAlignment, it fails with the same error on bytes followed by anything.", "quantifier": "every byte string and every continuation", "why_tests_cant": "Compares runs on all inputs and all continuations.", "anchors": ["src/spv/raw/reader.rs: read_module, read_instruction"]}
{"id": "C18", "title": "Accepted modules can be re-serialised", "statement": "Every module returned by read_module is serialisable, and reading its canonical serialisation returns it again: read(serialise(read(bytes))) = read(bytes).", "quantifier": "every accepted byte string", "why_tests_cant": "Closure property over all accepted inputs.", "anchors": ["src/spv/raw/reader.rs: read_module", "src/spv/raw/mod.rs: MemoryBlockRead impls"]}
{"id": "C19", "title": "Ids are below the declared bound", "statement": "Every result id in an accepted module is non-zero and smaller than the module's bound, as documented on RawModule::bound. (The unchanged code violates this: the bound is never compared with anything; a witness is proved, and that result and reading do not depend on the bound.)", "quantifier": "every accepted module", "why_tests_cant": "Claim about all ids of all modules.", "anchors": ["src/spv/raw/mod.rs: RawModule::bound", "src/spv/raw/reader.rs: read_module"]}
{"id": "C20", "title": "validate loses nothing", "statement": "If validate(raw) returns Ok(lm), writing the sections of lm back in module order gives exactly raw.instructions: no instruction is dropped, duplicated, reordered or changed.", "quantifier": "every RawModule", "why_tests_cant": "All modules of all lengths.", "anchors": ["src/spv/logical/parser/parser.rs: validate, read_many, read_function_definition", "src/spv/logical/parser/mod.rs: From<Core> for OpByBlock"]}
{"id": "C21", "title": "validate accepts exactly the logical layout", "statement": "validate(raw) returns Ok(lm) if and only if raw.instructions is the concatenation of: capabilities, extensions, imports, one memory model, entry points, execution modes, debug, annotations, globals (types, constants, non-Function variables), function declarations, function definitions whose blocks are label, code, optional merge, branch, where the first definition has at least one block.", "quantifier": "every RawModule and every LogicalModule", "why_tests_cant": "An if-and-only-if characterisation of an infinite language.", "anchors": ["src/spv/logical/parser/parser.rs: validate and all read_* phases", "src/spv/logical/mod.rs: LogicalModule"]}
{"id": "C22", "title": "validate is total: no panic, no hang", "statement": "For every RawModule validate returns Ok or a ValidationError; the assertion in the instruction cursor never fails and no phase loops.", "quantifier": "every RawModule", "why_tests_cant": "Absence of panics/hangs over all inputs.", "anchors": ["src/spv/logical/parser/parser.rs: OpSlice::advance, read_many"]}
{"id": "C23", "title": "Variables are sorted by storage class", "statement": "In a validated module every variable among the globals has a storage class other than Function and every variable inside a block has storage class Function.", "quantifier": "every RawModule accepted by validate", "why_tests_cant": "Invariant over all modules.", "anchors": ["src/spv/logical/parser/mod.rs: From<OpVariable> for OpByBlock", "src/spv/logical/mod.rs: GroupGlobal, GroupCode"]}
{"id": "C24", "title": "Every function definition has a body", "statement": "Every entry of function_definitions has at least one block, so bodyless functions only appear in function_declarations. (The unchanged code violates this for a declaration that follows a definition; proved for the first definition, with a witness for the violation.)", "quantifier": "every RawModule accepted by validate", "why_tests_cant": "Invariant over all modules.", "anchors": ["src/spv/logical/parser/parser.rs: read_function_declaration, read_function_definition"]}
{"id": "C25", "title": "Validation errors point at the offending instruction", "statement": "Each ValidationError carries the index of the first instruction that cannot continue the layout: the instruction at that index (or the end of the module) is not of the expected kind, the index is at most the instruction count, and the instructions before it form a partial layout that can be completed.", "quantifier": "every RawModule rejected by validate", "why_tests_cant": "All rejected modules.", "anchors": ["src/spv/logical/parser/parser.rs: ValidationError, read_branch, read_function_definition, validate"]}
{"id": "C26", "title": "validate ignores the header and keeps section order", "statement": "The result depends only on the instruction list; the capabilities, extensions, imports, entry points, execution modes, debug and annotation lists are exactly the instructions of that kind, in module order; labels and blocks, functions and function ends correspond one to one.", "quantifier": "every RawModule accepted by validate", "why_tests_cant": "All modules.", "anchors": ["src/spv/logical/parser/parser.rs: validate"]}
{"id": "C27", "title": "Control flow recovery preserves executions", "statement": "If find_control_flow(f) returns Ok(chain), then for every sequence of branch decisions, executing the chain as a structured program (sequence, if/else, loop, break, continue) visits exactly the same blocks in the same order, with the same outcome (returned / still running), as executing the basic blocks of f by following their branches from the first block.", "quantifier": "every function definition accepted by find_control_flow, every (unbounded) sequence of branch outcomes", "why_tests_cant": "All control flow graphs and all executions, including non-terminating ones.", "anchors": ["src/spv/logical/control_flow.rs: find_control_flow, search_block, ControlFlowChain"]}
{"id": "C28", "title": "find_control_flow terminates", "statement": "find_control_flow returns for every function definition. (The unchanged code violates this: a block that branches to itself without a loop merge recurses forever; a witness is proved. Termination is proved for every function whose loops are properly nested.)", "quantifier": "every function definition", "why_tests_cant": "Non-termination cannot be observed by a test, nor its absence sampled.", "anchors": ["src/spv/logical/control_flow.rs: search_block"]}
{"id": "C29", "title": "find_control_flow does not panic", "statement": "find_control_flow never panics. (The unchanged code violates this: unimplemented!() is reached by a loop header ending in a conditional branch and by a selection merge before an unconditional branch; witnesses are proved, and absence of panics for all functions without those two shapes.)", "quantifier": "every function definition", "why_tests_cant": "All control flow graphs.", "anchors": ["src/spv/logical/control_flow.rs: search_block (unimplemented!)"]}
{"id": "C30", "title": "Control flow recovery is complete for structured programs", "statement": "For every structured program built from straight-line blocks, if/else with merge, loops and conditional break/continue, with distinct block ids, find_control_flow on its basic blocks returns exactly that program.", "quantifier": "every structured program, of any size and nesting depth", "why_tests_cant": "Infinite family of programs.", "anchors": ["src/spv/logical/control_flow.rs: find_control_flow, search_block, ControlFlowChain::block"]}
{"id": "C31", "title": "Block order is irrelevant", "statement": "Permuting the blocks of a function other than the first does not change the result of find_control_flow (when block ids are distinct).", "quantifier": "every function definition and every permutation", "why_tests_cant": "All permutations of all functions; the code iterates a list into a hash map.", "anchors": ["src/spv/logical/control_flow.rs: find_control_flow"]}
{"id": "C32", "title": "Unreachable blocks and block contents are irrelevant", "statement": "Adding blocks with fresh ids that no block branches to or merges at does not change the result, and neither does changing the code inside blocks, parameters or the function header.", "quantifier": "every function definition", "why_tests_cant": "Relates pairs of arbitrary functions.", "anchors": ["src/spv/logical/control_flow.rs: find_control_flow, search_block"]}
{"id": "C33", "title": "Control flow errors are accurate", "statement": "NoBlocks is returned iff the function has no blocks; DuplicateBlockId(id) iff two blocks share an id, and then id is the first repeated one; UnknownBlockId(id) only if no block has that id and some block branches to or merges at it; CouldNotPredictConverge and InvalidConvergePrediction only for an existing block; Failed is never returned.", "quantifier": "every function definition", "why_tests_cant": "All functions.", "anchors": ["src/spv/logical/control_flow.rs: find_control_flow, search_block, ControlFlowError"]}
{"id": "C34", "title": "Shape of recovered chains", "statement": "In a returned chain no Block directly contains a Block, Break and Continue occur only inside a Loop and only as the else branch of a selection.", "quantifier": "every function definition accepted by find_control_flow", "why_tests_cant": "Structural invariant of unbounded trees.", "anchors": ["src/spv/logical/control_flow.rs: ControlFlowChain::block, search_block"]}
{"id": "C35", "title": "Chains name real blocks and copy their hints", "statement": "Every block id in a returned chain is the label of a block of the function; selection and loop nodes carry the selection control, loop control and branch weights of that block, and only blocks with a matching merge/branch instruction become selections or loops.", "quantifier": "every function definition accepted by find_control_flow", "why_tests_cant": "All functions.", "anchors": ["src/spv/logical/control_flow.rs: search_block"]}
{"id": "C36", "title": "The function printer does not panic on recovered chains", "statement": "Formatting ControlFlowFunctionPrinter(f, chain) never panics when chain is the result of find_control_flow on f.", "quantifier": "every function definition accepted by find_control_flow", "why_tests_cant": "Absence of panics over all functions.", "anchors": ["src/spv/logical/control_flow.rs: ControlFlowFunctionPrinter::fmt_block_indent"]}
{"id": "C37", "title": "Printed chains are balanced", "statement": "The text printed for a control flow chain has as many closing as opening braces and in every prefix at least as many opening ones; each line is indented by four spaces per enclosing construct.", "quantifier": "every control flow chain", "why_tests_cant": "Unbounded nesting.", "anchors": ["src/spv/logical/control_flow.rs: ControlFlowChain::fmt_indent"]}
{"id": "C38", "title": "Disassembly columns", "statement": "In the disassembly of any instruction the mnemonic starts at column 15: a result id is right-aligned to 12 columns followed by ' = ', and instructions without result are indented by 15 spaces.", "quantifier": "every instruction and every 32-bit id", "why_tests_cant": "2^32 ids times all instructions.", "anchors": ["src/spv/dis.rs: Result, NoResult, def_op_display!", "src/spv/types.rs: OpId"]}
{"id": "C39", "title": "Disassembly has one entry per instruction in order", "statement": "The disassembly of a module is five header lines followed by the text of each instruction and a newline, in module order; the disassembly of a concatenation of instruction lists is the concatenation of their disassemblies.", "quantifier": "every RawModule", "why_tests_cant": "All modules of all lengths.", "anchors": ["src/spv/raw/mod.rs: impl Display for RawModule, Core"]}
{"id": "C40", "title": "Disassembly is unambiguous", "statement": "Two different modules have different disassemblies. (The unchanged code violates this: strings are printed without escaping newlines, and the header omits unknown generator ids; witnesses are proved. Proved for the text of every single instruction, and for all modules in whose strings no newline is followed by what an instruction begins with (the left column and Op): these have the same disassembly exactly if they differ only in the numbers of unregistered generators. Among all modules, a module with such strings shares its disassembly with another one exactly if its generator is not registered or it has two instructions that join: the first one and the second one end in a quoted string, or the first one is an entry point and the second one is an entry point or ends in a quoted string, or both are linkage decorations; then the text from the first to the second is also that of a single instruction.)", "quantifier": "every pair of RawModules", "why_tests_cant": "Injectivity over all pairs of modules.", "anchors": ["src/spv/dis.rs: FormatArg, DisplayArg, def_op_display!", "src/spv/op.rs: def_op_display!", "src/spv/types.rs: Display impls"]}
{"id": "C41", "title": "Printed names of enumerants and flags are unambiguous", "statement": "Distinct variants of each enumerated operand and distinct flag sets print differently; a flag set prints as None iff no flag is set.", "quantifier": "every value of every operand type", "why_tests_cant": "Pairs of values; some carry 32-bit payloads.", "anchors": ["src/spv/types.rs: Display impls"]}
{"id": "C42", "title": "Equality and cloning of extended instructions", "statement": "Equality of boxed extended instructions is an equivalence relation, instructions of different sets are never equal, and a clone equals its original.", "quantifier": "every pair/triple of extended instructions", "why_tests_cant": "Universally quantified algebraic laws over trait objects.", "anchors": ["src/spv/mod.rs: ExtInstBox, ExtInstClone", "src/glsl450/mod.rs: Inst::eq"]}
{"id": "C43", "title": "End to end", "statement": "For every byte string accepted by read_module whose module validate accepts: the function definitions returned, written back to words, are a contiguous tail of the input; and for every function for which find_control_flow returns Ok, the executions of the recovered program are those of the basic blocks in the bytes.", "quantifier": "every byte string", "why_tests_cant": "Composition of all stages for all inputs.", "anchors": ["src/spv/raw/reader.rs: read_module", "src/spv/logical/parser/parser.rs: validate", "src/spv/logical/control_flow.rs: find_control_flow"]}
{"id": "C44", "title": "Printed functions list the code of their blocks", "statement": "The text that ControlFlowFunctionPrinter prints for a function contains, in the order of the chain and between lines that begin and end the block, exactly the instructions of every block of the chain as the disassembler prints them; its braces are balanced and its lines are indented by four spaces per open brace.", "quantifier": "every function and chain for which the printer does not panic", "why_tests_cant": "Unbounded nesting and code; the printer is not exercised by any test.", "anchors": ["src/spv/logical/control_flow.rs: ControlFlowFunctionPrinter::fmt_indent", "src/spv/logical/control_flow.rs: ControlFlowFunctionPrinter::fmt_block_indent"]}
{"id": "C45", "title": "Printed control flow is unambiguous", "statement": "If find_control_flow succeeds on two functions and the chains it returns print as the same text, then the chains are equal.", "quantifier": "every pair of functions", "why_tests_cant": "Injectivity of a recursive printer over unbounded trees.", "anchors": ["src/spv/logical/control_flow.rs: ControlFlowChain::fmt_indent", "src/spv/logical/control_flow.rs: find_control_flow"]}
{"id": "C46", "title": "Operands are printed with their standard names", "statement": "Whatever word an enumerated operand is read from, the disassembler prints the name that the SPIR-V 1.0 standard gives to that word; whatever word a mask is read from, it prints the names of the bits that are set in it, in ascending order with bars between them, or None.", "quantifier": "every enumerated operand type, every word, every following words", "why_tests_cant": "Some 250 names in 20 tables, and all 2^32 masks.", "anchors": ["src/spv/types.rs: Display impls", "src/spv/raw/mod.rs: MemoryBlockRead impls"]}
{"id": "C47", "title": "Aligned loads and stores are read", "statement": "An OpLoad or OpStore whose memory access operand is encoded as in the standard (a mask, followed by the alignment if bit 1 of the mask is set) is read.", "quantifier": "every module prefix, all ids, masks and alignments", "why_tests_cant": "All masks, all contexts.", "anchors": ["src/spv/raw/mod.rs: MemoryAccess::read", "src/spv/raw/reader.rs: OpLoad, OpStore"]}
{"id": "C48", "title": "Error messages tell the kinds of errors apart", "statement": "Two read errors print as the same message if and only if they are of the same variant; every message is one nonempty line.", "quantifier": "every pair of errors with all their payloads", "why_tests_cant": "All pairs of variants with all payloads.", "anchors": ["src/spv/raw/mod.rs: ReadError::description"]}
{"id": "C49", "title": "The recovered control flow holds the blocks that can execute", "statement": "If find_control_flow succeeds, the ids in the chain are exactly those of the blocks that some execution of the function visits, and some execution returns.", "quantifier": "every function definition, every sequence of branch decisions", "why_tests_cant": "Quantifies over all functions and over all executions, of unbounded length.", "anchors": ["src/spv/logical/control_flow.rs: find_control_flow"]}
{"id": "C50", "title": "The recovered control flow is not larger than the function", "statement": "If find_control_flow succeeds, the chain holds every block of the function at most once, so it is no larger than the function.", "quantifier": "every function definition", "why_tests_cant": "The growth is only visible on families of functions of unbounded size.", "anchors": ["src/spv/logical/control_flow.rs: find_control_flow"]}
{"id": "C51", "title": "Renaming blocks", "statement": "Replacing every block id of a function by another, different ids by different ids, in the labels, merge instructions and branches, replaces the same ids in the result of find_control_flow, whether it is a chain, an error or a panic.", "quantifier": "every list of blocks, every injective renaming", "why_tests_cant": "All renamings of all functions.", "anchors": ["src/spv/logical/control_flow.rs: find_control_flow"]}
{"id": "C52", "title": "Concatenated modules", "statement": "If two inputs with the same header are accepted, the input made of the header and the instructions of the first and then of the second is accepted, with the instructions of both, exactly if no id is imported by both; otherwise the error is DuplicateResultId with the first such id.", "quantifier": "every pair of accepted inputs, every set of known instruction sets", "why_tests_cant": "All pairs of modules.", "anchors": ["src/spv/raw/reader.rs: read_module, read_instruction"]}
{"id": "C53", "title": "Read errors are true", "statement": "If read_module returns an error that is not about the header or the end of the input, then there is a first instruction that is not a spelling of any instruction, and what the error says is true of it: the opcode is unknown or unimplemented, the word named is one of its operand words and no value of the kind named, the string is not UTF-8, the set or its id is not known, the id was imported before, there are words left over, or words are missing: with further words it would be an instruction of its opcode, or it ends inside a string that is not UTF-8, or (extended instructions) before the number or where the set asks for more.", "quantifier": "every byte sequence, every set of known instruction sets whose own errors are about their instructions", "why_tests_cant": "All malformed inputs.", "anchors": ["src/spv/raw/reader.rs: read_module, read_instruction", "src/spv/raw/mod.rs: ReadError, MemoryBlock"]}
{"id": "C54", "title": "Every kind of read error is returned", "statement": "For every kind of ReadError there is an input for which read_module returns an error of that kind.", "quantifier": "every variant of ReadError", "why_tests_cant": "That a variant is never returned is a statement about all inputs.", "anchors": ["src/spv/raw/mod.rs: ReadError", "src/spv/raw/reader.rs: read_module"]}
{"id": "C55", "title": "Validation depends on the roles of instructions only", "statement": "Whether validate accepts a module, with which error it rejects it, and how many instructions each section, function and block of the result has, depends only on the role of each instruction: its section by opcode and, for variables, whether the storage class is Function. No id, type, literal, string or extended instruction set matters. Conversely the outline of an accepted module determines the roles of its instructions.", "quantifier": "all pairs of raw modules with the same sequence of roles, over any extended instruction sets", "why_tests_cant": "A relation between all pairs of modules that differ in any operand.", "anchors": ["src/spv/logical/parser/parser.rs: validate", "src/spv/logical/parser/mod.rs: OpByBlock"]}
{"id": "C56", "title": "Functions are validated independently", "statement": "A module consisting of instructions without OpFunction followed by functions (each from OpFunction to the next OpFunctionEnd) is accepted by validate iff it is accepted without its functions and with each of the functions alone. Each function is then read as it is read alone.", "quantifier": "every such module with any number of functions", "why_tests_cant": "All combinations of functions.", "anchors": ["src/spv/logical/parser/parser.rs: validate, read_function_declaration, read_function_definition"]}
{"id": "C57", "title": "Exactly the well-formed programs are recovered", "statement": "Every well-formed structured program in which no block occurs twice is the control flow find_control_flow recovers from some function, and whatever it recovers is a well-formed program. With blocks occurring more than once, exactly the well-formed programs are recovered in which a block ends in the same way wherever it occurs and does not occur inside a construct that it starts (loop header) or ends (selection merge block). Well-formed: every path ends with a return; a block that leaves a loop, or starts its next round early, stands where the innermost loop starts its next round anyway once the enclosing selections are over.", "quantifier": "all structured programs; all functions", "why_tests_cant": "A description of the whole image of the recovery.", "anchors": ["src/spv/logical/control_flow.rs: find_control_flow, search_block", "src/spv/logical/mod.rs: ControlFlowChain"]}
{"id": "C58", "title": "The recovered nesting orders what executions visit", "statement": "If the recovered control flow of a function mentions no block twice, no execution visits a block before the blocks that start the constructs around it and the blocks that stand before it on the way to it; and an execution that returns visits, after every visit of a block, the blocks that come after it or after a construct around it.", "quantifier": "every function definition, every execution", "why_tests_cant": "Quantifies over all functions and all executions, of unbounded length.", "anchors": ["src/spv/logical/control_flow.rs: find_control_flow", "src/spv/logical/mod.rs: ControlFlowChain"]}
{"id": "C59", "title": "Every outcome of validation", "statement": "Validation accepts exactly the modules that a finite automaton over the kinds of instructions reads to the end, and the error otherwise is given by the state and place in which the automaton stops; it never panics. The index in an error is the length of the longest prefix that can be completed to an accepted module (except when the module ends with OpFunction), and an error found before the end does not depend on what follows.", "quantifier": "every RawModule", "why_tests_cant": "An exact description of the outcome for every module.", "anchors": ["src/spv/logical/parser/parser.rs: validate, ValidationError, read_branch, read_function_definition", "src/spv/logical/parser/parser.rs: read_many, read_function_declaration"]}
{"id": "C60", "title": "GLSL.std.450 instructions", "statement": "With the GLSL.std.450 set as the only known set, every accepted import names \"GLSL.std.450\"; every accepted extended instruction follows such an import of its set id and is Sin with number 13 or Cos with number 14 and one operand word; conversely these are read, with other operand counts giving UnexpectedEndOfInstruction or InstructionHadExcessData, and every other number giving UnknownExtInstOp with that set and number.", "quantifier": "every byte string, every extended instruction", "why_tests_cant": "Quantifies over all inputs, all numbers and all operand lists.", "anchors": ["src/glsl450/mod.rs: InstSet, read_sin, read_cos", "src/spv/raw/reader.rs: OpExtInst"]}
{"id": "C61", "title": "Printed functions are unambiguous", "statement": "If two functions print the same with the control flow recovered from them, the recovered control flow is the same, every block in it has the same code and the same branch in both, and both functions have the same executions. (The continue target of a loop is not printed and is not determined.)", "quantifier": "every two functions whose control flow is recovered", "why_tests_cant": "A claim on all pairs of functions of unbounded size.", "anchors": ["src/spv/logical/control_flow.rs: ControlFlowFunctionPrinter::fmt_indent, ControlFlowFunctionPrinter::fmt_block_indent", "src/spv/logical/control_flow.rs: find_control_flow"]}
{"id": "C62", "title": "Operand errors are about the first operand that is wrong", "statement": "If reading fails because of an operand (an unknown enumerant, undefined bits of a mask, or a string that is not UTF-8), the operand stands in the first instruction that cannot be read. The operand words before it are the start of the operands of some instruction with that opcode, those up to and with it are the start of none. So there is no earlier wrong operand, and the error stays the same whatever follows that operand in the instruction and in the module.", "quantifier": "every byte string, every collection of known sets whose errors are their own", "why_tests_cant": "Whether some continuation makes the operands valid is a claim over unboundedly many continuations; independence of what follows quantifies over all of it.", "anchors": ["src/spv/raw/mod.rs: ReadError", "src/spv/raw/reader.rs: read_instruction", "src/spv/raw/mod.rs: MemoryBlockRead"]}
{"id": "C63", "title": "Every outcome of control flow recovery", "statement": "For a function with blocks and distinct labels, read from its first block on in order (the first branch of a selection before the second, the inside of a construct before what follows it, and what follows only if the construct is left where it should be): find_control_flow succeeds iff nothing is wrong with any place one gets to and one cannot go on forever; it returns an error iff that error is about the first place in this order with which something is wrong, where a construct that is not left where it should be counts only after everything inside of it; it panics iff the first such place is a block of an unsupported shape; and it does not return iff one can go on forever in this order.", "quantifier": "every function, every error", "why_tests_cant": "An exact characterisation of success, each error, panics and non-termination for all functions.", "anchors": ["src/spv/logical/control_flow.rs: find_control_flow, search_block"]}
{"id": "C64", "title": "Ids are only names", "statement": "Replace the ids in the operand words of a module by others, different ids by different ids, and leave every other word (opcodes, literals, enumerants, masks, strings, header) as it is; which words are ids is what the standard says for each opcode. Then read_module gives the same outcome with the same change of ids: the same module with the ids replaced, or the same error, with the id in it replaced if it names one. validate of the module with the ids replaced is the logical module with the ids replaced, or the same error, and find_control_flow of every function is the chain, or the error, with the ids replaced. Different ids have to stay different: otherwise, an import can become a duplicate.", "quantifier": "every sequence of words after the header (valid or not), every remainder of less than a word, both byte orders, every injective replacement of ids, every collection of sets whose instructions take only ids (GLSL.std.450 is one)", "why_tests_cant": "Holds for all inputs and all replacements at once, including inputs that are rejected.", "anchors": ["src/spv/raw/reader.rs: read_module, read_instruction", "src/spv/raw/mod.rs: MemoryBlockRead", "src/spv/logical/parser/parser.rs: validate", "src/spv/logical/control_flow.rs: find_control_flow"]}
{"id": "C65", "title": "Every outcome of reading", "statement": "read_module has the outcome of a reference that builds no module and consists of a table: for each opcode the list of its operands (any word, a number up to a last one apart from reserved ones, a mask below some bit, a string, an optional operand, words to the end, pairs of words to the end, a word that selects further operands). The reference checks the magic number, version and schema, cuts the words into instructions by their head words, and for each instruction in turn checks the operands in turn and then that no words are left; imports and extended instructions are checked against the sets imported so far. read_module accepts exactly the inputs the reference accepts, and for every other input it fails in the same way: the same error with the same words, ids, names and numbers in it (or the panic of an instruction set).", "quantifier": "every sequence of bytes, every collection of instruction sets (no hypotheses)", "why_tests_cant": "Fixes the result of every input, including which of several possible errors is reported.", "anchors": ["src/spv/raw/reader.rs: read_module, read_instruction, CoreRead", "src/spv/raw/mod.rs: MemoryBlockRead", "src/glsl450/mod.rs: read_instruction"]}
{"id": "C66", "title": "The text of every module", "statement": "The disassembly of every module that read_module accepts is the text that a second reference gives for the bytes. The reference builds no module: a table has, for each opcode, where the result id is and the operands in the order of the standard, each with the way it is printed (an id with a percent sign, a decimal number, the name of an enumerant, the names of the bits of a mask, a quoted string, nothing for an optional operand that is not there, the name of an execution mode or decoration followed by its own operands). So every line has the left column, the mnemonic, the result type and every operand, none left out, none twice, none in another place, and spelt as the tables of C46 say (with its six deviations); the header lines come from the header words. Together with C65: every input leads to exactly the text, or exactly the error, of the references.", "quantifier": "every sequence of bytes, every collection of instruction sets whose instructions are printed in a known way (the GLSL set of the crate is)", "why_tests_cant": "Fixes every character of the output for every input.", "anchors": ["src/spv/dis.rs: def_op_display", "src/spv/op.rs", "src/spv/types.rs: Display", "src/spv/raw/mod.rs: Display for RawModule", "src/glsl450/op.rs: Display"]}
{"id": "C67", "title": "The text of recovered control flow", "statement": "Both printers of control flow print exactly the rows of a reference. A chain has a row for each block; a selection or loop has a row with its block, its hints and weights in brackets and an opening brace, then its parts one step further in, a row between the branches unless nothing is in the second, and a row with a closing brace; break and continue have a row each. A function has, instead of the name of a block, a row that begins it, a row for each of its code instructions and its branch in the text of the disassembly, and a row that ends it; the hints and weights are then before the indentation of the opening brace. Each row is indented by four spaces for each construct around it. If the function comes from a module that was read and validated, the instruction lines are lines of the disassembly of the bytes, in their order, and the function printer does not panic on the recovered control flow.", "quantifier": "every chain; every function with every chain whose blocks it has exactly once, so with its recovered control flow; every sequence of bytes", "why_tests_cant": "Fixes every character of the output for all chains of any nesting.", "anchors": ["src/spv/logical/control_flow.rs: ControlFlowChain::fmt_indent", "src/spv/logical/control_flow.rs: ControlFlowFunctionPrinter::fmt_indent, fmt_block_indent", "src/spv/logical/mod.rs: Display for GroupCode, GroupBranch"]}
{"id": "C68", "title": "The stack and the time of validation", "statement": "read_many is a recursion, one frame of read_rest for every item. On a module that validate accepts the frames nest to a depth that the sections give exactly: a list of items takes one frame for each and one more, and an item is read below the frames of the items before it; with room for that many the module is returned, and with less the stack overflows. For any module, accepted or not, one frame per instruction and one more are enough. No fixed number is: a single block of n instructions takes more than n frames. On an accepted module the number of calls is also given exactly by the sections: one for each item, one for the end of each list, and the parameters of the first function with a body over again. On any module it is at most three per instruction and ten more, since only the parameters of the first function with a body are read twice for nothing.", "quantifier": "every list of instructions, every size of the stack", "why_tests_cant": "A test has a module of one size on a stack of one size.", "anchors": ["src/spv/logical/parser/parser.rs: read_many, read_rest", "src/spv/logical/parser/parser.rs: validate"]}
{"id": "C69", "title": "The stack and the time of control flow recovery", "statement": "When find_control_flow succeeds, the depth of its recursion and the number of its calls are functions of the chain it returns: a block stays on the stack while what follows it is found, each block takes one call and the end of each body another. With room for that many frames the chain is returned, with less the stack overflows. So the time is the size of the chain up to a factor of three, and the depth at most its size plus one. If every block is entered in one way only the calls are at most three for each block of the function; in general they are exponential in the number of blocks. Whatever the outcome, the calls are fewer than three to the power of the depth.", "quantifier": "every function, every size of the stack", "why_tests_cant": "Exact cost for functions of any size and nesting.", "anchors": ["src/spv/logical/control_flow.rs: search_block", "src/spv/logical/control_flow.rs: find_control_flow"]}
{"id": "C70", "title": "The stack and the time of printing control flow", "statement": "Both printers of control flow are recursions over the chain. Printing a chain takes exactly as many frames of fmt_indent as the chain has levels and exactly one call for each of its parts, where the second part of a selection does not count if nothing is in it: with that much room the text is printed, with less the stack overflows. Printing a function takes the same, and with enough room it has its outcome without a limit, also if that is a panic. On control flow that find_control_flow returned, the levels are at most twice the frames of the search and the parts at most three for each mention of a block and one more, so both printers succeed with twice the stack with which it was found. No number of frames below 2^33 - 1 is enough for all of it, and there are functions whose control flow has almost twice as many levels as the search had frames.", "quantifier": "every chain, every function, every size of the stack", "why_tests_cant": "Exact cost for chains of any size and nesting.", "anchors": ["src/spv/logical/control_flow.rs: ControlFlowChain::fmt_indent", "src/spv/logical/control_flow.rs: ControlFlowFunctionPrinter::fmt_indent"]}
{"id": "C71", "title": "The time of reading and the memory it sets aside", "statement": "read_instruction sets aside a vector of as many words as the head word says, before it knows whether they are there. How often the reader asks the stream for a word and which capacities it asks for is, for any bytes, exactly what the specification says of the words of the input. An accepted input is read with one request per word, and the capacities are the sizes its instructions give themselves, in all at most its length less the header. Of any input at most one word is asked for in vain, all vectors but the last have been filled with words of the input, and the last has at most 65535 words, so at most 65535 words are set aside beyond the length of the input. 24 bytes suffice to make the reader set aside 65535 words. Lists of operands never outgrow the capacity they ask for: lists of ids or numbers fill it, lists of pairs fill half of it.", "quantifier": "every byte sequence, every list of known sets; every operand block", "why_tests_cant": "Exact cost for inputs of any length, accepted or not.", "anchors": ["src/spv/raw/reader.rs: read_instruction", "src/spv/raw/reader.rs: Stream::read_word", "src/spv/raw/mod.rs: MemoryBlockRead for Vec<T>"]}
{"id": "C72", "title": "Ids are assigned once", "statement": "In a module that is read and validated no two instructions have the same result id, and every id that occurs is the result of an instruction. (The unchanged code violates this: a witness is proved. Proved instead: imports have ids of their own and the set of an extended instruction is imported before it, and nothing else is checked: the ids of a module that is read may be replaced by any others that keep imports apart, also different ids by the same, and it is read just so and validated as before; a module with at most one import may have a single id.)", "quantifier": "every accepted module; every replacement of ids", "why_tests_cant": "What is not checked is shown for all modules and all replacements.", "anchors": ["src/spv/raw/reader.rs: read_module", "src/spv/raw/reader.rs: OpExtInstImport::read_core", "src/spv/logical/parser/parser.rs: validate"]}
{"id": "C73", "title": "The size of the disassembly", "statement": "The disassembly of a module has at most 31/4 times as many bytes as the module, if each instruction of an extended set is printed in at most 31 bytes for each operand and 93 more, as those of GLSL.std.450 are. No smaller factor will do, even with a constant added: for every n there is a module of 20 + 8n bytes with a disassembly of at least 62n bytes.", "quantifier": "every module that is read, of either byte order; every number n; every factor", "why_tests_cant": "A bound on the output for all inputs, and its sharpness in the limit, are not visible from finitely many modules.", "anchors": ["src/spv/dis.rs: def_op_display", "src/spv/op.rs", "src/spv/types.rs: Display", "src/spv/raw/mod.rs: Display for RawModule", "src/glsl450/op.rs: Display"]}
{"id": "C74", "title": "Writers that fail", "statement": "Printing goes through a writer that may refuse what it is given, and through a formatter with options (width, fill, alignment, precision, sign). For any writer, with any state and any behaviour, and any options, a module, a control flow, a function along a control flow and an error of the reader are handed over in pieces that are exactly the text of C66 and C67; at the first refusal printing ends with an error and the writer is not called again; without a refusal it ends with success. So to_string does not fail and the options have no effect; a buffer of limited size is left with the first bytes of the text, and there is an error exactly if the text is longer; one of 31/4 times the size of the module is always enough. A function that does not have each named block once is handed over up to the first that is missing or there twice, and then there is a panic that says which of the two it is, unless a refusal comes first. An instruction printed by itself is handed over in the same way with the options of {}; its operands do take over a width.", "quantifier": "every writer over every state, every options, every module, control flow, function, error and instruction, every size of a buffer", "why_tests_cant": "A test has some writer that fails at some call; the claim is for a failure at any call of any text, and for options nobody uses.", "anchors": ["src/spv/raw/mod.rs:27-49", "src/spv/raw/mod.rs:304-308", "src/spv/dis.rs:7-88", "src/spv/logical/control_flow.rs:73-133", "src/spv/logical/control_flow.rs:418-513", "src/spv/types.rs:11-15"]}
{"id": "C75", "title": "The indentation does not overflow", "statement": "The printers of control flow count the indentation in 32 bits. On a stack with room for fewer than 2^32 frames the addition does not overflow: for every chain, with or without overflow checks, printing a chain or a function has the outcome it would have with unlimited numbers, be it a text, a panic or an overflow of the stack. So a control flow recovered in fewer than 2^31 frames is printed as C67 says. With more room, a build with overflow checks panics exactly if 2^32 constructs are one inside the other.", "quantifier": "every chain, every function, every room on the stack, both kinds of builds", "why_tests_cant": "No test has four billion nested loops.", "anchors": ["src/spv/logical/control_flow.rs:73-133", "src/spv/logical/control_flow.rs:426-513"]}
{"id": "C76", "title": "The deepest stack of control flow recovery", "statement": "If find_control_flow accepts a function of b blocks, n of which start a selection or a loop, then the calls of search_block are never nested more than (n+1)(b-1) - n(n+1)/2 + 1 deep; so at most b(b-1)/2 + 1 deep. For every n < b (b at most 2^32) there is an accepted function that needs exactly that many frames and overflows the stack with one less.", "quantifier": "every function that is accepted; every number of blocks and headers", "why_tests_cant": "The bound is about all functions; that it cannot be lowered takes a function of every size.", "anchors": ["src/spv/logical/control_flow.rs:156-185", "src/spv/logical/control_flow.rs:208-269", "src/spv/logical/control_flow.rs:272-414"]}
{"id": "C77", "title": "The largest control flow and the longest recovery", "statement": "If find_control_flow accepts a function of b blocks, n of which start a selection or a loop, then the chain mentions blocks at most (b-n) 2^n times, and search_block is called at most (b-n+2) 2^n - 2 times; so at most 2^(b-1) mentions and 3 2^(b-1) - 2 calls. For every n < b (b at most 2^32) there is an accepted function for which both are reached.", "quantifier": "every function that is accepted; every number of blocks and headers", "why_tests_cant": "The bound is about all functions; that it cannot be lowered takes a function of every size, whose control flow is exponentially large.", "anchors": ["src/spv/logical/control_flow.rs:156-185", "src/spv/logical/control_flow.rs:208-269", "src/spv/logical/control_flow.rs:272-414"]}
{"id": "C78", "title": "The deepest nesting of recovered control flow", "statement": "If find_control_flow accepts a function of b blocks, n of which start a selection or a loop, then its constructs (selections, loops, and exits out of loops) are nested at most 2(b-1)-n deep if n is at least 2, at most b-1 deep if n is 1, and there are none if n is 0; for every n < b (b at most 2^32) some accepted function reaches this. Hence the indentation, which is a u32, cannot overflow while the control flow of a function with at most 2^31 + 1 blocks is printed, and a function of 2^31 + 2 blocks exists for which a build with overflow checks panics.", "quantifier": "every function that is accepted; every number of blocks and headers", "why_tests_cant": "The bound is about all functions, and the first overflow needs two thousand million blocks.", "anchors": ["src/spv/logical/control_flow.rs:156-185", "src/spv/logical/control_flow.rs:208-269", "src/spv/logical/control_flow.rs:272-414", "src/spv/logical/control_flow.rs:73-133", "src/spv/logical/control_flow.rs:426-513"]}
{"id": "C79", "title": "The deepest recursion of printing control flow", "statement": "If find_control_flow accepts a function of b blocks, n of which start a selection or a loop, then printing the chain, or the function with it, makes calls nested at most 2b-1 deep if n is at least 2, at most b+1 deep if n is 1, and at most min(b, 2) deep if n is 0; for every n < b (b at most 2^32) some accepted function reaches this. Hence a stack with room for 2b-1 nested calls is enough for every accepted function of b blocks, and from three blocks on no smaller one is. (Finding the control flow can need quadratically many, C76.)", "quantifier": "every function that is accepted; every number of blocks and headers", "why_tests_cant": "The bound is about all functions; tests print small ones, and a stack overflow shows only with large ones.", "anchors": ["src/spv/logical/control_flow.rs:156-185", "src/spv/logical/control_flow.rs:208-269", "src/spv/logical/control_flow.rs:272-414", "src/spv/logical/control_flow.rs: ControlFlowChain::fmt_indent", "src/spv/logical/control_flow.rs: ControlFlowFunctionPrinter::fmt_indent"]}
{"id": "C80", "title": "Exactly what reading forgets", "statement": "The reader does not look at exactly these parts of an input: the byte order; the upper halves of the three low bytes of the version word; whether the word count of an instruction is 0 or 1; the bytes of a literal string after its first NUL; bits 4 to 31 of a function control; bits 16 to 31 of a memory access, loop control or selection control; bits 5 and 16 to 31 of a fast math mode. With all of that cleared (\"tidied\") an input has the same outcome: the same module, or the same error but for these bits where an error tells them. Two inputs are read as the same module exactly if, tidied, they have the same words, and the tidied input is the canonical serialisation of the module. (For the modules: if the instruction sets keep all words of their instructions, as GLSL.std.450 does.)", "quantifier": "all inputs (accepted or not), both byte orders, every list of instruction sets", "why_tests_cant": "That two inputs are confused only if they agree elsewhere is about all pairs of inputs, and that nothing else is overlooked is about every bit of every word.", "anchors": ["src/spv/raw/reader.rs: read_module", "src/spv/raw/mod.rs: MemoryBlockRead impls", "src/spv/raw/mod.rs: impl MemoryBlockRead for FunctionControl, MemoryAccess, FpFastMathMode, LoopControl, SelectionControl"]}
{"id": "C81", "title": "Exactly what control flow recovery depends on", "statement": "If find_control_flow returns a chain for a function, it returns this chain for another function exactly if that one starts with a block of the same label, has no label twice, and its blocks with the labels in the chain end in the same way: both return, or they have the same kinds of branch and merge instruction with the same targets, merge block, hints and weights. So nothing else is looked at (other blocks, the order of the blocks after the first, code, conditions, continue targets, a merge instruction before a return), and nothing of this is overlooked. The blocks in the chain are enough to get it, and all of them are needed.", "quantifier": "every function whose control flow is recovered, every other function", "why_tests_cant": "That no other function has the same control flow is about all functions; tests compare chains of a few.", "anchors": ["src/spv/logical/control_flow.rs: find_control_flow, search_block"]}
{"id": "C82", "title": "Exactly what the text of a function depends on", "statement": "If a function is printed with the control flow recovered from it, another function with recovered control flow is printed as the same text exactly if it starts with a block of the same label, has no label twice, and its blocks with the labels in the control flow have the same code, the same branch and, unless they return, the same merge instruction up to the continue target. So the function instruction, the parameters, blocks not in the control flow, the order of the blocks after the first, the continue targets and merge instructions before a return are what the text leaves out, and nothing else.", "quantifier": "every function whose control flow is recovered, every other function", "why_tests_cant": "That functions which differ in anything else have different texts is about all pairs of functions.", "anchors": ["src/spv/logical/control_flow.rs: ControlFlowFunctionPrinter::fmt_indent, ControlFlowFunctionPrinter::fmt_block_indent", "src/spv/logical/control_flow.rs: find_control_flow"]}
{"id": "C83", "title": "Strings are UTF-8 by the table of the Unicode standard", "statement": "A string operand with a terminator is accepted exactly if the bytes before the terminator divide into sequences that lie in the rows of table 3-7 of the Unicode standard (so no overlong forms, surrogates, truncated sequences or numbers above 10FFFF), and its characters are then the code points of these sequences; otherwise it is rejected as InvalidString, and so is a module with an instruction that carries it as its string. The division is unique, and every list of scalar values other than NUL can be written as a string that is read as these characters.", "quantifier": "every operand word sequence with a NUL byte; every list of Unicode scalar values without NUL", "why_tests_cant": "All byte contents; the boundaries of the table (overlong forms, surrogates) are what samples leave out.", "anchors": ["src/spv/raw/mod.rs: impl MemoryBlockRead for LitString"]}
{"id": "C84", "title": "Splitting a block", "statement": "Split a block that is not the header of a loop after any of its instructions, so that the first half keeps the label and branches to the second half, which gets a label used nowhere in the function and keeps the merge and branch instructions. Then find_control_flow returns for the new function exactly what it returns for the old one with the two halves, one after the other, in place of the block; errors stay the same, except that errors about the end of the block are about the second half; it panics, and fails to return, exactly if it did before; and it recurses at most twice as deep. For headers of loops this is false.", "quantifier": "every function, every block that is not a loop header, every place to split it, every unused label", "why_tests_cant": "About all functions, all blocks in them and all outcomes.", "anchors": ["src/spv/logical/control_flow.rs: find_control_flow"]}
{"id": "C85", "title": "One function after another", "statement": "Let find_control_flow return a chain for f. Put the blocks of another function g, whose blocks neither have nor name labels of f, after those of f, with each OpReturn of f (and a merge instruction before it) replaced by a branch to the first block of g. Then find_control_flow returns for the new function what it returns for g with the items of the chain of f in front, so that it is printed as the one and then the other; it returns the same errors as for g, and panics, and fails to return, exactly if it does for g; and it recurses at most as deep as for both together.", "quantifier": "every function f with a chain, every function g with at least one block and no label in common with f; the other returning instructions are not understood by find_control_flow", "why_tests_cant": "About all pairs of functions and all outcomes.", "anchors": ["src/spv/logical/control_flow.rs: find_control_flow"]}
{"id": "C86", "title": "A function in the middle of another", "statement": "Let find_control_flow return a chain for f. Let a block of g end in a plain branch, and put f between the block and its target: the block branches to the first block of f, and each OpReturn of f becomes a branch to the target. Then, however deep in loops and selections the block is, find_control_flow returns for the result exactly what it returns for g with the items of the chain of f after each occurrence of the block; errors, panics and failing to return are the same as for g; and it recurses at most d*(e+1) deep if it recurses d deep for g and e deep for f. With C84 the same holds for putting f anywhere into a block that is not the header of a loop.", "quantifier": "every function f with a chain, every function g which neither has nor names a label of f, every block of g with a plain branch (every block that is not a loop header, every place in it)", "why_tests_cant": "About all pairs of functions, all places and all outcomes.", "anchors": ["src/spv/logical/control_flow.rs: find_control_flow"]}
{"id": "C87", "title": "Exactly where reading departs from the standard's grammar", "statement": "Take the grammar of the SPIR-V 1.0 standard for the implemented opcodes: a table of operand kinds for each opcode, and the values of each kind. read_module accepts exactly the modules of this table if eight of the kinds are changed (literal values may be empty; the padding of strings and the upper halves of masks are not looked at; any source language and function control goes; the fast math mode has a sixth bit; the loop control has two more bits, one with an operand; a memory access has no alignment), word counts of 0 are allowed and half of three version bytes is not looked at. All other kinds are as in the standard. Of the modules that conform to the standard and use only implemented opcodes and known sets, those without an aligned load or store are all accepted, and the others are all refused with InstructionHadExcessData.", "quantifier": "every byte sequence, every list of known instruction sets, every module of the grammar", "why_tests_cant": "About all byte sequences; a test suite has the modules somebody thought of.", "anchors": ["src/spv/raw/reader.rs: read_module, read_instruction, CoreRead", "src/spv/raw/mod.rs: MemoryBlockRead", "src/glsl450/mod.rs: read_instruction"]}
{"id": "C88", "title": "Exactly where validation departs from the standard's layout", "statement": "Take the layout of section 2.4 of the SPIR-V 1.0 standard, with its rules for the order of instructions in functions and blocks, for the implemented opcodes. validate accepts every module with this layout. A module that validate accepts has this layout if and only if, in the result: OpName and OpMemberName follow the other debug instructions; every function definition has a block; the code of its first block starts with its variables (or OpPhi), that of every other block with OpPhi, and there are no variables and OpPhi anywhere else; OpLoopMerge is not followed by OpReturn, and OpSelectionMerge is followed by OpBranchConditional.", "quantifier": "every RawModule", "why_tests_cant": "An equivalence over all sequences of instructions.", "anchors": ["src/spv/logical/parser/parser.rs: validate and all read_* phases", "src/spv/logical/mod.rs: LogicalModule"]}
{"id": "C89", "title": "Exactly which structured functions are recovered", "statement": "Take the rules for structured control flow of section 2.11 of the SPIR-V standard (in terms of dominance: headers strictly dominate their merge blocks, which belong to one header each; back edges go to loop headers and start inside of the loop; branches into a construct go to its header). For every function that obeys them find_control_flow returns, and recurses no deeper than one more than the function has blocks; the only errors it can give are CouldNotPredictConverge and InvalidConvergePrediction; and it returns a chain if and only if at every block that is read: loops start with an unconditional and selections with a conditional branch; there is no return inside of a construct; every construct is left only at its merge block (selection) or header (loop); and a conditional branch without merge block is inside of a loop and of no further construct in that loop, and has the merge block or header of that loop as its second target. Structured functions that break these are refused: a condition in a loop header panics; an early return, a break as first target, a break with a block of its own and an unconditional break are errors.", "quantifier": "every function definition that obeys the rules", "why_tests_cant": "An equivalence over all control flow graphs, in terms of dominance.", "anchors": ["src/spv/logical/control_flow.rs: search_block"]}
{"id": "C90", "title": "Exchanging the targets of conditional branches", "statement": "Exchange the two targets, and the two weights, of the branches of any selection headers of a function. find_control_flow succeeds on the new function if and only if it does on the old one, with the same depth of recursion, and returns the same chain with the two branches, and the weights, of these selections exchanged. Running it with the decisions at these selections taken the other way round visits the same blocks. If it fails, the error can change. The targets of a block that leaves a loop or starts its next round can not be exchanged: the exit has to be the second target.", "quantifier": "every function definition, every set of selection headers, every sequence of decisions", "why_tests_cant": "A relation between two runs for every function and every choice of selections.", "anchors": ["src/spv/logical/control_flow.rs: search_block"]}
{"id": "C91", "title": "Dominators can be read off the recovered control flow", "statement": "If find_control_flow returns a chain for a function, which blocks strictly dominate and postdominate which can be decided on the chain alone. A block comes before another on all ways along branches from the first block exactly if the chain has no way to the other block that does not pass the one, read construct by construct; likewise for blocks that come after another on all ways that return, and for blocks that are on all ways that return. This holds for chains that mention a block several times as well, and covers what the nesting and order of the constructs promise.", "quantifier": "every function with recovered control flow, every two blocks, every way through the function", "why_tests_cant": "There are infinitely many ways through a function with a loop; the statement is an equivalence over all of them.", "anchors": ["src/spv/logical/control_flow.rs: find_control_flow", "src/spv/logical/mod.rs: ControlFlowChain"]}
{"id": "C92", "title": "Recovered control flow computes what the function computes", "statement": "Take any meaning of the instructions in basic blocks: any set of states, any effect of each instruction on the state (which may depend on the block control came from, as that of OpPhi does), and any rule for which conditions hold in which states. If find_control_flow returns a chain for a function, then running the function from its first block, and running the chain as a structured program in which a block is its code and a selection is decided by the condition in the branch of its block, visit the same blocks, go through the same states and have the same outcome, for every initial state and every number of steps. So the function returns in some state exactly if the chain does.", "quantifier": "every function with recovered control flow, every meaning of instructions, every initial state, every number of steps", "why_tests_cant": "It is about all meanings of instructions, all states and runs of any length.", "anchors": ["src/spv/logical/control_flow.rs: find_control_flow, search_block, ControlFlowChain"]}
{"id": "C93", "title": "Recovered control flow computes what the words of the binary compute", "statement": "Let read_module accept a byte string, validate accept the module, and find_control_flow return a chain for one of its functions. Take any meaning of the words of instructions (the effect of an opcode and its operand words on a state, and which conditions hold), and any meaning of the instructions of the crate, such that words mean what the instruction means that they spell in this module. Then running the words of the function in the input, from its first label, by nothing but word counts and the opcodes of labels, merges, branches and returns, visits the same blocks, goes through the same states and has the same outcome as running the chain with the code of the blocks in the logical module. Every meaning of instructions comes with such a meaning of words; a meaning of words comes with such a meaning of instructions exactly if it does not tell words apart that spell the same instruction.", "quantifier": "every byte string and list of extended instruction sets, every function with recovered control flow, every pair of meanings that agree, every initial state, every number of steps", "why_tests_cant": "It is about all binaries, all meanings of instructions and runs of any length.", "anchors": ["src/spv/raw/reader.rs: read_module", "src/spv/logical/parser/parser.rs: validate", "src/spv/logical/control_flow.rs: find_control_flow"]}
{"id": "C94", "title": "Instructions that can be taken out of a binary", "statement": "Take the words of any instructions out of a binary that read_module accepts, other than imports used by an OpExtInst that stays: read_module accepts the rest, and returns the instructions that stay. If validate accepts the module and none of the instructions taken out is OpMemoryModel, OpFunction, OpFunctionEnd, OpLabel, a merge instruction, OpBranch, OpBranchConditional or OpReturn, it accepts what is left, and returns the same module without the instructions taken out: the same functions with the same blocks, for which find_control_flow does what it did before. But if exactly one of the latter is taken out, and it is not a merge instruction, besides any optional ones, validate rejects what is left.", "quantifier": "every accepted binary, every choice of instructions", "why_tests_cant": "It is about every binary and every subset of its instructions.", "anchors": ["src/spv/raw/reader.rs: read_module", "src/spv/logical/parser/parser.rs: validate", "src/spv/logical/control_flow.rs: find_control_flow", "src/spv/logical/parser/parser.rs: validate and all read_* phases", "src/spv/logical/mod.rs: LogicalModule"]}
{"id": "C95", "title": "Recovered control flow is determined by the executions", "statement": "If two functions visit the same blocks in the same order and end alike, whatever the decisions, and find_control_flow returns for both of them a chain that mentions no block twice and has no loop without a break, then the two chains are the same, but for hints and branch weights, for a Continue where the other has nothing, for a selection with nothing on either side where the other has just the block, and for a Block around a single chain. The converse holds too. Both conditions are needed.", "quantifier": "every two functions that find_control_flow accepts", "why_tests_cant": "It compares any two functions, over all their executions.", "anchors": ["src/spv/logical/control_flow.rs: find_control_flow, search_block, ControlFlowChain", "src/spv/logical/control_flow.rs: find_control_flow, search_block, ControlFlowChain::block"]}
{"id": "C96", "title": "What can come out of a binary", "statement": "The logical modules that are read and validated from some binary are exactly those whose instructions can all be spelled, whose variables are in their place and whose first function definition has a block. For every function whatsoever there is a binary and a function read and validated from it whose blocks have the same labels and end in the same way, and find_control_flow does the same for both. So the control flow recovered from binaries is exactly that of the well-formed programs in which a block that occurs twice ends the same way and no block is a header or merge block around it; and some binary makes find_control_flow recurse forever, and some binary makes it panic.", "quantifier": "every logical module, every function definition, every chain", "why_tests_cant": "It says for every value that a binary exists or that none exists.", "anchors": ["src/spv/raw/reader.rs: read_module", "src/spv/raw/mod.rs: MemoryBlockRead impls", "src/spv/logical/parser/parser.rs: validate and all read_* phases", "src/spv/logical/mod.rs: LogicalModule", "src/spv/logical/control_flow.rs: find_control_flow, search_block, ControlFlowChain::block"]}
{"id": "C97", "title": "Recovered loops are natural loops", "statement": "If find_control_flow succeeds and the chain mentions no block twice, then every cycle along branches that can be come to from the first block lies in a recovered loop whose first block is on the cycle, and whatever is in the natural loop of a block - a branch goes back to it from a block that it dominates, and that block is come to without it - is in the recovered loop that starts there. If moreover every recovered loop has a break, the recovered loops are exactly the natural loops of the control flow graph. Neither holds without its condition: control flow is also recovered from functions that are not reducible, where the chain then mentions a block twice, and loops that come after an endless loop are recovered but are not come to.", "quantifier": "every function, every pair of blocks, every cycle of its graph", "why_tests_cant": "Natural loops are defined by all ways through the graph, and there are infinitely many graphs.", "anchors": ["src/spv/logical/control_flow.rs: find_control_flow, search_block, ControlFlowChain", "src/spv/logical/control_flow.rs: find_control_flow, search_block, ControlFlowChain::block"]}
{"id": "C98", "title": "A construct is recovered alike by itself", "statement": "Wherever a selection or a loop is in a recovered chain: if its blocks are made a function of their own, in any order, that starts with the first block of the construct and in which the block where the construct merges returns, then find_control_flow succeeds for that function and gives the construct as it was, and then the block where it merges. The same holds for either arm of a selection. For selections and their arms this needs that nothing in them leaves a loop around them or continues it; such an arm can be refused by itself.", "quantifier": "every function, every place in the recovered chain, every function made of the blocks", "why_tests_cant": "There are infinitely many surroundings for a construct; the search carries the constructs around a block along, and a test sees only some of them.", "anchors": ["src/spv/logical/control_flow.rs: find_control_flow, search_block, ControlFlowChain", "src/spv/logical/control_flow.rs: find_control_flow, search_block, ControlFlowChain::block"]}
{"id": "C99", "title": "A part of a construct can be replaced", "statement": "If find_control_flow succeeds for two functions that share no block id, and in the first one an arm of a selection or the body of a loop is replaced by the second function - the construct's first block branches to its first block, and where it returned it branches to where the part ended -, then find_control_flow succeeds for the result. It gives the chain of the first function with the chain of the second one for that part, wherever the construct occurs in the chain, and changes nothing else. Likewise a part can be left out: if the construct's first block branches at once to where the part ended, the part becomes empty.", "quantifier": "every two functions, every construct, every part of it", "why_tests_cant": "Pairs of functions are infinitely many, and the part can be nested arbitrarily deep.", "anchors": ["src/spv/logical/control_flow.rs: find_control_flow, search_block, ControlFlowChain", "src/spv/logical/control_flow.rs: find_control_flow, search_block, ControlFlowChain::block"]}
{"id": "C100", "title": "Proofs about the recovered control flow are proofs about the function", "statement": "Take any meaning of the instructions, a condition on the states before the function, one for the states after each visit of each block, and one for the state in which the function returns. If find_control_flow succeeds, there is a proof of these conditions by rules in the manner of Hoare about the chain - a rule for each kind of chain, with an invariant for each loop - exactly if they hold in every execution of the function, whether it ends or not. There is a proof that the chain ends, with a number for each loop that goes down with each round, exactly if every execution returns, in a state that meets the condition. The same is true of the words of a binary from which the function was read.", "quantifier": "every function, every meaning of its instructions, every condition on states, every execution of any length", "why_tests_cant": "Conditions, meanings and states range over infinite types and executions can be infinite; completeness needs a proof to exist for every true statement.", "anchors": ["src/spv/logical/control_flow.rs: find_control_flow, search_block, ControlFlowChain", "src/spv/raw/reader.rs: read_module", "src/spv/logical/parser/parser.rs: validate"]}
{"id": "C101", "title": "Copies of blocks", "statement": "If some blocks of a function are copies of others, with the copies named by other copies, then the result of find_control_flow for the function without copies is the result for the function with them, each copy replaced by the block it is a copy of, whether it is a chain, an error or a panic. The only condition is that inside a body no copy takes the place of the block where the body ends or to which one breaks out.", "quantifier": "every two functions and every map from the blocks of the one to the blocks of the other, injective or not", "why_tests_cant": "All functions and all ways to copy parts of them.", "anchors": ["src/spv/logical/control_flow.rs: find_control_flow"]}
{"id": "C102", "title": "The recovered control flow is a regular expression for the executions", "statement": "A regular expression over the blocks can be read off the chain that find_control_flow returns. The sequences of blocks that match it are exactly those that executions of the function visit from its first block to a return; and the sequences that match a second one are exactly those visited by executions that have not returned yet.", "quantifier": "every function for which a chain is returned, every sequence of blocks of any length", "why_tests_cant": "Functions with loops have infinitely many executions.", "anchors": ["src/spv/logical/control_flow.rs: find_control_flow"]}
{"id": "C103", "title": "What executions can cost is read off the recovered control flow", "statement": "Let each visit of a block cost some number of units. The least and the greatest cost of an execution of the function that returns can be computed from the chain that find_control_flow returns: what is computed is attained and not passed, and it is computed exactly whether there is no bound and whether no execution returns. There is a bound on the blocks that executions visit, and all executions return after some number of visits, exactly if there is no loop in the chain.", "quantifier": "every function for which a chain is returned, every cost of its blocks, every execution", "why_tests_cant": "All functions and costs; with loops there are infinitely many executions, without loops exponentially many.", "anchors": ["src/spv/logical/control_flow.rs: find_control_flow"]}
{"id": "C104", "title": "The text of a function determines what it computes", "statement": "If two functions are printed alike, each with the chain that find_control_flow returns for it, then they compute the same from the same start, visit by visit, whatever meaning is given to the instructions. If they come from two binaries, then so do the words of the functions in the binaries.", "quantifier": "every two functions, or binaries, whose functions are printed alike, every meaning of instructions and words, every start and number of visits", "why_tests_cant": "All pairs of functions, all meanings of instructions.", "anchors": ["src/spv/logical/control_flow.rs: ControlFlowFunctionPrinter", "src/spv/logical/control_flow.rs: find_control_flow"]}
{"id": "C105", "title": "Whatever a finite automaton can tell about executions is read off the recovered control flow", "statement": "Let a finite automaton watch the blocks that an execution of the function visits, in their order. The states it can be in when the function returns, and those it can be in before, can be computed from the chain that find_control_flow returns: each state computed is reached by an execution and no other state is reached. So it can be decided from the chain whether all executions that return end in a good state, and whether no execution ever gets to a bad one.", "quantifier": "every function for which a chain is returned, every finite automaton over blocks, every start, every execution", "why_tests_cant": "All automata and all functions; with loops there are infinitely many executions.", "anchors": ["src/spv/logical/control_flow.rs: find_control_flow"]}
{"id": "C106", "title": "A part of a binary that is replaced", "statement": "Replace the instructions at the front of a binary, or any of them, by others that read_module accepts there and that have the same imports: whatever comes after them is read as it was, so the outcome is the old one, be it an error, with the new instructions in the place of the old ones. If moreover the new instructions have the roles of the old ones in the layout, one by one, and labels, merge instructions and branches stay as they are, then a module that validate accepts stays accepted, with as many instructions in each of its parts, and find_control_flow does for each function what it did before.", "quantifier": "every binary, every part replaced, every list of new instructions with the same imports, everything after it, every list of instruction sets", "why_tests_cant": "All binaries and all patches.", "anchors": ["src/spv/raw/reader.rs: read_module", "src/spv/logical/parser/parser.rs: validate", "src/spv/logical/control_flow.rs: find_control_flow"]}
{"id": "C107", "title": "Chains that mention a block twice", "statement": "A chain may mention a block more than once, and every place has the blocks that follow it. Whenever find_control_flow recovers a chain with at most 2^32 mentions of blocks, there is a function made of copies of the blocks, one for each place of the chain and in the order of the places, from which find_control_flow recovers the same chain with the copies in place of the blocks; that chain mentions no block twice. For every meaning of instructions, conditions and states the two functions make the same visits and get to the same states, where what an instruction sees of the block that control came from is the block of which it is a copy.", "quantifier": "every function definition whose control flow is recovered, every meaning of the instructions, every state, every number of visits", "why_tests_cant": "The claim is about all functions and about all meanings of their instructions; no test can build the unfolded function for each of them or run it under every meaning.", "anchors": ["src/spv/logical/control_flow.rs: find_control_flow", "src/spv/logical/control_flow.rs: ControlFlowChain"]}
{"id": "C108", "title": "Debug output determines what was printed", "statement": "The debug output ({:?}) of a raw module, an instruction, a logical module, a function, control flow or an error determines the value: two different values never have the same debug output, whichever characters the standard library shows as they are and whichever it escapes. The output is always on one line, whatever the strings in the module contain, so a log with one value per line determines the values. This holds also where disassembly loses information (C40): there are two binaries that are read as modules with the same disassembly, and their debug output differs.", "quantifier": "all raw modules and instructions with GLSL.std.450 instructions, logical modules, functions, control flow chains, read, validation and control flow errors, and all choices of the characters shown as they are", "why_tests_cant": "Whether two values can have the same text depends on every derive in the crate at once, on fields being separated unambiguously whatever strings, options and nested vectors they hold; the values are unbounded in number and in depth.", "anchors": ["src/spv/raw/mod.rs: RawModule", "src/spv/raw/mod.rs: Core", "src/spv/logical/mod.rs: LogicalModule", "src/spv/logical/control_flow.rs: ControlFlowChain", "src/spv/mod.rs: ExtInstBox"]}
{"id": "C109", "title": "What branch weights say about executions is read off the recovered control flow", "statement": "Let a condition with branch weights t and f be true t times out of t + f, and let the visit of each block cost something. Whenever find_control_flow recovers a chain, what the function costs on average, how often each block is visited on average and how likely the function is to return are computed by recursion on the chain, from the weights it holds: a loop has 1 / (1 - again) rounds on average, where again is how likely its body is to go on with another round. If no condition is always true or always false, the function returns almost surely exactly if every loop of the chain has a break of its own; the average cost is then finite if the costs are. The chance computed is at most one, and none exactly if no execution returns.", "quantifier": "all functions from which control flow is recovered, all costs of blocks (infinite ones included), all branch weights and all guesses for conditions without weights", "why_tests_cant": "The averages are limits over infinitely many executions of unbounded length, with real numbers for the odds; a test can only sample executions.", "anchors": ["src/spv/logical/control_flow.rs: search_block", "src/spv/logical/control_flow.rs: find_control_flow", "src/spv/logical/control_flow.rs: ControlFlowChain", "src/spv/types.rs: BranchWeights"]}
{"id": "C110", "title": "How many executions visit each block how often is read off the recovered control flow", "statement": "Whenever find_control_flow recovers a chain, the executions of the function that return are counted, by how often they visit each block, by the coefficients of a generating function with a variable for each block that is computed by recursion on the chain: a product for what comes one after the other, a sum for the sides of a selection, and a geometric series for the rounds of a loop. Executions are told apart by the ways they take at conditional branches. The same holds with a weight for each way taken, in any commutative ring and from the branch weights or not: the coefficient is then the sum of the weights of the executions, so chances can be added instead of counting.", "quantifier": "all functions from which control flow is recovered, all numbers of visits of each block, all weights of the ways at conditional branches in all commutative rings", "why_tests_cant": "A function with a loop has infinitely many executions and infinitely many vectors of visit counts; a test can only enumerate executions up to some length for the functions at hand.", "anchors": ["src/spv/logical/control_flow.rs: search_block", "src/spv/logical/control_flow.rs: find_control_flow", "src/spv/logical/control_flow.rs: ControlFlowChain"]}
{"id": "C111", "title": "With bounds on the rounds of loops, the greatest cost is read off the recovered control flow", "statement": "Let there be a bound on the rounds of each loop: as long as an execution stays in a loop it visits the first block of the loop at most so often. Whenever find_control_flow recovers a chain that mentions no block twice, the executions that keep the bounds, those that return as well as those that did not yet, are exactly those that match an expression without repetition read off the chain. So what they cost at most, if each visit of a block costs something, is computed from the chain: it is attained by an execution that keeps the bounds, and none that keeps them costs more. If every loop has a break, the loops meant are the natural loops of the control flow graph.", "quantifier": "all functions from which a chain without repeated blocks is recovered, all bounds and all costs of blocks, all executions", "why_tests_cant": "The bounds and costs are arbitrary and the executions within bounds grow exponentially in number with the nesting of loops; a test can only try some bounds on some functions.", "anchors": ["src/spv/logical/control_flow.rs: search_block", "src/spv/logical/control_flow.rs: find_control_flow", "src/spv/logical/control_flow.rs: ControlFlowChain"]}
{"id": "C112", "title": "Data flow analysis is read off the recovered control flow", "statement": "Let each block change what is known, in any complete lattice, and each decided condition add to it. Analysing the recovered control flow by structure - arms of a selection joined, the head of a loop the least that covers what comes to it - is right for the basic blocks: on whatever way along the branches control comes to a block, what is known on that way is covered, also when the function returns. It is at least as good as any solution of the data flow equations of the basic blocks. If the changes respect joins it is exactly the join over all ways; if the chain mentions no block twice and nothing comes from nothing, it is the least solution. So for any semantics of blocks and conditions on states, the states in which control comes to a block are read off the chain. (Without respect for joins the join over all ways can be better, and with a block mentioned twice the chain can be better than every solution: witnesses are proved.)", "quantifier": "all functions from which a chain is recovered, all complete lattices, all monotone transfer functions, all start values, all ways of any length; all machines on all types of states", "why_tests_cant": "The lattice, the transfer functions and the states are arbitrary, and a loop has infinitely many ways through it; a test can only analyse some functions with some analyses.", "anchors": ["src/spv/logical/control_flow.rs: search_block", "src/spv/logical/control_flow.rs: find_control_flow", "src/spv/logical/control_flow.rs: ControlFlowChain"]}
{"id": "C113", "title": "What is needed before each block is read off the recovered control flow in one pass", "statement": "Let each block read and write some variables, and some be asked for when the function returns. One pass over the recovered control flow from its end, which looks at the body of each loop once as if nothing were needed for another round, finds before each block it mentions exactly the variables that are needed in the basic blocks: read on some way along the branches before they are written, or asked for at a return to which they come unwritten. It lists all blocks of the chain in order, and going round a loop again would add nothing. So for any machine that reads and writes as said, executions from values that differ only in variables that are not needed at the start visit the same blocks, have the same outcome and return with the same values of what is asked for.", "quantifier": "all functions from which a chain is recovered, all types of variables and values, all sets of variables read, written and asked for, all ways of any length, all machines that read and write accordingly, all executions", "why_tests_cant": "A variable is needed if it is read on one of infinitely many ways through the loops, and not needed only if it is read on none of them; a test follows finitely many ways for some variables.", "anchors": ["src/spv/logical/control_flow.rs: search_block", "src/spv/logical/control_flow.rs: find_control_flow", "src/spv/logical/control_flow.rs: ControlFlowChain"]}
{"id": "C114", "title": "Instructions whose results are not needed are found on the recovered control flow and can be removed", "statement": "Let each instruction and each condition read and write some variables (memory can be one), and some be asked for when the function returns. What the recovered control flow says is needed after each block it mentions is exactly what is needed in the blocks to which control can go from it, or asked for where it returns. Removing from all blocks at once the instructions that write nothing that is needed after them leaves the recovered control flow as it is; and for any machine whose instructions read and write as said, every execution visits the same blocks, has the same outcome, and returns with the same values of what is asked for. Such a machine also has blocks that read and write what follows from their code, so C113 is about it.", "quantifier": "all functions from which a chain is recovered, all types of variables and values, all sets of variables read, written and asked for, all machines that read and write accordingly, all start configurations, all executions of any length", "why_tests_cant": "Removing an instruction is wrong if its result is read on any one of the infinitely many ways through the loops, for any meaning of the instructions; a test runs some executions with one meaning.", "anchors": ["src/spv/logical/control_flow.rs: search_block", "src/spv/logical/control_flow.rs: find_control_flow", "src/spv/logical/control_flow.rs: ControlFlowChain"]}
{"id": "C115", "title": "What does not come to memory can be removed from the code of functions", "statement": "For each of the instructions that can be in a block, with those of GLSL.std.450, the ids the instruction mentions are exactly the values it reads, its result, and its type, instruction set or the blocks control comes from. Take any meaning of the instructions that gives the result, and memory for stores and variables, by the values read and, for loads, stores and variables, memory. Then the instructions whose results do not come to memory or to a condition, as found on the recovered control flow, can all be removed: the recovered control flow is the same, and every execution from every start visits the same blocks, has the same outcome, and leaves the same memory when it returns.", "quantifier": "all instructions of blocks, all ids; all functions from which a chain is recovered, all types of values, all meanings of instructions of this form, all start configurations, all executions of any length", "why_tests_cant": "The meaning of the instructions is arbitrary, functions have any number of blocks, and executions any length; a test runs some functions with one meaning.", "anchors": ["src/spv/logical/control_flow.rs: find_control_flow", "src/spv/logical/mod.rs: GroupCode", "src/spv/op.rs: OpLoad, OpStore, OpPhi", "src/glsl450/mod.rs: Sin, Cos"]}
{"id": "C116", "title": "Whether values are given before they are used is read off the recovered control flow", "statement": "The standard demands that the definition of a value dominates its uses, and for OpPhi the ends of the blocks that the values come from. If find_control_flow returns a chain for a function, one pass over the chain decides whether, on every way along the branches from the first block, every result of an instruction of the function is given before an instruction, a condition or an OpPhi uses it. If no value is the result of two instructions, this is the rule of the standard. If it holds, then for every meaning of the instructions no execution depends on what these results were before the function: the blocks visited, the outcome, memory and all values given are the same. The code does not look at this: control flow is recovered also for a function where it fails.", "quantifier": "all functions from which a chain is recovered, all values, all ways of any length; all meanings of instructions by the values they read, all start values, all executions of any length", "why_tests_cant": "There are infinitely many ways through a loop, and the statement is about all of them and all meanings of the instructions; a test takes some ways with one meaning.", "anchors": ["src/spv/logical/control_flow.rs: find_control_flow", "src/spv/logical/mod.rs: GroupCode", "src/spv/op.rs: OpPhi"]}
{"id": "C117", "title": "A tool that reads, removes what does not come to memory, and writes", "statement": "Make a tool of the crate: read a binary, validate it, recover the control flow of each function, remove the instructions whose results do not come to memory or to a condition, do so some more times, and write the module in the canonical form. For every binary that read_module and validate accept, the tool gives a binary that is not longer, with the same header and some of the instructions in the same order; read_module and validate accept it as the same module with less code in blocks. Each function has the control flow it had before, and for every meaning of the instructions its executions visit the same blocks, have the same outcome and leave the same memory. After as many rounds as a function has instructions in its blocks nothing changes any more, and then every instruction left in a function with recovered control flow gives something that is read later on some way, or memory that is there at a return.", "quantifier": "all byte strings, all numbers of rounds and depths of recursion, both byte orders, all functions, all meanings of instructions, all start configurations, all executions of any length", "why_tests_cant": "Modules, executions and meanings are unbounded; a test runs the tool on some binaries and compares some results.", "anchors": ["src/spv/raw/mod.rs: read_module", "src/spv/logical/parser/parser.rs: validate", "src/spv/logical/control_flow.rs: find_control_flow"]}
{"id": "C118", "title": "Blocks can be put in the order the standard demands", "statement": "The standard demands that blocks appear before all blocks they dominate. read_module, validate and find_control_flow accept functions that break this rule. If find_control_flow returns a chain for a function, whether the rule is kept can be decided on the chain; and if the blocks are put in the order of the chain, first those that control can come to, then the others it mentions, then the rest, the rule is kept. With ways to merge blocks and continue targets counted as well, it is kept for all blocks in the chain. The order in which the chain mentions the blocks is not enough by itself. The first block stays first, the blocks stay the same, the control flow is the same, the function computes the same whatever the instructions mean, and doing it again changes nothing. A tool that does this to all functions of a binary turns every binary that is read and validated into one that is not longer, has the same header and the same instructions in another order, and is read and validated as the rearranged module.", "quantifier": "every function with recovered control flow, every two blocks, every way through the function, every meaning of instructions, all binaries that are accepted, both byte orders", "why_tests_cant": "Dominance is about all ways through a function, and functions, executions and binaries are unbounded.", "anchors": ["src/spv/logical/control_flow.rs: find_control_flow, search_block", "src/spv/logical/parser/parser.rs: validate", "src/spv/raw/mod.rs: read_module"]}
{"id": "C119", "title": "What all invocations of a shader do together is read off the recovered control flow", "statement": "Invocations of a shader may differ in some inputs. Given a set of variables, a check on the chain that find_control_flow returns finds the blocks that invocations may visit apart (those in selections whose condition reads other variables, and those in loops that one invocation may leave before another), demands that these write no variable of the set, and that in all other blocks the variables of the set are computed from the set, without asking for the block from which control came (as OpPhi does) where invocations may come from different blocks. If the check passes, any two executions of the blocks that return, from starts that agree on the set, visit the blocks that are not visited apart in the same order and equally often, however long they were apart in between, and agree on the set at the end, whatever the instructions compute. Of two executions of any lengths, whether they return or not, the visits of these blocks by one are the first visits of them by the other, and one that has returned is not behind. Whenever they have made equally many of these visits, they agree on the set. If no condition reads other variables, they visit the same blocks throughout. The condition about OpPhi cannot be left out.", "quantifier": "every function with recovered control flow, every set of variables, every meaning of instructions, every two starts that agree on the set, executions of any length", "why_tests_cant": "It is about all pairs of executions for all meanings of instructions, and executions are unbounded.", "anchors": ["src/spv/logical/control_flow.rs: find_control_flow, search_block"]}
{"id": "C120", "title": "The values that all invocations of a shader share are computed from the recovered control flow", "statement": "Starting from the variables on which all invocations agree at the start, and taking away those that blocks visited apart write, and those that are computed from others, until nothing changes, gives the largest set of variables for which the check on the recovered control flow passes that all invocations agree on: it passes, and every part of the start for which it passes is a part of it. It is found within as many rounds as there are writes. If more is shared at the start, no less is shared; what is never written stays shared. So by C119 any two executions that return, from starts that agree on the given variables, agree on all variables of the set at the end, and visit all blocks outside the ones that may be visited apart in the same order, whatever the instructions compute.", "quantifier": "every function with recovered control flow, every set of variables at the start, every meaning of instructions, every two starts that agree on it, executions of any length", "why_tests_cant": "That a set is the largest is about all sets of variables; and agreement is about all pairs of executions for all meanings of instructions.", "anchors": ["src/spv/logical/control_flow.rs: find_control_flow, search_block"]}
{"id": "C121", "title": "Many invocations execute the recovered control flow in lockstep, each as it would by itself", "statement": "Execute the recovered control flow for many invocations at once, as graphics processors do: each block is issued for the lanes of a mask; a selection first executes one branch for the lanes that decide for it, then the other for the others; a loop is repeated for the lanes that have not left it, as long as there are any; and at the end of the construct the lanes go on together. Then each invocation does exactly what it does by itself following the branch instructions of the function: if it returns, then in lockstep it ends as well (with enough rounds for loops, one number for all lanes), the blocks issued for it are the blocks it visits, in this order, and it ends in the same state, whatever the other lanes do; and if it ends in lockstep, it returns by itself so. Nothing happens to lanes outside the mask, no block is issued for no lane, and no more blocks are issued than the invocations visit altogether. Where the check of C119 passes for variables on which the lanes agree, every block outside those that may be visited apart is only issued for all lanes at once, hence as often as one invocation visits it; if no condition reads other variables, the blocks issued are the ones that one invocation visits.", "quantifier": "every function with recovered control flow, every number of lanes, every mask, every machine (state and meaning of instructions), every start of each lane, executions of any length", "why_tests_cant": "It is about any number of invocations with any meaning of the instructions, in all combinations of the paths they take, and unboundedly many rounds of nested loops.", "anchors": ["src/spv/logical/control_flow.rs: find_control_flow, search_block, ControlFlowChain"]}
{"id": "C122", "title": "Whether OpPhi is told where control came from is read off the recovered control flow", "statement": "The standard demands that an OpPhi has exactly one operand for each block that branches to its block. If find_control_flow returns a chain for a function, control can come from one block to another just if the first is one that control can come to by the chain and it branches to the second; and one pass over the chain decides whether on every way along the branches from the first block each OpPhi has exactly one operand for the block that control came from (and there is none where the function starts). If so, executions do not depend on what an OpPhi does that has no or several operands for the block control came from. Operands for blocks that control does not come from can be removed: control flow is recovered as before, executions are the same, and what is left is exactly one operand for each block that control comes from. The code does not look at this: control flow is recovered also for functions where it fails, and executions can then depend on what such an OpPhi does.", "quantifier": "all functions from which a chain is recovered, all ways of any length, all meanings of instructions by the values they read, all start values, all executions of any length", "why_tests_cant": "It is about all ways through loops of any nesting, and all meanings of the instructions.", "anchors": ["src/spv/logical/control_flow.rs: find_control_flow, search_block", "src/spv/op.rs: OpPhi"]}
{"id": "C123", "title": "Instructions that are printed but not read have the text of the standard", "statement": "The crate has printers for 58 instructions that read_module never returns; a client can build and print them. The text of each is the line that the standard's operand list of its opcode gives: result, name, type, then each operand as an id, a number, a name or a mask. (False of OpCompositeConstruct with constituents: they are printed as numbers although they are ids. It is true of everything else.) The text determines the instruction and all its operands, and differs from the text of every instruction that can be read. A module that has an instruction with one of these opcodes is refused: with the name that the printer uses, except that three of them are unknown to the reader.", "quantifier": "all instructions of these 58 kinds with all operands, all instructions that can be read, all modules that continue with such an instruction", "why_tests_cant": "There are no tests of these printers; operands range over all words and lists of any length.", "anchors": ["src/spv/op.rs: def_op_display!, def_op_display_s1! and def_op_display_s2! of the instructions not in Core", "src/spv/dis.rs:92-119", "src/spv/types.rs: Line, Column, SamplerAddressingMode, SamplerParam, SamplerFilterMode", "src/spv/raw/reader.rs: read_module"]}
{"id": "C124", "title": "Conditional branches that always go the same way can become plain branches", "statement": "Take a function of which control flow is recovered, and replace conditional branches that always go the same way by plain branches, with their merge instructions removed. Any number of them may be replaced at once, wherever they are, except that a branch that always leaves a loop stays. Control flow is recovered from the result: it is the recovered control flow, with the arm that is taken in place of each such selection. The blocks that are left are in the order they were. Every execution that goes as was assumed visits the same blocks and computes the same, for any number of visits. In particular a function can be specialised by its inputs: every condition that depends only on values no instruction of the function writes may be settled by what holds at the start. More generally, every branch may be replaced of which there is a proof where it goes, by rules in the manner of Hoare about the recovered control flow; and for every branch that always goes the same way there is such a proof. A branch that leaves a loop cannot be replaced by a plain branch out of the loop: the result is refused, whatever other branches are replaced, if the branch is still found there and does not also go on with the next round of another loop (there is a function where that makes a difference).", "quantifier": "all functions, all sets of branches and ways they go, all meanings of instructions, all starts, all numbers of visits", "why_tests_cant": "A test shows one function with one branch replaced and one execution; the claim is about any set of branches in functions nested to any depth, and executions of any length.", "anchors": ["src/spv/logical/control_flow.rs: find_control_flow, search_block, ControlFlowChain::block"]}
{"id": "C125", "title": "Constructs do not contain their header or merge block", "statement": "In control flow that find_control_flow recovers, no loop contains its own first block or its merge block again, and these are different; the arms of a selection with a merge instruction do not contain its first block or its merge block; and no plain branch in a loop goes to the merge block of that loop. This holds without any condition on the function, and also where the chain mentions a block more than once. It is not so for a conditional branch without merge instruction: there is a function where the block with that branch is found again within what it chooses.", "quantifier": "every function definition whose control flow is recovered, every loop and selection at any depth of the chain", "why_tests_cant": "find_control_flow checks none of this; it follows from the search having ended, for functions of any size and nesting, including those that break the rules of the standard.", "anchors": ["src/spv/logical/control_flow.rs: find_control_flow, search_block, FlowList::merges"]}
{"id": "C126", "title": "Exactly the mentioned blocks matter", "statement": "Remove any blocks other than the first from a function with distinct labels. The outcome of find_control_flow is the same, also where it is an error, or it is the error that a block is unknown which was removed. If control flow is recovered from the function, it is recovered from the rest exactly if all blocks it mentions are kept (also those after loops that never end); every execution of the rest is the same then. If one of them is missing, the outcome is the error that a mentioned block is unknown.", "quantifier": "every function definition, every set of blocks, every meaning of instructions, all numbers of visits", "why_tests_cant": "A test removes some blocks of one function; the claim is about all sets of blocks of functions of any size, and about every outcome.", "anchors": ["src/spv/logical/control_flow.rs: find_control_flow, search_block, ControlFlowError::UnknownBlockId"]}
{"id": "C127", "title": "Conditional branches with one target", "statement": "Replace, all at once, the conditional branches whose two targets are the same by plain branches without merge instruction. If control flow is recovered from a function, it is recovered from the changed function, with just one of the arms of each such selection; and every execution is the same, whatever the conditions are. For such a branch with a merge instruction the two arms that find_control_flow recovers are the same. Without a merge instruction they need not be: there one arm is empty and the other is Continue.", "quantifier": "every function definition, every meaning of instructions and conditions, all numbers of visits, selections at any depth", "why_tests_cant": "The claim is about functions of any size and about all executions of them; the recovered arms double with each such branch, so that a test could only look at few.", "anchors": ["src/spv/logical/control_flow.rs: find_control_flow, search_block"]}
