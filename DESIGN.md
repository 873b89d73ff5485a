# Formal model of magmaflow: design

Subject: the Rust crate in `/repo` (SPIR-V 1.0 binary reader, disassembler, layout validator, structured
control flow recovery). The model is in Lean 4 under `lean/Verif`. Properties are numbered as in
`properties.jsonl`; `MANIFEST.json` maps them to theorems.

## Layout

* `Verif/Model/*` - the code, function by function; every definition cites file and lines.
* `Verif/Spec/*` - independent specifications. They use the data types of the API but call no function of
  the model. The one exception is the decoding function of an extended instruction set, which belongs to the
  caller of the crate and is a parameter.
* `Verif/Proofs/*` - helper lemmas.
* `Verif/Props/*` - the property theorems, named `Cnn_...`, each with an `example` that meets its hypotheses.
* `Verif/Conformance.lean` - the model evaluated by the kernel on the `.spv`/`.dis` fixtures of the
  repository, with the outcomes its tests expect. These are tests of the model, not properties.
* `tools/gen.py` extracts the mechanical parts (98 instruction structs, opcode table, operand orders,
  enumerant tables, display lists) from the Rust text into Lean text. `tools/gen_ids.py` writes the replacement of ids, field by field. `tools/gen_write.py` writes the
  printers that call a writer, and the cases of their lemmas. `tools/gen_text.py` and
  `tools/gen_quotes.py` write the per-instruction cases of the text lemmas, `tools/gen_debug.py` the `Debug` derives and their cases, `tools/gen_unread.py` the instructions of C123 and their cases, `tools/conformance.py` the fixtures. None of them is trusted:
  their output is committed as ordinary Lean definitions and proofs. `tools/manifest.py` writes
  `MANIFEST.json`, `tools/axioms.py` the table of axioms below. `tools/audit.py` compares those tables with the Rust text once more, sharing no code with `gen.py`
  (277 enumerants, 285 opcodes, 152 structs, 91 orders of operands read, 156 printed, 262 printed names: no difference);
  the hand-written definitions were compared by reading.
* `seeded/LOG.jsonl` - wrong programs the theorems were tested against.

## What is modelled

| Rust | Lean | remarks |
|---|---|---|
| `src/spv/types.rs` types | `Model/Types` | all |
| `src/spv/types.rs` `Display` | `Model/Display`, `Model/Module`, `Model/Fmt`, `Model/Write` | all |
| `src/spv/op.rs` structs and their `Display` (macro in `src/spv/dis.rs`) | `Model/Op`, `Model/Display`, `Model/Formatter`, `Model/Write` | all 98 |
| `src/spv/op.rs` structs that have a `Display` but are not in `Core` | `Model/OpUnread` | all 58; nothing in the crate builds them |
| `src/spv/mod.rs` `ExtInstBox`, `ExtInstClone`, `ExtInstSet` | `Model/ExtInst`, `Model/ReadCore` | trait objects are records of functions over a type per set |
| `src/spv/raw/mod.rs` `MemoryBlock`, operand readers, errors | `Model/Block`, `Model/ReadTypes`, `Model/ReadFlags`, `Model/Errors` | all |
| `src/spv/raw/reader.rs` | `Model/Reader`, `Model/ReadOps`, `Model/ReadCore`, `Model/OpTable`, `Model/ReaderCost` | all; the last counts words asked for and set aside |
| `src/spv/logical/mod.rs`, `parser/mod.rs` (instruction groups) | `Model/Logical`, `Model/Group` | all |
| `src/spv/logical/parser/parser.rs` (`validate`) | `Model/Parser`, `Model/ParserCost` | all; the second model counts frames and calls of `read_rest` |
| `src/spv/logical/control_flow.rs` (`find_control_flow`, both printers) | `Model/ControlFlow`, `Model/Printer`, `Model/WritePrinter`, `Model/PrinterWord`, `Model/ControlFlowCost`, `Model/PrinterCost` | all; the last two count calls of `search_block` and `fmt_indent` |
| `src/glsl450` | `Model/Glsl`, `Model/ExtInst` | all |

`Debug` is modelled (`Model/Debug...`, C108) for every type that a module, a logical module, control flow or an error is made
of, in the form without `#`; which characters the standard library shows as they are in strings is a parameter. Not for the
parser's states and the other types in between.

Not modelled: the test harness (`src/tests`), `Error::cause`, memory and stack limits (except the
recursion of the validator, C68, of the search, C69 and C76, and of
the printers, C70, C78 and C79, and the capacities the reader asks for, C71), and the 143 structs of `src/spv/op.rs` that
no function of the crate mentions (`OpGroupMemberDecorate` and those from the image instructions on that have neither a
reader nor a printer).

The printers are modelled twice. In `Model/Display`, `Model/Module` and `Model/Printer` a text is built in memory. In
`Model/Formatter`, `Model/Write` and `Model/WritePrinter` they call a writer that may fail, through a formatter with
options; C74 relates the two. Of `std::fmt` this takes as documented: `write!` calls `write_str` for each literal and
formats each argument with options of its own, `Formatter::pad` and `Formatter::pad_integral` obey the options, and
`try!` returns the first error. In how many pieces a literal is handed over is not part of any claim.

Representation: `u32` is `UInt32` (except the indentation of the printers, which is a number in all models but that of C75), bytes are `List UInt8`, `Vec` and slices are lists, `String` is Lean's
`String` (valid UTF-8 by construction, as in Rust), `HashMap` is an association list with the same
insert/lookup behaviour. A `MemoryBlock` is the list of words left; a `Stream` is the list of bytes left and
the byte order. Fallible functions return `Except (Fault E)`, where a fault is an error value of the crate, a
`panic` (failed assertion, slice index out of range, `unimplemented!`) or `diverge` (the fuel of a loop is
used up). Fuel occurs in two places only: in the main loop of the reader and the loops of the validator, where
the fuel supplied is proved to be enough (C04, C22), and in `findControlFlow`, where fuel is the depth of
recursion; results are monotone in it (`findControlFlow_mono`), "returns" means "for some fuel", and C28_depth
says how much is enough.

## Specifications

* `Numbers`, `Opcodes`, `Names`: number and name tables of the standard. `Encoding`: what it means for words to
  spell an instruction or a module. `Serialise`: a canonical serialiser. `GlslEncoding`: words of GLSL
  instructions.
* `Layout`: section 2.4 of the standard as the list of instructions a logical module stands for.
* `Outline`: roles of instructions, outlines of modules. `Function`: functions as sequences of instructions.
* `Expressible`, `Ends`: well-formed programs, and how their blocks have to end.
* `Dominance`: what a block of a chain is preceded and followed by.
* `Automaton`: the automaton of C59, what it says is wrong, and prefixes that can be completed.
* `FirstError`: what an error refuses, and words that are the start of the operands of an instruction.
* `InOrder`: reading the places of a function in order, and what is found first.
* `Ids`, `RenameOps`: which operand words are ids, and replacing the ids of words, instructions, modules and errors.
* `Reference`: the operands of each opcode as a table of checks, and the outcome of reading by it.
* `Listing`: the operands of each opcode as a table of texts, and the disassembly by it.
* `FlowText`: the text of chains and functions as rows with a depth.
* `StackDepth`: frames for nested lists of items.
* `SearchCost`: depth and calls of the search in terms of the chain.
* `PrintCost`: levels and parts of a chain.
* `ReadCost`: words asked for and set aside, from the words of the input.
* `Assignment`: ids that occur, ids assigned once.
* `TextSize`: bytes of a text in UTF-8.
* `Writing`: pieces handed to a writer until it refuses one; a buffer of limited size.
* `FlowStop`: the rows of a function up to a block that can not be printed.
* `Indentation`: constructs one inside the other.
* `SearchDepth`: blocks that start a construct, and the number of frames of C76.
* `SearchSize`: the numbers of C77.
* `Nesting`: the number of C78.
* `PrintDepth`: the number of C79.
* `Slack`: what the reader does not look at (C80).
* `Execution`: small-step execution of basic blocks, and of a chain as a structured program, both driven by a
  list of branch decisions. `Structured`: structured programs and what it means that blocks spell one. `Flow`:
  what a block refers to, shape of chains, constructs. `Live`: loops that can be left. `WordMachine`: execution
  directly on the words of the binary. `Rename`: renaming of block ids in chains and errors.
* `Meaning`, `WordMeaning`: what blocks, structured programs and words compute, for any meaning of instructions.
* `Split`, `Sequence`, `Insert`, `Exchange`: functions made from others (C84, C85, C86, C90).
* `Strip`: instructions taken out of a binary (C94).
* `Canonical`: chains without what executions do not show (C95).
* `NaturalLoop`: natural loops of a graph, and the loops of a chain (C97).
* `Excerpt`: constructs of a chain, and functions made of their blocks (C98).
* `Replace`: functions with a part of a construct replaced (C99).
* `Passing`, `Course`: what a chain can be left or entered without, and ways along branches (C91).
* `Standard`, `StandardLayout`, `StandardFlow`: grammar, layout and rules for control flow of the standard
  (C87, C88, C89). `Utf8`: well-formed byte sequences after the Unicode standard (C83).
* `Place`: a block together with the constructs it is inside of, and the steps from place to place; which error a
  place is to blame for; functions that enter each block once.
* `Blame`: what a read error says about an instruction.
* `Disassembly`, `Printing`: mnemonics, column layout, lines, brace depth.

## Properties

"False" means that the property as stated does not hold of the unchanged code: there is a theorem with a
concrete witness (`_violated`), and theorems with the suffix `_partial` prove what does hold.

| id | theorems in | how it is proved |
|---|---|---|
| C01 | Props/Reader | each operand reader accepts exactly the spellings of its value (class `Lawful`); the same per instruction; induction over the words |
| C02, C18 | Props/Reader | the canonical serialisation is a spelling; accepted modules are serialisable |
| C03 | Props/Reader | the stream is a list of words; swapping bytes swaps the byte order flag |
| C04 | Props/Reader | invariant per reader: the only faults are error values |
| C05, C17 | Props/Reader | induction over instructions and the cut point |
| C06 | Props/Reader | from C01 |
| C07, C13-C16 | Props/Instructions | in any context (`Continues`): decoding of one instruction, invariant for the map of imported sets |
| C08 | Props/Operands | first NUL byte characterises string, length and rest |
| C09 | Props/Header | false: three bytes of the version are masked. Exact accepted set |
| C10 | Props/Header | cases on the header words |
| C11 | Props/Operands | false: bits 16-31 of every mask, bit 5 of the fast math mode and all bits of function control are unchecked. Exact meaning of every mask |
| C12 | Props/Operands | inverse tables against the numbers of the standard |
| C19 | Props/Header | false: the bound is never used |
| C20-C23, C26 | Props/Validate | every phase of the validator as a relation on the list split at the cursor; composition |
| C24 | Props/Validate | false: a declaration after a definition becomes a definition without blocks; true exactly of modules in which none follows |
| C25 | Props/Validate | false for `UnexpectedInstruction`, which is only reported if exactly one instruction is left; the instructions can be completed exactly if that one is `OpFunction` |
| C27 | Props/ControlFlow | simulation between execution of blocks and of the chain, induction on decisions and the run of the search |
| C28 | Props/ControlFlow, Props/Places | false: a cycle outside of loop constructs recurses forever; without an endless path through the places of the function the search ends (well-founded recursion). Depth bound for every function (pigeonhole on the pairs of block and enclosing constructs); termination for nested functions and functions without such cycles |
| C29 | Props/ControlFlow, Props/Places | false: `unimplemented!` is reached by two shapes of blocks; proved for functions that do not reach one |
| C30 | Props/ControlFlow, Props/Places | accepted functions are exactly those that spell a nested structured program, and the result is that program. C30_places_iff: a criterion on each reachable place, without programs |
| C31-C35 | Props/ControlFlow, Props/Places | the search depends on the lookup of blocks only; induction on the runs of the search. C33_place: every failure is the fault of a place one gets to |
| C36, C37 | Props/Printing | induction on chains |
| C38-C41 | Props/Disassembly, Props/Joined | unique decoding of printed operands, instructions, lines. C40 is false: newlines in strings, unregistered generators. Which modules are affected: an instruction with a newline in its text is determined up to its string and after it, so it begins as one instruction of the other module does and ends as a later one does (`Joins` in Spec/Joined); that instructions without strings do not end like that is Proofs/Quotes. What is missing: the same for modules whose strings forge |
| C42 | Props/ExtInst | cases; foreign sets are arbitrary implementations |
| C43 | Props/EndToEnd | composition; executions of the words of the binary. False: a word count of 0 is read as 1, so the canonical words need not be the end of the input |
| C44 | Props/Printing | lines of the printed function. False: hints are printed before the indentation; proved that the indentation is right exactly for chains without hints and weights |
| C45 | Props/Chains | decoding of the printed lines, for chains that were recovered |
| C46 | Props/Names | tables. False for six misspelt names, and for no others: the exceptions are exact |
| C47 | Props/Errors | false: the alignment of an aligned access is not read, so each such module is rejected |
| C48 | Props/Errors | table of distinct messages |
| C49 | Props/Chains | covering from C27; false that all blocks in the chain can be visited (merge block of a loop without break); exactly those are visited that do not follow a construct that cannot end, and some execution returns exactly if the chain can end (`mayEnd`, `reached` in Spec/Live, by induction on the chain); in particular all if all loops have breaks |
| C50 | Props/Chains, Props/Places | false: an exponential family. Exact criterion (every block is entered in one way), exponential upper bound for every function |
| C51 | Props/Rename | induction on the search: every comparison of ids is preserved by an injective renaming |
| C52 | Props/Concat | from C01: spellings of bodies append, imports weaken the context |
| C53 | Props/Blame | invariant per operand reader: an error holds a word it was given; composition over the operands of all 98 instructions; every reader that stops early can be continued (Proofs/Short) |
| C54 | Props/ErrorKinds | false for two kinds, by C53; witnesses for the others |
| C55 | Props/Outline | relational proof: the parser makes the same steps on both modules; the roles of a layout are computed from its outline |
| C56 | Props/Outline | C21, and uniqueness of the split of the instructions into functions |
| C57 | Props/Expressible | the blocks of a function are laid out for the program, which then spells it (C30); conversely every spelled program is well-formed; with repeated blocks (C57_image_all) the ends required at all occurrences have to agree |
| C58 | Props/Dominance | the paths of a chain are those of the function (C49); in a chain without repeated blocks, by induction on paths, a block is preceded by its guards and followed by what it awaits |
| C59 | Props/Automaton | the automaton is run on each of the six shapes of modules `validate` distinguishes (C24, C25); a prefix is viable iff the automaton reads it |
| C60 | Props/Glsl | `decode` is evaluated on OpExtInst with the set bound; accepted instructions through C15 |
| C61 | Props/FunctionText | the lines of a printed function are those of a structured program (C30); by induction on it they determine it, block by block, with the branch of a block and the line after it telling the constructs apart |
| C62 | Props/FirstError | every operand reader either refuses its first word whatever follows, or reads the same whatever follows (`First`, `Exact`); this is preserved by reading one operand after another, so it holds of every entry of the opcode table |
| C63 | Props/InOrder | the outcome of the search without a bound on the depth (`final`) satisfies the equation of one unfolding; an error passes from a call to the search exactly if the calls before it succeed, which is where everything is fine (C30 place by place). This says exactly when the violations of C28 and C29 happen |
| C64 | Props/Ids | each operand reader, on operand words with the ids replaced, gives the rest and the value with the ids replaced (`ReadsRen`); so does each entry of the opcode table, then the loop by induction on the words, keeping the map of bound sets in step; `validate` by C55 and the layout; control flow by C51. Which words are ids is stated by opcode (`parts`), apart from the types of the fields |
| C65 | Props/Reference | each operand reader leaves the same words as its check, or gives the same error (`CheckRead`); so does each entry of the opcode table for the operands of the reference (`OpChecked`), then the loop by induction on the words, the header and the bytes. No hypotheses |
| C66 | Props/Listing | each operand that is read prints as the reference prints its words (`ShowRead`), each instruction as its line (`OpLists`, by the three forms plain/result/typed), then the loop by induction with the names of the imported sets, the header and the bytes |
| C67 | Props/FlowText | the lines of both printers (C37, C44) are the rows of the reference at any depth, by induction on the chain; the hints by cases; the instructions of a function are a sublist of those of the module (C20), whose lines are those of C66 |
| C68 | Props/StackDepth | a second model of the parser with a number of frames and a count of calls (Model/ParserCost); the exact depth and number of calls by induction on the items of each section; agreement with the first model and the bound on the calls by a potential of `a` calls per instruction read, composed over the phases |
| C69 | Props/SearchCost | a second model of the search with a count of calls (Model/ControlFlowCost); exact depth and calls by induction on the relation that says what is found (C30); the bounds by induction on the chain; with C50 for the linear and the exponential case |
| C70 | Props/PrintCost | a second model of both printers with a number of frames and a count of calls (Model/PrinterCost); exact cost and the comparison with C69 by induction on the chain, the latter with its shape (C34); the deep functions from nested loops with C57 |
| C71 | Props/ReadCost | a second model of the reader with a meter (Model/ReaderCost); exact cost by induction on the loop, on the words of the input, with the verdict of the reference (C65) on each instruction; bounds by induction on the words |
| C72 | Props/Assignment | false of the code: witness. Partial: imports from C14 and C15; that nothing else is checked by induction on the words of an accepted body, with the rows of C64, for a replacement of ids that is injective on imports only |
| C73 | Props/TextSize | from C65 and C66: the text is that of the reference listing and the words pass the reference check; each row of the listing table prints at most 31 bytes for each word it takes, apart from a slack that is computed by instance search and covered by the first word; then induction on the words. Sharp by induction on the number of `OpCapability` |
| C74 | Props/Writing | a second model of all printers as programs that call a writer (Model/Formatter, Model/Write, Model/WritePrinter); each hands over pieces of the text of the first model, by composition (Proofs/Writing) for every type and instruction (Proofs/WritingOps, generated) and by induction on lists and chains (Proofs/WritingFlow, Proofs/WritingStop); with C66, C67, C73 the text and its size. That options reach the operands of an instruction printed by itself is shown by a witness, `C74_options` |
| C75 | Props/Indentation | a third model of the printers, with a limited stack and a `u32` for the indentation that panics or wraps around (Model/PrinterWord); the same as that of C70 while the room or the chain is small, and the overflow otherwise, by induction on the chain |
| C76 | Props/SearchDepth | the bound: calls one inside the other are at different blocks as long as the blocks where the search stops are the same (else it would not end), none of them returns, and every further construct takes one more block away, namely where it ends, or its header if it ends where the function returns; induction on the frames needed. Reached: a row of blocks, then loops one after the other, the body of each of which starts with the row and goes through the loops before (Proofs/Climbing) |
| C77 | Props/SearchSize | every block has one block after it (where its construct merges, or its target), and from each block of an accepted function one comes to the block that returns, so the blocks form a tree. The program is taken apart from its end, by induction on its size: the body of a loop and what is before it lie below the loop; what is before a selection lies below it and nothing on its sides does, as a program is determined by where it starts and ends and so no selection is inside itself. Reached: selections with the next one on both sides, all merging in the last block (Proofs/Branching). The bound was found by enumerating functions of up to five blocks |
| C78 | Props/Nesting | on the way to the innermost construct of a program, every block that starts a construct comes once, and a conditional exit at most twice: once where it leaves its loop and once where it starts it again, since no two of the loops around it start or end at the same block. The block that returns is neither. With one header an exit cannot do both (Proofs/Nesting). Reached: nested loops whose innermost one and the one around it share all exits (Proofs/Twofold). The overflow follows with C75. The bound was found by enumerating functions of up to five blocks |
| C79 | Props/PrintDepth | two lists of different blocks, each without the block that returns, that together count the levels on the way to the innermost part of a chain: a header is in both, for its construct and the list it is in; a conditional exit is in one of them where it leaves its loop and in the other where it starts it again, and if a list starts just before it, the block before it or the exit itself is in the other one as well (Proofs/Levels). Reached by the loops of C78. The rest follows with C70. The bound was found by enumerating functions of up to five blocks |
| C80 | Props/Slack | `tidyWords` clears what is not looked at, on words only. The canonical words of an instruction are the tidied ones it was read from, by induction on its operands, and what reads the tidied words reads the words (Proofs/Slack). For the errors the readers of the sixteen instructions with strings or masks are followed step by step (Proofs/SlackErrors) |
| C81 | Props/Forgets | the chain of an accepted function tells its structured program, and the program tells how its blocks end; conversely being spelled depends only on these ends (Proofs/Forgets, by induction on the program) |
| C82 | Props/ForgetsText | one way C61 and C81; the other way C81 gives the same control flow, and the rows of C67 depend only on the lines of the blocks in it (Proofs/ForgetsText) |
| C83 | Props/Utf8 | table 3-7 as ranges of bytes (Spec/Utf8); each row against Lean's encoding of a character by arithmetic, then induction over the sequences (Proofs/Utf8); acceptance from C08 |
| C84 | Props/Split | the search before and after in step, by induction on the depth, in both directions (Proofs/Split); the chain after is a function of the chain before (Spec/Split); a witness for loop headers |
| C85 | Props/Sequence | the search of the first part goes on as before until it would return, by induction on the depth; from there it is the search of the second part (Proofs/Sequence) |
| C86 | Props/Insert | as C84, with the search of the function inserted (as in C85, below any enclosing constructs) in place of the second half (Proofs/Insert) |
| C87 | Props/Standard | tables of the standard in Spec/Standard, written from the text of the standard and independent of the reader; each check of the reference (C65) against a kind of operand, each entry of its table against a line of the grammar, then induction over the words (Proofs/Standard). The standard's rules about more than one instruction (layout, types, the number of words of a constant) are not part of it. |
| C88 | Props/StandardLayout | the layout of the standard as a language of kinds of instructions (Spec/StandardLayout); a word of the language is the layout of a logical module (Proofs/StandardLayout), then C21. Later revisions of the standard allow OpUndef outside functions; this is not part of it, and the crate refuses it. |
| C89 | Props/StandardFlow | control flow graph, dominance and the rules in Spec/StandardFlow (walks also go from a header to its merge block and continue target, the structural graph of the later versions of the standard; a back edge is an edge to a block on a way without repetition); the places of a structured function form trails on which no block comes twice (Proofs/StandardFlow), so the search ends and its depth is bounded (Proofs/StandardDepth); a construct is on the stack of a place exactly if its header and merge block say that the block is inside (Proofs/StandardPlain). Then C30. The concrete functions are shown to obey the rules by a checker that is proved sound (`structured_of_checked`). The rules are my reading of the standard, which is not part of /repo. |
| C90 | Props/Exchange | exchanged ends, blocks, functions, chains and decisions in Spec/Exchange; one step of the search commutes with the exchange where it succeeds (both branches are searched with the same constructs around them, and the test is symmetric), by induction on the depth; exchanging twice changes nothing, which gives the converse. Executions step by step, then C27. |
| C91 | Props/Dominators | what a chain can pass by, in Spec/Passing, and ways along branches, in Spec/Course; by induction on chains, with the rounds of a loop by induction on their number, a chain passes a block by for some decisions exactly if the specification says so, and likewise for the first and last visits; executions are ways along branches, then C27. |
| C92 | Props/Meaning | runs of blocks and of structured programs over any machine, in Spec/Meaning; a run of the blocks is one with the decisions its conditions take, and along these decisions the structured program goes through the same states, by induction on chains and on the rounds of loops; then C27. |
| C93 | Props/WordMeaning | runs of words over any machine, in Spec/WordMeaning; the words between a label and the merge or end of its block spell the code of the block that `validate` returns (by C20 and the framing of C01), so a run of the words is a run of the blocks; then C92. That words spell one instruction is C01 for a single instruction |
| C94 | Props/Strip | a choice of instructions is a list of marked items (Spec/Strip); what is left of a spelling is a spelling (C01), what is left of a layout is a layout (C21), section by section; control flow by C32. What has to be kept is counted: labels against ends of blocks, OpFunction against OpFunctionEnd |
| C95 | Props/Canonical | `bare` (Spec/Canonical) says what is taken away. Both chains are programs whose blocks go where the function says (C30); same executions mean the same graph. Then by induction on the number of blocks: a loop header is come back to without leaving the program and no other block is; two selections of one block merge at the same block, and two loops of one block end at the same block, since otherwise one of them lies inside the other and control could come back from behind it. That nothing more than `bare` can be taken away follows from C95_bare. C95_twice, C95_endless: the conditions are needed |
| C96 | Props/FromBinary | C02 and C18 give the modules that are read, C21 those that are validated. For any function, its labels, merge instructions and branches are put behind a memory model and a function that returns at once; this is serialisable and in layout, and by C32 the control flow is that of the function. C96_crashes: the witnesses of C28 and C29 come from binaries |
| C97 | Props/NaturalLoops | natural loops by ways along branches, in Spec/NaturalLoop; a set of blocks that are all come to from each other lies, by induction on the structured program of C30, in a loop whose start belongs to it; that this start is the block of the natural loop follows from C91, since both dominate each other. The other way round, every block of a loop comes back to its start (as in C95). C97_twice and C97_endless: witnesses that the conditions are needed |
| C98 | Props/Excerpt | places in a chain and functions made of some blocks, in Spec/Excerpt; by induction on the structured program of C30 the construct at a place has a program of its own, which does not depend on the loops around it if it has no exits, and which the blocks of the excerpt spell; C30 the other way round. C98_leaving: a witness that the condition on arms is needed |
| C99 | Props/Replace | chains, ends of blocks and functions with a part replaced, in Spec/Replace; the structured programs of C30 for both functions are put together, and the blocks of the result spell that program; it is nested because the blocks of the second function occur nowhere else; C99_emptied: the same with an empty program |
| C100 | Props/Hoare | the rules are inductive definitions on chains (Spec/Hoare), for conditions that are any predicates on configurations. Runs of a chain as a big-step relation with the number of visits, shown to be what `execOn` computes, including runs that are cut off; soundness by induction on proofs, completeness by induction on chains: the invariant of a loop is that what has to hold holds from there on, and the number that goes down is that of the visits left (Proofs/Hoare). Then C92, and C93 for words |
| C101 | Props/Copies | `Copies` (Spec/Copies) speaks of the places of the function with copies only (Spec/Place): what is at a place that can be reached is a copy of a block of the other function, and no copy of a block where a body around the place ends is met there. The search of Proofs/Rename again, now along the reachable places, with `search_ends` for where a search can stop. `C101_single` is the special case that can be checked without places; `C101_apart` shows that the condition is needed. Contains C51 as the case of an injective map. |
| C102 | Props/Regular | `ways` (Spec/Regular) turns a chain into regular expressions of Mathlib (`RegularExpression`, with `matches'` as their meaning), one for each way a chain can end and one for being cut off. Both inclusions by induction on the chain, for loops on the list of rounds; then C27. `C102_decided` uses Mathlib's `rmatch`. |
| C103 | Props/Cost | `cheapest` and `dearest` (Spec/Cost) are computed on the regular expression of C102, by induction on it; that there is a bound exactly without loops by induction on the program of C57. |
| C104 | Props/TextMeaning | from C82, C92 and C93: what a chain computes depends on the code and branches of the blocks it mentions only (Proofs/TextMeaning), and these are determined by the text. For sets of extended instructions printed without line breaks and differently where they differ, as GLSL.std.450. |
| C105 | Props/Monitor | the image of a set of states under a regular expression (`after`, Spec/Monitor) against Mathlib's languages: by induction on the expression; a repetition comes to an end after as many rounds as there are states, as a set that grows cannot have more (Proofs/Monitor). With C102. |
| C106 | Props/Edit | reading: the entries of the opcode table look at the imported sets by id only, so after other instructions with the same imports the rest is read alike, errors included (Proofs/Edit). Validation: from C55 and C20: equal outlines align the layouts of both modules, so the labels and ends of the blocks are the same (Proofs/EditLayout); then C32. Errors of the new instructions themselves are covered by C17. |
| C107 | Props/Unfold | from C30: the program that the blocks spell is numbered by its places (Proofs/Unfold), the blocks are copied to the places, and the copies spell the numbered program, so C30 and C32 give its chain back. The computations are related step by step, since copies are never stuck (C27). That the unfolded function can be exponentially longer than the function is C69_exponential. |
| C108 | Props/Debug | `derive(Debug)` for every type that a module, a logical module, control flow or an error is made of (Model/Debug, Model/DebugTypes, Model/DebugOps, Model/DebugModules, Model/DebugChain). The law: if two outputs followed by a text that does not continue a word are the same, then the values and the rests are the same. It is shown for the types of fields (Proofs/Debug), kept by the builders for tuples, structs and lists, and shown type by type (the generated Proofs/Debug..., and Proofs/DebugChain by induction on chains). No newline: strings are escaped |
| C109 | Props/Odds | the average over the first n visits is defined on the basic blocks by what the first block does (Spec/Odds), in the extended nonnegative reals; the average is the supremum. From C30: induction on the program that the blocks spell. For at most: the bound for n visits has what is left after n visits where control leaves the part, and for loops induction on n. For at least: the supremum solves the equations of the blocks, and whatever solves the equation of a loop is at least the geometric series (Proofs/Odds). Almost surely: the chances to end in one of the ways add up to one exactly if every loop has a break (Proofs/OddsMass). Weights of 0 and 0 are taken as never |
| C110 | Props/Census | the executions that return at the n-th block they visit are listed from the basic blocks (Spec/Census), and are those of runBlocks (C110_executions). Their generating function solves the equations of the blocks, coefficient by coefficient; from C30 by induction on the program that the blocks spell, the generating function of the program solves the same equations, and that of a loop has one solution since each round visits the head (Proofs/Census) |
| C111 | Props/LoopBound | keeping the bounds is said of the trace alone (Keeps in Spec/LoopBound): of every stretch of it that stays in a loop. By induction on the chain: a stretch that stays in a loop of one part has no block of the other parts, and one that stays in a loop inside of a loop has not the head of the outer one, so it is in a single round (Proofs/LoopBound); then C102, C103, and C97 for the natural loops |
| C112 | Props/Dataflow | the ways, the equations and the states are said of the basic blocks alone (Arrives, Solves, Comes in Spec/Dataflow), the analysis by recursion on the chain (flow, flowAt). By induction on the program (Proofs/Dataflow): every way stays covered until it leaves, in a loop by strong induction on its length; every solution covers the analysis, since its value at the head of a loop covers what comes to it; the analysis solves the equations if no block is mentioned twice. The join over all ways is a solution if the changes respect joins, so both bounds meet. The least covering value is an infimum in the lattice, not an iteration |
| C113 | Props/Liveness | what is needed is said of the basic blocks alone (Needed in Spec/Liveness), the pass by recursion on the chain (needs, needsAt; computable). By induction on the program (Proofs/Liveness): what the pass finds is needed; what is needed on a way is found, in a loop by strong induction on the length of the way, since a second look at the body adds nothing (needs_split: what is needed for one of several ends is needed for one of them). The executions by induction on the visits. That the sets of a machine are right (Usage.Right) is assumed of the machine, as nothing is assumed about what instructions do; an example has it. Which variables the instructions of a binary read is not modelled |
| C114 | Props/DeadCode | what is needed after a block is said of the basic blocks (NeededAfter in Spec/DeadCode), the pass by recursion on the chain (needsOut), the removal by recursion on the code (prune; computable). What is needed after the blocks by induction on the program (Proofs/DeadCode); the code by induction, with the values the same where they are needed after each instruction; the executions by induction on the visits, over blocks that control can come to (which the chain mentions, C112). Which variables an instruction reads and writes is a parameter (Access) that the machine has to keep to, as nothing is assumed about what instructions do; an example has it for additions and multiplications. An instruction is kept if its result is read by a removed one: the pass is not repeated |
| C115 | Props/Values | the values read, and the other ids, are listed instruction by instruction (valuesRead, otherIds in Spec/Values); that none is missing or made up is proved against Mentions (C72), which says that another id in its place gives another instruction. Memory is one variable, so every store is kept. Any meaning of the form Denotation reads and writes accordingly, and C114 gives the rest |
| C116 | Props/Scope | ways are those of C91 (Course). What OpPhi uses counts as used at the end of the blocks that the values come from, so a value that is given too late is one needed before the function in the sense of C113, and the pass of C113 decides it. With every value given once, 'given on every way' and 'given in a block that strictly dominates' are the same. Executions: what is known on the way so far stays the same in both, instruction by instruction. C116_unchecked is a witness that the code does not check this |
| C117 | Props/Optimise | the tool is composed of the model's readModule, validate and findControlFlow, the pass of C115 and the canonical writer of C02 (Spec/Optimise). What is left of a module is serialisable since imports are never in functions (serialisable_sublist), and a layout (C21). Executions: C115 round by round. A round that changes something makes the code shorter, so it settles; that what is left is of use is C114 read backwards |
| C118 | Props/Arrange | the rule is stated with Course and Walk of the control flow graph (Spec/Arrange, Spec/StandardFlow). By induction on the chain control comes to each reached place by way of earlier places only (comes_earlier), so by C91 a dominator has an earlier place; for merge edges the same by induction on the structured program (leads_ids). Sameness: C31 and blockOf on permuted blocks; the binary as in C117. Dominance is for blocks that some way leads to; blocks outside the chain keep their order at the end |
| C119 | Props/Uniform | the claim is about traces and final states of runMachine (Spec/Meaning) on the blocks; by C92 it is shown for the structured program instead, by induction on the chain for two executions at once with different numbers of visits (exec_together; loops by induction on the rounds of both, repeat_together). A construct in which executions part is a step aside (exec_aside) after which the signals are alike again. The top level cannot be left because of C34. The check is ours, not the repository's (Spec/Uniform). Executions that have not returned are compared by a second induction (exec_ahead) |
| C120 | Props/Shared | a greatest fixed point (Spec/Shared): the check of C119 passes exactly if nothing spoilt is in the set (uniform_iff), and a smaller set spoils more (spoilt_mono, by induction on the chain: more conditions differ, more blocks are visited apart, control strays more). Every round takes away a variable that is written or nothing is left to do, which bounds the rounds. The largest set is meant for the check, not for the executions, for which it would depend on the meaning of instructions |
| C121 | Props/Simt | lockstep execution with masks (Spec/Simt), by induction on the chain and on the rounds of loops: nothing happens to lanes outside a mask (simt_idle); from an execution of one lane by itself (execOn of C92) to the group (simt_lane) and back (simt_alone), and with C92_meaning to the branch instructions. The full masks (simt_full) use exec_together of C119 for each pair of lanes: all take the same branch, or none, where the condition does not differ. The lanes share nothing: memory that one lane writes and another reads is not in this model |
| C122 | Props/Phi | ways along branches (Course of C97) for the rule, `reached` of C49 for the pass over the chain; executions by induction on the visits along the way so far (run_alike: two machines, and blocks with different code, that do the same on every way). Where control cannot come (blocks that are not reached) nothing is demanded, unlike in the standard |
| C123 | Props/Unread | partial: false of the constituents of OpCompositeConstruct (`C123_violated`), and of nothing else (`C123_exact`). Text against a table of operands by opcode (Spec/Unread) and the words of each instruction, operand by operand (shown_mid, shown_end, shown_any, shown_all); injectivity as in C40. The alignment that the standard puts after the mask of a copy has no field in the crate and is not in the words |
| C124 | Props/Settle, Props/Proved, Props/Leave | proved. The program of C30 with the arm in place of the selection (`prune`) is spelt by the changed blocks, is nested, and gives the changed chain (Proofs/Settle); execution by induction on the number of visits; what no instruction writes keeps its value along an execution (`run_unwritten`), so the conditions that read only that go as at the start. `C124_proved`, `C124_provable`: with the rules of C100. `C124_refused`, `C124_refused_with`: a program of the changed blocks goes along with the one of the blocks up to the branch that leaves the loop (`leave_refused`), from where it comes to the header of the loop from its merge block, which cannot be (`no_return` of C125). `C124_leaving`, `C124_mixed`: functions that show that the exceptions are needed |
| C125 | Props/Own | proved. Where a search goes on after a block (its target, or the merge block of its construct) does not depend on the constructs around it, so a program that starts at a block in a loop body comes to the header of the loop (`reach`); if the merge block were in the body, what comes after the loop would contain the loop and what comes after it, and so be longer than itself (`no_return`). Arms: programs with the same start and end have the same blocks (`same_ids`), so an arm that contains the header would be longer than itself. `C125_again`: not so for conditional branches without merge block |
| C126 | Props/Keep | proved. Step by step, the search with fewer blocks gives the same or asks for a block that is gone (`search_less`, for any outcome); the program of C30 is spelt by the blocks it mentions (`spelt_sub`); an execution that never misses a block is the same with more blocks (`run_more`) |
| C127 | Props/OneTarget | proved. Control flow by C124, as none of these branches has to be taken as one that leaves a loop; execution by induction on the number of visits; the arms are found by the same search, which has one outcome (`found_arms`). `C127_next_round`: a branch without merge instruction |

## Findings about the code

* Version words such as `0x00F10000` are accepted; `UnknownVersion` is unreachable (C09, C10), as is
  `WrongWordCountForOp` (C54).
* A word count of 0 is taken as 1 (C06, C43).
* Reserved mask bits are ignored (C11); string padding is not checked (C08); the id bound is not enforced (C19); ids may be assigned twice or never (C72).
* Loads and stores with an alignment are rejected (C47).
* `OpTypeEvent`, `OpTypeDeviceEvent`, `OpTypeQueue`, `OpTypePipe`, `OpTypeForwardPointer` are never produced;
  opcodes 34-39 and 73-75 give `UnknownOp` though the structs exist or the opcodes are standard (C13).
* A function declaration after a definition becomes a definition without blocks (C24).
* `validate` reports `UnexpectedInstruction` only when exactly one instruction is left, also for a lone
  `OpFunction` (C25).
* `validate` recurses once per item of a section or block, so a long block overflows the stack unless the
  compiler turns the tail call into a loop (C68).
* `find_control_flow` recurses forever on cycles outside of loop constructs (C28), panics on two shapes (C29),
  may give a chain exponentially larger than the function (C50, exactly how large in C77), in exponential time (C69)
  and with a quadratically deep stack (C76); `Failed` is unreachable (C33).
  A conditional break or continue inside of a selection is rejected unless the selection ends the loop body (C57).
* The constituents of `OpCompositeConstruct` are declared as literal numbers and printed without `%` (C123); the
  reader does not know the instruction.
* The function printer prints hints and weights before the indentation (C44).
* The disassembly is ambiguous because of newlines in strings and of unregistered generators (C40). A newline
  matters only if the left column and `Op` of an instruction follow it (C40_module_partial). Quotes in
  strings and unquoted linkage names do not make it ambiguous (C40_instruction).
* Misspelt: `TesselationControl`, `TesselationEvaluation`, `PatchVerticies`, `OutputVerticies`,
  `FpRoundingMode`, `FpFastMathMode` (C46).

## Trusted base

* Lean's kernel, and the axioms below; no `sorry`, no axioms of our own, no `native_decide`, no `bv_decide`.
* That the model says what the Rust code does. This is by reading: every definition cites the lines it models.
  `Conformance.lean` evaluates the model on the fixtures of the repository. The semantics of the Rust
  standard library that the code uses (`from_utf8`, `HashMap`, slices, `write!` of integers) are as represented.
  `String::from_utf8` is taken to accept well-formed UTF-8 as documented; that Lean's strings, which stand for it, are
  the sequences of the table of the Unicode standard is proved (C83).
* That the tables in `Spec/Numbers`, `Spec/Opcodes`, `Spec/Names` are those of the SPIR-V 1.0 standard (written
  from memory; no network in the sandbox).

Axioms per theorem (from `#print axioms`, written by `tools/axioms.py`):

<!-- axioms -->
| axioms | theorems |
|---|---|
| none | C12_execution_mode_accepted, C42_glsl_clone |
| Classical.choice, Quot.sound, propext | C01_read_iff_spells, C01_spelling_unique, C02_read_encode, C02_encode_injective, C03_byte_order, C04_total, C04_total_glsl, C05_prefix, C05_cut_on_boundary, C06_framing, C07_excess, C07_excess_ext, C07_missing, C07_missing_any, C08_string, C08_no_terminator, C08_no_nul, C08_not_beyond, C09_violated, C09_version_partial, C09_accepted_partial, C10_no_magic, C10_short_header, C10_schema, C10_after_header, C10_unknown_version, C10_bad_magic, C10_fields, C10_tools, C11_violated, C12_decoration, C12_decoration_accepted, C13_unimplemented, C13_unknown, C13_unimplemented_only, C13_unknown_only, C13_supported, C13_named, C14_imports_distinct, C14_duplicate, C15_decoded_by_set, C15_not_imported, C16_unknown_set, C16_more_sets, C17_error_local, C18_reserialise, C18_canonical_length, C18_reserialise_glsl, C19_violated, C19_bound_unused_partial, C20_lossless, C20_injective, C21_layout_iff, C21_unique, C22_total, C23_variables, C24_violated, C24_first_body_partial, C24_bodies_partial, C25_function, C25_branch, C25_function_end, C25_memory_model, C25_unexpected_partial, C26_sections, C26_globals, C26_correspond, C27_executions, C27_never_stuck, C28_depth, C28_cycles_partial, C28_endless, C28_paths_partial, C30_places_iff, C31_block_order, C32_unreachable, C36_panics, C36_no_panic, C37_indented, C37_balanced, C38_layout, C38_column, C38_result, C39_text, C39_lines, C39_append, C40_instruction, C40_module_partial, C40_registered_partial, C40_violated, C40_violated_generator, C40_joined, C40_shared_partial, C40_determined_partial, C41_enumerants, C41_payloads, C41_flags, C41_none, C43_tail_partial, C43_canonical_tail_partial, C43_executions, C43_violated, C43_tail_tidy_partial, C44_listing, C44_balanced, C44_indented_partial, C44_violated, C45_text_unambiguous, C45_only_recovered, C46_built_in_partial, C46_function_parameter_attribute, C46_fp_rounding_mode, C46_linkage_type, C46_addressing_model, C46_memory_model, C46_execution_model_partial, C46_capability, C46_signedness, C46_storage_class, C46_dim, C46_depth_status, C46_arrayed, C46_ms, C46_sampled_status, C46_image_format, C46_access_qualifier, C46_source_language, C46_execution_mode_partial, C46_decoration_partial, C46_memory_access, C46_fast_math, C46_selection_control, C46_function_control, C46_loop_control, C46_violated, C47_violated_load, C47_violated_store, C47_load_partial, C47_store_partial, C48_kinds, C48_line, C49_covers, C49_visited, C49_returned, C49_live_partial, C49_returns_partial, C50_violated, C50_distinct_partial, C50_bound, C50_once_partial, C50_once_iff, C52_concatenate, C52_clash, C53_justified, C53_justified_glsl, C54_violated, C54_returned_partial, C55_outline, C56_functions, C56_alone, C57_expressible, C57_image, C57_image_all, C58_before, C58_after, C59_automaton, C59_longest, C59_local, C60_imports, C60_instructions, C60_operands, C60_unknown, C61_chain, C61_blocks, C61_executions, C61_continue_target_lost, C62_first, C63_error, C63_panic, C63_endless, C63_fine, C64_read, C64_injective, C64_validate, C64_all, C65_outcome, C65_accepted, C65_error, C66_text, C66_outcome, C66_glsl, C67_chain, C67_function, C67_recovered, C67_code, C68_depth, C68_calls_exact, C68_enough, C68_depth_le, C68_long_block, C68_unbounded, C68_calls, C69_same, C69_depth, C69_calls, C69_output, C69_linear, C69_exponential, C70_chain, C70_enough, C70_function, C70_found, C70_room, C70_deep, C71_exact, C71_accepted, C71_reads, C71_asked, C71_bound, C71_accepted_bound, C71_greedy, C71_lists, C72_violated, C72_imports_partial, C72_nothing_else_partial, C72_one_id, C73_bound, C73_glsl, C73_sharp, C73_least, C74_module, C74_chain, C74_function, C74_function_panics, C74_rows, C74_error, C74_instruction, C74_string, C74_buffer, C74_fits, C74_options, C75_chain, C75_function, C75_recovered, C75_exact, C75_function_exact, C75_sharp, C76_bound, C76_blocks, C76_sharp, C76_quadratic, C77_bound, C77_blocks, C77_sharp, C78_sharp, C78_printed, C78_overflows, C79_bound, C79_sharp, C79_printed, C79_overflows, C80_tidy, C80_outcome, C80_same, C80_exact, C80_canonical, C80_idempotent, C80_exact_glsl, C81_determined, C81_enough, C82_exact, C83_bytes, C83_accepted, C83_rejected, C83_unique, C83_all, C83_module, C84_outcome, C85_outcome, C85_text, C86_outcome, C86_inline, C87_exact, C87_standard, C87_aligned, C87_same, C88_gap, C88_standard, C88_untidy, C89_returns, C89_exact, C89_errors, C89_refused, C90_executions, C90_program, C91_before, C91_after, C91_always, C91_dominates, C91_postdominates, C91_nesting, C92_meaning, C92_returns, C93_words, C93_every, C93_respects, C94_read, C94_validate, C94_needed, C95_same, C96_modules, C96_functions, C96_control_flow, C96_crashes, C97_cycle, C97_found, C97_natural, C98_left, C98_right, C98_selection, C98_loop, C99_replaced, C99_emptied, C100_proves, C100_ends, C100_words, C101_copies, C101_single, C102_returned, C102_running, C102_decided, C103_cheapest, C103_dearest, C103_bounded, C103_returns, C104_text, C104_words, C105_returned, C105_running, C105_decided, C106_read, C106_flow, C106_patch, C107_unfold, C107_computes, C107_same, C108_module, C108_instruction, C108_logical, C108_function, C108_chain, C108_errors, C108_line, C108_log, C108_beyond, C109_cost, C109_visits, C109_returns, C109_certain, C109_finite, C109_possible, C110_weight, C110_count, C111_ways, C111_dearest, C111_running, C111_natural, C112_exact, C112_states, C112_gap, C112_twice, C114_reads, C114_dead, C115_mentions, C115_memory, C116_check, C116_dominated, C116_executions, C116_unchecked, C117_accepted, C117_refused, C117_same, C117_useful, C118_order, C118_structural, C118_blocks, C118_flow, C118_kept, C118_computes, C118_check, C118_accepted, C118_unordered, C118_mentions, C119_uniform, C119_prefix, C119_meanwhile, C119_count, C119_lockstep, C119_values, C120_largest, C120_monotone, C120_shared, C121_returns, C121_all, C121_alone, C121_issues, C121_full, C121_count, C121_lockstep, C122_comes, C122_check, C122_told, C122_pruned, C122_exact, C122_unchecked, C123_text_partial, C123_exact, C123_violated, C123_inj, C123_apart, C123_refused, C123_names, C124_refused_with, C124_provable, C124_proved, C124_flow, C124_specialised, C125_plain, C125_selection, C126_computes, C127_flow, C127_next_round |
| Quot.sound, propext | C11_memory_access_partial, C11_fast_math_partial, C11_selection_control_partial, C11_loop_control_partial, C11_function_control_partial, C12_built_in, C12_function_parameter_attribute, C12_fp_rounding_mode, C12_linkage_type, C12_addressing_model, C12_memory_model, C12_execution_model, C12_capability, C12_signedness, C12_storage_class, C12_dim, C12_depth_status, C12_arrayed, C12_ms, C12_sampled_status, C12_image_format, C12_access_qualifier, C12_execution_mode, C12_source_language, C25_violated, C28_violated, C28_nested_partial, C29_no_panic_partial, C29_places_partial, C30_complete, C30_accepted_iff, C32_contents, C33_no_blocks, C33_duplicate, C33_unknown, C33_could_not_predict, C33_invalid, C33_failed, C33_place, C34_shape, C35_blocks_and_hints, C51_renamed, C55_roles, C57_only, C60_read, C62_unique, C64_control_flow, C65_glsl, C78_bound, C78_blocks, C79_blocks, C81_exact, C81_needed, C84_forth, C84_back, C84_loop_header, C85_forth, C85_back, C86_forth, C86_back, C87_kinds, C87_wider, C87_unique, C90_exchanged, C90_errors, C94_flow, C95_bare, C95_determined, C97_twice, C98_leaving, C110_executions, C112_safe, C112_tight, C112_least, C113_start, C113_at, C113_irrelevant, C113_once, C114_after, C114_usage, C114_same, C115_right, C117_settles, C120_unwritten, C121_some, C124_refused, C124_computes, C124_leaving, C125_loop, C126_removed, C126_exact, C126_missing, C127_computes, C127_arms |
| propext | C12_tool, C26_header_irrelevant, C29_violated, C42_glsl, C42_equivalence, C42_different_sets, C42_clone, C42_needs_faithful, C49_violated, C51_injective, C64_glsl, C90_exits, C95_twice, C95_endless, C97_endless, C101_apart, C113_blocks, C113_blocksAll, C114_blocks, C114_blocksAll, C119_phi, C121_idle, C124_mixed, C124_less, C125_again |
<!-- end -->
