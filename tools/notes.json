{
 "C09": "The code accepts version words the English claim forbids (unused bytes are masked); C09_violated is a witness and the partial theorems characterise what is accepted.",
 "C11": "Undefined flag bits are ignored by the code; C11_violated is a witness. The partial theorems give the exact meaning of every defined bit.",
 "C19": "The code does not enforce the id bound; C19_violated is a witness, C19_bound_unused_partial shows the bound has no effect on decoding.",
 "C24": "Declarations following a definition become definitions without blocks; C24_violated is a witness. The partial theorems: the first definition has a block; all have exactly if no function without body follows one with a body.",
 "C25": "UnexpectedInstruction is only reported when exactly one instruction remains, and the claim fails for it exactly if that instruction is OpFunction; C25_violated is a witness.",
 "C28": "The search does not end for some functions; C28_violated is a witness. C28_depth shows for every function that a recursion depth of blocks * (constructs + 1) + 1 already decides the outcome, so non-termination is decidable. C28_nested_partial and C28_cycles_partial prove termination for properly nested functions and for functions without a cycle outside the loop constructs. C28_endless and C28_paths_partial say it without the search: if it does not end there is an endless path through the places of the function, and where there is no such path it ends. C63_endless says exactly for which functions it does not end.",
 "C29": "The code panics on two shapes of blocks; C29_violated has a witness for each. C29_no_panic_partial covers every function without such blocks. C29_places_partial needs this only of the places that can be reached. C63_panic says exactly for which functions it panics.",
 "C40": "The module text is ambiguous in two ways: newlines inside strings and unregistered generator numbers; C40_violated and C40_violated_generator are witnesses. The text of one instruction determines it; the partial theorems cover all modules in whose strings no newline is followed by what an instruction begins with. C40_shared_partial says exactly which of them share their text with another module, whatever the strings of that one.",
 "C42": "Sets outside of the crate are modelled as arbitrary implementations; the laws for them need that they are implemented faithfully (C42_needs_faithful).",
 "C43": "C43_executions is proved in full. Written back to canonical words, the functions need not be the end of the input (C43_violated); the partial theorems say what the end of the input is.",
 "C44": "Hints and weights are printed at the start of the line of the brace, so the indentation claim is false for functions with hints (C44_violated), and it holds exactly for those without (C44_indented_partial); the listing and the balance of braces are proved in full.",
 "C45": "Proved for the chains that find_control_flow returns; chains in general are ambiguous, a block of one chain prints as that chain (C45_only_recovered).",
 "C49": "Every visited block is in the chain (C49_covers). The converse is false: the merge block of a loop that is never left is in the chain (C49_violated). C49_visited and C49_returned say exactly which blocks of the chain some execution visits and when some execution returns: what follows a construct that cannot end is dead. If every loop has a break nothing is (C49_live_partial, C49_returns_partial).",
 "C50": "False: a block reached from both sides of a selection without being its merge block is expanded twice, and 2n+3 blocks can give a chain of 2^(n+1) ids (C50_violated). C50_once_iff says exactly when no block is mentioned twice, C50_bound that there is a bound on the chain, and C77 how large it is at most; C50_distinct_partial and C50_once_partial prove the property for functions that enter each block once.",
 "C46": "Six names are misspelt (C46_violated); the theorems say that exactly these are misspelt, for all operands. Masks are proved in full.",
 "C47": "False: every load or store with an alignment is rejected as having excess data, in every module (C47_violated_load, C47_violated_store). Masks without bit 1 are read.",
 "C48": "Proved for all errors; the printed text drops the payload.",
 "C51": "For the result with any depth of recursion. C51_injective: renaming two ids to one can change the result.",
 "C52": "C52_clash gives the error. The bound of the header is that of both, as it is not used.",
 "C53": "C53_justified for any sets whose errors are about their own instructions, C53_justified_glsl for GLSL.std.450.",
 "C54": "False for WrongWordCountForOp and UnknownVersion (C54_violated); a witness for each other kind (C54_returned_partial).",
 "C72": "False of the code; C72_violated is a witness. C72_imports_partial says what is checked, C72_nothing_else_partial and C72_one_id that nothing else is.",
 "C123": "False of OpCompositeConstruct with constituents, which are ids but are printed as numbers (C123_violated). C123_exact says that the text is right for everything else; the text determines the instruction, is never that of an instruction that is read, and modules with such instructions are refused (all in full)."
}
