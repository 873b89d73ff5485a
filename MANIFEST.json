{
 "claims": [
  {
   "property": "C01",
   "status": "proved",
   "theorems": [
    "Magma.Props.C01_read_iff_spells",
    "Magma.Props.C01_spelling_unique"
   ],
   "note": ""
  },
  {
   "property": "C02",
   "status": "proved",
   "theorems": [
    "Magma.Props.C02_read_encode",
    "Magma.Props.C02_encode_injective"
   ],
   "note": ""
  },
  {
   "property": "C03",
   "status": "proved",
   "theorems": [
    "Magma.Props.C03_byte_order"
   ],
   "note": ""
  },
  {
   "property": "C04",
   "status": "proved",
   "theorems": [
    "Magma.Props.C04_total",
    "Magma.Props.C04_total_glsl"
   ],
   "note": ""
  },
  {
   "property": "C05",
   "status": "proved",
   "theorems": [
    "Magma.Props.C05_prefix",
    "Magma.Props.C05_cut_on_boundary"
   ],
   "note": ""
  },
  {
   "property": "C06",
   "status": "proved",
   "theorems": [
    "Magma.Props.C06_framing"
   ],
   "note": ""
  },
  {
   "property": "C07",
   "status": "proved",
   "theorems": [
    "Magma.Props.C07_excess",
    "Magma.Props.C07_excess_ext",
    "Magma.Props.C07_missing",
    "Magma.Props.C07_missing_any"
   ],
   "note": ""
  },
  {
   "property": "C08",
   "status": "proved",
   "theorems": [
    "Magma.Props.C08_string",
    "Magma.Props.C08_no_terminator",
    "Magma.Props.C08_no_nul",
    "Magma.Props.C08_not_beyond"
   ],
   "note": ""
  },
  {
   "property": "C09",
   "status": "partial",
   "theorems": [
    "Magma.Props.C09_violated",
    "Magma.Props.C09_version_partial",
    "Magma.Props.C09_accepted_partial"
   ],
   "note": "The code accepts version words the English claim forbids (unused bytes are masked); C09_violated is a witness and the partial theorems characterise what is accepted."
  },
  {
   "property": "C10",
   "status": "proved",
   "theorems": [
    "Magma.Props.C10_no_magic",
    "Magma.Props.C10_short_header",
    "Magma.Props.C10_schema",
    "Magma.Props.C10_after_header",
    "Magma.Props.C10_unknown_version",
    "Magma.Props.C10_bad_magic",
    "Magma.Props.C10_fields",
    "Magma.Props.C10_tools"
   ],
   "note": ""
  },
  {
   "property": "C11",
   "status": "partial",
   "theorems": [
    "Magma.Props.C11_memory_access_partial",
    "Magma.Props.C11_fast_math_partial",
    "Magma.Props.C11_selection_control_partial",
    "Magma.Props.C11_loop_control_partial",
    "Magma.Props.C11_function_control_partial",
    "Magma.Props.C11_violated"
   ],
   "note": "Undefined flag bits are ignored by the code; C11_violated is a witness. The partial theorems give the exact meaning of every defined bit."
  },
  {
   "property": "C12",
   "status": "proved",
   "theorems": [
    "Magma.Props.C12_built_in",
    "Magma.Props.C12_function_parameter_attribute",
    "Magma.Props.C12_fp_rounding_mode",
    "Magma.Props.C12_linkage_type",
    "Magma.Props.C12_addressing_model",
    "Magma.Props.C12_memory_model",
    "Magma.Props.C12_execution_model",
    "Magma.Props.C12_capability",
    "Magma.Props.C12_signedness",
    "Magma.Props.C12_storage_class",
    "Magma.Props.C12_dim",
    "Magma.Props.C12_depth_status",
    "Magma.Props.C12_arrayed",
    "Magma.Props.C12_ms",
    "Magma.Props.C12_sampled_status",
    "Magma.Props.C12_image_format",
    "Magma.Props.C12_access_qualifier",
    "Magma.Props.C12_execution_mode",
    "Magma.Props.C12_decoration",
    "Magma.Props.C12_execution_mode_accepted",
    "Magma.Props.C12_decoration_accepted",
    "Magma.Props.C12_tool",
    "Magma.Props.C12_source_language"
   ],
   "note": ""
  },
  {
   "property": "C13",
   "status": "proved",
   "theorems": [
    "Magma.Props.C13_unimplemented",
    "Magma.Props.C13_unknown",
    "Magma.Props.C13_unimplemented_only",
    "Magma.Props.C13_unknown_only",
    "Magma.Props.C13_supported",
    "Magma.Props.C13_named"
   ],
   "note": ""
  },
  {
   "property": "C14",
   "status": "proved",
   "theorems": [
    "Magma.Props.C14_imports_distinct",
    "Magma.Props.C14_duplicate"
   ],
   "note": ""
  },
  {
   "property": "C15",
   "status": "proved",
   "theorems": [
    "Magma.Props.C15_decoded_by_set",
    "Magma.Props.C15_not_imported"
   ],
   "note": ""
  },
  {
   "property": "C16",
   "status": "proved",
   "theorems": [
    "Magma.Props.C16_unknown_set",
    "Magma.Props.C16_more_sets"
   ],
   "note": ""
  },
  {
   "property": "C17",
   "status": "proved",
   "theorems": [
    "Magma.Props.C17_error_local"
   ],
   "note": ""
  },
  {
   "property": "C18",
   "status": "proved",
   "theorems": [
    "Magma.Props.C18_reserialise",
    "Magma.Props.C18_canonical_length",
    "Magma.Props.C18_reserialise_glsl"
   ],
   "note": ""
  },
  {
   "property": "C19",
   "status": "partial",
   "theorems": [
    "Magma.Props.C19_violated",
    "Magma.Props.C19_bound_unused_partial"
   ],
   "note": "The code does not enforce the id bound; C19_violated is a witness, C19_bound_unused_partial shows the bound has no effect on decoding."
  },
  {
   "property": "C20",
   "status": "proved",
   "theorems": [
    "Magma.Props.C20_lossless",
    "Magma.Props.C20_injective"
   ],
   "note": ""
  },
  {
   "property": "C21",
   "status": "proved",
   "theorems": [
    "Magma.Props.C21_layout_iff",
    "Magma.Props.C21_unique"
   ],
   "note": ""
  },
  {
   "property": "C22",
   "status": "proved",
   "theorems": [
    "Magma.Props.C22_total"
   ],
   "note": ""
  },
  {
   "property": "C23",
   "status": "proved",
   "theorems": [
    "Magma.Props.C23_variables"
   ],
   "note": ""
  },
  {
   "property": "C24",
   "status": "partial",
   "theorems": [
    "Magma.Props.C24_violated",
    "Magma.Props.C24_first_body_partial",
    "Magma.Props.C24_bodies_partial"
   ],
   "note": "Declarations following a definition become definitions without blocks; C24_violated is a witness. The partial theorems: the first definition has a block; all have exactly if no function without body follows one with a body."
  },
  {
   "property": "C25",
   "status": "partial",
   "theorems": [
    "Magma.Props.C25_function",
    "Magma.Props.C25_branch",
    "Magma.Props.C25_function_end",
    "Magma.Props.C25_memory_model",
    "Magma.Props.C25_unexpected_partial",
    "Magma.Props.C25_violated"
   ],
   "note": "UnexpectedInstruction is only reported when exactly one instruction remains, and the claim fails for it exactly if that instruction is OpFunction; C25_violated is a witness."
  },
  {
   "property": "C26",
   "status": "proved",
   "theorems": [
    "Magma.Props.C26_header_irrelevant",
    "Magma.Props.C26_sections",
    "Magma.Props.C26_globals",
    "Magma.Props.C26_correspond"
   ],
   "note": ""
  },
  {
   "property": "C27",
   "status": "proved",
   "theorems": [
    "Magma.Props.C27_executions",
    "Magma.Props.C27_never_stuck"
   ],
   "note": ""
  },
  {
   "property": "C28",
   "status": "partial",
   "theorems": [
    "Magma.Props.C28_violated",
    "Magma.Props.C28_nested_partial",
    "Magma.Props.C28_depth",
    "Magma.Props.C28_cycles_partial",
    "Magma.Props.C28_endless",
    "Magma.Props.C28_paths_partial"
   ],
   "note": "The search does not end for some functions; C28_violated is a witness. C28_depth shows for every function that a recursion depth of blocks * (constructs + 1) + 1 already decides the outcome, so non-termination is decidable. C28_nested_partial and C28_cycles_partial prove termination for properly nested functions and for functions without a cycle outside the loop constructs. C28_endless and C28_paths_partial say it without the search: if it does not end there is an endless path through the places of the function, and where there is no such path it ends. C63_endless says exactly for which functions it does not end."
  },
  {
   "property": "C29",
   "status": "partial",
   "theorems": [
    "Magma.Props.C29_violated",
    "Magma.Props.C29_no_panic_partial",
    "Magma.Props.C29_places_partial"
   ],
   "note": "The code panics on two shapes of blocks; C29_violated has a witness for each. C29_no_panic_partial covers every function without such blocks. C29_places_partial needs this only of the places that can be reached. C63_panic says exactly for which functions it panics."
  },
  {
   "property": "C30",
   "status": "proved",
   "theorems": [
    "Magma.Props.C30_complete",
    "Magma.Props.C30_accepted_iff",
    "Magma.Props.C30_places_iff"
   ],
   "note": ""
  },
  {
   "property": "C31",
   "status": "proved",
   "theorems": [
    "Magma.Props.C31_block_order"
   ],
   "note": ""
  },
  {
   "property": "C32",
   "status": "proved",
   "theorems": [
    "Magma.Props.C32_contents",
    "Magma.Props.C32_unreachable"
   ],
   "note": ""
  },
  {
   "property": "C33",
   "status": "proved",
   "theorems": [
    "Magma.Props.C33_no_blocks",
    "Magma.Props.C33_duplicate",
    "Magma.Props.C33_unknown",
    "Magma.Props.C33_could_not_predict",
    "Magma.Props.C33_invalid",
    "Magma.Props.C33_failed",
    "Magma.Props.C33_place"
   ],
   "note": ""
  },
  {
   "property": "C34",
   "status": "proved",
   "theorems": [
    "Magma.Props.C34_shape"
   ],
   "note": ""
  },
  {
   "property": "C35",
   "status": "proved",
   "theorems": [
    "Magma.Props.C35_blocks_and_hints"
   ],
   "note": ""
  },
  {
   "property": "C36",
   "status": "proved",
   "theorems": [
    "Magma.Props.C36_panics",
    "Magma.Props.C36_no_panic"
   ],
   "note": ""
  },
  {
   "property": "C37",
   "status": "proved",
   "theorems": [
    "Magma.Props.C37_indented",
    "Magma.Props.C37_balanced"
   ],
   "note": ""
  },
  {
   "property": "C38",
   "status": "proved",
   "theorems": [
    "Magma.Props.C38_layout",
    "Magma.Props.C38_column",
    "Magma.Props.C38_result"
   ],
   "note": ""
  },
  {
   "property": "C39",
   "status": "proved",
   "theorems": [
    "Magma.Props.C39_text",
    "Magma.Props.C39_lines",
    "Magma.Props.C39_append"
   ],
   "note": ""
  },
  {
   "property": "C40",
   "status": "partial",
   "theorems": [
    "Magma.Props.C40_instruction",
    "Magma.Props.C40_module_partial",
    "Magma.Props.C40_registered_partial",
    "Magma.Props.C40_violated",
    "Magma.Props.C40_violated_generator",
    "Magma.Props.C40_joined",
    "Magma.Props.C40_shared_partial",
    "Magma.Props.C40_determined_partial"
   ],
   "note": "The module text is ambiguous in two ways: newlines inside strings and unregistered generator numbers; C40_violated and C40_violated_generator are witnesses. The text of one instruction determines it; the partial theorems cover all modules in whose strings no newline is followed by what an instruction begins with. C40_shared_partial says exactly which of them share their text with another module, whatever the strings of that one."
  },
  {
   "property": "C41",
   "status": "proved",
   "theorems": [
    "Magma.Props.C41_enumerants",
    "Magma.Props.C41_payloads",
    "Magma.Props.C41_flags",
    "Magma.Props.C41_none"
   ],
   "note": ""
  },
  {
   "property": "C42",
   "status": "proved",
   "theorems": [
    "Magma.Props.C42_glsl",
    "Magma.Props.C42_glsl_clone",
    "Magma.Props.C42_equivalence",
    "Magma.Props.C42_different_sets",
    "Magma.Props.C42_clone",
    "Magma.Props.C42_needs_faithful"
   ],
   "note": "Sets outside of the crate are modelled as arbitrary implementations; the laws for them need that they are implemented faithfully (C42_needs_faithful)."
  },
  {
   "property": "C43",
   "status": "partial",
   "theorems": [
    "Magma.Props.C43_tail_partial",
    "Magma.Props.C43_canonical_tail_partial",
    "Magma.Props.C43_executions",
    "Magma.Props.C43_violated",
    "Magma.Props.C43_tail_tidy_partial"
   ],
   "note": "C43_executions is proved in full. Written back to canonical words, the functions need not be the end of the input (C43_violated); the partial theorems say what the end of the input is."
  },
  {
   "property": "C44",
   "status": "partial",
   "theorems": [
    "Magma.Props.C44_listing",
    "Magma.Props.C44_balanced",
    "Magma.Props.C44_indented_partial",
    "Magma.Props.C44_violated"
   ],
   "note": "Hints and weights are printed at the start of the line of the brace, so the indentation claim is false for functions with hints (C44_violated), and it holds exactly for those without (C44_indented_partial); the listing and the balance of braces are proved in full."
  },
  {
   "property": "C45",
   "status": "proved",
   "theorems": [
    "Magma.Props.C45_text_unambiguous",
    "Magma.Props.C45_only_recovered"
   ],
   "note": "Proved for the chains that find_control_flow returns; chains in general are ambiguous, a block of one chain prints as that chain (C45_only_recovered)."
  },
  {
   "property": "C46",
   "status": "partial",
   "theorems": [
    "Magma.Props.C46_built_in_partial",
    "Magma.Props.C46_function_parameter_attribute",
    "Magma.Props.C46_fp_rounding_mode",
    "Magma.Props.C46_linkage_type",
    "Magma.Props.C46_addressing_model",
    "Magma.Props.C46_memory_model",
    "Magma.Props.C46_execution_model_partial",
    "Magma.Props.C46_capability",
    "Magma.Props.C46_signedness",
    "Magma.Props.C46_storage_class",
    "Magma.Props.C46_dim",
    "Magma.Props.C46_depth_status",
    "Magma.Props.C46_arrayed",
    "Magma.Props.C46_ms",
    "Magma.Props.C46_sampled_status",
    "Magma.Props.C46_image_format",
    "Magma.Props.C46_access_qualifier",
    "Magma.Props.C46_source_language",
    "Magma.Props.C46_execution_mode_partial",
    "Magma.Props.C46_decoration_partial",
    "Magma.Props.C46_memory_access",
    "Magma.Props.C46_fast_math",
    "Magma.Props.C46_selection_control",
    "Magma.Props.C46_function_control",
    "Magma.Props.C46_loop_control",
    "Magma.Props.C46_violated"
   ],
   "note": "Six names are misspelt (C46_violated); the theorems say that exactly these are misspelt, for all operands. Masks are proved in full."
  },
  {
   "property": "C47",
   "status": "partial",
   "theorems": [
    "Magma.Props.C47_violated_load",
    "Magma.Props.C47_violated_store",
    "Magma.Props.C47_load_partial",
    "Magma.Props.C47_store_partial"
   ],
   "note": "False: every load or store with an alignment is rejected as having excess data, in every module (C47_violated_load, C47_violated_store). Masks without bit 1 are read."
  },
  {
   "property": "C48",
   "status": "proved",
   "theorems": [
    "Magma.Props.C48_kinds",
    "Magma.Props.C48_line"
   ],
   "note": "Proved for all errors; the printed text drops the payload."
  },
  {
   "property": "C49",
   "status": "partial",
   "theorems": [
    "Magma.Props.C49_covers",
    "Magma.Props.C49_violated",
    "Magma.Props.C49_visited",
    "Magma.Props.C49_returned",
    "Magma.Props.C49_live_partial",
    "Magma.Props.C49_returns_partial"
   ],
   "note": "Every visited block is in the chain (C49_covers). The converse is false: the merge block of a loop that is never left is in the chain (C49_violated). C49_visited and C49_returned say exactly which blocks of the chain some execution visits and when some execution returns: what follows a construct that cannot end is dead. If every loop has a break nothing is (C49_live_partial, C49_returns_partial)."
  },
  {
   "property": "C50",
   "status": "partial",
   "theorems": [
    "Magma.Props.C50_violated",
    "Magma.Props.C50_distinct_partial",
    "Magma.Props.C50_bound",
    "Magma.Props.C50_once_partial",
    "Magma.Props.C50_once_iff"
   ],
   "note": "False: a block reached from both sides of a selection without being its merge block is expanded twice, and 2n+3 blocks can give a chain of 2^(n+1) ids (C50_violated). C50_once_iff says exactly when no block is mentioned twice, C50_bound that there is a bound on the chain, and C77 how large it is at most; C50_distinct_partial and C50_once_partial prove the property for functions that enter each block once."
  },
  {
   "property": "C51",
   "status": "proved",
   "theorems": [
    "Magma.Props.C51_renamed",
    "Magma.Props.C51_injective"
   ],
   "note": "For the result with any depth of recursion. C51_injective: renaming two ids to one can change the result."
  },
  {
   "property": "C52",
   "status": "proved",
   "theorems": [
    "Magma.Props.C52_concatenate",
    "Magma.Props.C52_clash"
   ],
   "note": "C52_clash gives the error. The bound of the header is that of both, as it is not used."
  },
  {
   "property": "C53",
   "status": "proved",
   "theorems": [
    "Magma.Props.C53_justified",
    "Magma.Props.C53_justified_glsl"
   ],
   "note": "C53_justified for any sets whose errors are about their own instructions, C53_justified_glsl for GLSL.std.450."
  },
  {
   "property": "C54",
   "status": "partial",
   "theorems": [
    "Magma.Props.C54_violated",
    "Magma.Props.C54_returned_partial"
   ],
   "note": "False for WrongWordCountForOp and UnknownVersion (C54_violated); a witness for each other kind (C54_returned_partial)."
  },
  {
   "property": "C55",
   "status": "proved",
   "theorems": [
    "Magma.Props.C55_roles",
    "Magma.Props.C55_outline"
   ],
   "note": ""
  },
  {
   "property": "C56",
   "status": "proved",
   "theorems": [
    "Magma.Props.C56_functions",
    "Magma.Props.C56_alone"
   ],
   "note": ""
  },
  {
   "property": "C57",
   "status": "proved",
   "theorems": [
    "Magma.Props.C57_expressible",
    "Magma.Props.C57_only",
    "Magma.Props.C57_image",
    "Magma.Props.C57_image_all"
   ],
   "note": ""
  },
  {
   "property": "C58",
   "status": "proved",
   "theorems": [
    "Magma.Props.C58_before",
    "Magma.Props.C58_after"
   ],
   "note": ""
  },
  {
   "property": "C59",
   "status": "proved",
   "theorems": [
    "Magma.Props.C59_automaton",
    "Magma.Props.C59_longest",
    "Magma.Props.C59_local"
   ],
   "note": ""
  },
  {
   "property": "C60",
   "status": "proved",
   "theorems": [
    "Magma.Props.C60_imports",
    "Magma.Props.C60_instructions",
    "Magma.Props.C60_read",
    "Magma.Props.C60_operands",
    "Magma.Props.C60_unknown"
   ],
   "note": ""
  },
  {
   "property": "C61",
   "status": "proved",
   "theorems": [
    "Magma.Props.C61_chain",
    "Magma.Props.C61_blocks",
    "Magma.Props.C61_executions",
    "Magma.Props.C61_continue_target_lost"
   ],
   "note": ""
  },
  {
   "property": "C62",
   "status": "proved",
   "theorems": [
    "Magma.Props.C62_first",
    "Magma.Props.C62_unique"
   ],
   "note": ""
  },
  {
   "property": "C63",
   "status": "proved",
   "theorems": [
    "Magma.Props.C63_error",
    "Magma.Props.C63_panic",
    "Magma.Props.C63_endless",
    "Magma.Props.C63_fine"
   ],
   "note": ""
  },
  {
   "property": "C64",
   "status": "proved",
   "theorems": [
    "Magma.Props.C64_read",
    "Magma.Props.C64_glsl",
    "Magma.Props.C64_injective",
    "Magma.Props.C64_validate",
    "Magma.Props.C64_control_flow",
    "Magma.Props.C64_all"
   ],
   "note": ""
  },
  {
   "property": "C65",
   "status": "proved",
   "theorems": [
    "Magma.Props.C65_outcome",
    "Magma.Props.C65_accepted",
    "Magma.Props.C65_error",
    "Magma.Props.C65_glsl"
   ],
   "note": ""
  },
  {
   "property": "C66",
   "status": "proved",
   "theorems": [
    "Magma.Props.C66_text",
    "Magma.Props.C66_outcome",
    "Magma.Props.C66_glsl"
   ],
   "note": ""
  },
  {
   "property": "C67",
   "status": "proved",
   "theorems": [
    "Magma.Props.C67_chain",
    "Magma.Props.C67_function",
    "Magma.Props.C67_recovered",
    "Magma.Props.C67_code"
   ],
   "note": ""
  },
  {
   "property": "C68",
   "status": "proved",
   "theorems": [
    "Magma.Props.C68_depth",
    "Magma.Props.C68_calls_exact",
    "Magma.Props.C68_enough",
    "Magma.Props.C68_depth_le",
    "Magma.Props.C68_long_block",
    "Magma.Props.C68_unbounded",
    "Magma.Props.C68_calls"
   ],
   "note": ""
  },
  {
   "property": "C69",
   "status": "proved",
   "theorems": [
    "Magma.Props.C69_same",
    "Magma.Props.C69_depth",
    "Magma.Props.C69_calls",
    "Magma.Props.C69_output",
    "Magma.Props.C69_linear",
    "Magma.Props.C69_exponential"
   ],
   "note": ""
  },
  {
   "property": "C70",
   "status": "proved",
   "theorems": [
    "Magma.Props.C70_chain",
    "Magma.Props.C70_enough",
    "Magma.Props.C70_function",
    "Magma.Props.C70_found",
    "Magma.Props.C70_room",
    "Magma.Props.C70_deep"
   ],
   "note": ""
  },
  {
   "property": "C71",
   "status": "proved",
   "theorems": [
    "Magma.Props.C71_exact",
    "Magma.Props.C71_accepted",
    "Magma.Props.C71_reads",
    "Magma.Props.C71_asked",
    "Magma.Props.C71_bound",
    "Magma.Props.C71_accepted_bound",
    "Magma.Props.C71_greedy",
    "Magma.Props.C71_lists"
   ],
   "note": ""
  },
  {
   "property": "C72",
   "status": "partial",
   "theorems": [
    "Magma.Props.C72_violated",
    "Magma.Props.C72_imports_partial",
    "Magma.Props.C72_nothing_else_partial",
    "Magma.Props.C72_one_id"
   ],
   "note": "False of the code; C72_violated is a witness. C72_imports_partial says what is checked, C72_nothing_else_partial and C72_one_id that nothing else is."
  },
  {
   "property": "C73",
   "status": "proved",
   "theorems": [
    "Magma.Props.C73_bound",
    "Magma.Props.C73_glsl",
    "Magma.Props.C73_sharp",
    "Magma.Props.C73_least"
   ],
   "note": ""
  },
  {
   "property": "C74",
   "status": "proved",
   "theorems": [
    "Magma.Props.C74_module",
    "Magma.Props.C74_chain",
    "Magma.Props.C74_function",
    "Magma.Props.C74_function_panics",
    "Magma.Props.C74_rows",
    "Magma.Props.C74_error",
    "Magma.Props.C74_instruction",
    "Magma.Props.C74_string",
    "Magma.Props.C74_buffer",
    "Magma.Props.C74_fits",
    "Magma.Props.C74_options"
   ],
   "note": ""
  },
  {
   "property": "C75",
   "status": "proved",
   "theorems": [
    "Magma.Props.C75_chain",
    "Magma.Props.C75_function",
    "Magma.Props.C75_recovered",
    "Magma.Props.C75_exact",
    "Magma.Props.C75_function_exact",
    "Magma.Props.C75_sharp"
   ],
   "note": ""
  },
  {
   "property": "C76",
   "status": "proved",
   "theorems": [
    "Magma.Props.C76_bound",
    "Magma.Props.C76_blocks",
    "Magma.Props.C76_sharp",
    "Magma.Props.C76_quadratic"
   ],
   "note": ""
  },
  {
   "property": "C77",
   "status": "proved",
   "theorems": [
    "Magma.Props.C77_bound",
    "Magma.Props.C77_blocks",
    "Magma.Props.C77_sharp"
   ],
   "note": ""
  },
  {
   "property": "C78",
   "status": "proved",
   "theorems": [
    "Magma.Props.C78_bound",
    "Magma.Props.C78_blocks",
    "Magma.Props.C78_sharp",
    "Magma.Props.C78_printed",
    "Magma.Props.C78_overflows"
   ],
   "note": ""
  },
  {
   "property": "C79",
   "status": "proved",
   "theorems": [
    "Magma.Props.C79_bound",
    "Magma.Props.C79_blocks",
    "Magma.Props.C79_sharp",
    "Magma.Props.C79_printed",
    "Magma.Props.C79_overflows"
   ],
   "note": ""
  },
  {
   "property": "C80",
   "status": "proved",
   "theorems": [
    "Magma.Props.C80_tidy",
    "Magma.Props.C80_outcome",
    "Magma.Props.C80_same",
    "Magma.Props.C80_exact",
    "Magma.Props.C80_canonical",
    "Magma.Props.C80_idempotent",
    "Magma.Props.C80_exact_glsl"
   ],
   "note": ""
  },
  {
   "property": "C81",
   "status": "proved",
   "theorems": [
    "Magma.Props.C81_exact",
    "Magma.Props.C81_determined",
    "Magma.Props.C81_enough",
    "Magma.Props.C81_needed"
   ],
   "note": ""
  },
  {
   "property": "C82",
   "status": "proved",
   "theorems": [
    "Magma.Props.C82_exact"
   ],
   "note": ""
  },
  {
   "property": "C83",
   "status": "proved",
   "theorems": [
    "Magma.Props.C83_bytes",
    "Magma.Props.C83_accepted",
    "Magma.Props.C83_rejected",
    "Magma.Props.C83_unique",
    "Magma.Props.C83_all",
    "Magma.Props.C83_module"
   ],
   "note": ""
  },
  {
   "property": "C84",
   "status": "proved",
   "theorems": [
    "Magma.Props.C84_forth",
    "Magma.Props.C84_back",
    "Magma.Props.C84_outcome",
    "Magma.Props.C84_loop_header"
   ],
   "note": ""
  },
  {
   "property": "C85",
   "status": "proved",
   "theorems": [
    "Magma.Props.C85_forth",
    "Magma.Props.C85_back",
    "Magma.Props.C85_outcome",
    "Magma.Props.C85_text"
   ],
   "note": ""
  },
  {
   "property": "C86",
   "status": "proved",
   "theorems": [
    "Magma.Props.C86_forth",
    "Magma.Props.C86_back",
    "Magma.Props.C86_outcome",
    "Magma.Props.C86_inline"
   ],
   "note": ""
  },
  {
   "property": "C87",
   "status": "proved",
   "theorems": [
    "Magma.Props.C87_exact",
    "Magma.Props.C87_standard",
    "Magma.Props.C87_aligned",
    "Magma.Props.C87_kinds",
    "Magma.Props.C87_wider",
    "Magma.Props.C87_same",
    "Magma.Props.C87_unique"
   ],
   "note": ""
  },
  {
   "property": "C88",
   "status": "proved",
   "theorems": [
    "Magma.Props.C88_gap",
    "Magma.Props.C88_standard",
    "Magma.Props.C88_untidy"
   ],
   "note": ""
  },
  {
   "property": "C89",
   "status": "proved",
   "theorems": [
    "Magma.Props.C89_returns",
    "Magma.Props.C89_exact",
    "Magma.Props.C89_errors",
    "Magma.Props.C89_refused"
   ],
   "note": ""
  },
  {
   "property": "C90",
   "status": "proved",
   "theorems": [
    "Magma.Props.C90_exchanged",
    "Magma.Props.C90_executions",
    "Magma.Props.C90_program",
    "Magma.Props.C90_exits",
    "Magma.Props.C90_errors"
   ],
   "note": ""
  },
  {
   "property": "C91",
   "status": "proved",
   "theorems": [
    "Magma.Props.C91_before",
    "Magma.Props.C91_after",
    "Magma.Props.C91_always",
    "Magma.Props.C91_dominates",
    "Magma.Props.C91_postdominates",
    "Magma.Props.C91_nesting"
   ],
   "note": ""
  },
  {
   "property": "C92",
   "status": "proved",
   "theorems": [
    "Magma.Props.C92_meaning",
    "Magma.Props.C92_returns"
   ],
   "note": ""
  },
  {
   "property": "C93",
   "status": "proved",
   "theorems": [
    "Magma.Props.C93_words",
    "Magma.Props.C93_every",
    "Magma.Props.C93_respects"
   ],
   "note": ""
  },
  {
   "property": "C94",
   "status": "proved",
   "theorems": [
    "Magma.Props.C94_read",
    "Magma.Props.C94_validate",
    "Magma.Props.C94_flow",
    "Magma.Props.C94_needed"
   ],
   "note": ""
  },
  {
   "property": "C95",
   "status": "proved",
   "theorems": [
    "Magma.Props.C95_bare",
    "Magma.Props.C95_determined",
    "Magma.Props.C95_same",
    "Magma.Props.C95_twice",
    "Magma.Props.C95_endless"
   ],
   "note": ""
  },
  {
   "property": "C96",
   "status": "proved",
   "theorems": [
    "Magma.Props.C96_modules",
    "Magma.Props.C96_functions",
    "Magma.Props.C96_control_flow",
    "Magma.Props.C96_crashes"
   ],
   "note": ""
  },
  {
   "property": "C97",
   "status": "proved",
   "theorems": [
    "Magma.Props.C97_cycle",
    "Magma.Props.C97_found",
    "Magma.Props.C97_natural",
    "Magma.Props.C97_twice",
    "Magma.Props.C97_endless"
   ],
   "note": ""
  },
  {
   "property": "C98",
   "status": "proved",
   "theorems": [
    "Magma.Props.C98_left",
    "Magma.Props.C98_right",
    "Magma.Props.C98_selection",
    "Magma.Props.C98_loop",
    "Magma.Props.C98_leaving"
   ],
   "note": ""
  },
  {
   "property": "C99",
   "status": "proved",
   "theorems": [
    "Magma.Props.C99_replaced",
    "Magma.Props.C99_emptied"
   ],
   "note": ""
  },
  {
   "property": "C100",
   "status": "proved",
   "theorems": [
    "Magma.Props.C100_proves",
    "Magma.Props.C100_ends",
    "Magma.Props.C100_words"
   ],
   "note": ""
  },
  {
   "property": "C101",
   "status": "proved",
   "theorems": [
    "Magma.Props.C101_copies",
    "Magma.Props.C101_single",
    "Magma.Props.C101_apart"
   ],
   "note": ""
  },
  {
   "property": "C102",
   "status": "proved",
   "theorems": [
    "Magma.Props.C102_returned",
    "Magma.Props.C102_running",
    "Magma.Props.C102_decided"
   ],
   "note": ""
  },
  {
   "property": "C103",
   "status": "proved",
   "theorems": [
    "Magma.Props.C103_cheapest",
    "Magma.Props.C103_dearest",
    "Magma.Props.C103_bounded",
    "Magma.Props.C103_returns"
   ],
   "note": ""
  },
  {
   "property": "C104",
   "status": "proved",
   "theorems": [
    "Magma.Props.C104_text",
    "Magma.Props.C104_words"
   ],
   "note": ""
  },
  {
   "property": "C105",
   "status": "proved",
   "theorems": [
    "Magma.Props.C105_returned",
    "Magma.Props.C105_running",
    "Magma.Props.C105_decided"
   ],
   "note": ""
  },
  {
   "property": "C106",
   "status": "proved",
   "theorems": [
    "Magma.Props.C106_read",
    "Magma.Props.C106_flow",
    "Magma.Props.C106_patch"
   ],
   "note": ""
  },
  {
   "property": "C107",
   "status": "proved",
   "theorems": [
    "Magma.Props.C107_unfold",
    "Magma.Props.C107_computes",
    "Magma.Props.C107_same"
   ],
   "note": ""
  },
  {
   "property": "C108",
   "status": "proved",
   "theorems": [
    "Magma.Props.C108_module",
    "Magma.Props.C108_instruction",
    "Magma.Props.C108_logical",
    "Magma.Props.C108_function",
    "Magma.Props.C108_chain",
    "Magma.Props.C108_errors",
    "Magma.Props.C108_line",
    "Magma.Props.C108_log",
    "Magma.Props.C108_beyond"
   ],
   "note": ""
  },
  {
   "property": "C109",
   "status": "proved",
   "theorems": [
    "Magma.Props.C109_cost",
    "Magma.Props.C109_visits",
    "Magma.Props.C109_returns",
    "Magma.Props.C109_certain",
    "Magma.Props.C109_finite",
    "Magma.Props.C109_possible"
   ],
   "note": ""
  },
  {
   "property": "C110",
   "status": "proved",
   "theorems": [
    "Magma.Props.C110_weight",
    "Magma.Props.C110_count",
    "Magma.Props.C110_executions"
   ],
   "note": ""
  },
  {
   "property": "C111",
   "status": "proved",
   "theorems": [
    "Magma.Props.C111_ways",
    "Magma.Props.C111_dearest",
    "Magma.Props.C111_running",
    "Magma.Props.C111_natural"
   ],
   "note": ""
  },
  {
   "property": "C112",
   "status": "proved",
   "theorems": [
    "Magma.Props.C112_safe",
    "Magma.Props.C112_tight",
    "Magma.Props.C112_exact",
    "Magma.Props.C112_least",
    "Magma.Props.C112_states",
    "Magma.Props.C112_gap",
    "Magma.Props.C112_twice"
   ],
   "note": ""
  },
  {
   "property": "C113",
   "status": "proved",
   "theorems": [
    "Magma.Props.C113_start",
    "Magma.Props.C113_at",
    "Magma.Props.C113_irrelevant",
    "Magma.Props.C113_blocks",
    "Magma.Props.C113_blocksAll",
    "Magma.Props.C113_once"
   ],
   "note": ""
  },
  {
   "property": "C114",
   "status": "proved",
   "theorems": [
    "Magma.Props.C114_after",
    "Magma.Props.C114_blocks",
    "Magma.Props.C114_blocksAll",
    "Magma.Props.C114_reads",
    "Magma.Props.C114_usage",
    "Magma.Props.C114_same",
    "Magma.Props.C114_dead"
   ],
   "note": ""
  },
  {
   "property": "C115",
   "status": "proved",
   "theorems": [
    "Magma.Props.C115_mentions",
    "Magma.Props.C115_right",
    "Magma.Props.C115_memory"
   ],
   "note": ""
  },
  {
   "property": "C116",
   "status": "proved",
   "theorems": [
    "Magma.Props.C116_check",
    "Magma.Props.C116_dominated",
    "Magma.Props.C116_executions",
    "Magma.Props.C116_unchecked"
   ],
   "note": ""
  },
  {
   "property": "C117",
   "status": "proved",
   "theorems": [
    "Magma.Props.C117_accepted",
    "Magma.Props.C117_refused",
    "Magma.Props.C117_same",
    "Magma.Props.C117_settles",
    "Magma.Props.C117_useful"
   ],
   "note": ""
  },
  {
   "property": "C118",
   "status": "proved",
   "theorems": [
    "Magma.Props.C118_order",
    "Magma.Props.C118_structural",
    "Magma.Props.C118_blocks",
    "Magma.Props.C118_flow",
    "Magma.Props.C118_kept",
    "Magma.Props.C118_computes",
    "Magma.Props.C118_check",
    "Magma.Props.C118_accepted",
    "Magma.Props.C118_unordered",
    "Magma.Props.C118_mentions"
   ],
   "note": ""
  },
  {
   "property": "C119",
   "status": "proved",
   "theorems": [
    "Magma.Props.C119_uniform",
    "Magma.Props.C119_prefix",
    "Magma.Props.C119_meanwhile",
    "Magma.Props.C119_count",
    "Magma.Props.C119_lockstep",
    "Magma.Props.C119_values",
    "Magma.Props.C119_phi"
   ],
   "note": ""
  },
  {
   "property": "C120",
   "status": "proved",
   "theorems": [
    "Magma.Props.C120_largest",
    "Magma.Props.C120_unwritten",
    "Magma.Props.C120_monotone",
    "Magma.Props.C120_shared"
   ],
   "note": ""
  },
  {
   "property": "C121",
   "status": "proved",
   "theorems": [
    "Magma.Props.C121_returns",
    "Magma.Props.C121_all",
    "Magma.Props.C121_alone",
    "Magma.Props.C121_idle",
    "Magma.Props.C121_some",
    "Magma.Props.C121_issues",
    "Magma.Props.C121_full",
    "Magma.Props.C121_count",
    "Magma.Props.C121_lockstep"
   ],
   "note": ""
  },
  {
   "property": "C122",
   "status": "proved",
   "theorems": [
    "Magma.Props.C122_comes",
    "Magma.Props.C122_check",
    "Magma.Props.C122_told",
    "Magma.Props.C122_pruned",
    "Magma.Props.C122_exact",
    "Magma.Props.C122_unchecked"
   ],
   "note": ""
  },
  {
   "property": "C123",
   "status": "partial",
   "theorems": [
    "Magma.Props.C123_text_partial",
    "Magma.Props.C123_exact",
    "Magma.Props.C123_violated",
    "Magma.Props.C123_inj",
    "Magma.Props.C123_apart",
    "Magma.Props.C123_refused",
    "Magma.Props.C123_names"
   ],
   "note": "False of OpCompositeConstruct with constituents, which are ids but are printed as numbers (C123_violated). C123_exact says that the text is right for everything else; the text determines the instruction, is never that of an instruction that is read, and modules with such instructions are refused (all in full)."
  },
  {
   "property": "C124",
   "status": "proved",
   "theorems": [
    "Magma.Props.C124_refused",
    "Magma.Props.C124_refused_with",
    "Magma.Props.C124_mixed",
    "Magma.Props.C124_provable",
    "Magma.Props.C124_proved",
    "Magma.Props.C124_flow",
    "Magma.Props.C124_computes",
    "Magma.Props.C124_less",
    "Magma.Props.C124_specialised",
    "Magma.Props.C124_leaving"
   ],
   "note": ""
  },
  {
   "property": "C125",
   "status": "proved",
   "theorems": [
    "Magma.Props.C125_loop",
    "Magma.Props.C125_plain",
    "Magma.Props.C125_selection",
    "Magma.Props.C125_again"
   ],
   "note": ""
  },
  {
   "property": "C126",
   "status": "proved",
   "theorems": [
    "Magma.Props.C126_removed",
    "Magma.Props.C126_exact",
    "Magma.Props.C126_missing",
    "Magma.Props.C126_computes"
   ],
   "note": ""
  },
  {
   "property": "C127",
   "status": "proved",
   "theorems": [
    "Magma.Props.C127_flow",
    "Magma.Props.C127_computes",
    "Magma.Props.C127_arms",
    "Magma.Props.C127_next_round"
   ],
   "note": ""
  }
 ]
}
