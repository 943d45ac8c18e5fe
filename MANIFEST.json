{"claims": [
 {"property": "C01", "status": "proved", "theorems": ["Zok.C01_witness_satisfies", "Zok.InterpExample.C01_needs_fresh_directives"], "note": "for programs whose directives assign fresh variables; C01_needs_fresh_directives shows the condition is needed"},
 {"property": "C02", "status": "proved", "theorems": ["Zok.C02_rejection_is_genuine", "Zok.C02_no_spurious_failure"], "note": ""},
 {"property": "C03", "status": "proved", "theorems": ["Zok.C03_wrong_input_count", "Zok.C03_witness_domain"], "note": ""},
 {"property": "C04", "status": "proved", "theorems": ["Zok.C04_conditionEq", "Zok.C04_bits", "Zok.C04_boolean_constraints", "Zok.C04_boolean_functions", "Zok.C04_div", "Zok.C04_euclideanDiv", "Zok.C04_output_count", "Zok.C04_ref", "Zok.C04_out_of_range_bits"], "note": "ZIR and external-crate solvers are parameters of the model"},
 {"property": "C05", "status": "proved", "theorems": ["Zok.C05_reduce_correct", "Zok.C05_reduce_normal_form", "Zok.C05_reduce_idempotent"], "note": ""},
 {"property": "C06", "status": "proved", "theorems": ["Zok.C06_algebra", "Zok.C06_shape_tests_sound", "Zok.C06_shape_tests_complete"], "note": ""},
 {"property": "C07", "status": "proved", "theorems": ["Zok.C07_from_flat", "Zok.C07_condition", "Zok.C07_directive", "Zok.C07_clean", "Zok.C07_panics_on_nonlinear_side"], "note": "the second half of the title (never panics on flattener output) is false: C07_panics_on_nonlinear_side"},
 {"property": "C08", "status": "proved", "theorems": ["Zok.C08_sound", "Zok.C08_complete"], "note": "programs without assembly blocks; see C42 for blocks"},
 {"property": "C09", "status": "proved", "theorems": ["Zok.C09_tautology_preserves", "Zok.C09_dropped_is_tautology"], "note": ""},
 {"property": "C10", "status": "proved", "theorems": ["Zok.C10_canonical_preserves", "Zok.C10_canonical_values", "Zok.C10_canonical_form"], "note": ""},
 {"property": "C11", "status": "proved", "theorems": ["Zok.C11_sound", "Zok.C11_complete"], "note": ""},
 {"property": "C12", "status": "proved", "theorems": ["Zok.C12_dropped_has_kept_twin", "Zok.C12_duplicates_preserve", "Zok.OptimizerExample.C12_collision_drops_constraint"], "note": "under an explicit no-collision hypothesis on the 64-bit hash, which C12_collision_drops_constraint shows is needed"},
 {"property": "C13", "status": "proved", "theorems": ["Zok.C13_sound", "Zok.C13_complete", "Zok.C13_execution_preserved", "Zok.OptimizerExample.C13_hint_fixed"], "note": "programs without assembly blocks; C13_hint_fixed shows why completeness is about honest assignments"},
 {"property": "C14", "status": "proved", "theorems": ["Zok.C14_eq_complete", "Zok.C14_eq_sound"], "note": "both directions"},
 {"property": "C15", "status": "proved", "theorems": ["Zok.C15_constant_le_complete", "Zok.C15_enforced_iff", "Zok.C15_constant_le", "Zok.C15_constant_le_sum", "Zok.C15_enforced"], "note": "both directions"},
 {"property": "C16", "status": "proved", "theorems": ["Zok.C16_bits_iff", "Zok.C16_full_width_complete", "Zok.C16_bits_unique", "Zok.C16_full_width"], "note": "both directions, for new decompositions"},
 {"property": "C17", "status": "proved", "theorems": ["Zok.C17_lt_constant_complete_partial", "Zok.C17_field_lt_iff_partial", "Zok.C17_uint_lt_complete_partial", "Zok.C17_uint_le_complete_partial", "Zok.C17_enforced_lt_iff_partial", "Zok.C17_lt_constant_partial", "Zok.C17_field_lt_partial", "Zok.C17_uint_lt_partial", "Zok.C17_uint_le_partial", "Zok.C17_enforced_lt_partial", "Zok.C17_lt_constant", "Zok.C17_lt_constant_complete", "Zok.C17_field_lt", "Zok.C17_field_lt_iff", "Zok.C17_uint_lt", "Zok.C17_uint_lt_complete", "Zok.C17_uint_le", "Zok.C17_uint_le_complete", "Zok.C17_enforced_lt_iff", "Zok.C17_enforced_lt"], "note": "both directions, in states whose cache holds no truncated decomposition (WholeBits); the _partial theorems cover other states as long as the run does not clash; C23_cache_clash_unsound is the exception"},
 {"property": "C18", "status": "proved", "theorems": ["Zok.C18_euclid_iff_partial", "Zok.C18_euclid_sound_partial", "Zok.C18_euclid_sound", "Zok.C18_euclid_iff"], "note": "both directions, in states whose cache holds no truncated decomposition (WholeBits); the _partial theorems cover other states as long as the run does not clash"},
 {"property": "C19", "status": "partial", "theorems": ["Zok.C19_bool_expression_partial", "Zok.C19_bool_expression_complete_partial", "Zok.C19_no_wrap_partial", "Zok.C19_no_wrap_complete_partial"], "note": "both directions, for expressions in which no unsigned integer (array index) wraps around, or for runs in which the decomposition cache does not clash"},
 {"property": "C20", "status": "proved", "theorems": ["Zok.C20_field_expression_partial", "Zok.C20_division_by_zero_unchecked", "Zok.C20_field_expression_complete_partial", "Zok.C20_field_expression", "Zok.C20_field_expression_complete"], "note": "both directions, for expressions whose conditions and indices contain no wrapping unsigned integers; the _partial theorems cover others for runs in which the decomposition cache does not clash"},
 {"property": "C21", "status": "partial", "theorems": ["Zok.C21_uint_expression_partial", "Zok.C21_uint_expression_complete_partial"], "note": "both directions, for runs in which the decomposition cache does not clash; annotations are assumed to satisfy OkU, which C22_plain_annotations proves of the range analysis for plain programs"},
 {"property": "C22", "status": "partial", "theorems": ["Zok.C22_meaning", "Zok.C22_no_panic", "Zok.C22_annotations_partial", "Zok.C22_plain_annotations", "Zok.C22_bound_partial", "Zok.C22_compiled_sound_partial", "Zok.C22_right_shift_unsound", "Zok.C22_sub_offset_incomplete", "Zok.C22_hint_capture_incomplete"], "note": "false of the code in general: C22_right_shift_unsound (a wrong result is accepted), C22_sub_offset_incomplete, C22_hint_capture_incomplete. Proved for well-typed programs whose shift and subtraction nodes are annotated correctly, in particular for plain ones (a decidable syntactic criterion)"},
 {"property": "C23", "status": "partial", "theorems": ["Zok.C23_flattening_sound_partial", "Zok.C23_lowered_sound_partial", "Zok.C23_cache_clash_unsound", "Zok.C23_constant_assertion_unsound", "Zok.C23_no_wrap_partial"], "note": "false of the code in general (C23_cache_clash_unsound, C23_constant_assertion_unsound); proved for functions in which no unsigned integer wraps around (C23_no_wrap_partial) and for runs in which the decomposition cache does not clash, up to division by zero and unsafe casts"},
 {"property": "C24", "status": "partial", "theorems": ["Zok.C24_cache_clash_incomplete", "Zok.C24_honest_prover_partial", "Zok.C24_execution_partial", "Zok.C24_single_assignment", "Zok.C24_no_wrap_partial"], "note": "false of the code in general (C24_cache_clash_incomplete); proved for functions in which no unsigned integer wraps around (C24_no_wrap_partial) and for runs in which the decomposition cache does not clash"},
 {"property": "C25", "status": "proved", "theorems": ["Zok.C25_arguments_checked"], "note": ""},
 {"property": "C26", "status": "proved", "theorems": ["Zok.C26_field", "Zok.C26_bool", "Zok.C26_uint", "Zok.C26_errors", "Zok.C26_function", "Zok.C26_function_conv", "Zok.C26_rem_by_zero_panics", "Zok.C26_removes_faults"], "note": "expressions: all of them; functions: those without branching statements (C26_function, C26_function_conv are additional to the claim). The claim read for remainders is weakened by C26_rem_by_zero_panics: the constant remainder by zero is a panic, not a reported error"},
 {"property": "C27", "status": "proved", "theorems": ["Zok.Abi.C27_length", "Zok.Abi.C27_roundtrip", "Zok.Abi.C27_roundtrip_values", "Zok.Abi.C27_injective", "Zok.Abi.C27_injective_values", "Zok.Abi.C27_zero_size_elements_panic"], "note": "value types as the ABI describes them; moduli at least 2^64. Arrays of zero-size elements are excluded: decoding them panics (C27_zero_size_elements_panic)"},
 {"property": "C28", "status": "proved", "theorems": ["Zok.Abi.C28_accepts_exactly", "Zok.Abi.C28_well_typed", "Zok.Abi.C28_arguments", "Zok.Abi.C28_roundtrip", "Zok.Abi.C28_roundtrip_arguments", "Zok.Abi.C28_inputs", "Zok.Abi.C28_printed_members", "Zok.Abi.C28_surprises"], "note": "the JSON tokenizer (serde_json) is external: the model starts at its syntax tree"},
 {"property": "C29", "status": "proved", "theorems": ["Zok.Ser.C29_roundtrip", "Zok.Ser.C29_truncated", "Zok.Ser.C29_injective"], "note": "variables are 64-bit identifiers, witnesses have fewer than 2^64 entries; the byte format of a field element (arkworks) is modelled as the canonical representative on 8·limbs bytes"},
 {"property": "C30", "status": "proved", "theorems": ["Zok.Ser.C30_roundtrip", "Zok.Ser.C30_truncated", "Zok.Ser.C30_short_file", "Zok.Ser.C30_reads_only_headers", "Zok.Ser.C30_accepted", "Zok.Ser.C30_written_header_accepted", "Zok.Ser.C30_errors", "Zok.Ser.C30_wrong_curve_name"], "note": "C30_wrong_curve_name: the name shown for Pallas and Vesta programs is wrong"},
 {"property": "C31", "status": "proved", "theorems": ["Zok.Ser.C31_roundtrip", "Zok.Ser.C31_constraint_count", "Zok.Ser.C31_same_execution", "Zok.Ser.C31_collision", "Zok.Ser.C31_lost_table"], "note": "serde_cbor is a parameter assumed to decode what it encoded; under a no-collision hypothesis for the 64-bit solver hash, shown necessary by C31_collision; C31_lost_table: a program read from a file cannot be serialised again without losing its solvers"},
 {"property": "C32", "status": "proved", "theorems": ["Zok.Ser.C32_exact", "Zok.Ser.C32_constrained", "Zok.Ser.C32_log_only"], "note": "exact characterisation; C32_log_only: variables that are only logged are accepted"},
 {"property": "C33", "status": "proved", "theorems": ["Zok.Export.C33_r1cs_faithful", "Zok.Export.C33_blocks_panic", "Zok.Export.C33_cleaned", "Zok.Export.C33_file", "Zok.Export.C33_wide_field_truncated"], "note": "programs without assembly blocks (C33_cleaned, C33_blocks_panic) whose arguments are distinct internal variables (lowered_args); C33_file for moduli of exactly 32 bytes; C33_wide_field_truncated: for wider ones (BW6_761) the file is wrong"},
 {"property": "C34", "status": "proved", "theorems": ["Zok.Export.C34_aligned", "Zok.Export.C34_execution", "Zok.Export.C34_serialised", "Zok.Export.C34_log_only_misaligned"], "note": "for programs whose public arguments are increasing (lowered_args) and whose private arguments, outputs and directive outputs all occur in constraints (C34_serialised); C34_log_only_misaligned: false without the latter"},
 {"property": "C35", "status": "proved", "theorems": ["Zok.Export.C35_smt_faithful", "Zok.Export.C35_declared", "Zok.Export.C35_total", "Zok.Export.C35_complete"], "note": "the S-expressions, not their concrete syntax"},
 {"property": "C36", "status": "proved", "theorems": ["Zok.Export.C36_bellperson", "Zok.Export.C36_bellperson_public_inputs", "Zok.Export.C36_circuit", "Zok.Export.C36_public_inputs", "Zok.Export.C36_order_matters", "Zok.Export.C36_blocks_ignored"], "note": "the libraries' LinearCombination is its list of terms; C36_order_matters: the order of first occurrence is needed (not for bellperson: C36_bellperson_public_inputs); C36_blocks_ignored"},
 {"property": "C37", "status": "proved", "theorems": ["Zok.C37_to_bits_be", "Zok.C37_required_bits", "Zok.C37_bits", "Zok.C37_bytes", "Zok.C37_try_from_biguint", "Zok.C37_dec_string_roundtrip", "Zok.C37_try_from_str"], "note": "try_from_dec_str delegates to arkworks' from_str and is not modelled"},
 {"property": "C38", "status": "proved", "theorems": ["Zok.C38_checked_add", "Zok.C38_checked_mul", "Zok.C38_unique_decomposition"], "note": ""},
 {"property": "C39", "status": "proved", "theorems": ["Zok.C39_compact_denotes", "Zok.C39_compact_injective"], "note": ""},
 {"property": "C40", "status": "proved", "theorems": ["Zok.C40_display_injective", "Zok.C40_constructors_disjoint"], "note": ""},
 {"property": "C41", "status": "partial", "theorems": ["Zok.C41_results_partial", "Zok.C41_same_partial", "Zok.C41_only_nonquadratic_rejected", "Zok.C41_one_constraint_each_partial", "Zok.C41_cubic_dropped", "Zok.C41_literal_times_sum_panics", "Zok.C41_literal_times_product_accepted"], "note": "C41_same_partial/C41_results_partial: the same results and failures when every polynomial constraint has degree at most two. Missing: without that hypothesis the claim is false of the code: C41_cubic_dropped (z === x*x*x is accepted and becomes z === 0). C41_one_constraint_each_partial: one constraint each when literals are only multiplied with variables and literals; without that it is false: C41_literal_times_sum_panics, C41_literal_times_product_accepted. C41_only_nonquadratic_rejected is unconditional"},
 {"property": "C42", "status": "partial", "theorems": ["Zok.C42_sound_partial", "Zok.OptimizerExample.C42_block_loses_constraint", "Zok.OptimizerExample.C42_block_breaks_execution", "Zok.OptimizerExample.C42_no_occurs_check"], "note": "false of the code in general (C42_block_loses_constraint, C42_no_occurs_check); proved for blocks in which variables are only replaced at their first occurrence"},
 {"property": "C43", "status": "partial", "theorems": ["Zok.C43_sound_partial", "Zok.C43_complete_partial", "Zok.C43_execution_complete_partial", "Zok.C43_execution_sound_partial", "Zok.C43_iff_partial", "Zok.C43_unique_partial", "Zok.C43_no_wrap_partial"], "note": "false of the code in general, as C23 and C24; proved for functions without assembly blocks in which no unsigned integer wraps around, and for runs in which the decomposition cache does not clash, up to division by zero and unsafe casts; under the no-collision hypothesis of C12"},
 {"property": "C44", "status": "proved", "theorems": ["Zok.C44_results", "Zok.C44_failures", "Zok.C44_no_division_by_zero", "Zok.C44_comparison_guards", "Zok.C44_remainder_unguarded", "Zok.C44_power_zero_overguarded"], "note": "for programs without powers with literal exponent 0 (the propagator removes them; C44_power_zero_overguarded shows the need) and with polynomial constraints in assembly blocks; hint functions are abstract, folding one with no pending panics must keep its meaning. C44_remainder_unguarded: remainders of integers get no guard"},
 {"property": "C45", "status": "proved", "theorems": ["Zok.C45_results", "Zok.C45_no_new_results", "Zok.C45_no_new_failures", "Zok.C45_failures_kept", "Zok.C45_division_by_zero_kept", "Zok.C45_no_dead_definitions", "Zok.C45_unused_remainder_forgotten", "Zok.C45_unused_range_check_removed"], "note": "BranchesApartL: the alternative of an if-else does not mention what the consequence assigns (ZIR if-else statements are only made by the extraction of panics, and contain assertions only); variables may be reassigned. C45_no_dead_definitions needs SSA form (AssignedFirstL). Hints are abstract (HintsKept: folding keeps their meaning; ArgsUsedL: a hint uses its arguments); CallsOkL: calls of embedded functions are well-formed, which is needed because an ill-formed or unsatisfiable call is dropped when unused: C45_unused_range_check_removed. C45_unused_remainder_forgotten: an unused x % 0 is forgotten by the two passes together"},
 {"property": "C46", "status": "proved", "theorems": ["Zok.C46_never_stuck", "Zok.C46_outcome", "Zok.C46_number_of_results", "Zok.C46_one_outcome"], "note": "well-typed: Spec/ZirWt.lean (WtFun), the type rules of ZIR; failures are the defined faults other than stuck. C46_outcome needs that hints and unpacking have a result (Oracle.Total) or do not occur; a failing unpack is an unsatisfiable constraint, not a fault"},
 {"property": "C47", "status": "partial", "theorems": ["Zok.C47_analysis_succeeds", "Zok.C47_sound_partial", "Zok.C47_failures_rejected_partial", "Zok.C47_complete_partial", "Zok.C47_execution_partial", "Zok.C47_iff_partial", "Zok.C47_unique_partial", "Zok.C47_flattened_sound_partial", "Zok.C47_flattened_complete_partial", "Zok.C47_flattened_rejects_partial", "Zok.C47_flattened_iff_partial"], "note": "for functions without assembly blocks that are well-typed, plain (integer subtractions and shifts only of expressions of full range), without unsafe casts, where unpacking is into at least as many bits as the modulus has: conditions on the syntax of the propagated function (Compilable); under the hypotheses of C43 that the decomposition cache does not clash and the hash of the duplicate optimiser does not collide. Failures in the right side of an unused definition (index out of bounds, remainder by zero, comparison out of range) may be forgotten, as in the code"},
 {"property": "C48", "status": "partial", "theorems": ["Zok.Typed.C48_results_kept_partial", "Zok.Typed.C48_no_new_results_partial", "Zok.Typed.C48_no_new_failures_partial", "Zok.Typed.C48_assertions_kept_partial", "Zok.Typed.C48_iff_partial", "Zok.Typed.C48_no_panic", "Zok.Typed.C48_typed", "Zok.Typed.C48_signature", "Zok.Typed.C48_compiled_sound_partial", "Zok.Typed.C48_compiled_complete_partial", "Zok.Typed.C48_compiled_iff_partial", "Zok.Typed.C48_compiled_exact_partial", "Zok.Typed.C48_compiled_rejects_partial", "Zok.Typed.C48_partial_assignment_miscompiled", "Zok.Typed.C48_empty_elements_panic"], "note": "typed functions after the reducer: straight-line statements (definitions, calls of embedded functions, assertions, logs, return) over all expressions but blocks; assembly and hints are not modelled. Full claim false of the code: C48_partial_assignment_miscompiled (a[0] = [a[0][1], a[0][0]] returns a[0][1] twice), so the hypothesis Simultaneous (a definition whose components can be assigned one after the other) is needed; C48_empty_elements_panic (run-time select of elements without components panics), so C48_no_panic has the hypothesis Selects. C48_compiled_*: under the hypotheses of C47 on the propagated function. C48_no_panic, C48_typed, C48_signature are unconditional otherwise"},
 {"property": "C49", "status": "proved", "theorems": ["Zok.Typed.C49_same_function", "Zok.Typed.C49_iff", "Zok.Typed.C49_out_of_range", "Zok.Typed.C49_no_panic", "Zok.Typed.C49_constant_indices", "Zok.Typed.C49_unchanged", "Zok.Typed.C49_example_returns", "Zok.Typed.C49_example_out_of_range"], "note": "typed functions after the reducer without blocks and assembly (as C48); array sizes are u32 (part of well-typedness), as the type of the size in the code. Embedded functions are not rewritten by the pass: the reducer assigns them to fresh identifiers"},
 {"property": "C50", "status": "proved", "theorems": ["Zok.Typed.C50_same_function", "Zok.Typed.C50_iff", "Zok.Typed.C50_simple_conditions", "Zok.Typed.C50_new_variables", "Zok.Typed.C50_typed", "Zok.Typed.C50_example"], "note": "typed functions after the reducer without blocks and assembly (as C48); the identifiers #CONDITION_k do not occur in the source (NoCid: they cannot be written), and calls of embedded functions are assigned with literal indices (ConstantCalls: the reducer assigns them to fresh identifiers)"},
 {"property": "C51", "status": "proved", "theorems": ["Zok.Typed.C51_same_function", "Zok.Typed.C51_iff", "Zok.Typed.C51_comparison", "Zok.Typed.C51_typed", "Zok.Typed.C51_example", "Zok.Typed.C51_nested_not_packed"], "note": "typed functions after the reducer without blocks and assembly (as C48). C51_nested_not_packed: comparisons inside of operands of a comparison of boolean arrays are not rewritten (a missed optimisation, not an error)"},
 {"property": "C52", "status": "proved", "theorems": ["Zok.Typed.C52_arguments_iff", "Zok.Typed.C52_bounds_iff", "Zok.Typed.C52_unchanged", "Zok.Typed.C52_rejected_never_returns", "Zok.Typed.C52_example", "Zok.Typed.C52_example_index", "Zok.Typed.C52_example_shift", "Zok.Typed.C52_nested_index_panics", "Zok.Typed.C52_shift_in_call_accepted"], "note": "typed functions after the reducer without blocks and assembly (as C48). C52_nested_index_panics and C52_shift_in_call_accepted: the checks do not look at the operands of a select, and at arguments of embedded functions other than bit_array_le"},
 {"property": "C53", "status": "partial", "theorems": ["Zok.Typed.C53_same_function", "Zok.Typed.C53_shape", "Zok.Typed.C53_rejected", "Zok.Typed.C53_compiled_sound_partial", "Zok.Typed.C53_compiled_complete_partial", "Zok.Typed.C53_compiled_iff_partial", "Zok.Typed.C53_compiled_exact_partial", "Zok.Typed.C53_compiled_rejects_partial", "Zok.Typed.C53_indexed_division_fails"], "note": "typed functions after the reducer without blocks and assembly (as C48-C52). C53_same_function, C53_shape, C53_rejected are unconditional otherwise. C53_compiled_*: right sides do not read the assigned variable, except for single components with literal indices (InOrder); beyond that the claim is false of the code (C48_partial_assignment_miscompiled, C53_indexed_division_fails), and harmless cases such as a[i] = a[i] + 1 are missing; under the hypotheses of C47 on the propagated function"},
 {"property": "C54", "status": "proved", "theorems": ["Zok.Typed.C54_results", "Zok.Typed.C54_assertions", "Zok.Typed.C54_no_new_results", "Zok.Typed.C54_no_new_failures", "Zok.Typed.C54_same_function", "Zok.Typed.C54_rejected", "Zok.Typed.C54_shape", "Zok.Typed.C54_unpack_admitted", "Zok.Typed.C54_unpack_honest", "Zok.Typed.C54_unpack_only", "Zok.Typed.C54_unpack_free", "Zok.Typed.C54_honest", "Zok.Typed.C54_field_bits", "Zok.Typed.C54_wide_unpack_differs", "Zok.Typed.C54_unpack256_differs", "Zok.Typed.C54_wide_unpack_changes_result", "Zok.Typed.C54_slice_panics", "Zok.Typed.C54_shift_panics"], "note": "typed functions after the reducer without blocks, assembly and expressions of type int. Bit operations on field elements have no meaning in the specification of C56 and C57 (the back end rejects what is left of them); C54_field_bits gives them their meaning on constants and shows that folding keeps it. C54_results/C54_assertions/C54_rejected assume that the compile-time decomposition is the only one the oracle admits (C54_unpack_honest, C54_unpack_only, C54_unpack_free say when), C54_no_new_* that it is one of them (always true for the circuit, C54_unpack_admitted); where this fails the claim is false of the code: C54_wide_unpack_changes_result"},
 {"property": "C55", "status": "partial", "theorems": ["Zok.Typed.C55_compiled_sound_partial", "Zok.Typed.C55_compiled_complete_partial", "Zok.Typed.C55_compiled_iff_partial", "Zok.Typed.C55_compiled_exact_partial", "Zok.Typed.C55_compiled_rejects_partial"], "note": "composition of C54 and C53: the missing parts are those of C53 and C47; C55_compiled_complete_partial: at most as many bits as the modulus has in decompositions (C54_wide_unpack_changes_result shows that this is needed)"},
 {"property": "C56", "status": "proved", "theorems": ["Zok.Typed.C56_results", "Zok.Typed.C56_no_new_results", "Zok.Typed.C56_no_new_failures", "Zok.Typed.C56_assertions", "Zok.Typed.C56_same_function", "Zok.Typed.C56_shape", "Zok.Typed.C56_honest", "Zok.Typed.C56_steps", "Zok.Typed.C56_bug_slice"], "note": "programs with concrete types, where calls are right sides of definitions and their arguments contain no calls; without blocks and assembly; which instance a call denotes is given by the program (no inference of generic parameters). Results, failures and assertions are those of a big-step semantics of loops and calls (Spec/Reducer.lean). An assigned variable is not read through a slice in the right side (MayDefine): beyond that the claim is false of the code, C56_bug_slice. Bit decompositions as in C54. The limit on the number of steps of the model is not observable (C56_steps)"},
 {"property": "C57", "status": "partial", "theorems": ["Zok.Typed.C57_compiled_sound_partial", "Zok.Typed.C57_compiled_complete_partial", "Zok.Typed.C57_compiled_iff_partial", "Zok.Typed.C57_compiled_exact_partial", "Zok.Typed.C57_compiled_rejects_partial"], "note": "composition of C56 and C55: the missing parts are those of C55; InOrder is a condition on the reduced function"},
 {"property": "C58", "status": "proved", "theorems": ["Zok.Typed.Std.C58_pack", "Zok.Typed.Std.C58_unpack", "Zok.Typed.Std.C58_pack_unpack", "Zok.Typed.Std.C58_unpack_pack", "Zok.Typed.Std.C58_unchecked", "Zok.Typed.Std.C58_unchecked_zero", "Zok.Typed.Std.C58_nonStrict", "Zok.Typed.Std.C58_field_to_uint", "Zok.Typed.Std.C58_packU32", "Zok.Typed.Std.C58_unpackU32"], "note": "deep embeddings of the functions as instances for all values of their generic parameters, with the semantics of Spec/Reducer.lean (C56, C57 relate it to the circuit); conditionals on generic parameters are resolved in the instance. Unpacks: what the circuit of the decomposition enforces; Canonical: the honest decomposition is possible. C58_unchecked, C58_nonStrict: with the most general oracle, so the non-unique results are real (C58_unchecked_zero)"},
 {"property": "C59", "status": "proved", "theorems": ["Zok.Typed.Std.C59_fromBits", "Zok.Typed.Std.C59_toBits", "Zok.Typed.Std.C59_toBitsArray", "Zok.Typed.Std.C59_fromBitsArray", "Zok.Typed.Std.C59_fromBitsArray_total", "Zok.Typed.Std.C59_sizes", "Zok.Typed.Std.C59_toField", "Zok.Typed.Std.C59_toFieldArray", "Zok.Typed.Std.C59_upcast", "Zok.Typed.Std.C59_join", "Zok.Typed.Std.C59_split", "Zok.Typed.Std.C59_split_total", "Zok.Typed.Std.C59_joinArray", "Zok.Typed.Std.C59_splitArray", "Zok.Typed.Std.C59_lookup1", "Zok.Typed.Std.C59_lookup2", "Zok.Typed.Std.C59_lookup3"], "note": "deep embeddings of the functions as instances for all values of their generic parameters (the overloads for different widths are one definition, as they are copies of each other); semantics of Spec/Reducer.lean"},
 {"property": "C60", "status": "proved", "theorems": ["Zok.Typed.Std.C60_add", "Zok.Typed.Std.C60_add_any", "Zok.Typed.Std.C60_negate", "Zok.Typed.Std.C60_onCurve", "Zok.Typed.Std.C60_orderCheck", "Zok.Typed.Std.C60_orderCheck_cofactor", "Zok.Typed.Std.C60_scalarMult", "Zok.Typed.Std.C60_ownership", "Zok.Typed.Std.C60_ownership_two_keys", "Zok.Typed.Std.C60_compress", "Zok.Typed.Std.C60_compress_collision", "Zok.Typed.Std.C60_compress_injective", "Zok.Typed.Std.C60_babyJubJub", "Zok.Typed.Std.C60_two_keys_bn128", "Zok.Typed.Std.C60_compress_collision_bn128"], "note": "deep embeddings with the semantics of Spec/Reducer.lean, as C58; curves a u^2 + v^2 = 1 + d u^2 v^2 with a a nonzero square and d not a square (Spec/Edwards.lean), of which Baby Jubjub is one (C60_babyJubJub). C60_ownership, C60_compress: with the most general oracle, so that the choices of the prover are real (C60_two_keys_bn128, C60_compress_collision_bn128)"},
 {"property": "C61", "status": "proved", "theorems": ["Zok.Typed.Std.C61_round", "Zok.Typed.Std.C61_blocks", "Zok.Typed.Std.C61_bytes", "Zok.Typed.Std.C61_bits", "Zok.Typed.Std.C61_bits_447", "Zok.Typed.Std.C61_bits_wrong", "Zok.Typed.Std.C61_512bit", "Zok.Typed.Std.C61_1024bit", "Zok.Typed.Std.C61_1536bit", "Zok.Typed.Std.C61_256bitPadded", "Zok.Typed.Std.C61_512bitPadded", "Zok.Typed.Std.C61_1024bitPadded", "Zok.Typed.Std.C61_512bitPacked", "Zok.Typed.Std.C61_direction"], "note": "deep embeddings with the semantics of Spec/Reducer.lean, as C58; specification Spec/Sha256.lean (the constants are computed from the roots of the prime numbers; test vector sha_abc). C61_bits needs a length which is not 447 modulo 512: beyond that the claim is false of the code, C61_bits_447, C61_bits_wrong. Lengths such that the padded length fits into u32. The embedded (bellman) variant of the hash is not modelled"},
 {"property": "C62", "status": "proved", "theorems": ["Zok.Typed.Std.C62_verify", "Zok.Typed.Std.C62_verify_canonical", "Zok.Typed.Std.C62_sound", "Zok.Typed.Std.C62_complete", "Zok.Typed.Std.C62_reject", "Zok.Typed.Std.C62_not_unique", "Zok.Typed.Std.C62_not_unique_bn128"], "note": "as C60 and C61; A is assumed to be a point of the curve (the code says that it has to be checked offline). C62_verify: with the most general oracle, so that the choices of the prover are real (C62_not_unique, C62_not_unique_bn128)"},
 {"property": "C63", "status": "proved", "theorems": ["Zok.Typed.Std.C63_permutation", "Zok.Typed.Std.C63_sponge", "Zok.Typed.Std.C63_keccak", "Zok.Typed.Std.C63_sha3"], "note": "deep embeddings with the semantics of Spec/Reducer.lean, as C58; specification Spec/Keccak.lean (rotation offsets and round constants are computed as in FIPS 202; test vectors sha3_empty, keccak_abc, sha3_zeros). Messages of less than 2^32 bytes"},
 {"property": "C64", "status": "proved", "theorems": ["Zok.Typed.Std.C64_compression", "Zok.Typed.Std.C64_blake2s_p", "Zok.Typed.Std.C64_blake2s"], "note": "deep embeddings with the semantics of Spec/Reducer.lean, as C58; specification Spec/Blake2s.lean (test vectors blake2s_zeros, blake2s_two). Not for K = 0, where the code computes with K - 1 = 2^32 - 1"},
 {"property": "C65", "status": "proved", "theorems": ["Zok.Typed.Std.C65_mimc7", "Zok.Typed.Std.C65_feistel", "Zok.Typed.Std.C65_sponge", "Zok.Typed.Std.C65_mimc7_injective", "Zok.Typed.Std.C65_feistel_injective"], "note": "deep embeddings with the semantics of Spec/Reducer.lean, as C58; specification Spec/Mimc.lean, parametric in the round constants, which are those of the code (tools/check_constants.py derives them from Keccak, outside the kernel). mimc7: 1 <= R <= 91. mimcSponge: at least one input and one output"},
 {"property": "C66", "status": "proved", "theorems": ["Zok.Typed.Std.C66_poseidon", "Zok.Typed.Std.C66_size", "Zok.Typed.Std.C66_bijective"], "note": "deep embeddings with the semantics of Spec/Reducer.lean, as C58; specification Spec/Poseidon.lean, parametric in the constants and the matrix, which are those of the code (tools/check_constants.py derives them from the Grain generator of the reference implementation, outside the kernel). Test vector poseidon_1_2. C66_bijective is about the specification, of which C66_poseidon shows that the code computes it"},
 {"property": "C67", "status": "proved", "theorems": ["Zok.Typed.Std.C67_pedersenBool", "Zok.Typed.Std.C67_pedersen", "Zok.Typed.Std.C67_result", "Zok.Typed.Std.C67_collision", "Zok.Typed.Std.C67_test", "Zok.Typed.Std.C67_second_result"], "note": "deep embeddings with the semantics of Spec/Reducer.lean, as C58; specification Spec/Pedersen.lean. The kernel checks that the tables of the code hold the multiples of the base points. C67_collision is the reduction of collisions to relations between the base points, for solvers which use binary representations; C67_second_result shows that a prover can choose between two hashes of the message of the library's test"},
 {"property": "C68", "status": "partial", "theorems": ["Zok.Sem.C68_expression", "Zok.Sem.C68_expression_well_typed_partial", "Zok.Sem.C68_literal", "Zok.Sem.C68_reads", "Zok.Sem.C68_well_typed_partial", "Zok.Sem.C68_arithmetic", "Zok.Sem.C68_arithmetic_function", "Zok.Sem.C68_and_of_integers", "Zok.Sem.C68_conditional_widths", "Zok.Sem.C68_conditional_sizes", "Zok.Sem.C68_conditional_structs", "Zok.Sem.C68_ragged", "Zok.Sem.C68_panics", "Zok.Sem.C68_tuples_of_literals"], "note": "expressions (without calls and ranges), statements (without loops, logs, assembly) and functions without generic parameters; array sizes are literals. The readings (C68_reads) are proved in full. That the result is well typed is false of the code in general (C68_conditional_widths, C68_conditional_sizes, C68_conditional_structs, C68_ragged); proved up to the comparisons of types the checker leaves out (Agree), and without any such condition for arithmetic functions (C68_arithmetic_function). Not intended but accepted: C68_and_of_integers; panics of the compiler: C68_panics"},
 {"property": "C69", "status": "partial", "theorems": ["Zok.Sem.C69_returns", "Zok.Sem.C69_fails", "Zok.Sem.C69_expression", "Zok.Sem.C69_returns_iff", "Zok.Sem.C69_fails_iff", "Zok.Sem.C69_outcome", "Zok.Sem.C69_unique", "Zok.Sem.C69_arithmetic", "Zok.Sem.C69_well_typed", "Zok.Sem.C69_compiled_exact_partial", "Zok.Sem.C69_compiled_rejects_partial", "Zok.Sem.C69_compiled_sound_partial"], "note": "functions without loops, calls, ranges, logs and assembly, as C68; Returns and Fails (Spec/Source.lean) evaluate the source without a type checker: a literal has the type it is read at. C69_returns, C69_fails, C69_returns_iff, C69_fails_iff, C69_outcome, C69_unique, C69_expression, C69_well_typed, C69_arithmetic: the type checker preserves the meaning (the converse where operands do not consist of literals only, DefiniteSS). C69_compiled_*: composition with C57, whose missing parts are those of C57 (InOrder, Compilable, HashOk); that the typed function is well typed is a hypothesis (see C68), which C68_arithmetic_function discharges for arithmetic functions. C69_compiled_sound_partial leaves open what the circuit accepts on arguments on which the source meets an undefined operation (as C47). Props/SourceExamples.lean: a source function which meets all hypotheses"},
 {"property": "C70", "status": "partial", "theorems": ["Zok.Nova.C70_accepted", "Zok.Nova.C70_same_circuit", "Zok.Nova.C70_wires", "Zok.Nova.C70_step", "Zok.Nova.C70_complete", "Zok.Nova.C70_sound_partial", "Zok.Nova.C70_chain_partial", "Zok.Nova.C70_one_unbound", "Zok.Nova.C70_positional", "Zok.Nova.C70_no_state_panics", "Zok.Nova.C70_honest_prover", "Zok.Nova.C70_prove"], "note": "the step circuit given to the external library; of its recursive proof only the current state and the number of steps. C70_step: exactly what can be proved of one step; C70_complete, C70_honest_prover, C70_prove, C70_same_circuit, C70_wires. Soundness (C70_sound_partial, C70_chain_partial) holds if the constraints do not mention ~one; without this it is false of the code, which leaves ~one to the prover (C70_one_unbound), and so is the claim that the state is the public arguments (C70_positional). Assembly blocks have to be cleaned before (C07_clean)"},
 {"property": "C71", "status": "proved", "theorems": ["Zok.C71_inputs", "Zok.C71_solidity", "Zok.C71_points_written", "Zok.C71_points", "Zok.C71_points_unchanged", "Zok.C71_points_injective", "Zok.C71_infinity_lost"], "note": "the strings only: the JSON around them (serde) and the elements of arkworks (ToBytes, FromBytes: limbs little-endian, a flag at the end; from the published sources of the crate) are external. C71_infinity_lost: the point at infinity comes back as (0, 1), which is not on the curve. C71_solidity: to_token.rs refuses fields of more than 256 bits by a panic (never used with them)"},
 {"property": "C72", "status": "partial", "theorems": ["Zok.Solidity.C72_export", "Zok.Solidity.C72_verify", "Zok.Solidity.C72_contract", "Zok.Solidity.C72_accepts", "Zok.Solidity.C72_malleable", "Zok.Solidity.C72_constants", "Zok.Solidity.C72_gm17_accepts_partial", "Zok.Solidity.C72_gm17_canonical_partial"], "note": "complete for Groth16; for GM17 (C72_gm17_accepts_partial) it is assumed that ECTwistAdd, the addition of points of the second group written in Solidity, adds points, and verify and the export are not modelled. The contract is transliterated, with the precompiled contracts of EIP-196 and EIP-197 as specified over an abstract pairing (Spec/Groth16.lean), and which numbers of the key are put where; gas, ABI bytes and the text are not modelled, verify_proof of arkworks is external. The second coordinate of C is reduced modulo q by negate, so C_y + q is accepted as well: C72_accepts says so exactly, C72_malleable. Points at infinity in keys and proofs are excluded (C71_infinity_lost)"}
]}
