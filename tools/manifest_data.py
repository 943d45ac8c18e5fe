DATA = {
 "C01": ("proved", "for programs whose directives assign fresh variables; C01_needs_fresh_directives shows the condition is needed"),
 "C02": ("proved", ""),
 "C03": ("proved", ""),
 "C04": ("proved", "ZIR and external-crate solvers are parameters of the model"),
 "C05": ("proved", ""),
 "C06": ("proved", ""),
 "C07": ("proved", "the second half of the title (never panics on flattener output) is false: C07_panics_on_nonlinear_side"),
 "C37": ("proved", "try_from_dec_str delegates to arkworks' from_str and is not modelled"),
 "C38": ("proved", ""),
 "C39": ("proved", ""),
 "C40": ("proved", ""),
 "C08": ("proved", "programs without assembly blocks; see C42 for blocks"),
 "C09": ("proved", ""),
 "C10": ("proved", ""),
 "C11": ("proved", ""),
 "C12": ("proved", "under an explicit no-collision hypothesis on the 64-bit hash, which C12_collision_drops_constraint shows is needed"),
 "C13": ("proved", "programs without assembly blocks; C13_hint_fixed shows why completeness is about honest assignments"),
 "C42": ("partial", "false of the code in general (C42_block_loses_constraint, C42_no_occurs_check); proved for blocks in which variables are only replaced at their first occurrence"),
 "C14": ("proved", "both directions"),
 "C15": ("proved", "both directions"),
 "C16": ("proved", "both directions, for new decompositions"),
 "C17": ("proved", "both directions, in states whose cache holds no truncated decomposition (WholeBits); the _partial theorems cover other states as long as the run does not clash; C23_cache_clash_unsound is the exception"),
 "C18": ("proved", "both directions, in states whose cache holds no truncated decomposition (WholeBits); the _partial theorems cover other states as long as the run does not clash"),
 "C19": ("partial", "both directions, for expressions in which no unsigned integer (array index) wraps around, or for runs in which the decomposition cache does not clash"),
 "C20": ("proved", "both directions, for expressions whose conditions and indices contain no wrapping unsigned integers; the _partial theorems cover others for runs in which the decomposition cache does not clash"),
 "C21": ("partial", "both directions, for runs in which the decomposition cache does not clash; annotations are assumed to satisfy OkU, which C22_plain_annotations proves of the range analysis for plain programs"),
 "C22": ("partial", "false of the code in general: C22_right_shift_unsound (a wrong result is accepted), C22_sub_offset_incomplete, C22_hint_capture_incomplete. Proved for well-typed programs whose shift and subtraction nodes are annotated correctly, in particular for plain ones (a decidable syntactic criterion)"),
 "C23": ("partial", "false of the code in general (C23_cache_clash_unsound, C23_constant_assertion_unsound); proved for functions in which no unsigned integer wraps around (C23_no_wrap_partial) and for runs in which the decomposition cache does not clash, up to division by zero and unsafe casts"),
 "C24": ("partial", "false of the code in general (C24_cache_clash_incomplete); proved for functions in which no unsigned integer wraps around (C24_no_wrap_partial) and for runs in which the decomposition cache does not clash"),
 "C25": ("proved", ""),
 "C26": ("proved", "expressions: all of them; functions: those without branching statements (C26_function, C26_function_conv are additional to the claim). The claim read for remainders is weakened by C26_rem_by_zero_panics: the constant remainder by zero is a panic, not a reported error"),
 "C27": ("proved", "value types as the ABI describes them; moduli at least 2^64. Arrays of zero-size elements are excluded: decoding them panics (C27_zero_size_elements_panic)"),
 "C28": ("proved", "the JSON tokenizer (serde_json) is external: the model starts at its syntax tree"),
 "C29": ("proved", "variables are 64-bit identifiers, witnesses have fewer than 2^64 entries; the byte format of a field element (arkworks) is modelled as the canonical representative on 8·limbs bytes"),
 "C30": ("proved", "C30_wrong_curve_name: the name shown for Pallas and Vesta programs is wrong"),
 "C31": ("proved", "serde_cbor is a parameter assumed to decode what it encoded; under a no-collision hypothesis for the 64-bit solver hash, shown necessary by C31_collision; C31_lost_table: a program read from a file cannot be serialised again without losing its solvers"),
 "C32": ("proved", "exact characterisation; C32_log_only: variables that are only logged are accepted"),
 "C33": ("proved", "programs without assembly blocks (C33_cleaned, C33_blocks_panic) whose arguments are distinct internal variables (lowered_args); C33_file for moduli of exactly 32 bytes; C33_wide_field_truncated: for wider ones (BW6_761) the file is wrong"),
 "C34": ("proved", "for programs whose public arguments are increasing (lowered_args) and whose private arguments, outputs and directive outputs all occur in constraints (C34_serialised); C34_log_only_misaligned: false without the latter"),
 "C35": ("proved", "the S-expressions, not their concrete syntax"),
 "C36": ("proved", "the libraries' LinearCombination is its list of terms; C36_order_matters: the order of first occurrence is needed (not for bellperson: C36_bellperson_public_inputs); C36_blocks_ignored"),
 "C43": ("partial", "false of the code in general, as C23 and C24; proved for functions without assembly blocks in which no unsigned integer wraps around, and for runs in which the decomposition cache does not clash, up to division by zero and unsafe casts; under the no-collision hypothesis of C12"),
 "C44": ("proved", "for programs without powers with literal exponent 0 (the propagator removes them; C44_power_zero_overguarded shows the need) and with polynomial constraints in assembly blocks; hint functions are abstract, folding one with no pending panics must keep its meaning. C44_remainder_unguarded: remainders of integers get no guard"),
 "C45": ("proved", "BranchesApartL: the alternative of an if-else does not mention what the consequence assigns (ZIR if-else statements are only made by the extraction of panics, and contain assertions only); variables may be reassigned. C45_no_dead_definitions needs SSA form (AssignedFirstL). Hints are abstract (HintsKept: folding keeps their meaning; ArgsUsedL: a hint uses its arguments); CallsOkL: calls of embedded functions are well-formed, which is needed because an ill-formed or unsatisfiable call is dropped when unused: C45_unused_range_check_removed. C45_unused_remainder_forgotten: an unused x % 0 is forgotten by the two passes together"),
 "C41": ("partial", "C41_same_partial/C41_results_partial: the same results and failures when every polynomial constraint has degree at most two. Missing: without that hypothesis the claim is false of the code: C41_cubic_dropped (z === x*x*x is accepted and becomes z === 0). C41_one_constraint_each_partial: one constraint each when literals are only multiplied with variables and literals; without that it is false: C41_literal_times_sum_panics, C41_literal_times_product_accepted. C41_only_nonquadratic_rejected is unconditional"),
 "C46": ("proved", "well-typed: Spec/ZirWt.lean (WtFun), the type rules of ZIR; failures are the defined faults other than stuck. C46_outcome needs that hints and unpacking have a result (Oracle.Total) or do not occur; a failing unpack is an unsatisfiable constraint, not a fault"),
 "C47": ("partial", "for functions without assembly blocks that are well-typed, plain (integer subtractions and shifts only of expressions of full range), without unsafe casts, where unpacking is into at least as many bits as the modulus has: conditions on the syntax of the propagated function (Compilable); under the hypotheses of C43 that the decomposition cache does not clash and the hash of the duplicate optimiser does not collide. Failures in the right side of an unused definition (index out of bounds, remainder by zero, comparison out of range) may be forgotten, as in the code"),
 "C48": ("partial", "typed functions after the reducer: straight-line statements (definitions, calls of embedded functions, assertions, logs, return) over all expressions but blocks; assembly and hints are not modelled. Full claim false of the code: C48_partial_assignment_miscompiled (a[0] = [a[0][1], a[0][0]] returns a[0][1] twice), so the hypothesis Simultaneous (a definition whose components can be assigned one after the other) is needed; C48_empty_elements_panic (run-time select of elements without components panics), so C48_no_panic has the hypothesis Selects. C48_compiled_*: under the hypotheses of C47 on the propagated function. C48_no_panic, C48_typed, C48_signature are unconditional otherwise"),
 "C49": ("proved", "typed functions after the reducer without blocks and assembly (as C48); array sizes are u32 (part of well-typedness), as the type of the size in the code. Embedded functions are not rewritten by the pass: the reducer assigns them to fresh identifiers"),
 "C50": ("proved", "typed functions after the reducer without blocks and assembly (as C48); the identifiers #CONDITION_k do not occur in the source (NoCid: they cannot be written), and calls of embedded functions are assigned with literal indices (ConstantCalls: the reducer assigns them to fresh identifiers)"),
 "C51": ("proved", "typed functions after the reducer without blocks and assembly (as C48). C51_nested_not_packed: comparisons inside of operands of a comparison of boolean arrays are not rewritten (a missed optimisation, not an error)"),
 "C52": ("proved", "typed functions after the reducer without blocks and assembly (as C48). C52_nested_index_panics and C52_shift_in_call_accepted: the checks do not look at the operands of a select, and at arguments of embedded functions other than bit_array_le"),
 "C53": ("partial", "typed functions after the reducer without blocks and assembly (as C48-C52). C53_same_function, C53_shape, C53_rejected are unconditional otherwise. C53_compiled_*: right sides do not read the assigned variable, except for single components with literal indices (InOrder); beyond that the claim is false of the code (C48_partial_assignment_miscompiled, C53_indexed_division_fails), and harmless cases such as a[i] = a[i] + 1 are missing; under the hypotheses of C47 on the propagated function"),
 "C54": ("proved", "typed functions after the reducer without blocks, assembly and expressions of type int. Bit operations on field elements have no meaning in the specification of C56 and C57 (the back end rejects what is left of them); C54_field_bits gives them their meaning on constants and shows that folding keeps it. C54_results/C54_assertions/C54_rejected assume that the compile-time decomposition is the only one the oracle admits (C54_unpack_honest, C54_unpack_only, C54_unpack_free say when), C54_no_new_* that it is one of them (always true for the circuit, C54_unpack_admitted); where this fails the claim is false of the code: C54_wide_unpack_changes_result"),
 "C55": ("partial", "composition of C54 and C53: the missing parts are those of C53 and C47; C55_compiled_complete_partial: at most as many bits as the modulus has in decompositions (C54_wide_unpack_changes_result shows that this is needed)"),
 "C56": ("proved", "programs with concrete types, where calls are right sides of definitions and their arguments contain no calls; without blocks and assembly; which instance a call denotes is given by the program (no inference of generic parameters). Results, failures and assertions are those of a big-step semantics of loops and calls (Spec/Reducer.lean). An assigned variable is not read through a slice in the right side (MayDefine): beyond that the claim is false of the code, C56_bug_slice. Bit decompositions as in C54. The limit on the number of steps of the model is not observable (C56_steps)"),
 "C57": ("partial", "composition of C56 and C55: the missing parts are those of C55; InOrder is a condition on the reduced function"),
 "C58": ("proved", "deep embeddings of the functions as instances for all values of their generic parameters, with the semantics of Spec/Reducer.lean (C56, C57 relate it to the circuit); conditionals on generic parameters are resolved in the instance. Unpacks: what the circuit of the decomposition enforces; Canonical: the honest decomposition is possible. C58_unchecked, C58_nonStrict: with the most general oracle, so the non-unique results are real (C58_unchecked_zero)"),
 "C59": ("proved", "deep embeddings of the functions as instances for all values of their generic parameters (the overloads for different widths are one definition, as they are copies of each other); semantics of Spec/Reducer.lean"),
 "C60": ("proved", "deep embeddings with the semantics of Spec/Reducer.lean, as C58; curves a u^2 + v^2 = 1 + d u^2 v^2 with a a nonzero square and d not a square (Spec/Edwards.lean), of which Baby Jubjub is one (C60_babyJubJub). C60_ownership, C60_compress: with the most general oracle, so that the choices of the prover are real (C60_two_keys_bn128, C60_compress_collision_bn128)"),
 "C61": ("proved", "deep embeddings with the semantics of Spec/Reducer.lean, as C58; specification Spec/Sha256.lean (the constants are computed from the roots of the prime numbers; test vector sha_abc). C61_bits needs a length which is not 447 modulo 512: beyond that the claim is false of the code, C61_bits_447, C61_bits_wrong. Lengths such that the padded length fits into u32. The embedded (bellman) variant of the hash is not modelled"),
 "C62": ("proved", "as C60 and C61; A is assumed to be a point of the curve (the code says that it has to be checked offline). C62_verify: with the most general oracle, so that the choices of the prover are real (C62_not_unique, C62_not_unique_bn128)"),
 "C63": ("proved", "deep embeddings with the semantics of Spec/Reducer.lean, as C58; specification Spec/Keccak.lean (rotation offsets and round constants are computed as in FIPS 202; test vectors sha3_empty, keccak_abc, sha3_zeros). Messages of less than 2^32 bytes"),
 "C64": ("proved", "deep embeddings with the semantics of Spec/Reducer.lean, as C58; specification Spec/Blake2s.lean (test vectors blake2s_zeros, blake2s_two). Not for K = 0, where the code computes with K - 1 = 2^32 - 1"),
 "C65": ("proved", "deep embeddings with the semantics of Spec/Reducer.lean, as C58; specification Spec/Mimc.lean, parametric in the round constants, which are those of the code (tools/check_constants.py derives them from Keccak, outside the kernel). mimc7: 1 <= R <= 91. mimcSponge: at least one input and one output"),
 "C66": ("proved", "deep embeddings with the semantics of Spec/Reducer.lean, as C58; specification Spec/Poseidon.lean, parametric in the constants and the matrix, which are those of the code (tools/check_constants.py derives them from the Grain generator of the reference implementation, outside the kernel). Test vector poseidon_1_2. C66_bijective is about the specification, of which C66_poseidon shows that the code computes it"),
 "C67": ("proved", "deep embeddings with the semantics of Spec/Reducer.lean, as C58; specification Spec/Pedersen.lean. The kernel checks that the tables of the code hold the multiples of the base points. C67_collision is the reduction of collisions to relations between the base points, for solvers which use binary representations; C67_second_result shows that a prover can choose between two hashes of the message of the library's test"),
 "C68": ("partial", "expressions (without calls and ranges), statements (without loops, logs, assembly) and functions without generic parameters; array sizes are literals. The readings (C68_reads) are proved in full. That the result is well typed is false of the code in general (C68_conditional_widths, C68_conditional_sizes, C68_conditional_structs, C68_ragged); proved up to the comparisons of types the checker leaves out (Agree), and without any such condition for arithmetic functions (C68_arithmetic_function). Not intended but accepted: C68_and_of_integers; panics of the compiler: C68_panics"),
 "C69": ("partial", "functions without loops, calls, ranges, logs and assembly, as C68; Returns and Fails (Spec/Source.lean) evaluate the source without a type checker: a literal has the type it is read at. C69_returns, C69_fails, C69_returns_iff, C69_fails_iff, C69_outcome, C69_unique, C69_expression, C69_well_typed, C69_arithmetic: the type checker preserves the meaning (the converse where operands do not consist of literals only, DefiniteSS). C69_compiled_*: composition with C57, whose missing parts are those of C57 (InOrder, Compilable, HashOk); that the typed function is well typed is a hypothesis (see C68), which C68_arithmetic_function discharges for arithmetic functions. C69_compiled_sound_partial leaves open what the circuit accepts on arguments on which the source meets an undefined operation (as C47). Props/SourceExamples.lean: a source function which meets all hypotheses"),
 "C70": ("partial", "the step circuit given to the external library; of its recursive proof only the current state and the number of steps. C70_step: exactly what can be proved of one step; C70_complete, C70_honest_prover, C70_prove, C70_same_circuit, C70_wires. Soundness (C70_sound_partial, C70_chain_partial) holds if the constraints do not mention ~one; without this it is false of the code, which leaves ~one to the prover (C70_one_unbound), and so is the claim that the state is the public arguments (C70_positional). Assembly blocks have to be cleaned before (C07_clean)"),
 "C71": ("proved", "the strings only: the JSON around them (serde) and the elements of arkworks (ToBytes, FromBytes: limbs little-endian, a flag at the end; from the published sources of the crate) are external. C71_infinity_lost: the point at infinity comes back as (0, 1), which is not on the curve. C71_solidity: to_token.rs refuses fields of more than 256 bits by a panic (never used with them)"),
 "C72": ("partial", "complete for Groth16; for GM17 (C72_gm17_accepts_partial) it is assumed that ECTwistAdd, the addition of points of the second group written in Solidity, adds points, and verify and the export are not modelled. The contract is transliterated, with the precompiled contracts of EIP-196 and EIP-197 as specified over an abstract pairing (Spec/Groth16.lean), and which numbers of the key are put where; gas, ABI bytes and the text are not modelled, verify_proof of arkworks is external. The second coordinate of C is reduced modulo q by negate, so C_y + q is accepted as well: C72_accepts says so exactly, C72_malleable. Points at infinity in keys and proofs are excluded (C71_infinity_lost)"),
}
