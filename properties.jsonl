{"id": "C01", "title": "A computed witness satisfies the circuit", "statement": "If executing a compiled program on a list of inputs succeeds, the returned witness binds ~one to 1, every argument to its input, and satisfies every constraint of the program (quad == lin).", "quantifier": "every prime field, every program in which directives write fresh variables, every input list, every solver table", "why_tests_cant": "The program and the inputs range over unbounded sets; a test executes one program on one input.", "anchors": ["zokrates_interpreter/src/lib.rs:Interpreter::execute_with_log_stream", "zokrates_ast/src/ir/expression.rs:LinComb::is_assignee", "zokrates_interpreter/src/lib.rs:evaluate_quad"]}
{"id": "C02", "title": "An execution failure is genuine", "statement": "If execution reports an unsatisfied constraint, then no assignment that extends the inputs and gives every directive output the value its solver computes satisfies all the constraints: the interpreter never rejects an input for which honest execution has a witness.", "quantifier": "every prime field, program, input list", "why_tests_cant": "Universally quantified over all candidate witnesses of all programs.", "anchors": ["zokrates_interpreter/src/lib.rs:Interpreter::execute_with_log_stream"]}
{"id": "C03", "title": "Wrong input counts are rejected, and the interpreter touches only declared variables", "statement": "Execution returns WrongInputCount exactly when the number of inputs differs from the number of arguments; otherwise it never does. A successful witness binds exactly ~one, the arguments, and the variables assigned by a constraint or directive of the program.", "quantifier": "every program and every input list", "why_tests_cant": "Needs all lengths and all programs.", "anchors": ["zokrates_interpreter/src/lib.rs:Interpreter::execute_with_log_stream"]}
{"id": "C04", "title": "Built-in solvers satisfy the constraints they are emitted with", "statement": "For every input: ConditionEq outputs (y,m) with y = x*m, (1-y)*x = 0, y = [x != 0]; Bits(n) outputs n values in {0,1} whose weighted sum is the input modulo 2^n; Xor/Or/ShaCh/ShaAndXorAndXorAnd compute the boolean function on boolean inputs and satisfy their constraint on all inputs; Div outputs a/b when b != 0; EuclideanDiv outputs quotient and remainder of the canonical representatives. Each solver returns exactly its declared number of outputs.", "quantifier": "every prime field, every field input, every bit width", "why_tests_cant": "Field elements cannot be enumerated.", "anchors": ["zokrates_interpreter/src/lib.rs:Interpreter::execute_solver", "zokrates_ast/src/common/solvers.rs:Solver::get_signature"]}
{"id": "C05", "title": "Canonicalising a linear combination preserves its value and is a normal form", "statement": "LinComb::reduce returns a combination with the same value under every assignment, sorted by variable without repetition and without zero coefficients; two combinations have the same reduced form iff their coefficient of every variable agree (hence iff they agree on every assignment).", "quantifier": "every linear combination, every assignment, every field", "why_tests_cant": "All combinations with any number of repeated/cancelling terms.", "anchors": ["zokrates_ast/src/ir/expression.rs:LinComb::into_canonical", "zokrates_ast/src/ir/expression.rs:LinComb::reduce"]}
{"id": "C06", "title": "Linear-combination algebra and shape tests are sound", "statement": "add, sub, scalar multiplication and division of linear combinations denote the field operations; when try_constant, try_summand or QuadComb::try_linear succeed the result denotes the same value as the input under every assignment with ~one = 1.", "quantifier": "every combination, every scalar, every assignment", "why_tests_cant": "Universal over combinations and assignments.", "anchors": ["zokrates_ast/src/ir/expression.rs:LinComb::try_constant", "zokrates_ast/src/ir/expression.rs:LinComb::try_summand", "zokrates_ast/src/ir/expression.rs:QuadComb::try_linear"]}
{"id": "C07", "title": "Lowering flat statements to R1CS preserves satisfaction and does not crash on flattener output", "statement": "Converting a flat statement to an IR statement preserves, for every assignment with ~one = 1, whether it is satisfied; conversion panics exactly on statements whose linear side (or a factor of the quadratic side) is not linear.", "quantifier": "every flat statement and assignment", "why_tests_cant": "Expressions are unbounded trees.", "anchors": ["zokrates_ast/src/ir/from_flat.rs:From<FlatStatement>", "zokrates_ast/src/flat/mod.rs:FlatExpression::is_linear"]}
{"id": "C08", "title": "Removing redefinitions preserves the set of input/output behaviours", "statement": "For a program without assembly blocks in single-assignment form: every satisfying assignment of the result extends to one of the original with the same arguments and outputs, changing only variables the result does not use; and every satisfying assignment an honest prover computes for the original (every directive output is what its solver returns) satisfies the result.", "quantifier": "every single-assignment IR program without blocks, every assignment", "why_tests_cant": "Quantifies over all programs and all satisfying assignments in both directions.", "anchors": ["zokrates_core/src/optimizer/redefinition.rs:RedefinitionOptimizer"]}
{"id": "C09", "title": "Tautology removal and linearisation preserve satisfaction", "statement": "TautologyOptimizer drops only constraints satisfied by every assignment with ~one = 1, and rewrites the others to equivalent ones.", "quantifier": "every constraint and assignment", "why_tests_cant": "All constraints.", "anchors": ["zokrates_core/src/optimizer/tautology.rs:TautologyOptimizer"]}
{"id": "C10", "title": "Canonicalising a program preserves satisfaction of every statement", "statement": "For every statement (constraint, directive, log, block) and assignment, the canonicalised statement evaluates to the same values.", "quantifier": "every statement and assignment", "why_tests_cant": "All statements, arbitrary block nesting.", "anchors": ["zokrates_core/src/optimizer/canonicalizer.rs:Canonicalizer"]}
{"id": "C11", "title": "De-duplicating directives preserves behaviours", "statement": "Merging two directives with the same solver and inputs and renaming the second's outputs keeps every satisfying assignment produced by honest execution and adds none: a satisfying assignment of the merged program extends to one of the original.", "quantifier": "every single-assignment program, every assignment", "why_tests_cant": "Quantifies over programs and histories of calls.", "anchors": ["zokrates_core/src/optimizer/directive.rs:DirectiveOptimizer"]}
{"id": "C12", "title": "Dropping duplicate statements preserves satisfaction", "statement": "DuplicateOptimizer only drops a statement if a statement with the same hash has been kept before; if the 64-bit hash does not collide on the statements of the program, the result is satisfied by exactly the same assignments.", "quantifier": "every program, every assignment, every hash function without collisions on the program", "why_tests_cant": "Universal over programs; the collision hypothesis is explicit.", "anchors": ["zokrates_core/src/optimizer/duplicate.rs:DuplicateOptimizer"]}
{"id": "C13", "title": "The whole optimiser pipeline preserves the input/output relation", "statement": "optimize() followed by clean(): every pair of argument and output values some assignment satisfies the optimised program with is one some assignment satisfies the original with; every pair an honest prover realises for the original it realises for the optimised program; and executing the optimised program succeeds with the same outputs on exactly the same inputs as the original.", "quantifier": "every single-assignment program without assembly blocks, every input", "why_tests_cant": "Composition of five stateful passes over unbounded programs.", "anchors": ["zokrates_core/src/optimizer/mod.rs:optimize", "zokrates_ast/src/ir/clean.rs:Cleaner"]}
{"id": "C14", "title": "The equality gadget is exact", "statement": "The constraints emitted for `a == b` force the result to 1 if the operands are equal and 0 otherwise, for every witness; and the honest witness satisfies them.", "quantifier": "every field, operands, and adversarial witness", "why_tests_cant": "Adversarial witnesses cannot be enumerated.", "anchors": ["zokrates_codegen/src/lib.rs:Flattener::eq_check"]}
{"id": "C15", "title": "The constant range-check gadget is exact", "statement": "For a boolean big-endian bit vector a and a constant bit vector b of the same length, the conditions returned by constant_le_check sum to their number iff a <= b as integers (and each is 0 or 1), for every witness; the enforced variant is satisfiable iff a <= b.", "quantifier": "every length, every constant, every witness", "why_tests_cant": "Unbounded length; adversarial witnesses.", "anchors": ["zokrates_codegen/src/lib.rs:Flattener::constant_le_check", "zokrates_codegen/src/lib.rs:Flattener::enforce_constant_le_check_bits"]}
{"id": "C16", "title": "Bit decompositions are unique in range", "statement": "The constraints emitted to decompose an expression into n bits with 2^n <= p have exactly one solution for the bits when the value is < 2^n and none otherwise; at the full field width the additional check against p-1 makes the decomposition unique.", "quantifier": "every field, width, expression value and witness", "why_tests_cant": "Adversarial witnesses; all field elements.", "anchors": ["zokrates_codegen/src/lib.rs:Flattener::get_bits_unchecked", "zokrates_codegen/src/lib.rs:Flattener::constant_field_le_check"]}
{"id": "C17", "title": "Comparison gadgets are exact in their domain", "statement": "`a < c` and `c < a` against constants are exact for all field elements; dynamic `a < b` is exact when both operands are < 2^(bits-2) and unsatisfiable otherwise; uint comparisons are exact for reduced operands.", "quantifier": "every field with 2^(bits-1) <= p < 2^bits, every operands, every witness", "why_tests_cant": "Boundary values are field sized; adversarial witnesses.", "anchors": ["zokrates_codegen/src/lib.rs:Flattener::lt_check", "zokrates_codegen/src/lib.rs:Flattener::constant_lt_check", "zokrates_codegen/src/lib.rs:Flattener::enforce_constant_lt_check"]}
{"id": "C18", "title": "The uint division gadget is exact", "statement": "For reduced operands the constraints for `n / d` and `n % d` force the Euclidean quotient and remainder, are unsatisfiable when d = 0, and are satisfied by the honest witness when d != 0.", "quantifier": "every width w with 2w+1 < bits, all operands, every witness", "why_tests_cant": "Adversarial witnesses.", "anchors": ["zokrates_codegen/src/lib.rs:Flattener::euclidean_division"]}
{"id": "C19", "title": "Boolean, conditional and selection gadgets compute the boolean semantics", "statement": "and/or/not/xor/equality on boolean-valued expressions, if/else and array selection with a dynamic index compute the source value under every witness; an out-of-range dynamic index is unsatisfiable.", "quantifier": "every boolean operand, every array length, every index, every witness", "why_tests_cant": "Unbounded arrays and adversarial witnesses.", "anchors": ["zokrates_codegen/src/lib.rs:Flattener::flatten_boolean_expression", "zokrates_codegen/src/lib.rs:Flattener::flatten_conditional_expression", "zokrates_codegen/src/lib.rs:Flattener::flatten_select_expression"]}
{"id": "C20", "title": "Field expression flattening is sound", "statement": "For every field expression built from constants, variables, + - * / ** and if/else, under every witness satisfying the emitted constraints the flattened expression evaluates to the source value (division requires the divisor to be non-zero).", "quantifier": "every expression tree, environment and witness", "why_tests_cant": "Unbounded expression trees; adversarial witnesses.", "anchors": ["zokrates_codegen/src/lib.rs:Flattener::flatten_field_expression"]}
{"id": "C21", "title": "Unsigned integer arithmetic wraps exactly", "statement": "For u8/u16/u32/u64 expressions annotated by the uint optimiser, every witness satisfying the emitted constraints gives the flattened expression a value congruent to the source value modulo 2^w and bounded by the annotated maximum; a reduced expression has exactly the source value and its bits are the binary digits.", "quantifier": "every uint expression, environment and witness", "why_tests_cant": "Values are 64 bit, intermediate values up to 254 bit, witnesses adversarial.", "anchors": ["zokrates_codegen/src/lib.rs:Flattener::flatten_uint_expression", "zokrates_analysis/src/uint_optimizer.rs:UintOptimizer"]}
{"id": "C22", "title": "Uint range analysis never underestimates", "statement": "The maximum the uint optimiser annotates on an expression bounds the field value of the unreduced circuit expression for all inputs and is smaller than 2^(bits-1), so no intermediate value wraps around the field.", "quantifier": "every uint expression, every input", "why_tests_cant": "Intermediate maxima depend on arbitrary operator nesting.", "anchors": ["zokrates_analysis/src/uint_optimizer.rs:UintOptimizer::fold_uint_expression"]}
{"id": "C23", "title": "Compiled circuits accept only executions of the source program (soundness)", "statement": "For a ZIR main function, every assignment satisfying the flattened constraints makes the outputs equal to the source function evaluated on the argument values, and the source assertions hold.", "quantifier": "every program of the modelled ZIR fragment and every witness", "why_tests_cant": "Adversarial witnesses for arbitrary programs.", "anchors": ["zokrates_codegen/src/lib.rs:Flattener::flatten_statement", "zokrates_codegen/src/lib.rs:from_program_and_config"]}
{"id": "C24", "title": "Compiled circuits accept every execution of the source program (completeness)", "statement": "If the source function succeeds on the arguments then executing the flattened program on them succeeds and returns the source outputs.", "quantifier": "every program of the modelled ZIR fragment and every input", "why_tests_cant": "All inputs of all programs.", "anchors": ["zokrates_codegen/src/lib.rs:Flattener::flatten_statement", "zokrates_interpreter/src/lib.rs:Interpreter::execute"]}
{"id": "C25", "title": "Arguments are range checked by the circuit", "statement": "The constraints emitted for the parameters force every bool argument to 0 or 1 and every uN argument below 2^N, so a prover cannot supply ill-typed private inputs.", "quantifier": "every parameter list and every witness", "why_tests_cant": "Adversarial witnesses.", "anchors": ["zokrates_codegen/src/lib.rs:Flattener::use_parameter"]}
{"id": "C26", "title": "Compile-time constant propagation agrees with run time evaluation", "statement": "Folding constants in ZIR expressions preserves the value of the expression in every environment; where the propagator reports an error (division by zero, failing assertion, out of bounds) evaluation fails.", "quantifier": "every expression and environment", "why_tests_cant": "Unbounded expressions; overflow corner cases at 2^64.", "anchors": ["zokrates_analysis/src/zir_propagation.rs:ZirPropagator"]}
{"id": "C27", "title": "ABI encoding round-trips", "statement": "Decoding the encoding of a well-typed value at its type returns the value; the encoding has exactly get_primitive_count elements; equal encodings imply equal values.", "quantifier": "every type (arrays, structs, tuples nested) and every well-typed value", "why_tests_cant": "Types nest without bound.", "anchors": ["zokrates_abi/src/lib.rs:Encode", "zokrates_abi/src/lib.rs:Decode", "zokrates_ast/src/typed/types.rs:get_primitive_count"]}
{"id": "C28", "title": "ABI input parsing accepts exactly the well-typed JSON and inverts printing", "statement": "parse_value succeeds only on JSON of the shape of the type (exact array length, exact struct members, integers in range) and returns a well-typed value; parsing the JSON printed for a well-typed value returns it.", "quantifier": "every type, JSON value", "why_tests_cant": "Unbounded JSON.", "anchors": ["zokrates_abi/src/lib.rs:parse_value", "zokrates_abi/src/lib.rs:into_serde_json", "zokrates_abi/src/lib.rs:parse_strict"]}
{"id": "C29", "title": "Witness files round-trip", "statement": "Reading a written witness returns the same witness, any trailing bytes are left unread, and reading a strict prefix of a written witness fails.", "quantifier": "every witness, every truncation point", "why_tests_cant": "Every length and truncation point.", "anchors": ["zokrates_ast/src/ir/witness.rs:Witness::write", "zokrates_ast/src/ir/witness.rs:Witness::read", "zokrates_ast/src/common/flat/variable.rs:Variable::write"]}
{"id": "C30", "title": "Program file headers round-trip and foreign files are rejected", "statement": "ProgHeader::read inverts ProgHeader::write; a truncated header, a wrong magic number, a wrong version, an unknown section tag or an unknown curve identifier is rejected.", "quantifier": "every header, every byte string", "why_tests_cant": "All byte strings.", "anchors": ["zokrates_ast/src/ir/serialize.rs:ProgHeader", "zokrates_ast/src/ir/serialize.rs:ProgEnum::deserialize"]}
{"id": "C31", "title": "Program serialisation round-trips", "statement": "Deserialising a serialised program yields the same arguments, return count and statements, with each inlined solver replaced by a reference to an equal solver in the table, and the stored constraint count is the number of constraints.", "quantifier": "every program", "why_tests_cant": "Unbounded programs.", "anchors": ["zokrates_ast/src/ir/serialize.rs:ProgIterator::serialize", "zokrates_ast/src/ir/solver_indexer.rs:SolverIndexer"]}
{"id": "C32", "title": "Unconstrained private variables are detected", "statement": "Serialisation succeeds exactly if every private argument occurs in a constraint or a log, and every directive output occurs in a constraint or log after the directive; otherwise the number of distinct offending variables is reported. In a program without logs, success means every such variable occurs in a constraint.", "quantifier": "every program", "why_tests_cant": "All programs.", "anchors": ["zokrates_ast/src/ir/check.rs:UnconstrainedVariableDetector"]}
{"id": "C33", "title": "The exported R1CS is the program's constraint system", "statement": "r1cs_program returns sparse rows such that the row system is satisfied by a wire vector iff the program's constraints are satisfied by the corresponding assignment; wires start with ~one, the outputs in order, then the public inputs in argument order, without repetition.", "quantifier": "every program, every assignment", "why_tests_cant": "All programs.", "anchors": ["zokrates_circom/src/r1cs.rs:r1cs_program"]}
{"id": "C34", "title": "The exported circom witness lines up with the exported R1CS", "statement": "The i-th value written by write_witness is the value of the i-th wire of the exported R1CS.", "quantifier": "every compiled program whose arguments, outputs and directive outputs all occur in constraints, and every witness of it", "why_tests_cant": "All programs and witnesses.", "anchors": ["zokrates_circom/src/witness.rs:write_witness", "zokrates_circom/src/r1cs.rs:write_r1cs"]}
{"id": "C35", "title": "The SMT-LIB export is faithful", "statement": "The exported formula, read over the integers, holds for an integer valuation iff ~one is 1, ~prime is the modulus and the residues satisfy the program's constraints.", "quantifier": "every program and integer valuation", "why_tests_cant": "All programs and integers.", "anchors": ["zokrates_ast/src/ir/smtlib2.rs"]}
{"id": "C36", "title": "Public inputs given to the verifier line up with the circuit's public wires", "statement": "The order in which the proving backends allocate public wires (public arguments in order, then outputs in order of first occurrence) equals the order of public_inputs_values when outputs first occur in order (bellperson: always, as it allocates the outputs before the constraints), and every constraint handed to the backend is the program's.", "quantifier": "every program and witness", "why_tests_cant": "All programs.", "anchors": ["zokrates_bellman/src/lib.rs:Computation::synthesize", "zokrates_ark/src/lib.rs:Computation::generate_constraints", "zokrates_bellperson/src/lib.rs:Computation::synthesize", "zokrates_ast/src/ir/mod.rs:public_inputs_values"]}
{"id": "C37", "title": "Field bit and byte representations are faithful", "statement": "to_bits_be gives get_required_bits digits of the canonical representative; bits() is the bit length (at least 1); from_byte_vector inverts to_byte_vector; TryFrom<BigUint> accepts exactly values below p; try_from_str accepts exactly numerals below p and to_dec_string round-trips.", "quantifier": "every prime and every element", "why_tests_cant": "Primes are 254+ bits.", "anchors": ["zokrates_field/src/lib.rs:prime_field"]}
{"id": "C38", "title": "checked_add and checked_mul detect loss of unique representation", "statement": "For operands at most max_unique_value, checked_add/checked_mul return Some(r) iff the integer result is at most max_unique_value, and then r represents the integer result.", "quantifier": "every prime, every operands", "why_tests_cant": "Field sized boundary.", "anchors": ["zokrates_field/src/lib.rs:CheckedAdd", "zokrates_field/src/lib.rs:CheckedMul"]}
{"id": "C39", "title": "to_compact_dec_string is injective and denotes the element", "statement": "The compact decimal string of an element denotes an integer congruent to it of absolute value at most (p-1)/2.", "quantifier": "every odd prime and element", "why_tests_cant": "All elements.", "anchors": ["zokrates_field/src/lib.rs:to_compact_dec_string"]}
{"id": "C40", "title": "Variable names are injective", "statement": "Distinct constraint-system variables are displayed differently, so JSON witnesses and SMT exports never conflate two variables.", "quantifier": "every pair of variables", "why_tests_cant": "Unbounded identifiers.", "anchors": ["zokrates_ast/src/common/flat/variable.rs:Display"]}
{"id": "C42", "title": "Optimising assembly blocks preserves the input/output relation", "statement": "For a program with assembly blocks, every pair of argument and output values the optimised program can be satisfied with is one the original program can be satisfied with.", "quantifier": "every program with assembly blocks and every assignment", "why_tests_cant": "Quantifies over all programs and all satisfying assignments.", "anchors": ["zokrates_core/src/optimizer/redefinition.rs:RedefinitionOptimizer", "zokrates_core/src/optimizer/mod.rs:optimize"]}
{"id": "C43", "title": "The compiled and optimised circuit is the source function", "statement": "For a ZIR main function that leaves no choice to the prover, the program produced by the back end (flattening, lowering, optimisation) can be satisfied with arguments `ins` and outputs `outs`, and can be executed on `ins` with result `outs`, if and only if the source function returns `outs` on `ins`.", "quantifier": "every function of the modelled ZIR, every argument list, every assignment", "why_tests_cant": "Adversarial witnesses and all inputs of arbitrary programs.", "anchors": ["zokrates_core/src/compile.rs:compile", "zokrates_codegen/src/lib.rs:from_program_and_config", "zokrates_core/src/optimizer/mod.rs:optimize"]}
{"id": "C44", "title": "Making failures explicit does not change what a program computes", "statement": "Turning the failure modes of expressions into separate assertions in front of the statements (before dead code is removed) leaves the signature, the results and the set of arguments on which the program fails unchanged; afterwards no execution reaches a division of a field element by zero, and the assertions in front of a comparison hold only when the comparison is defined.", "quantifier": "every function of the modelled ZIR, every argument list", "why_tests_cant": "All programs and inputs; nested conditionals give nested guards.", "anchors": ["zokrates_analysis/src/panic_extractor.rs:PanicExtractor", "zokrates_analysis/src/lib.rs:analyse"]}
{"id": "C45", "title": "Removing dead code does not change what a program computes", "statement": "Removing unused definitions keeps the signature, every result, and every failure of an assertion, a constraint or a used expression; the rest fails and returns only where the source does, except that failures of the right side of an unused definition may be forgotten. Together with the explicit failures of C44, no division of a field element by zero is forgotten. No unused definition is left.", "quantifier": "every function of the modelled ZIR in which no variable is mentioned before it is assigned, every argument list", "why_tests_cant": "All programs and inputs; liveness is computed backwards through nested branches.", "anchors": ["zokrates_analysis/src/dead_code.rs:DeadCodeEliminator", "zokrates_analysis/src/lib.rs:analyse"]}
{"id": "C41", "title": "Rewriting assembly constraints does not change them", "statement": "When the compiler accepts the constraints of an assembly block, it rewrites each of them to one rank-1 constraint without auxiliary variables that holds for the same values of the variables; programs whose constraints cannot be written that way are rejected, and nothing else is.", "quantifier": "every program with assembly blocks, every argument vector and all values of hints", "why_tests_cant": "Quantifies over all polynomial constraints and all values of their variables; tests check a few shapes.", "anchors": ["zokrates_analysis/src/assembly_transformer.rs:AssemblyTransformer", "zokrates_ast/src/zir/lqc.rs:LinQuadComb::try_mul", "zokrates_ast/src/zir/mod.rs:FieldElementExpression::is_linear", "zokrates_codegen/src/lib.rs:flatten_assembly_statement"]}
{"id": "C46", "title": "Well-typed programs have an outcome", "statement": "A well-typed intermediate program never reads a variable without a value or with a value of another type. On all arguments of the declared types it either returns as many values as it declares or fails with one of the defined failures; without hints and unpacking it has exactly one result or fails, never both.", "quantifier": "every well-typed program, every argument vector and all values of hints", "why_tests_cant": "Type soundness quantifies over all well-typed programs and their executions.", "anchors": ["zokrates_ast/src/zir/mod.rs:ZirFunction", "zokrates_codegen/src/lib.rs:flatten_function"]}
{"id": "C47", "title": "All passes together: the circuit is the source function", "statement": "Constant propagation, extraction of panics, removal of dead code, range analysis, assembly rewriting, flattening, lowering and optimisation, one after the other: the circuit they produce can be satisfied with arguments `ins` and outputs `outs`, and can be executed on `ins` with result `outs`, if and only if the function in front of the propagation returns `outs` on `ins`, for all arguments on which it does not fail; arguments on which an assertion fails or a field element is divided by zero are rejected.", "quantifier": "every function of the modelled ZIR, every argument list, every assignment", "why_tests_cant": "Adversarial witnesses and all inputs of arbitrary programs; the invariants one pass relies on must be kept by all passes before it.", "anchors": ["zokrates_analysis/src/lib.rs:analyse", "zokrates_core/src/compile.rs:compile"]}
{"id": "C48", "title": "Arrays, structs and tuples: the circuit is the typed source function", "statement": "Turning arrays, structs and tuples into their components (parameters, variables, selects with constant and run-time indices, members, slices, spreads, repetitions, equality, conditionals, assignments to parts of variables), followed by all later passes and the back end: the circuit accepts arguments and outputs if and only if they are the ABI encodings of arguments of the declared types and of what the typed function returns on them, for all arguments on which it does not fail; executing the circuit returns the encoding of the result; arguments on which an assertion of the typed function fails are rejected; the number and visibility of the inputs are those of the ABI; flattening does not panic on well-typed functions.", "quantifier": "every well-typed function over nested arrays, structs and tuples, of any depth and size; every argument; every assignment of the circuit", "why_tests_cant": "Types nest arbitrarily, and the encoding, the flattening of values, of assignees and of expressions must agree on the order of the components for all of them; adversarial witnesses.", "anchors": ["zokrates_analysis/src/flatten_complex_types.rs:fold_statement", "zokrates_analysis/src/flatten_complex_types.rs:fold_select_expression", "zokrates_analysis/src/lib.rs:analyse"]}
{"id": "C49", "title": "Assignments with run-time indices", "statement": "Assigning to `a[i]`, `s.v[i]`, `a[i][j].m` or any other part of a variable, with indices only known at run time, replaces exactly that part and keeps all others: the function in which such assignments are replaced by assignments to whole variables returns what the source returns, nothing else unless the source can fail, and fails only where the source fails. An index out of range makes an assertion fail, in whatever order the range checks are emitted. All remaining assignments have literal indices, the result is well-typed, and the compiler does not panic on well-typed functions.", "quantifier": "every well-typed function, every nesting of arrays, structs and tuples in the type of the variable, every path to the assigned part, every argument, every enumeration order of the hash set of checks", "why_tests_cant": "The paths to the assigned part and the types are arbitrarily deep, the index ranges over all of u32, and the order of a hash set is not reproducible.", "anchors": ["zokrates_analysis/src/variable_write_remover.rs:choose_many", "zokrates_analysis/src/variable_write_remover.rs:fold_definition_statement", "zokrates_analysis/src/lib.rs:analyse"]}
{"id": "C50", "title": "Conditions of conditionals are computed once, in front of the statement", "statement": "Computing every condition of a conditional expression into a variable of its own, in front of the statement that contains it, does not change the function: it returns what the source returns, nothing else unless the source can fail, and fails only where the source fails. Afterwards every condition, at every depth and in every statement, is a literal or a variable, so that a branch is never duplicated together with the computation of its condition; the new variables are assigned once each and in order; the function stays well-typed, and its signature does not change.", "quantifier": "every well-typed function, every nesting of conditionals inside conditions, branches, indices and assignees, every argument", "why_tests_cant": "Conditionals nest to any depth inside each other's conditions, and the state of the condition counter crosses statements.", "anchors": ["zokrates_analysis/src/condition_redefiner.rs:redefine", "zokrates_analysis/src/condition_redefiner.rs:fold_conditional_expression", "zokrates_analysis/src/lib.rs:analyse"]}
{"id": "C51", "title": "Comparisons of arrays of booleans", "statement": "Comparing two arrays of booleans as arrays of field elements, each of which holds as many booleans as fit below the modulus, never changes the result of the comparison: distinct arrays stay distinct, whatever their length and whatever the field. The function returns what the source returns, nothing else unless the source can fail, and fails only where the source fails; n booleans become ceil(n / (bits of the modulus - 1)) field elements; the result is well-typed and has no new variables.", "quantifier": "every prime field, every length of the arrays, every pair of arrays, every well-typed function and every place of the comparison in it, every argument", "why_tests_cant": "The number of pairs of boolean arrays is exponential, the chunks depend on the modulus, and a packing that wraps around the modulus identifies arrays that no sampled test compares.", "anchors": ["zokrates_analysis/src/boolean_array_comparator.rs:sum_rec", "zokrates_analysis/src/boolean_array_comparator.rs:fold_boolean_expression_cases", "zokrates_analysis/src/lib.rs:analyse"]}
{"id": "C52", "title": "The checks of shifts and of literal indices", "statement": "Shifting an integer by anything but a literal, and comparing bits with anything but a constant, are reported as errors, and so is a literal index out of the bounds of an array, read or written; nothing else is reported. A program which passes the checks is not changed by them, and a program which is rejected because of an index could not return anything on any arguments. What is not inspected is stated exactly: arguments of other embedded functions, and the operands of a select.", "quantifier": "every well-typed function, every expression at every depth, every index and size, every argument", "why_tests_cant": "The checked expressions occur at any depth, and a rejected program has to be useless for all of its arguments.", "anchors": ["zokrates_analysis/src/constant_argument_checker.rs:fold_uint_expression_cases", "zokrates_analysis/src/constant_argument_checker.rs:fold_definition_statement", "zokrates_analysis/src/out_of_bounds.rs:fold_select_expression", "zokrates_analysis/src/out_of_bounds.rs:fold_assignee"]}
{"id": "C53", "title": "The typed passes together, and the circuit of a function with run-time writes", "statement": "Packing comparisons of boolean arrays, removing assignments with run-time indices, the two checks and redefining conditions, in the order of the compiler: whatever is accepted returns what the source returns, nothing else unless the source can fail, fails only where the source fails, and keeps failing where an assertion fails; the result is well-typed with the same signature, with literal indices and simple conditions; nothing panics, and a function is rejected only by one of the two checks. Followed by the flattening of types, all later passes and the back end, the circuit accepts arguments and outputs if and only if they encode arguments of the declared types and what the typed source returns on them.", "quantifier": "every well-typed function over nested arrays, structs and tuples, every argument, every enumeration order of the hash set of range checks, every assignment of the circuit", "why_tests_cant": "Five passes in sequence each rely on the shape the previous ones leave behind; adversarial witnesses; arbitrary nesting.", "anchors": ["zokrates_analysis/src/lib.rs:analyse", "zokrates_analysis/src/variable_write_remover.rs:fold_definition_statement", "zokrates_analysis/src/condition_redefiner.rs:redefine", "zokrates_analysis/src/flatten_complex_types.rs:fold_statement"]}
{"id": "C54", "title": "Constant propagation on typed programs preserves behaviour, and rejects only useless programs", "statement": "Replacing variables by their constant values, folding operators, selects, members, conditionals, comparisons and embedded functions on constants, removing assertions that hold, and materialising a constant again when a part of it is overwritten with something that is not constant: the result returns what the source returns, nothing else unless the source can fail, fails only where the source fails, and an assertion of it fails wherever one of the source fails. It is well-typed with the same signature, uses no new variables, and keeps what the following passes rely on. A function that is rejected because of an assertion, an argument of an embedded function, an index or a divisor cannot return anything. Bits of a constant field element are the ones of the run-time decomposition if there are no more of them than the modulus has; beyond that they are still bits the circuit admits, but other ones than the solver computes.", "quantifier": "every well-typed function over nested arrays (with spreads, slices and repetitions), structs, tuples, field elements, integers and booleans, every argument, every resolution of bit decompositions", "why_tests_cant": "Constants flow through any number of statements and any nesting; the fold has special cases for each operator with one or two literal operands, at every width.", "anchors": ["zokrates_analysis/src/propagation.rs:Propagator", "zokrates_analysis/src/propagation.rs:fold_definition_statement", "zokrates_analysis/src/propagation.rs:fold_assertion_statement", "zokrates_analysis/src/propagation.rs:try_get_constant_mut", "zokrates_ast/src/typed/mod.rs:into_canonical_constant"]}
{"id": "C55", "title": "From the typed program in front of constant propagation to the circuit", "statement": "Constant propagation of the typed program, the passes of C53, the flattening of types, the passes over ZIR and the back end, in the order of the compiler: what satisfies the circuit encodes arguments of the declared types and what the typed source returns on them (or arguments on which it fails); if the source returns something then executing the circuit succeeds with its encoding; where an assertion of the source fails, the circuit cannot be satisfied; and without bit decompositions the accepted outputs are exactly the encoding of what the source returns.", "quantifier": "every accepted typed function, every argument, every enumeration order of the hash set of range checks, every assignment of the circuit", "why_tests_cant": "Adversarial witnesses; eleven passes and code generation in sequence, each relying on the shape the previous ones leave behind.", "anchors": ["zokrates_analysis/src/lib.rs:analyse", "zokrates_analysis/src/propagation.rs:propagate", "zokrates_core/src/compile.rs:compile"]}
{"id": "C56", "title": "The reducer preserves behaviour: loops are unrolled and calls are inlined", "statement": "A program with loops and calls of (generic) functions is turned into one function without them, in static single assignment form, with constants propagated on the way: the result returns what the program returns, nothing else unless the program can fail on these arguments, fails only where the program fails, and an assertion of it fails wherever one of the program fails, in whichever iteration or callee. It is well-typed with the same parameter types, visibilities and return type; the only calls left are those of embedded functions, each of which is the first assignment to its own variable. A variable may not be assigned an expression with a slice of itself.", "quantifier": "every well-typed program, every nesting of loops and calls, every recursion depth of inlining, every argument, every resolution of bit decompositions", "why_tests_cant": "Loops nest, calls nest to any depth with their own generic parameters, and the versions and the constants of variables flow through all of them.", "anchors": ["zokrates_analysis/src/reducer/mod.rs:fold_statement", "zokrates_analysis/src/reducer/mod.rs:fold_function_call_expression", "zokrates_analysis/src/reducer/mod.rs:fold_slice_expression", "zokrates_analysis/src/reducer/mod.rs:reduce_program", "zokrates_analysis/src/reducer/inline.rs:inline_call", "zokrates_analysis/src/reducer/shallow_ssa.rs:ShallowTransformer"]}
{"id": "C57", "title": "From the program with loops and calls to the circuit", "statement": "The reducer, constant propagation, the other passes over typed programs, the flattening of types, the passes over ZIR and the back end, in the order of the compiler: what satisfies the circuit encodes arguments of the declared types and what the program returns on them (or arguments on which it fails); if the program returns something then executing the circuit succeeds with its encoding; where an assertion of the program fails, in a loop or in a function it calls, the circuit cannot be satisfied; and without bit decompositions the accepted outputs are exactly the encoding of what the program returns.", "quantifier": "every accepted program, every argument, every enumeration order of the hash set of range checks, every assignment of the circuit", "why_tests_cant": "Adversarial witnesses; twelve passes and code generation in sequence, each relying on the shape the previous ones leave behind.", "anchors": ["zokrates_analysis/src/lib.rs:analyse", "zokrates_analysis/src/reducer/mod.rs:reduce_program", "zokrates_core/src/compile.rs:compile"]}
{"id": "C58", "title": "Packing and unpacking of field elements in the standard library", "statement": "pack turns bits into the number they represent; unpack turns a field element into its binary representation: it has exactly one result, the canonical one, if the element fits into the number of bits, whatever bits the prover provides, and none otherwise; packing and unpacking are inverse to each other. unpack_unchecked and nonStrictUnpack256 may return any bits that represent the element modulo the prime, and nothing else; the casts field_to_u8 ... field_to_u64 return the low-order bits of the element, with no choice of the prover. pack and unpack of arrays of u32 are the digits in base 2^32.", "quantifier": "every number of bits, every field element, every odd prime field, every choice of bits by the prover", "why_tests_cant": "The bits of a decomposition are chosen by the prover: a test only ever sees the honest choice of the solver. The functions are generic in the number of bits.", "anchors": ["zokrates_stdlib/stdlib/utils/pack/bool/pack.zok:main", "zokrates_stdlib/stdlib/utils/pack/bool/unpack.zok:main", "zokrates_stdlib/stdlib/utils/pack/bool/unpack_unchecked.zok:main", "zokrates_stdlib/stdlib/utils/pack/bool/nonStrictUnpack256.zok:main", "zokrates_stdlib/stdlib/utils/casts/field_to_u32.zok:main", "zokrates_stdlib/stdlib/utils/pack/u32/pack.zok:main", "zokrates_stdlib/stdlib/utils/pack/u32/unpack128.zok:main"]}
{"id": "C59", "title": "Casts and lookup tables of the standard library", "statement": "Each cast of utils/casts has exactly one result on each argument: between integers and booleans the binary representation, most significant bit first; from integers to field elements and to larger integers the same number; between arrays of smaller and larger integers the digits; casts of arrays are casts of their elements, and fail if the sizes do not match. Casts back and forth are the identity. The lookup functions select the entry of the table whose index the bits represent.", "quantifier": "every width, every array size, every argument", "why_tests_cant": "Generic in sizes; loops with index arithmetic; sixty-odd overloads.", "anchors": ["zokrates_stdlib/stdlib/utils/casts.zok:cast", "zokrates_stdlib/stdlib/utils/multiplexer/lookup1bit.zok:main", "zokrates_stdlib/stdlib/utils/multiplexer/lookup2bit.zok:main", "zokrates_stdlib/stdlib/utils/multiplexer/lookup3bitSigned.zok:main"]}
{"id": "C60", "title": "Elliptic curves in the standard library", "statement": "edwardsAdd is the addition of the group of the twisted Edwards curve with the given parameters (complete: it never divides by zero on points of the curve), edwardsNegate its inverse, edwardsScalarMult the multiplication by the number which the bits represent, edwardsOrderCheck returns whether the order of the point does not divide 8, edwardsOnCurve holds on the points of the curve and fails elsewhere. proofOfOwnership returns true exactly if the public key is the multiple of the generator by a number below 2^254 congruent to the secret key; edwardsCompress returns the second coordinate with the parity of the first, up to the representatives chosen by the prover: with canonical representatives it is injective. The parameters of Baby Jubjub are those of a complete curve over the field of Bn128.", "quantifier": "every complete twisted Edwards curve over every prime field, every point, every scalar, every choice of bits by the prover", "why_tests_cant": "The group law holds for all pairs of points, including doubling, inverse points and the neutral element; the scalars have 256 bits; representatives are chosen by the prover.", "anchors": ["zokrates_stdlib/stdlib/ecc/edwardsAdd.zok:main", "zokrates_stdlib/stdlib/ecc/edwardsNegate.zok:main", "zokrates_stdlib/stdlib/ecc/edwardsOnCurve.zok:main", "zokrates_stdlib/stdlib/ecc/edwardsOrderCheck.zok:main", "zokrates_stdlib/stdlib/ecc/edwardsScalarMult.zok:main", "zokrates_stdlib/stdlib/ecc/edwardsCompress.zok:main", "zokrates_stdlib/stdlib/ecc/proofOfOwnership.zok:main", "zokrates_stdlib/stdlib/ecc/babyjubjubParams.zok:BABYJUBJUB_PARAMS"]}
{"id": "C61", "title": "SHA-256 in the standard library", "statement": "sha256Padded on bytes is SHA-256 (FIPS 180-4) for every message length the language can count, and so are 256bitPadded, 512bitPadded and 1024bitPadded on messages of these sizes; sha256Padded on bits is SHA-256 unless the length is 447 modulo 512, where a superfluous block is hashed. shaRound is the compression function; sha256, 512bit, 1024bit and 1536bit compress blocks without padding; 512bitPacked hashes four numbers of 128 bits, fails on larger ones, and returns the halves of the hash.", "quantifier": "every message of every length, every block, every field element", "why_tests_cant": "Messages have any length; the padding depends on the length modulo 512; each round mixes all bits; the values of field elements above 2^128 cannot be enumerated.", "anchors": ["zokrates_stdlib/stdlib/hashes/sha256/shaRound.zok:main", "zokrates_stdlib/stdlib/hashes/sha256/sha256.zok:main", "zokrates_stdlib/stdlib/hashes/sha256/sha256Padded.zok:pad", "zokrates_stdlib/stdlib/hashes/sha256/sha256Padded.zok:main", "zokrates_stdlib/stdlib/hashes/sha256/256bitPadded.zok:main", "zokrates_stdlib/stdlib/hashes/sha256/512bitPadded.zok:main", "zokrates_stdlib/stdlib/hashes/sha256/1024bitPadded.zok:main", "zokrates_stdlib/stdlib/hashes/sha256/512bitPacked.zok:main", "zokrates_stdlib/stdlib/hashes/utils/256bitsDirectionHelper.zok:main"]}
{"id": "C62", "title": "EdDSA signatures in the standard library", "statement": "verifyEddsa fails unless R is a point of the curve whose order does not divide the cofactor, and else returns whether S G = R + SHA256(R.u, A.u, M) A, up to the representatives below 2^254 of S, R.u and A.u chosen by the prover. Signatures made with a key can be verified; if it returns true, then the equation holds for some representatives; with canonical representatives the result is exactly whether the equation holds.", "quantifier": "every complete twisted Edwards curve with cofactor 8 over every prime field, every public key on the curve, every signature and message, every choice of bits by the prover", "why_tests_cant": "Composition of the group, of the hash and of decompositions chosen by the prover, over all keys and messages.", "anchors": ["zokrates_stdlib/stdlib/signatures/verifyEddsa.zok:main", "zokrates_stdlib/stdlib/utils/pack/u32/nonStrictUnpack256.zok:main"]}
{"id": "C63", "title": "Keccak and SHA-3 in the standard library", "statement": "hashes/sha3/224bit, 256bit, 384bit and 512bit are SHA3-224, SHA3-256, SHA3-384 and SHA3-512 (FIPS 202) of every message of bytes, hashes/keccak/224bit, ..., 512bit are the original Keccak hashes; keccakf is the permutation Keccak-f[1600]; the underlying sponge is correct for every suffix and every hash which is not longer than the rate.", "quantifier": "every message of every length the language can count, every state of the permutation, every suffix", "why_tests_cant": "Messages have any length, the position in the block and the padding depend on it modulo the rate; each round of the permutation mixes all 1600 bits.", "anchors": ["zokrates_stdlib/stdlib/hashes/keccak/keccak.zok:keccakf", "zokrates_stdlib/stdlib/hashes/keccak/keccak.zok:main", "zokrates_stdlib/stdlib/hashes/keccak/256bit.zok:main", "zokrates_stdlib/stdlib/hashes/sha3/256bit.zok:main"]}
{"id": "C64", "title": "BLAKE2s in the standard library", "statement": "hashes/blake2/blake2s is BLAKE2s (RFC 7693, without key, hashes of 32 bytes) of every message of one or more blocks of 64 bytes, hashes/blake2/blake2s_p the same with a personalization of 8 bytes; words are the big-endian words of the bytes of messages, personalizations and hashes. The compression function is that of the RFC for all states, blocks, counters and flags.", "quantifier": "every message of every positive number of whole blocks the language can count, every personalization, every state", "why_tests_cant": "Messages have any number of blocks, with a counter of two words which carries; each round mixes all bits of the state.", "anchors": ["zokrates_stdlib/stdlib/hashes/blake2/blake2s_p.zok:main", "zokrates_stdlib/stdlib/hashes/blake2/blake2s_p.zok:blake2s_compression", "zokrates_stdlib/stdlib/hashes/blake2/blake2s.zok:main"]}
{"id": "C65", "title": "MiMC in the standard library", "statement": "mimc7 is the MiMC-7 block cipher with R rounds, mimcFeistel the MiMC-Feistel cipher with 220 rounds, and mimcSponge the sponge of that cipher for every positive number of inputs and of outputs, with the round constants of the code. For every key mimcFeistel has different results on different inputs over every field, and mimc7 if 7 does not divide p - 1.", "quantifier": "every input, every key, every number of rounds up to 91, every number of inputs and outputs, every prime field", "why_tests_cant": "The inputs are all elements of large fields; the sponge absorbs any number of elements; injectivity is a statement about all pairs of inputs.", "anchors": ["zokrates_stdlib/stdlib/hashes/mimc7/mimc7.zok:main", "zokrates_stdlib/stdlib/hashes/mimcSponge/mimcFeistel.zok:main", "zokrates_stdlib/stdlib/hashes/mimcSponge/mimcSponge.zok:main"]}
{"id": "C66", "title": "Poseidon in the standard library", "statement": "poseidon on 1 to 6 field elements is the Poseidon hash (fifth power, 8 full rounds, 56, 57, 56, 60, 60, 63 partial rounds) with the constants and matrices of the code; on no element or more than 6 elements an assertion fails. Over the field of Bn128 the matrices are invertible and the permutations are bijections.", "quantifier": "all inputs of all sizes, every prime field", "why_tests_cant": "The inputs are all tuples of elements of large fields; bijectivity is a statement about all states.", "anchors": ["zokrates_stdlib/stdlib/hashes/poseidon/poseidon.zok:main", "zokrates_stdlib/stdlib/hashes/poseidon/poseidon.zok:ark", "zokrates_stdlib/stdlib/hashes/poseidon/poseidon.zok:sbox", "zokrates_stdlib/stdlib/hashes/poseidon/poseidon.zok:mix", "zokrates_stdlib/stdlib/hashes/poseidon/constants.zok:POSEIDON_C", "zokrates_stdlib/stdlib/hashes/poseidon/constants.zok:POSEIDON_M"]}
{"id": "C67", "title": "Pedersen hash in the standard library", "statement": "Over the field of Bn128, the Pedersen hash of 512 bits is the compressed sum of three multiples of fixed points of Baby Jubjub, whose scalars are the signed base-16 digits of the message in three segments. If binary representations of field elements are used in the compression, then two messages with the same hash give a relation with small integers between the three points; since the prover chooses the representatives, a message can have more than one hash.", "quantifier": "all messages of 512 bits, all choices of the prover", "why_tests_cant": "There are 2^512 messages; the 171 tables have to hold the right multiples of the points; collision resistance is a statement about all pairs of messages.", "anchors": ["zokrates_stdlib/stdlib/hashes/pedersen/512bitBool.zok:main", "zokrates_stdlib/stdlib/hashes/pedersen/512bit.zok:main"]}
{"id": "C68", "title": "Type checker", "statement": "A function without generic parameters which the type checker accepts is the function of the source: parameters with different names, exactly one return, the same statements and operators in the same places, variables in scope with the types they are declared with, only mutable variables assigned, members of structs by name, integer literals with their values, which fit into the types they are used at. The result is well typed.", "quantifier": "all functions without generic parameters, calls and loops, all struct declarations, every prime field", "why_tests_cant": "The types of literals are inferred from expressions of any depth and nesting; a test sees one expression. That the result is well typed is what all later passes rely on.", "anchors": ["zokrates_core/src/semantics.rs:check_expression", "zokrates_core/src/semantics.rs:check_statement", "zokrates_core/src/semantics.rs:check_assignee", "zokrates_core/src/semantics.rs:check_function", "zokrates_ast/src/typed/integer.rs:align_to_type", "zokrates_ast/src/typed/integer.rs:align_without_integers", "zokrates_ast/src/typed/integer.rs:try_from_int"]}
{"id": "C69", "title": "From source to circuit", "statement": "If a function of the source, evaluated on arguments by the rules of the source language alone, returns a value, then the circuit it is compiled to accepts the encoding of these arguments with the encoding of this value as outputs and with no other outputs, and executing the circuit returns it. If an assertion of the source function fails on the arguments, no assignment satisfies the circuit with them.", "quantifier": "all functions without generic parameters, calls and loops, all struct declarations, all arguments, every prime field of more than 64 bits", "why_tests_cant": "It is the composition of all passes of the compiler, over all programs and all inputs; a test runs the compiler on one program and one input.", "anchors": ["zokrates_core/src/compile.rs:compile", "zokrates_core/src/semantics.rs:check_function", "zokrates_analysis/src/lib.rs:analyse"]}
{"id": "C70", "title": "Steps of incremental proofs", "statement": "Of a program used as a step of an incremental (Nova) proof, a prover can prove exactly the steps from a state to a next state which the program makes, with the state as arguments, some private arguments, and the next state as outputs, and so for any number of steps. Proving with given private arguments succeeds iff the program runs through these steps, and proves the state it ends with and their number; the circuit is the same for the parameters and for each step.", "quantifier": "all programs, all states and private arguments, any number of steps, all choices of a malicious prover, all fields", "why_tests_cant": "That nothing else can be proved is a statement about all values a malicious prover may choose; a test only runs the honest prover, whose values are right even for variables which nothing constrains.", "anchors": ["zokrates_bellperson/src/nova.rs:NovaComputation", "zokrates_bellperson/src/nova.rs:synthesize", "zokrates_bellperson/src/nova.rs:output", "zokrates_bellperson/src/nova.rs:prove", "zokrates_bellperson/src/lib.rs:bellperson_combination", "zokrates_bellperson/src/lib.rs:synthesize_input_to_output"]}
{"id": "C71", "title": "Proofs and verification keys as strings", "statement": "The points and public inputs of proofs and verification keys, written as hexadecimal strings (by setup and generate-proof), are read back (by verify) as the same points and field elements, except for the point at infinity, which is read back as a different, finite point. The numbers passed to the Solidity verifier are the values of the same field elements; writing never confuses two finite points.", "quantifier": "all points of both groups (two coordinates, or four over the quadratic extension), all field elements, every prime field", "why_tests_cant": "The coordinates are all elements of large fields, of fixed width with leading zeros, in opposite byte orders on the way; a test sees one point.", "anchors": ["zokrates_ark/src/lib.rs:parse_g1", "zokrates_ark/src/lib.rs:parse_g2", "zokrates_ark/src/lib.rs:parse_fr", "zokrates_ark/src/lib.rs:to_g1", "zokrates_ark/src/lib.rs:to_g2", "zokrates_proof_systems/src/to_token.rs:encode_g1_element", "zokrates_proof_systems/src/to_token.rs:encode_fr_element"]}
{"id": "C72", "title": "Solidity verifiers of Groth16 and GM17", "statement": "The exported Solidity contract returns on every proof and its public inputs what verify returns, and reverts where verify panics. Whoever calls it, and with whatever numbers, it returns true exactly if the numbers denote points which are a valid Groth16 proof for public inputs less than the order of the scalar field; no input has a second representation. The contract of GM17 returns true exactly if the numbers denote points which are a valid GM17 proof for such inputs.", "quantifier": "all verification keys, all proofs without points at infinity, any number of public inputs, all words of the call", "why_tests_cant": "The words of a call are chosen by an adversary; equality of two verifiers is a statement about all keys, proofs and inputs.", "anchors": ["zokrates_proof_systems/src/scheme/groth16.rs:export_solidity_verifier", "zokrates_proof_systems/src/scheme/groth16.rs:CONTRACT_TEMPLATE", "zokrates_proof_systems/src/scheme/gm17.rs:CONTRACT_TEMPLATE", "zokrates_proof_systems/src/solidity.rs:solidity_pairing_lib", "zokrates_proof_systems/src/to_token.rs:to_token", "zokrates_ark/src/groth16.rs:verify"]}
