p("C01","A computed witness satisfies the circuit",
"If executing a compiled program on a list of inputs succeeds, the returned witness binds ~one to 1, every argument to its input, and satisfies every constraint of the program (quad == lin).",
"every prime field, every program in which directives write fresh variables, every input list, every solver table",
"The program and the inputs range over unbounded sets; a test executes one program on one input.",
["zokrates_interpreter/src/lib.rs:Interpreter::execute_with_log_stream","zokrates_ast/src/ir/expression.rs:LinComb::is_assignee","zokrates_interpreter/src/lib.rs:evaluate_quad"])
p("C02","An execution failure is genuine",
"If execution reports an unsatisfied constraint, then no assignment that extends the inputs and gives every directive output the value its solver computes satisfies all the constraints: the interpreter never rejects an input for which honest execution has a witness.",
"every prime field, program, input list",
"Universally quantified over all candidate witnesses of all programs.",
["zokrates_interpreter/src/lib.rs:Interpreter::execute_with_log_stream"])
p("C03","Wrong input counts are rejected, and the interpreter touches only declared variables",
"Execution returns WrongInputCount exactly when the number of inputs differs from the number of arguments; otherwise it never does. A successful witness binds exactly ~one, the arguments, and the variables assigned by a constraint or directive of the program.",
"every program and every input list",
"Needs all lengths and all programs.",
["zokrates_interpreter/src/lib.rs:Interpreter::execute_with_log_stream"])
p("C04","Built-in solvers satisfy the constraints they are emitted with",
"For every input: ConditionEq outputs (y,m) with y = x*m, (1-y)*x = 0, y = [x != 0]; Bits(n) outputs n values in {0,1} whose weighted sum is the input modulo 2^n; Xor/Or/ShaCh/ShaAndXorAndXorAnd compute the boolean function on boolean inputs and satisfy their constraint on all inputs; Div outputs a/b when b != 0; EuclideanDiv outputs quotient and remainder of the canonical representatives. Each solver returns exactly its declared number of outputs.",
"every prime field, every field input, every bit width",
"Field elements cannot be enumerated.",
["zokrates_interpreter/src/lib.rs:Interpreter::execute_solver","zokrates_ast/src/common/solvers.rs:Solver::get_signature"])
p("C05","Canonicalising a linear combination preserves its value and is a normal form",
"LinComb::reduce returns a combination with the same value under every assignment, sorted by variable without repetition and without zero coefficients; two combinations have the same reduced form iff their coefficient of every variable agree (hence iff they agree on every assignment).",
"every linear combination, every assignment, every field",
"All combinations with any number of repeated/cancelling terms.",
["zokrates_ast/src/ir/expression.rs:LinComb::into_canonical","zokrates_ast/src/ir/expression.rs:LinComb::reduce"])
p("C06","Linear-combination algebra and shape tests are sound",
"add, sub, scalar multiplication and division of linear combinations denote the field operations; when try_constant, try_summand or QuadComb::try_linear succeed the result denotes the same value as the input under every assignment with ~one = 1.",
"every combination, every scalar, every assignment",
"Universal over combinations and assignments.",
["zokrates_ast/src/ir/expression.rs:LinComb::try_constant","zokrates_ast/src/ir/expression.rs:LinComb::try_summand","zokrates_ast/src/ir/expression.rs:QuadComb::try_linear"])
p("C07","Lowering flat statements to R1CS preserves satisfaction and does not crash on flattener output",
"Converting a flat statement to an IR statement preserves, for every assignment with ~one = 1, whether it is satisfied; conversion panics exactly on statements whose linear side (or a factor of the quadratic side) is not linear.",
"every flat statement and assignment",
"Expressions are unbounded trees.",
["zokrates_ast/src/ir/from_flat.rs:From<FlatStatement>","zokrates_ast/src/flat/mod.rs:FlatExpression::is_linear"])
p("C08","Removing redefinitions preserves the set of input/output behaviours",
"For a program without assembly blocks in single-assignment form: every satisfying assignment of the result extends to one of the original with the same arguments and outputs, changing only variables the result does not use; and every satisfying assignment an honest prover computes for the original (every directive output is what its solver returns) satisfies the result.",
"every single-assignment IR program without blocks, every assignment",
"Quantifies over all programs and all satisfying assignments in both directions.",
["zokrates_core/src/optimizer/redefinition.rs:RedefinitionOptimizer"])
p("C09","Tautology removal and linearisation preserve satisfaction",
"TautologyOptimizer drops only constraints satisfied by every assignment with ~one = 1, and rewrites the others to equivalent ones.",
"every constraint and assignment",
"All constraints.",
["zokrates_core/src/optimizer/tautology.rs:TautologyOptimizer"])
p("C10","Canonicalising a program preserves satisfaction of every statement",
"For every statement (constraint, directive, log, block) and assignment, the canonicalised statement evaluates to the same values.",
"every statement and assignment",
"All statements, arbitrary block nesting.",
["zokrates_core/src/optimizer/canonicalizer.rs:Canonicalizer"])
p("C11","De-duplicating directives preserves behaviours",
"Merging two directives with the same solver and inputs and renaming the second's outputs keeps every satisfying assignment produced by honest execution and adds none: a satisfying assignment of the merged program extends to one of the original.",
"every single-assignment program, every assignment",
"Quantifies over programs and histories of calls.",
["zokrates_core/src/optimizer/directive.rs:DirectiveOptimizer"])
p("C12","Dropping duplicate statements preserves satisfaction",
"DuplicateOptimizer only drops a statement if a statement with the same hash has been kept before; if the 64-bit hash does not collide on the statements of the program, the result is satisfied by exactly the same assignments.",
"every program, every assignment, every hash function without collisions on the program",
"Universal over programs; the collision hypothesis is explicit.",
["zokrates_core/src/optimizer/duplicate.rs:DuplicateOptimizer"])
p("C13","The whole optimiser pipeline preserves the input/output relation",
"optimize() followed by clean(): every pair of argument and output values some assignment satisfies the optimised program with is one some assignment satisfies the original with; every pair an honest prover realises for the original it realises for the optimised program; and executing the optimised program succeeds with the same outputs on exactly the same inputs as the original.",
"every single-assignment program without assembly blocks, every input",
"Composition of five stateful passes over unbounded programs.",
["zokrates_core/src/optimizer/mod.rs:optimize","zokrates_ast/src/ir/clean.rs:Cleaner"])
p("C14","The equality gadget is exact",
"The constraints emitted for `a == b` force the result to 1 if the operands are equal and 0 otherwise, for every witness; and the honest witness satisfies them.",
"every field, operands, and adversarial witness",
"Adversarial witnesses cannot be enumerated.",
["zokrates_codegen/src/lib.rs:Flattener::eq_check"])
p("C15","The constant range-check gadget is exact",
"For a boolean big-endian bit vector a and a constant bit vector b of the same length, the conditions returned by constant_le_check sum to their number iff a <= b as integers (and each is 0 or 1), for every witness; the enforced variant is satisfiable iff a <= b.",
"every length, every constant, every witness",
"Unbounded length; adversarial witnesses.",
["zokrates_codegen/src/lib.rs:Flattener::constant_le_check","zokrates_codegen/src/lib.rs:Flattener::enforce_constant_le_check_bits"])
p("C16","Bit decompositions are unique in range",
"The constraints emitted to decompose an expression into n bits with 2^n <= p have exactly one solution for the bits when the value is < 2^n and none otherwise; at the full field width the additional check against p-1 makes the decomposition unique.",
"every field, width, expression value and witness",
"Adversarial witnesses; all field elements.",
["zokrates_codegen/src/lib.rs:Flattener::get_bits_unchecked","zokrates_codegen/src/lib.rs:Flattener::constant_field_le_check"])
p("C17","Comparison gadgets are exact in their domain",
"`a < c` and `c < a` against constants are exact for all field elements; dynamic `a < b` is exact when both operands are < 2^(bits-2) and unsatisfiable otherwise; uint comparisons are exact for reduced operands.",
"every field with 2^(bits-1) <= p < 2^bits, every operands, every witness",
"Boundary values are field sized; adversarial witnesses.",
["zokrates_codegen/src/lib.rs:Flattener::lt_check","zokrates_codegen/src/lib.rs:Flattener::constant_lt_check","zokrates_codegen/src/lib.rs:Flattener::enforce_constant_lt_check"])
p("C18","The uint division gadget is exact",
"For reduced operands the constraints for `n / d` and `n % d` force the Euclidean quotient and remainder, are unsatisfiable when d = 0, and are satisfied by the honest witness when d != 0.",
"every width w with 2w+1 < bits, all operands, every witness",
"Adversarial witnesses.",
["zokrates_codegen/src/lib.rs:Flattener::euclidean_division"])
p("C19","Boolean, conditional and selection gadgets compute the boolean semantics",
"and/or/not/xor/equality on boolean-valued expressions, if/else and array selection with a dynamic index compute the source value under every witness; an out-of-range dynamic index is unsatisfiable.",
"every boolean operand, every array length, every index, every witness",
"Unbounded arrays and adversarial witnesses.",
["zokrates_codegen/src/lib.rs:Flattener::flatten_boolean_expression","zokrates_codegen/src/lib.rs:Flattener::flatten_conditional_expression","zokrates_codegen/src/lib.rs:Flattener::flatten_select_expression"])
p("C20","Field expression flattening is sound",
"For every field expression built from constants, variables, + - * / ** and if/else, under every witness satisfying the emitted constraints the flattened expression evaluates to the source value (division requires the divisor to be non-zero).",
"every expression tree, environment and witness",
"Unbounded expression trees; adversarial witnesses.",
["zokrates_codegen/src/lib.rs:Flattener::flatten_field_expression"])
p("C21","Unsigned integer arithmetic wraps exactly",
"For u8/u16/u32/u64 expressions annotated by the uint optimiser, every witness satisfying the emitted constraints gives the flattened expression a value congruent to the source value modulo 2^w and bounded by the annotated maximum; a reduced expression has exactly the source value and its bits are the binary digits.",
"every uint expression, environment and witness",
"Values are 64 bit, intermediate values up to 254 bit, witnesses adversarial.",
["zokrates_codegen/src/lib.rs:Flattener::flatten_uint_expression","zokrates_analysis/src/uint_optimizer.rs:UintOptimizer"])
p("C22","Uint range analysis never underestimates",
"The maximum the uint optimiser annotates on an expression bounds the field value of the unreduced circuit expression for all inputs and is smaller than 2^(bits-1), so no intermediate value wraps around the field.",
"every uint expression, every input",
"Intermediate maxima depend on arbitrary operator nesting.",
["zokrates_analysis/src/uint_optimizer.rs:UintOptimizer::fold_uint_expression"])
p("C23","Compiled circuits accept only executions of the source program (soundness)",
"For a ZIR main function, every assignment satisfying the flattened constraints makes the outputs equal to the source function evaluated on the argument values, and the source assertions hold.",
"every program of the modelled ZIR fragment and every witness",
"Adversarial witnesses for arbitrary programs.",
["zokrates_codegen/src/lib.rs:Flattener::flatten_statement","zokrates_codegen/src/lib.rs:from_program_and_config"])
p("C24","Compiled circuits accept every execution of the source program (completeness)",
"If the source function succeeds on the arguments then executing the flattened program on them succeeds and returns the source outputs.",
"every program of the modelled ZIR fragment and every input",
"All inputs of all programs.",
["zokrates_codegen/src/lib.rs:Flattener::flatten_statement","zokrates_interpreter/src/lib.rs:Interpreter::execute"])
p("C25","Arguments are range checked by the circuit",
"The constraints emitted for the parameters force every bool argument to 0 or 1 and every uN argument below 2^N, so a prover cannot supply ill-typed private inputs.",
"every parameter list and every witness",
"Adversarial witnesses.",
["zokrates_codegen/src/lib.rs:Flattener::use_parameter"])
p("C26","Compile-time constant propagation agrees with run time evaluation",
"Folding constants in ZIR expressions preserves the value of the expression in every environment; where the propagator reports an error (division by zero, failing assertion, out of bounds) evaluation fails.",
"every expression and environment",
"Unbounded expressions; overflow corner cases at 2^64.",
["zokrates_analysis/src/zir_propagation.rs:ZirPropagator"])
p("C27","ABI encoding round-trips",
"Decoding the encoding of a well-typed value at its type returns the value; the encoding has exactly get_primitive_count elements; equal encodings imply equal values.",
"every type (arrays, structs, tuples nested) and every well-typed value",
"Types nest without bound.",
["zokrates_abi/src/lib.rs:Encode","zokrates_abi/src/lib.rs:Decode","zokrates_ast/src/typed/types.rs:get_primitive_count"])
p("C28","ABI input parsing accepts exactly the well-typed JSON and inverts printing",
"parse_value succeeds only on JSON of the shape of the type (exact array length, exact struct members, integers in range) and returns a well-typed value; parsing the JSON printed for a well-typed value returns it.",
"every type, JSON value",
"Unbounded JSON.",
["zokrates_abi/src/lib.rs:parse_value","zokrates_abi/src/lib.rs:into_serde_json","zokrates_abi/src/lib.rs:parse_strict"])
p("C29","Witness files round-trip",
"Reading a written witness returns the same witness, any trailing bytes are left unread, and reading a strict prefix of a written witness fails.",
"every witness, every truncation point",
"Every length and truncation point.",
["zokrates_ast/src/ir/witness.rs:Witness::write","zokrates_ast/src/ir/witness.rs:Witness::read","zokrates_ast/src/common/flat/variable.rs:Variable::write"])
p("C30","Program file headers round-trip and foreign files are rejected",
"ProgHeader::read inverts ProgHeader::write; a truncated header, a wrong magic number, a wrong version, an unknown section tag or an unknown curve identifier is rejected.",
"every header, every byte string",
"All byte strings.",
["zokrates_ast/src/ir/serialize.rs:ProgHeader","zokrates_ast/src/ir/serialize.rs:ProgEnum::deserialize"])
p("C31","Program serialisation round-trips",
"Deserialising a serialised program yields the same arguments, return count and statements, with each inlined solver replaced by a reference to an equal solver in the table, and the stored constraint count is the number of constraints.",
"every program",
"Unbounded programs.",
["zokrates_ast/src/ir/serialize.rs:ProgIterator::serialize","zokrates_ast/src/ir/solver_indexer.rs:SolverIndexer"])
p("C32","Unconstrained private variables are detected",
"Serialisation succeeds exactly if every private argument occurs in a constraint or a log, and every directive output occurs in a constraint or log after the directive; otherwise the number of distinct offending variables is reported. In a program without logs, success means every such variable occurs in a constraint.",
"every program",
"All programs.",
["zokrates_ast/src/ir/check.rs:UnconstrainedVariableDetector"])
p("C33","The exported R1CS is the program's constraint system",
"r1cs_program returns sparse rows such that the row system is satisfied by a wire vector iff the program's constraints are satisfied by the corresponding assignment; wires start with ~one, the outputs in order, then the public inputs in argument order, without repetition.",
"every program, every assignment",
"All programs.",
["zokrates_circom/src/r1cs.rs:r1cs_program"])
p("C34","The exported circom witness lines up with the exported R1CS",
"The i-th value written by write_witness is the value of the i-th wire of the exported R1CS.",
"every compiled program whose arguments, outputs and directive outputs all occur in constraints, and every witness of it",
"All programs and witnesses.",
["zokrates_circom/src/witness.rs:write_witness","zokrates_circom/src/r1cs.rs:write_r1cs"])
p("C35","The SMT-LIB export is faithful",
"The exported formula, read over the integers, holds for an integer valuation iff ~one is 1, ~prime is the modulus and the residues satisfy the program's constraints.",
"every program and integer valuation",
"All programs and integers.",
["zokrates_ast/src/ir/smtlib2.rs"])
p("C36","Public inputs given to the verifier line up with the circuit's public wires",
"The order in which the proving backends allocate public wires (public arguments in order, then outputs in order of first occurrence) equals the order of public_inputs_values when outputs first occur in order (bellperson: always, as it allocates the outputs before the constraints), and every constraint handed to the backend is the program's.",
"every program and witness",
"All programs.",
["zokrates_bellman/src/lib.rs:Computation::synthesize","zokrates_ark/src/lib.rs:Computation::generate_constraints","zokrates_bellperson/src/lib.rs:Computation::synthesize","zokrates_ast/src/ir/mod.rs:public_inputs_values"])
p("C37","Field bit and byte representations are faithful",
"to_bits_be gives get_required_bits digits of the canonical representative; bits() is the bit length (at least 1); from_byte_vector inverts to_byte_vector; TryFrom<BigUint> accepts exactly values below p; try_from_str accepts exactly numerals below p and to_dec_string round-trips.",
"every prime and every element",
"Primes are 254+ bits.",
["zokrates_field/src/lib.rs:prime_field"])
p("C38","checked_add and checked_mul detect loss of unique representation",
"For operands at most max_unique_value, checked_add/checked_mul return Some(r) iff the integer result is at most max_unique_value, and then r represents the integer result.",
"every prime, every operands",
"Field sized boundary.",
["zokrates_field/src/lib.rs:CheckedAdd","zokrates_field/src/lib.rs:CheckedMul"])
p("C39","to_compact_dec_string is injective and denotes the element",
"The compact decimal string of an element denotes an integer congruent to it of absolute value at most (p-1)/2.",
"every odd prime and element",
"All elements.",
["zokrates_field/src/lib.rs:to_compact_dec_string"])
p("C40","Variable names are injective",
"Distinct constraint-system variables are displayed differently, so JSON witnesses and SMT exports never conflate two variables.",
"every pair of variables",
"Unbounded identifiers.",
["zokrates_ast/src/common/flat/variable.rs:Display"])

p("C42","Optimising assembly blocks preserves the input/output relation",
"For a program with assembly blocks, every pair of argument and output values the optimised program can be satisfied with is one the original program can be satisfied with.",
"every program with assembly blocks and every assignment",
"Quantifies over all programs and all satisfying assignments.",
["zokrates_core/src/optimizer/redefinition.rs:RedefinitionOptimizer","zokrates_core/src/optimizer/mod.rs:optimize"])

p("C43","The compiled and optimised circuit is the source function",
"For a ZIR main function that leaves no choice to the prover, the program produced by the back end (flattening, lowering, optimisation) can be satisfied with arguments `ins` and outputs `outs`, and can be executed on `ins` with result `outs`, if and only if the source function returns `outs` on `ins`.",
"every function of the modelled ZIR, every argument list, every assignment",
"Adversarial witnesses and all inputs of arbitrary programs.",
["zokrates_core/src/compile.rs:compile","zokrates_codegen/src/lib.rs:from_program_and_config","zokrates_core/src/optimizer/mod.rs:optimize"])

p("C44","Making failures explicit does not change what a program computes",
"Turning the failure modes of expressions into separate assertions in front of the statements (before dead code is removed) leaves the signature, the results and the set of arguments on which the program fails unchanged; afterwards no execution reaches a division of a field element by zero, and the assertions in front of a comparison hold only when the comparison is defined.",
"every function of the modelled ZIR, every argument list",
"All programs and inputs; nested conditionals give nested guards.",
["zokrates_analysis/src/panic_extractor.rs:PanicExtractor","zokrates_analysis/src/lib.rs:analyse"])

p("C45","Removing dead code does not change what a program computes",
"Removing unused definitions keeps the signature, every result, and every failure of an assertion, a constraint or a used expression; the rest fails and returns only where the source does, except that failures of the right side of an unused definition may be forgotten. Together with the explicit failures of C44, no division of a field element by zero is forgotten. No unused definition is left.",
"every function of the modelled ZIR in which no variable is mentioned before it is assigned, every argument list",
"All programs and inputs; liveness is computed backwards through nested branches.",
["zokrates_analysis/src/dead_code.rs:DeadCodeEliminator","zokrates_analysis/src/lib.rs:analyse"])

p("C41","Rewriting assembly constraints does not change them",
"When the compiler accepts the constraints of an assembly block, it rewrites each of them to one rank-1 constraint without auxiliary variables that holds for the same values of the variables; programs whose constraints cannot be written that way are rejected, and nothing else is.",
"every program with assembly blocks, every argument vector and all values of hints",
"Quantifies over all polynomial constraints and all values of their variables; tests check a few shapes.",
["zokrates_analysis/src/assembly_transformer.rs:AssemblyTransformer","zokrates_ast/src/zir/lqc.rs:LinQuadComb::try_mul","zokrates_ast/src/zir/mod.rs:FieldElementExpression::is_linear","zokrates_codegen/src/lib.rs:flatten_assembly_statement"])

p("C46","Well-typed programs have an outcome",
"A well-typed intermediate program never reads a variable without a value or with a value of another type. On all arguments of the declared types it either returns as many values as it declares or fails with one of the defined failures; without hints and unpacking it has exactly one result or fails, never both.",
"every well-typed program, every argument vector and all values of hints",
"Type soundness quantifies over all well-typed programs and their executions.",
["zokrates_ast/src/zir/mod.rs:ZirFunction","zokrates_codegen/src/lib.rs:flatten_function"])

p("C47","All passes together: the circuit is the source function",
"Constant propagation, extraction of panics, removal of dead code, range analysis, assembly rewriting, flattening, lowering and optimisation, one after the other: the circuit they produce can be satisfied with arguments `ins` and outputs `outs`, and can be executed on `ins` with result `outs`, if and only if the function in front of the propagation returns `outs` on `ins`, for all arguments on which it does not fail; arguments on which an assertion fails or a field element is divided by zero are rejected.",
"every function of the modelled ZIR, every argument list, every assignment",
"Adversarial witnesses and all inputs of arbitrary programs; the invariants one pass relies on must be kept by all passes before it.",
["zokrates_analysis/src/lib.rs:analyse","zokrates_core/src/compile.rs:compile"])


p("C48","Arrays, structs and tuples: the circuit is the typed source function",
"Turning arrays, structs and tuples into their components (parameters, variables, selects with constant and run-time indices, members, slices, spreads, repetitions, equality, conditionals, assignments to parts of variables), followed by all later passes and the back end: the circuit accepts arguments and outputs if and only if they are the ABI encodings of arguments of the declared types and of what the typed function returns on them, for all arguments on which it does not fail; executing the circuit returns the encoding of the result; arguments on which an assertion of the typed function fails are rejected; the number and visibility of the inputs are those of the ABI; flattening does not panic on well-typed functions.",
"every well-typed function over nested arrays, structs and tuples, of any depth and size; every argument; every assignment of the circuit",
"Types nest arbitrarily, and the encoding, the flattening of values, of assignees and of expressions must agree on the order of the components for all of them; adversarial witnesses.",
["zokrates_analysis/src/flatten_complex_types.rs:fold_statement","zokrates_analysis/src/flatten_complex_types.rs:fold_select_expression","zokrates_analysis/src/lib.rs:analyse"])

p("C49","Assignments with run-time indices",
"Assigning to `a[i]`, `s.v[i]`, `a[i][j].m` or any other part of a variable, with indices only known at run time, replaces exactly that part and keeps all others: the function in which such assignments are replaced by assignments to whole variables returns what the source returns, nothing else unless the source can fail, and fails only where the source fails. An index out of range makes an assertion fail, in whatever order the range checks are emitted. All remaining assignments have literal indices, the result is well-typed, and the compiler does not panic on well-typed functions.",
"every well-typed function, every nesting of arrays, structs and tuples in the type of the variable, every path to the assigned part, every argument, every enumeration order of the hash set of checks",
"The paths to the assigned part and the types are arbitrarily deep, the index ranges over all of u32, and the order of a hash set is not reproducible.",
["zokrates_analysis/src/variable_write_remover.rs:choose_many","zokrates_analysis/src/variable_write_remover.rs:fold_definition_statement","zokrates_analysis/src/lib.rs:analyse"])

p("C50","Conditions of conditionals are computed once, in front of the statement",
"Computing every condition of a conditional expression into a variable of its own, in front of the statement that contains it, does not change the function: it returns what the source returns, nothing else unless the source can fail, and fails only where the source fails. Afterwards every condition, at every depth and in every statement, is a literal or a variable, so that a branch is never duplicated together with the computation of its condition; the new variables are assigned once each and in order; the function stays well-typed, and its signature does not change.",
"every well-typed function, every nesting of conditionals inside conditions, branches, indices and assignees, every argument",
"Conditionals nest to any depth inside each other's conditions, and the state of the condition counter crosses statements.",
["zokrates_analysis/src/condition_redefiner.rs:redefine","zokrates_analysis/src/condition_redefiner.rs:fold_conditional_expression","zokrates_analysis/src/lib.rs:analyse"])

p("C51","Comparisons of arrays of booleans",
"Comparing two arrays of booleans as arrays of field elements, each of which holds as many booleans as fit below the modulus, never changes the result of the comparison: distinct arrays stay distinct, whatever their length and whatever the field. The function returns what the source returns, nothing else unless the source can fail, and fails only where the source fails; n booleans become ceil(n / (bits of the modulus - 1)) field elements; the result is well-typed and has no new variables.",
"every prime field, every length of the arrays, every pair of arrays, every well-typed function and every place of the comparison in it, every argument",
"The number of pairs of boolean arrays is exponential, the chunks depend on the modulus, and a packing that wraps around the modulus identifies arrays that no sampled test compares.",
["zokrates_analysis/src/boolean_array_comparator.rs:sum_rec","zokrates_analysis/src/boolean_array_comparator.rs:fold_boolean_expression_cases","zokrates_analysis/src/lib.rs:analyse"])

p("C52","The checks of shifts and of literal indices",
"Shifting an integer by anything but a literal, and comparing bits with anything but a constant, are reported as errors, and so is a literal index out of the bounds of an array, read or written; nothing else is reported. A program which passes the checks is not changed by them, and a program which is rejected because of an index could not return anything on any arguments. What is not inspected is stated exactly: arguments of other embedded functions, and the operands of a select.",
"every well-typed function, every expression at every depth, every index and size, every argument",
"The checked expressions occur at any depth, and a rejected program has to be useless for all of its arguments.",
["zokrates_analysis/src/constant_argument_checker.rs:fold_uint_expression_cases","zokrates_analysis/src/constant_argument_checker.rs:fold_definition_statement","zokrates_analysis/src/out_of_bounds.rs:fold_select_expression","zokrates_analysis/src/out_of_bounds.rs:fold_assignee"])

p("C53","The typed passes together, and the circuit of a function with run-time writes",
"Packing comparisons of boolean arrays, removing assignments with run-time indices, the two checks and redefining conditions, in the order of the compiler: whatever is accepted returns what the source returns, nothing else unless the source can fail, fails only where the source fails, and keeps failing where an assertion fails; the result is well-typed with the same signature, with literal indices and simple conditions; nothing panics, and a function is rejected only by one of the two checks. Followed by the flattening of types, all later passes and the back end, the circuit accepts arguments and outputs if and only if they encode arguments of the declared types and what the typed source returns on them.",
"every well-typed function over nested arrays, structs and tuples, every argument, every enumeration order of the hash set of range checks, every assignment of the circuit",
"Five passes in sequence each rely on the shape the previous ones leave behind; adversarial witnesses; arbitrary nesting.",
["zokrates_analysis/src/lib.rs:analyse","zokrates_analysis/src/variable_write_remover.rs:fold_definition_statement","zokrates_analysis/src/condition_redefiner.rs:redefine","zokrates_analysis/src/flatten_complex_types.rs:fold_statement"])

p("C54","Constant propagation on typed programs preserves behaviour, and rejects only useless programs",
"Replacing variables by their constant values, folding operators, selects, members, conditionals, comparisons and embedded functions on constants, removing assertions that hold, and materialising a constant again when a part of it is overwritten with something that is not constant: the result returns what the source returns, nothing else unless the source can fail, fails only where the source fails, and an assertion of it fails wherever one of the source fails. It is well-typed with the same signature, uses no new variables, and keeps what the following passes rely on. A function that is rejected because of an assertion, an argument of an embedded function, an index or a divisor cannot return anything. Bits of a constant field element are the ones of the run-time decomposition if there are no more of them than the modulus has; beyond that they are still bits the circuit admits, but other ones than the solver computes.",
"every well-typed function over nested arrays (with spreads, slices and repetitions), structs, tuples, field elements, integers and booleans, every argument, every resolution of bit decompositions",
"Constants flow through any number of statements and any nesting; the fold has special cases for each operator with one or two literal operands, at every width.",
["zokrates_analysis/src/propagation.rs:Propagator","zokrates_analysis/src/propagation.rs:fold_definition_statement","zokrates_analysis/src/propagation.rs:fold_assertion_statement","zokrates_analysis/src/propagation.rs:try_get_constant_mut","zokrates_ast/src/typed/mod.rs:into_canonical_constant"])

p("C55","From the typed program in front of constant propagation to the circuit",
"Constant propagation of the typed program, the passes of C53, the flattening of types, the passes over ZIR and the back end, in the order of the compiler: what satisfies the circuit encodes arguments of the declared types and what the typed source returns on them (or arguments on which it fails); if the source returns something then executing the circuit succeeds with its encoding; where an assertion of the source fails, the circuit cannot be satisfied; and without bit decompositions the accepted outputs are exactly the encoding of what the source returns.",
"every accepted typed function, every argument, every enumeration order of the hash set of range checks, every assignment of the circuit",
"Adversarial witnesses; eleven passes and code generation in sequence, each relying on the shape the previous ones leave behind.",
["zokrates_analysis/src/lib.rs:analyse","zokrates_analysis/src/propagation.rs:propagate","zokrates_core/src/compile.rs:compile"])

p("C56","The reducer preserves behaviour: loops are unrolled and calls are inlined",
"A program with loops and calls of (generic) functions is turned into one function without them, in static single assignment form, with constants propagated on the way: the result returns what the program returns, nothing else unless the program can fail on these arguments, fails only where the program fails, and an assertion of it fails wherever one of the program fails, in whichever iteration or callee. It is well-typed with the same parameter types, visibilities and return type; the only calls left are those of embedded functions, each of which is the first assignment to its own variable. A variable may not be assigned an expression with a slice of itself.",
"every well-typed program, every nesting of loops and calls, every recursion depth of inlining, every argument, every resolution of bit decompositions",
"Loops nest, calls nest to any depth with their own generic parameters, and the versions and the constants of variables flow through all of them.",
["zokrates_analysis/src/reducer/mod.rs:fold_statement","zokrates_analysis/src/reducer/mod.rs:fold_function_call_expression","zokrates_analysis/src/reducer/mod.rs:fold_slice_expression","zokrates_analysis/src/reducer/mod.rs:reduce_program","zokrates_analysis/src/reducer/inline.rs:inline_call","zokrates_analysis/src/reducer/shallow_ssa.rs:ShallowTransformer"])

p("C57","From the program with loops and calls to the circuit",
"The reducer, constant propagation, the other passes over typed programs, the flattening of types, the passes over ZIR and the back end, in the order of the compiler: what satisfies the circuit encodes arguments of the declared types and what the program returns on them (or arguments on which it fails); if the program returns something then executing the circuit succeeds with its encoding; where an assertion of the program fails, in a loop or in a function it calls, the circuit cannot be satisfied; and without bit decompositions the accepted outputs are exactly the encoding of what the program returns.",
"every accepted program, every argument, every enumeration order of the hash set of range checks, every assignment of the circuit",
"Adversarial witnesses; twelve passes and code generation in sequence, each relying on the shape the previous ones leave behind.",
["zokrates_analysis/src/lib.rs:analyse","zokrates_analysis/src/reducer/mod.rs:reduce_program","zokrates_core/src/compile.rs:compile"])

p("C58","Packing and unpacking of field elements in the standard library",
"pack turns bits into the number they represent; unpack turns a field element into its binary representation: it has exactly one result, the canonical one, if the element fits into the number of bits, whatever bits the prover provides, and none otherwise; packing and unpacking are inverse to each other. unpack_unchecked and nonStrictUnpack256 may return any bits that represent the element modulo the prime, and nothing else; the casts field_to_u8 ... field_to_u64 return the low-order bits of the element, with no choice of the prover. pack and unpack of arrays of u32 are the digits in base 2^32.",
"every number of bits, every field element, every odd prime field, every choice of bits by the prover",
"The bits of a decomposition are chosen by the prover: a test only ever sees the honest choice of the solver. The functions are generic in the number of bits.",
["zokrates_stdlib/stdlib/utils/pack/bool/pack.zok:main","zokrates_stdlib/stdlib/utils/pack/bool/unpack.zok:main","zokrates_stdlib/stdlib/utils/pack/bool/unpack_unchecked.zok:main","zokrates_stdlib/stdlib/utils/pack/bool/nonStrictUnpack256.zok:main","zokrates_stdlib/stdlib/utils/casts/field_to_u32.zok:main","zokrates_stdlib/stdlib/utils/pack/u32/pack.zok:main","zokrates_stdlib/stdlib/utils/pack/u32/unpack128.zok:main"])

p("C59","Casts and lookup tables of the standard library",
"Each cast of utils/casts has exactly one result on each argument: between integers and booleans the binary representation, most significant bit first; from integers to field elements and to larger integers the same number; between arrays of smaller and larger integers the digits; casts of arrays are casts of their elements, and fail if the sizes do not match. Casts back and forth are the identity. The lookup functions select the entry of the table whose index the bits represent.",
"every width, every array size, every argument",
"Generic in sizes; loops with index arithmetic; sixty-odd overloads.",
["zokrates_stdlib/stdlib/utils/casts.zok:cast","zokrates_stdlib/stdlib/utils/multiplexer/lookup1bit.zok:main","zokrates_stdlib/stdlib/utils/multiplexer/lookup2bit.zok:main","zokrates_stdlib/stdlib/utils/multiplexer/lookup3bitSigned.zok:main"])

p("C60","Elliptic curves in the standard library",
"edwardsAdd is the addition of the group of the twisted Edwards curve with the given parameters (complete: it never divides by zero on points of the curve), edwardsNegate its inverse, edwardsScalarMult the multiplication by the number which the bits represent, edwardsOrderCheck returns whether the order of the point does not divide 8, edwardsOnCurve holds on the points of the curve and fails elsewhere. proofOfOwnership returns true exactly if the public key is the multiple of the generator by a number below 2^254 congruent to the secret key; edwardsCompress returns the second coordinate with the parity of the first, up to the representatives chosen by the prover: with canonical representatives it is injective. The parameters of Baby Jubjub are those of a complete curve over the field of Bn128.",
"every complete twisted Edwards curve over every prime field, every point, every scalar, every choice of bits by the prover",
"The group law holds for all pairs of points, including doubling, inverse points and the neutral element; the scalars have 256 bits; representatives are chosen by the prover.",
["zokrates_stdlib/stdlib/ecc/edwardsAdd.zok:main","zokrates_stdlib/stdlib/ecc/edwardsNegate.zok:main","zokrates_stdlib/stdlib/ecc/edwardsOnCurve.zok:main","zokrates_stdlib/stdlib/ecc/edwardsOrderCheck.zok:main","zokrates_stdlib/stdlib/ecc/edwardsScalarMult.zok:main","zokrates_stdlib/stdlib/ecc/edwardsCompress.zok:main","zokrates_stdlib/stdlib/ecc/proofOfOwnership.zok:main","zokrates_stdlib/stdlib/ecc/babyjubjubParams.zok:BABYJUBJUB_PARAMS"])

p("C61","SHA-256 in the standard library",
"sha256Padded on bytes is SHA-256 (FIPS 180-4) for every message length the language can count, and so are 256bitPadded, 512bitPadded and 1024bitPadded on messages of these sizes; sha256Padded on bits is SHA-256 unless the length is 447 modulo 512, where a superfluous block is hashed. shaRound is the compression function; sha256, 512bit, 1024bit and 1536bit compress blocks without padding; 512bitPacked hashes four numbers of 128 bits, fails on larger ones, and returns the halves of the hash.",
"every message of every length, every block, every field element",
"Messages have any length; the padding depends on the length modulo 512; each round mixes all bits; the values of field elements above 2^128 cannot be enumerated.",
["zokrates_stdlib/stdlib/hashes/sha256/shaRound.zok:main","zokrates_stdlib/stdlib/hashes/sha256/sha256.zok:main","zokrates_stdlib/stdlib/hashes/sha256/sha256Padded.zok:pad","zokrates_stdlib/stdlib/hashes/sha256/sha256Padded.zok:main","zokrates_stdlib/stdlib/hashes/sha256/256bitPadded.zok:main","zokrates_stdlib/stdlib/hashes/sha256/512bitPadded.zok:main","zokrates_stdlib/stdlib/hashes/sha256/1024bitPadded.zok:main","zokrates_stdlib/stdlib/hashes/sha256/512bitPacked.zok:main","zokrates_stdlib/stdlib/hashes/utils/256bitsDirectionHelper.zok:main"])

p("C62","EdDSA signatures in the standard library",
"verifyEddsa fails unless R is a point of the curve whose order does not divide the cofactor, and else returns whether S G = R + SHA256(R.u, A.u, M) A, up to the representatives below 2^254 of S, R.u and A.u chosen by the prover. Signatures made with a key can be verified; if it returns true, then the equation holds for some representatives; with canonical representatives the result is exactly whether the equation holds.",
"every complete twisted Edwards curve with cofactor 8 over every prime field, every public key on the curve, every signature and message, every choice of bits by the prover",
"Composition of the group, of the hash and of decompositions chosen by the prover, over all keys and messages.",
["zokrates_stdlib/stdlib/signatures/verifyEddsa.zok:main","zokrates_stdlib/stdlib/utils/pack/u32/nonStrictUnpack256.zok:main"])

p("C63","Keccak and SHA-3 in the standard library",
"hashes/sha3/224bit, 256bit, 384bit and 512bit are SHA3-224, SHA3-256, SHA3-384 and SHA3-512 (FIPS 202) of every message of bytes, hashes/keccak/224bit, ..., 512bit are the original Keccak hashes; keccakf is the permutation Keccak-f[1600]; the underlying sponge is correct for every suffix and every hash which is not longer than the rate.",
"every message of every length the language can count, every state of the permutation, every suffix",
"Messages have any length, the position in the block and the padding depend on it modulo the rate; each round of the permutation mixes all 1600 bits.",
["zokrates_stdlib/stdlib/hashes/keccak/keccak.zok:keccakf","zokrates_stdlib/stdlib/hashes/keccak/keccak.zok:main","zokrates_stdlib/stdlib/hashes/keccak/256bit.zok:main","zokrates_stdlib/stdlib/hashes/sha3/256bit.zok:main"])

p("C64","BLAKE2s in the standard library",
"hashes/blake2/blake2s is BLAKE2s (RFC 7693, without key, hashes of 32 bytes) of every message of one or more blocks of 64 bytes, hashes/blake2/blake2s_p the same with a personalization of 8 bytes; words are the big-endian words of the bytes of messages, personalizations and hashes. The compression function is that of the RFC for all states, blocks, counters and flags.",
"every message of every positive number of whole blocks the language can count, every personalization, every state",
"Messages have any number of blocks, with a counter of two words which carries; each round mixes all bits of the state.",
["zokrates_stdlib/stdlib/hashes/blake2/blake2s_p.zok:main","zokrates_stdlib/stdlib/hashes/blake2/blake2s_p.zok:blake2s_compression","zokrates_stdlib/stdlib/hashes/blake2/blake2s.zok:main"])

p("C65","MiMC in the standard library",
"mimc7 is the MiMC-7 block cipher with R rounds, mimcFeistel the MiMC-Feistel cipher with 220 rounds, and mimcSponge the sponge of that cipher for every positive number of inputs and of outputs, with the round constants of the code. For every key mimcFeistel has different results on different inputs over every field, and mimc7 if 7 does not divide p - 1.",
"every input, every key, every number of rounds up to 91, every number of inputs and outputs, every prime field",
"The inputs are all elements of large fields; the sponge absorbs any number of elements; injectivity is a statement about all pairs of inputs.",
["zokrates_stdlib/stdlib/hashes/mimc7/mimc7.zok:main","zokrates_stdlib/stdlib/hashes/mimcSponge/mimcFeistel.zok:main","zokrates_stdlib/stdlib/hashes/mimcSponge/mimcSponge.zok:main"])

p("C66","Poseidon in the standard library",
"poseidon on 1 to 6 field elements is the Poseidon hash (fifth power, 8 full rounds, 56, 57, 56, 60, 60, 63 partial rounds) with the constants and matrices of the code; on no element or more than 6 elements an assertion fails. Over the field of Bn128 the matrices are invertible and the permutations are bijections.",
"all inputs of all sizes, every prime field",
"The inputs are all tuples of elements of large fields; bijectivity is a statement about all states.",
["zokrates_stdlib/stdlib/hashes/poseidon/poseidon.zok:main","zokrates_stdlib/stdlib/hashes/poseidon/poseidon.zok:ark","zokrates_stdlib/stdlib/hashes/poseidon/poseidon.zok:sbox","zokrates_stdlib/stdlib/hashes/poseidon/poseidon.zok:mix","zokrates_stdlib/stdlib/hashes/poseidon/constants.zok:POSEIDON_C","zokrates_stdlib/stdlib/hashes/poseidon/constants.zok:POSEIDON_M"])
p("C67","Pedersen hash in the standard library",
"Over the field of Bn128, the Pedersen hash of 512 bits is the compressed sum of three multiples of fixed points of Baby Jubjub, whose scalars are the signed base-16 digits of the message in three segments. If binary representations of field elements are used in the compression, then two messages with the same hash give a relation with small integers between the three points; since the prover chooses the representatives, a message can have more than one hash.",
"all messages of 512 bits, all choices of the prover",
"There are 2^512 messages; the 171 tables have to hold the right multiples of the points; collision resistance is a statement about all pairs of messages.",
["zokrates_stdlib/stdlib/hashes/pedersen/512bitBool.zok:main","zokrates_stdlib/stdlib/hashes/pedersen/512bit.zok:main"])
p("C68","Type checker",
"A function without generic parameters which the type checker accepts is the function of the source: parameters with different names, exactly one return, the same statements and operators in the same places, variables in scope with the types they are declared with, only mutable variables assigned, members of structs by name, integer literals with their values, which fit into the types they are used at. The result is well typed.",
"all functions without generic parameters, calls and loops, all struct declarations, every prime field",
"The types of literals are inferred from expressions of any depth and nesting; a test sees one expression. That the result is well typed is what all later passes rely on.",
["zokrates_core/src/semantics.rs:check_expression","zokrates_core/src/semantics.rs:check_statement","zokrates_core/src/semantics.rs:check_assignee","zokrates_core/src/semantics.rs:check_function","zokrates_ast/src/typed/integer.rs:align_to_type","zokrates_ast/src/typed/integer.rs:align_without_integers","zokrates_ast/src/typed/integer.rs:try_from_int"])

p("C69","From source to circuit",
"If a function of the source, evaluated on arguments by the rules of the source language alone, returns a value, then the circuit it is compiled to accepts the encoding of these arguments with the encoding of this value as outputs and with no other outputs, and executing the circuit returns it. If an assertion of the source function fails on the arguments, no assignment satisfies the circuit with them.",
"all functions without generic parameters, calls and loops, all struct declarations, all arguments, every prime field of more than 64 bits",
"It is the composition of all passes of the compiler, over all programs and all inputs; a test runs the compiler on one program and one input.",
["zokrates_core/src/compile.rs:compile","zokrates_core/src/semantics.rs:check_function","zokrates_analysis/src/lib.rs:analyse"])

p("C70","Steps of incremental proofs",
"Of a program used as a step of an incremental (Nova) proof, a prover can prove exactly the steps from a state to a next state which the program makes, with the state as arguments, some private arguments, and the next state as outputs, and so for any number of steps. Proving with given private arguments succeeds iff the program runs through these steps, and proves the state it ends with and their number; the circuit is the same for the parameters and for each step.",
"all programs, all states and private arguments, any number of steps, all choices of a malicious prover, all fields",
"That nothing else can be proved is a statement about all values a malicious prover may choose; a test only runs the honest prover, whose values are right even for variables which nothing constrains.",
["zokrates_bellperson/src/nova.rs:NovaComputation","zokrates_bellperson/src/nova.rs:synthesize","zokrates_bellperson/src/nova.rs:output","zokrates_bellperson/src/nova.rs:prove","zokrates_bellperson/src/lib.rs:bellperson_combination","zokrates_bellperson/src/lib.rs:synthesize_input_to_output"])

p("C71","Proofs and verification keys as strings",
"The points and public inputs of proofs and verification keys, written as hexadecimal strings (by setup and generate-proof), are read back (by verify) as the same points and field elements, except for the point at infinity, which is read back as a different, finite point. The numbers passed to the Solidity verifier are the values of the same field elements; writing never confuses two finite points.",
"all points of both groups (two coordinates, or four over the quadratic extension), all field elements, every prime field",
"The coordinates are all elements of large fields, of fixed width with leading zeros, in opposite byte orders on the way; a test sees one point.",
["zokrates_ark/src/lib.rs:parse_g1","zokrates_ark/src/lib.rs:parse_g2","zokrates_ark/src/lib.rs:parse_fr","zokrates_ark/src/lib.rs:to_g1","zokrates_ark/src/lib.rs:to_g2","zokrates_proof_systems/src/to_token.rs:encode_g1_element","zokrates_proof_systems/src/to_token.rs:encode_fr_element"])

p("C72","Solidity verifiers of Groth16 and GM17",
"The exported Solidity contract returns on every proof and its public inputs what verify returns, and reverts where verify panics. Whoever calls it, and with whatever numbers, it returns true exactly if the numbers denote points which are a valid Groth16 proof for public inputs less than the order of the scalar field; no input has a second representation. The contract of GM17 returns true exactly if the numbers denote points which are a valid GM17 proof for such inputs.",
"all verification keys, all proofs without points at infinity, any number of public inputs, all words of the call",
"The words of a call are chosen by an adversary; equality of two verifiers is a statement about all keys, proofs and inputs.",
["zokrates_proof_systems/src/scheme/groth16.rs:export_solidity_verifier","zokrates_proof_systems/src/scheme/groth16.rs:CONTRACT_TEMPLATE","zokrates_proof_systems/src/scheme/gm17.rs:CONTRACT_TEMPLATE","zokrates_proof_systems/src/solidity.rs:solidity_pairing_lib","zokrates_proof_systems/src/to_token.rs:to_token","zokrates_ark/src/groth16.rs:verify"])
