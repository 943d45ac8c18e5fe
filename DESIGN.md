# Formal model of ZoKrates in Lean 4: design

## Layout

`lean/Verif/` contains

* `Model/*` – executable Lean functions, one per function of the Rust code, each citing the file and lines it models and
  saying what it simplifies. Panics (`unwrap`, `unreachable!`, `assert!`, index out of bounds) are explicit: `none`, an
  error constructor, or `Checked.panicked`.
* `Spec/*` – small specifications that do not mention the model's helpers: satisfaction of constraints (`Sat`, `SatF`,
  `Realises`), meaning of source expressions and statements (`evalF/evalB/evalU`, `ExecL`, `Returns`, `Faults`), typing
  (`Ok*`, `Wt*`), ABI values, file formats.
* `Lemmas/*` – helpers; `Props/*` – the property theorems `Cnn_*`; `Props/*Examples` and `example`s – for each theorem a
  concrete case that meets its hypotheses and, where the code violates the English property, a proved counterexample.
* `tools/` – generators of `properties.jsonl`, `MANIFEST.json`, the primality certificates (`Spec/Curves.lean`) and the
  seeded-bug driver; `seeded/LOG.jsonl` – the log of deliberately wrong models and the theorems that caught them.

## Conventions

* Fields are `ZMod p` for an arbitrary prime `p` (`[Fact p.Prime]`), or any field when only field operations are used.
  `Spec/Curves.lean` proves (Pratt certificates, checked by the kernel) that the moduli of Bn128, Bls12_381, Bls12_377 and
  Pallas are prime, so the theorems apply to them. `T::get_required_bits()` is `Fld.requiredBits p`, the bit length of `p`,
  as in the code.
* `usize`, `isize`, `u128` values are unbounded `Nat`/`Int`, except where bytes are written (then they are bounded and the
  bounds are hypotheses).
* `HashMap`s that are only looked up are functions or association lists; `BTreeMap`s are sorted lists (`SMap`).
* `FlatM` is the state monad of the flattener: next variable, layout, emitted statements, the bits cache, **and two ghost
  components** that the code does not have: `exact` (a cache entry is the full decomposition of its key) and `clash` (some
  lookup of the cache used an entry in a way that its length does not justify). Ghost components never influence the
  emitted statements; they state the condition under which the code is right (`clash = false`) – see finding 15.
* Adversarial provers are universally quantified assignments `ρ`; honest provers are the interpreter.
* Hint functions and SNARK verification are oracles: `Oracle.any` in soundness theorems (whatever they return).

## Trusted base

* Lean 4.33.0's kernel. `decide +kernel` is used for concrete computations: it is kernel reduction, not compiled code.
* The axioms `propext`, `Classical.choice`, `Quot.sound`, and no others; no axioms are added. `vcheck` prints the axioms per
  theorem and replays all modules.
* Mathlib's definitions used in statements (`ZMod`, `Nat.Prime`, `List`, `Finset` sums).
* The faithfulness of the transcription in `Model/*`; every definition cites its source lines.

## What is modelled, and what is not

Modelled: `zokrates_ast` – linear and quadratic combinations, IR statements, canonicalisation, solvers indexing,
serialisation, flat programs, `from_flat`, ZIR, witness, variable display, SMT export; `zokrates_field` – the field interface
(conversions, display, checked operations); `zokrates_interpreter` – all of `execute`; `zokrates_codegen` – the flattener
with all gadgets and statements, and the optimiser with all passes; `zokrates_analysis` – the flattening of
arrays, structs and tuples (expressions without blocks; no assembly), the type checker of functions without generic parameters (expressions, assignees, statements; the conversion of integer literals; no calls, loops, ranges), the reducer (unrolling of loops, inlining of calls, static single assignment form, the propagation of constants on the way; for programs whose types are concrete and whose calls are right sides of definitions), constant propagation on typed programs (without blocks, assembly and `int`), the packing of comparisons of boolean arrays, the replacement of assignments with run-time indices, the checks of constant arguments and of literal indices, and the redefinition of conditions of typed programs, the ZIR constant propagator, the extraction of panics, the elimination of dead code, the unsigned integer range analysis and the transformation of assembly
constraints; `zokrates_abi` – types, values, JSON; `zokrates_circom` – r1cs and wtns
files; `zokrates_ark`/`zokrates_bellman` – constraint synthesis and the assignment of public wires; `zokrates_bellperson` – the step circuit of Nova and the loop of `prove`; the strings of proofs and keys (`zokrates_ark/src/lib.rs`, `to_token.rs`); the Solidity verifiers of Groth16 and GM17 and the library `Pairing` they use (`groth16.rs`, `gm17.rs`, `solidity.rs`); `zokrates_stdlib` – packing,
casts and lookup tables of `utils/`, the twisted Edwards curves of `ecc/` and `hashes/sha256` (without `embed/`), `hashes/keccak`, `hashes/sha3`, `hashes/blake2`, `hashes/mimc7`, `hashes/mimcSponge`, `hashes/poseidon` and `hashes/pedersen`, transliterated as programs of the modelled language (`Model/Stdlib.lean`, `Model/StdEcc.lean`, `Model/StdSha.lean`, `Model/StdEddsa.lean`, `Model/StdKeccak.lean`, `Model/StdBlake.lean`, `Model/StdMimc.lean`, `Model/StdPoseidon.lean`, `Model/StdPedersen.lean`),
and `signatures/verifyEddsa`.

Not modelled: the parser and the PEST grammar, the semantic checker on generic functions, calls, loops, modules and constants, the inference of generic
parameters and the computation of sizes in types (part of `reduce_program`), the other passes over typed (not yet flattened) programs; proving systems, the Solidity verifier of Marlin, `BN256G2`, the CLI, the rest of the standard library (see above), external crates (arkworks,
bellman, serde). `Directive`s of the embedded SNARK verifier call bellman and are oracles.

## Properties

| id | status | what is modelled | proof |
|----|--------|------------------|-------|
| C01 | proved | `Interpreter::execute` over IR statements, witness = sorted map | induction over the statement list; invariant: every processed constraint holds and mentions only bound variables, bound variables never change |
| C02 | proved | as C01 | as C01, converse direction: a failing statement makes the assignment unsatisfying / a genuine failure |
| C03 | proved | argument count check, `evaluate_lin`/`evaluate_quad`, witness map | list induction |
| C04 | proved | every arm of `Interpreter::execute_solver`; hint functions and the SNARK gadget are oracles | per solver; bit-list induction for `Bits`, `EuclideanDiv` |
| C05 | proved | `LinComb::into_canonical`, `reduce` | induction over terms |
| C06 | proved | `LinComb`/`QuadComb` arithmetic, `is_zero`, `try_linear`, ... | induction over terms |
| C07 | proved | `FlatExpression`, `from_flat` with explicit panic | structural induction |
| C08 | proved | `RedefinitionOptimizer` with its substitution map | simulation: invariant relating the substitution to the satisfying assignment |
| C09 | proved | `TautologyOptimizer`, linearisation in canonicalisation | statement-wise |
| C10 | proved | `Canonicalizer` | statement-wise |
| C11 | proved | `DirectiveOptimizer` | simulation with the map of seen directives |
| C12 | proved | `DuplicateOptimizer` with an abstract 64-bit hash | statement-wise under a no-collision hypothesis |
| C13 | proved | `ir::optimize`: composition of the passes | composition |
| C14 | proved | flattener gadget `eq_check` in a state monad emitting flat statements | for all witnesses |
| C15 | proved | `enforce_constant_le_check_bits`, `constant_le_check` | bit-list induction |
| C16 | proved | `get_bits_unchecked`, `get_bits`, the bits cache | bit-list induction, cache invariant |
| C17 | proved | `lt_check`, `le_check`, constant variants | arithmetic on decompositions |
| C18 | proved | `euclidean_division` | arithmetic |
| C19 | partial | `flatten_boolean_expression` | mutual structural induction with an invariant on layout and cache |
| C20 | proved | `flatten_field_expression` | as C19 |
| C21 | partial | `flatten_uint_expression` | as C19 |
| C22 | partial | `UintOptimizer`, all of it; hint functions abstract | mutual structural induction; counterexamples by kernel computation |
| C23 | partial | `Flattener::flatten_statement`, `flatten_function`, `from_function_and_config`, `from_flat` | induction over statements |
| C24 | partial | as C23, with honest assignments and the interpreter | induction over statements: an honest prover can extend the values computed so far |
| C25 | proved | `use_parameter` | list induction |
| C26 | proved | `ZirPropagator` on expressions, statements, functions | mutual structural induction |
| C27 | proved | `Value`/`CheckedValue` encoding and decoding against ABI types | structural induction on types |
| C28 | proved | `parse_value`, `to_serde_value` on the JSON syntax tree | structural induction on types |
| C29 | proved | `Witness::write`/`read` | list lemmas |
| C30 | proved | `ProgHeader::write`, `ProgEnum::deserialize` | byte-level |
| C31 | proved | `ProgIterator::serialize`/`deserialize`, `SolverIndexer` | list induction |
| C32 | proved | `UnconstrainedVariableDetector` | induction over statements |
| C33 | proved | `zokrates_circom/src/r1cs.rs` | induction over statements, bytes |
| C34 | proved | `zokrates_circom/src/witness.rs` | as C33 |
| C35 | proved | `smtlib2.rs` | structural |
| C36 | proved | `Computation::generate_constraints` of the ark and bellman backends, `Computation::synthesize` of bellperson (`Model/Bellperson.lean`) | induction over statements |
| C37 | proved | `Field` conversions | arithmetic |
| C38 | proved | `checked_add`, `checked_mul` | arithmetic |
| C39 | proved | `to_compact_dec_string` | decimal digit lemmas |
| C40 | proved | `Variable` display and parsing | decimal digit lemmas |
| C43 | partial | `compileZir`: flattening, lowering, optimisation, `clean` | composition of C13, C23, C24 |
| C44 | proved | `PanicExtractor`, all of it; hint functions abstract | mutual structural induction: the guards of an expression hold iff it does not fail that way |
| C45 | proved | `DeadCodeEliminator`, all of it; hint functions abstract | simulation between the executions of the two programs, for states that agree on the live variables |
| C46 | proved | the semantics and types of ZIR (`Spec/ZirExec.lean`, `Spec/ZirWt.lean`) that the other theorems are stated with | type soundness: preservation and progress by induction over statements |
| C47 | partial | the order of the ZIR passes in `analyse` and of the back end in `compile` (`Model/Pipeline.lean`); functions without assembly blocks | each pass keeps the syntactic conditions of the next one (`Lemmas/{PanicPres,PanicScope,DcePres,UintOptShape,Pipeline*}.lean`), then C26, C44, C45, C22 and C43 are composed; what the passes do to hints is irrelevant without assembly blocks |
| C48 | partial | `flatten_complex_types.rs` without blocks and assembly (`Model/{Typed,FlattenTypes}.lean`), in front of C47 (`Model/PipelineTyped.lean`) | simulation between typed and ZIR executions: the ZIR environment holds the components (`leaves`) of the typed one; mutual induction over expressions and types; composed with C27 and C47 |
| C49 | proved | `variable_write_remover.rs` without blocks and assembly (`Model/VariableWrite.lean`); the enumeration order of the hash set of range checks is a parameter | induction over the path of accesses: `choose_many` evaluates to the variable with the part replaced if the range checks hold, and they hold iff the part exists; lifted to functions by `Replaces.of_steps` (`Lemmas/{TypedPass,VariableWrite,VariableWriteStmt}.lean`) |
| C50 | proved | `condition_redefiner.rs` without blocks and assembly (`Model/ConditionRedefiner.lean`); the new identifiers are an injective parameter `cid` | simulation: the two states agree except on the new variables, and the new variables hold the values of the conditions they stand for (`Redef`); conditions at every depth by mutual induction over expressions; `Replaces` from the forward simulation of every statement |
| C51 | proved | `boolean_array_comparator.rs` without blocks and assembly (`Model/BooleanArray.lean`) | the packed chunk evaluates to the number its bits denote (induction over the balanced sum); numbers of at most `bits - 1` bits are below the modulus, so chunks, and then arrays, are determined by their packing; forward simulation of expressions by mutual induction |
| C52 | proved | `constant_argument_checker.rs`, `out_of_bounds.rs`, the folds of `result_folder.rs` they use, without blocks and assembly (`Model/Checkers.lean`) | the fold of every expression equals "itself if all inspected subexpressions are good, and an error otherwise", by mutual induction; an expression with a value has no literal index out of bounds below of it (eager evaluation), so a rejected function never returns |
| C53 | partial | `zokrates_analysis/src/lib.rs:165-216`: the typed passes of C49–C52 in sequence, and everything behind them (`Model/PipelineTyped.lean`) | composition of `Replaces` (transitive); invariants passed from pass to pass (types, new names, literal indices, calls of embedded functions); the rewritten write of one component reads, of the assigned variable, only this component: so the components can be assigned one after the other |
| C54 | proved | `propagation.rs` and `into_canonical_constant`, `zokrates_ast/src/typed/mod.rs:3492-3695`, `expression_at`, equality of expressions (`Model/{TypedEq,TypedPropagator}.lean`), without blocks, assembly, `int` | the constants are canonical, well-typed and denote the values of the variables in every state of the source (invariant); the folded expression has the type and, in every related environment, the value of the source expression, or the source fails (mutual induction); equality of canonical constants is equality of values; simulation of statements in both directions |
| C55 | partial | `zokrates_analysis/src/lib.rs:160-216`, `zokrates_core/src/compile.rs:183-200` (`Model/PipelineTyped.lean`) | C54 keeps the invariants C53 needs; `Replaces` is transitive |
| C56 | proved | `reducer/{mod,inline,shallow_ssa}.rs` on programs with concrete types (`Model/Reducer.lean`) | specification: big-step semantics of programs with loops and calls (`Spec/Reducer.lean`); invariants: constants are right, frames above the latest one are unused, the current versions of the names of a frame have the values of the source variables; a call is simulated by its bindings, the body in a new frame and the value (induction over the steps of the reducer); both directions, failures and assertions are composed by `RSim.seq`. `C56_steps`: the number of steps does not matter |
| C57 | partial | `zokrates_analysis/src/lib.rs:133-216`, `zokrates_core/src/compile.rs:183-200` (`compileReduced`) | C56 establishes the invariants C55 needs (`C56_shape`) |
| C58 | proved | `zokrates_stdlib/stdlib/utils/pack/**`, `utils/casts/field_to_u*.zok` (`Model/Stdlib.lean`, deep embedding) | Hoare rules for loops and calls (`Lemmas/Hoare.lean`), loop invariants; specification: `natBE`, `bitsBE`, `Unpacks` (`Spec/Calls.lean`) |
| C59 | proved | `zokrates_stdlib/stdlib/utils/casts.zok`, `utils/multiplexer/*.zok` (`Model/Stdlib.lean`) | as C58 |
| C60 | proved | `zokrates_stdlib/stdlib/ecc/*.zok` (`Model/StdEcc.lean`), specification `Spec/Edwards.lean`, `Spec/Ecc.lean` | group law of complete twisted Edwards curves (Mathlib `field_simp`/`linear_combination`), loop invariants over the embeddings; exact results with the most general oracle for the functions with choices of the prover; Baby Jubjub in projective coordinates by kernel computation |
| C61 | proved | `zokrates_stdlib/stdlib/hashes/sha256/*.zok` (`Model/StdSha.lean`), specification `Spec/Sha256.lean`, `Spec/Words.lean` | loop invariants over the embeddings (message schedule, rounds, blocks, padding); words as bit vectors; the finding and the test vector by kernel computation |
| C62 | proved | `zokrates_stdlib/stdlib/signatures/verifyEddsa.zok` (`Model/StdEddsa.lean`) | composition of C60 and C61, exact set of results with the most general oracle |
| C63 | proved | `zokrates_stdlib/stdlib/hashes/keccak/*.zok`, `hashes/sha3/*.zok` (`Model/StdKeccak.lean`), specification `Spec/Keccak.lean` | loop invariants over the embeddings, one per step of a round (arrays as functions of the index); byte order by cases on the bits; sponge: invariant on blocks absorbed and bytes of the current block; test vectors by kernel computation |
| C64 | proved | `zokrates_stdlib/stdlib/hashes/blake2/*.zok` (`Model/StdBlake.lean`), specification `Spec/Blake2s.lean` | as C63; the counter of two words by arithmetic modulo 2^32; test vectors by kernel computation |
| C65 | proved | `zokrates_stdlib/stdlib/hashes/mimc7/*.zok`, `hashes/mimcSponge/*.zok` (`Model/StdMimc.lean`), specification `Spec/Mimc.lean` | loops by invariants as C63; injectivity round by round: Feistel rounds are invertible over every ring, x^7 is injective if 7 is coprime to p - 1 |
| C66 | proved | `zokrates_stdlib/stdlib/hashes/poseidon/*.zok` (`Model/StdPoseidon.lean`, `Model/StdPoseidonConst.lean`), specification `Spec/Poseidon.lean` | loops by invariants as C63; inverses of the matrices as certificates which the kernel multiplies; test vector by kernel computation |
| C67 | proved | `zokrates_stdlib/stdlib/hashes/pedersen/*.zok` (`Model/StdPedersen.lean`), specification `Spec/Pedersen.lean` | the 171 copies of the round by induction; tables by kernel computation in projective coordinates; uniqueness of signed digits; compression by C60; test vector by kernel computation |
| C68 | partial | `zokrates_core/src/semantics.rs`, `zokrates_ast/src/typed/integer.rs` (`Model/Semantics.lean`), specification `Spec/Semantics.lean` | an inductive relation between expressions under check and the source (`Raw`), preserved by the conversion of literals; induction on the source |
| C69 | partial | `zokrates_core/src/compile.rs`, composition of the models of C68 and C57 (`compileSource`), specification `Spec/Source.lean` (big-step semantics of the source without a type checker) | the values of the source by induction on its derivations, through the readings of C68 (`Lemmas/Source.lean`, `Lemmas/SourceFun.lean`); C57 for the rest |
| C70 | partial | `zokrates_bellperson/src/nova.rs`, `zokrates_bellperson/src/lib.rs` (`Model/Nova.lean`), specification `Spec/Nova.lean` | invariant of the synthesis (every symbol is the wire of its variable); what a prover may choose is an assignment of the variables (C70_step); soundness where `~one` is not mentioned; `prove` by induction on the steps |
| C71 | proved | `zokrates_ark/src/lib.rs` (`parse_*`, `to_g*`), `zokrates_proof_systems/src/to_token.rs` (`Model/ProofJson.lean`; the crate `hex` and the byte form of points are external, modelled) | hexadecimal digits as bytes, chunks of equal length; the round trip as one equation |
| C72 | partial | `zokrates_proof_systems/src/scheme/groth16.rs`, `gm17.rs` (`Model/SolidityGm17.lean`, with `ECTwistAdd` as a parameter), `solidity.rs`, `to_token.rs`, `zokrates_ark/src/groth16.rs` (`Model/Solidity.lean`), specification `Spec/Groth16.lean` (bilinear pairing of groups with coordinates, the equation of the scheme) | words denote at most one point; the loop by induction; the four pairings as one equation |
| C41 | partial | `AssemblyTransformer`, `LinQuadComb`, all of them; hint functions are left alone | values of polynomials; simulation of executions |
| C42 | partial | the aggressive mode of `RedefinitionOptimizer` on assembly blocks | simulation |

What is missing from the partial ones and what the theorems assume is in the `note` of `MANIFEST.json`. Reading guide:

* **C14–C21, C23, C24, C43**: soundness is "for every witness"; completeness is `Completes` (`Spec/Ready.lean`): an honest
  prover who has satisfied the statements emitted before can go on. Hypothesis `clash = false` (finding 15): the flag is computed by the
  model, so it can be evaluated for a given program; it holds for every
  program in which no unsigned integer wraps around (`NoWrap`, `Spec/NoTrunc.lean`, `Props/NoWrap.lean`). `Undetected` faults: division of field elements by zero (guarded by
  `PanicExtractor`) and `FieldToBoolUnsafe` casts of values other than 0 and 1.
* **C43**: `OracleFreeL` (`Spec/OracleFree.lean`): no assembly blocks and no bit decompositions of field elements, whose
  results the prover can choose.
* **C22**: the range analysis is wrong for shifts and some subtractions (findings 1, 2, 21); `plainFun` is a decidable
  criterion under which it is right.
* **C42**: aggressive optimisation of assembly blocks is right when no variable that is eliminated inside of a block occurs
  outside of it in another role; the counterexample shows that the condition is needed.

## Findings

Behaviours of the code that contradict a property. "proved" refers to a theorem about the model.

1. `UintOptimizer`: maximum of `e << k` is `(max << k) & mask` and of `e >> k` is `(max & mask) >> k`; both underestimate when
   the maximum of `e` is not of the form `2^j - 1` resp. exceeds the mask. A wrong result is accepted for Bn128/u64: proved,
   `C22_right_shift_unsound`.
2. `UintOptimizer` and flattener disagree on the offset of a subtraction whose right operand has a maximum of `bits - 1` bits:
   the circuit is unsatisfiable. Proved: `C22_sub_offset_incomplete`.
3. `RedefinitionOptimizer`: no occurs check; in aggressive mode variables of assembly blocks are captured (proved, C42); it
   divides by a zero coefficient; a directive without outputs in a block panics.
4. `DuplicateOptimizer` and `SolverIndexer` identify statements and solvers by a 64-bit hash: `C12_collision_drops_constraint`,
   `C31_collision`.
5. `from_flat` panics on a non-linear left side (`C07_panics_on_nonlinear_side`).
6. `ProgEnum::curve()` returns wrong names for Pallas and Vesta (`C30_wrong_curve_name`); truncated statement streams are
   read as a prefix; a deserialised program loses its solvers when serialised again (`C31_lost_table`).
7. `UnconstrainedVariableDetector` counts variables that only occur in logs as constrained (`C32_log_only`).
8. circom export: coefficients always have 32 bytes (`C33_wide_field_truncated`), wtns misaligned for log-only variables
   (`C34_log_only_misaligned`).
9. Backends number output wires by first occurrence (`C36_order_matters`) and ignore assembly blocks (`C36_blocks_ignored`).
10. `get_bits_unchecked` truncates constants: `assert(2 < x ** 0)` is accepted (`C23_constant_assertion_unsound`).
11. Interpreter: directive outputs overwrite (`C01_needs_fresh_directives`); numerals with a leading zero are read as
    hexadecimal by the ABI (`C28_surprises`); numbers `>= p` are reduced silently.
12. `LinQuadComb::try_mul` drops cubic terms. Assembly constraints with a cubic term in one variable are accepted and wrong:
    `z === x * x * x` becomes `z === 0` (`C41_cubic_dropped`). `is_linear` accepts `Value * anything`: `2 * (x + y) === x * y` is
    left as it is and `from_flat` panics (`C41_literal_times_sum_panics`); `z === (2 * (x * y)) * x` is accepted as quadratic and
    compiled to two constraints (`C41_literal_times_product_accepted`).
13. `FlatStatement::apply_substitution` exchanges the two sides of a condition.
14. The optimiser evaluates hints with constant inputs at compile time (`C13_hint_fixed`).
15. The bits cache is keyed by expression only: the truncated decomposition a subtraction leaves there is taken for the
    full one by a comparison. `return (x - y, x < y)` accepts `3 < 1`: `C23_cache_clash_unsound`; in the other order honest
    provers fail: `C24_cache_clash_incomplete`.
16. `u_from_bits` flattens its arguments twice.
17. `ZirPropagator` panics on constant `n % 0` (`C26_rem_by_zero_panics`).
18. `ZirPropagator` panics when a constant field xor, or, shift exceeds the modulus.
19. `ZirPropagator` removes the assignees of a call before it folds the arguments (harmless in SSA form).
20. ABI: decoding an array of zero-size elements panics (`C27_zero_size_elements_panic`).
21. `UintOptimizer` registers the parameters of hint functions in the table of the program (`C22_hint_capture_incomplete`).
22. `PanicExtractor`: remainders of integers (`C44_remainder_unguarded`) and `<=` on field elements get no guard, so an unused
    `x % 0` is not a failure after dead code elimination; a comparison with an operand `x ** 0` gets assertions that can fail
    although the comparison is defined (`C44_power_zero_overguarded`); panics of constraints of an assembly block would be
    emitted inside of the next hint function.
23. `DeadCodeEliminator`: a bit decomposition of a field element whose bits are not used is a range check in the source; it is
    removed (`C45_unused_range_check_removed`). An unused `x % 0` is forgotten (`C45_unused_remainder_forgotten`). The arguments
    of a hint are not marked as used, only what its body mentions: the definition of a variable passed to a hint which ignores
    it is removed, and the flattener would panic on the undefined variable.
24. Assignments to parts of variables get no new SSA version (`reducer/shallow_ssa.rs`) and `flatten_complex_types.rs` emits one
    ZIR definition per component, in order: `a[0] = [a[0][1], a[0][0]]` and `p.q = Q { x: p.q.y, y: p.q.x }` give both
    components the old second one. A wrong result is accepted: proved, `C48_partial_assignment_miscompiled`.
25. `flatten_complex_types.rs` panics (`chunks(0)`) on a select with a run-time index of elements without components, e.g.
    of an array of empty structs (`C48_empty_elements_panic`), and on a select with a run-time index from an empty array.
26. `out_of_bounds.rs` does not recurse into the array and the index of a select: `a[5][0]` with `field[3][2] a`, or `a[b[5]]`, passes the check, and
    `flatten_complex_types.rs:936` then panics (slice index out of range) instead of an error being reported: `C52_nested_index_panics`.
27. `constant_argument_checker.rs` does not fold the arguments of embedded functions other than `bit_array_le`: `u32_to_bits(x << y)`, called directly,
    passes the check (`C52_shift_in_call_accepted`), and `uint_optimizer.rs` panics on a shift by a variable.
28. As a consequence of 24, `a[i] = 1 / (a[i] - 1)` with a run-time index `i` fails on `a[i] = 2`, although the source does not: the components are assigned one
    after the other, each by a conditional whose both branches are evaluated, and after `a[i]` has become 1 the branch not taken of a later component divides by 0: `C53_indexed_division_fails`.
29. `propagation.rs:502-512` decomposes a constant field element by comparing it with powers of two *in the field*. With more bits than the modulus has, the powers have
    wrapped around, and the bits are not those of the representative: `C54_wide_unpack_differs`, `C54_wide_unpack_changes_result`. In Bn128 `unpack256(-1)` of the standard
    library is affected (`C54_unpack256_differs`): the highest bit is set, and then the `bit_array_le` assertion of `unpack` fails although it holds for a run-time
    argument with the same value.
30. `into_canonical_constant` (`typed/mod.rs:3549`, `:3594`) panics on a constant slice of an array which is not written as a list, such as `[true; 4][1..3]`:
    `C54_slice_panics`.
31. `propagation.rs:795`, `:810`: a constant shift of an integer by 128 or more overflows the shift of the `u128` the compiler computes with: a panic in debug mode
    (`C54_shift_panics`). Constant integer divisions by zero panic as well (`:754`, `:775`) instead of being reported; there the source never returns (`C54_rejected`).
32. `Reducer::fold_slice_expression` (`reducer/mod.rs:366-390`) converts the array of a slice to static single assignment form although the whole statement has been converted
    before. In `a = [...a[1..2], x]` (and in `a = f(a[0..2])`) the assignee has got a new version in between, so that the slice reads the version of `a` that the statement
    defines: the compiled program reads an undefined variable, and cannot return anything, although the source does: `C56_bug_slice`. Hence the condition `MayDefine` in C56.
33. `reducer/mod.rs:312`: in a loop whose upper bound is below the lower one, `to.value - from.value` underflows: a panic in debug mode; otherwise the loop, which has no
    iterations, is rejected as too large, with the number of iterations 0 in the message. (The model rejects it: `reduceS`.)
34. `utils/pack/bool/unpack128.zok:4`, `unpack256.zok:4` say that the output is truncated if the input is too large. It is not: there is no witness then
    (`C58_unpack`, `C58_unpackU32`). A caller which relies on the documented truncation has an unsatisfiable circuit.
35. `ecc/edwardsCompress.zok`: the sign bit is the lowest bit of a 254-bit decomposition which is not checked to be below the modulus. With Bn128, `x + p` still fits for small `x`, and has the other parity: the generator of Baby Jubjub
    and its inverse can be compressed to the same 256 bits (`C60_compress_collision_bn128`). With canonical decompositions the function is injective (`C60_compress_injective`)
36. `ecc/proofOfOwnership.zok`: same cause. A secret key `sk` with `sk + p < 2^254` has two public keys, and for each of them the prover can let the function return true or false (`C60_two_keys_bn128`). Only returning true has a meaning:
    the prover knows *some* number below 2^254 (`C60_ownership`)
37. `hashes/sha256/sha256Padded.zok:28-30`: `block_count = (N + 64 + 1) / 512 + 1` is one too many if `N + 65` is a multiple of 512: for messages of `N = 447 (mod 512)` *bits* an additional block of zeros is inserted before the length, so that the result
    is not SHA-256 of the message (`C61_bits_447`, `C61_bits_wrong`). Messages of bytes are never of this length (`C61_bytes`)
38. `signatures/verifyEddsa.zok:38-43`: same cause as 36. The scalar `S` and the hashed coordinates are decomposed into 254 bits which are not checked to be below the modulus, so that the prover can let the function return false on valid signatures
    (`C62_not_unique_bn128`): a program which uses the negation of the result is unsound. If it returns true, the equation holds for numbers congruent to `S`, `R.u` and `A.u` (`C62_sound`)
39. `hashes/pedersen/512bitBool.zok:713`: same cause as 36, via `edwardsCompress`. The hash is not a function of the message: for the message of the library's own test the prover has at least two results (`C67_second_result`).
40. `semantics.rs:3501-3533`: `&&` between integer literals is accepted as the bitwise operation: `u8 x = 6 && 3;` assigns 2 (C68_and_of_integers).
41. `semantics.rs:2757-2786`, `integer.rs:148-231`: the widths of the branches of a conditional are not compared: `u8 x = c ? a8 : b16;` is accepted, as is `c ? 1u8 : 300u16` (C68_conditional_widths).
42. The same place: the sizes of arrays are not compared in the branches of conditionals and between the elements of inline arrays (C68_conditional_sizes, C68_ragged); the program is accepted and the compiler crashes later in assertions of `flatten_complex_types.rs`, or if the condition is a constant goes on with an array of another size than annotated.
43. The same place: structs of different declarations are accepted as branches of a conditional if the types of their members agree in order; names are not compared (C68_conditional_structs).
44. Panics of the compiler on ill-typed sources: `[1, 2][0]`, `(1, x).0`, `300u8`, comparison of structs whose members have no common type (C68_panics), and `field a = (1, x).1;`, which the checker accepts with a literal of no type left in the tuple (`fold_int_expression` is `unreachable!()`).
45. `(field, field)[2] a = [(1, x), (2, y)];` is rejected, since the type of the elements is taken to be the one of the first, a tuple with a literal of no type (C68_tuples_of_literals).
46. `NovaComputation::synthesize` (`nova.rs:215`) starts with an empty map of symbols, unlike `Computation::synthesize` (`lib.rs:84`), which binds `~one` to `CS::one()`. `~one` becomes an unconstrained variable of the step circuit: a prover may give it any value. For `return x + 1;` every square can be proved to follow 0 (C70_one_unbound).
47. The state of a Nova step is bound to the first arguments, whatever their visibility, while `try_from` counts the public ones: `main(private field a, public field b)` is accepted with `a` as state, and `b` is free (C70_positional). A step without state but with private arguments panics in the generation of the public parameters (C70_no_state_panics).
48. The point at infinity in a proof or key is written without its flag, and read back by `to_g1`/`to_g2` as the finite point with its meaningless coordinates (0, 1), which is not on the curve (C71_infinity_lost). `FromBytes` does not check that points are on the curve, or in the subgroup; neither does `verify`.
49. `negate` in the Solidity library reduces the second coordinate modulo `q`, so the contract accepts `C_y + q` in place of `C_y` (C72_malleable): the same proof has two encodings. The other points must be canonical (C72_accepts). The comment on `G2Point` (`X[0] * z + X[1]`) is the wrong way round: `X[1]` is the imaginary part.

## Wrong programs

`tools/seed.py` edits the model in a scratch copy and rebuilds; `seeded/LOG.jsonl` records every attempt. Edits that survived
led to new or stronger theorems (field `theorems_tightened`).
