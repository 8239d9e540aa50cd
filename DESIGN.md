# Formal model of WojciechMigda/Tsetlini in Lean 4

## Approach

The C++ library is modelled function by function as total, computable Lean
functions.  Everything that can go wrong at run time is a distinct outcome:

    Res a = ok a | ub UB | exn Exn | timeout

`ub` = undefined behaviour (access outside a vector or a matrix row, division by
zero, signed overflow, bad shift, float->unsigned out of range), `exn` = a C++
exception leaving the API, `timeout` = a data dependent loop did not finish
within the fuel of the environment (only the coin tosser's rejection loop).

The estimator layer of the C++ code (`tsetlini.cpp`) is a set of templates over
the state type; the model is likewise generic over a `Backend` record, with two
instances, classic (`TAState`, char samples) and bitwise (`TAStateWithPolarity`,
bit-vector samples).

Everything outside the library is a field of an environment `Env` and all
theorems quantify over it: the PRNG (any state type, any stream; a separate
module models the concrete Mersenne Twister), `std::shuffle` (any permutation),
the iteration order of each OpenMP loop (any permutation, chosen by a ghost
tick), `hardware_concurrency`, `random_device`, the float rounding functions
(any monotone rounding that is exact where binary32/binary64 are), the normal
deviate table of box_muller, the unspecified evaluation order of the two coin
tosses passed as function arguments.

## Modules (lean/Verif)

* `Model/*`  - the model.  Each definition cites the file and lines it models.
* `Spec/*`   - small independent vocabulary the property statements use.
* `Lemmas/*` - proofs of auxiliary facts.
* `Props/*`  - the property theorems and beside each a concrete non-vacuity example.
* `Instances/*` - theorems of C01-C52, C55-C58, C61, C63, C64, C69, C79-C81 applied to concrete data with every hypothesis discharged (for the others the examples in `Props` show it).

## Plan per property

| id | model | proof |
|----|-------|-------|
| C01 | classic/bitwise training, init, full API histories | invariant, induction over histories |
| C02 | counters stored through a width-dependent wrap | wrap = id under C01's invariant; two-run simulation |
| C03 | weights | same invariant |
| C04 | both clause-output routines, both paths | loop lemmas, equality with the conjunction |
| C05 C06 C11 C17 C40 | env/schedule/cache/tile/n_jobs in the model | one two-run simulation theorem over all API calls |
| C07 C08 C09 | vote sums, max_element, predict | functional correctness |
| C10 | batch and single routines | induction over the batch |
| C12 C13 C14 C15 | checks, fit, partial_fit | case analysis / iff statements |
| C16 | initialize keeps weights | simulation for unweighted; witness for weighted |
| C18 | generate_opposite_y | modular arithmetic |
| C19 C20 C21 C22 | feedback and training loops | frame lemmas |
| C23 C24 C25 | blocks as BitVec 64 | invariant, refinement of classic |
| C26 C27 C28 C29 C47 | params pipeline over a JSON value type | iff statements |
| C30 C31 | to_json/from_json on a JSON value type | round trip |
| C32 | coin tosser with fuel | loop invariant |
| C33 C48 | regressor training, binomial | case analysis |
| C34 C35 | epoch loop | permutation / fold append |
| C36 | evaluate | relation with predict |
| C37 C38 C39 C49 | bit vector, bit matrix, numeric matrix layouts | BitVec lemmas, arithmetic |
| C41 | Mersenne Twister tables | index invariant |
| C42 C43 C44 C50 | ranges, sums with overflow outcome | invariant => no ub |
| C45 | loss functions over Rat with rounding | order reasoning |
| C46 | argument extraction by type | permutation invariance |
| C51 | from_json on the other kinds' texts, at the level of documents and (Props/ForeignText.lean, through the JSON writer and parser) of texts | which members exist, round trip (C30, C73) |
| C53 | small-step threads, one memory access at a time | invariant over all interleavings; refinement of the sequential loop |
| C54 | caches as lists and bit vectors, the generator as a stream | marks preserved by a swap; windows by arithmetic on sizes; induction over tosses |
| C55 | the cache with any generator | invariant: unread entries are distinct unreturned draws |
| C56 | the uncalled routines as folds over blocks and bits | invariant per block; both sides equal the specification |
| C57 | small-step threads; storing a bit is a read and a write of its block | invariant for teams that share no block; constructed executions otherwise |
| C58 | 64-bit address arithmetic, storage as bytes | bit-level lemma on masks; array laws by arithmetic on offsets |
| C59 | the log as a list of lines per call; the operands of the log statements are evaluated inside `initializeState` | twin simulation for verbose; the lines by unfolding |
| C60 | read-only calls as trees of loads and stores of the scratch memory, the stores of a parallel loop in any order (`Sched`); any number in flight | rely/guarantee: what a call does if the others store only proper values; undisturbed runs equal the sequential model; constructed interleavings for what goes wrong |
| C61 | loading that also says what is left when it throws (`loadInto`) | it refines the loading of C30/C51; what is left by the first unreadable member; calls do not look at generators; stuck estimators by cases on the call; counterexamples by evaluation |
| C62 | the states in which each training call can be left by `std::bad_alloc` (`trainAborts`); reading calls abandoned after any access (as C60) | initialisation depends only on what is not changed by an earlier one; epochs are a prefix; C60_safe; counterexamples by evaluation |
| C63 | no new code; `share`, the votes a clause contributes to the sample | from C34 (training as a chain of steps): Type I feedback never lowers the contribution of a clause to the sample, Type II never raises it; chains; for regressors relative to the clause at the start of the step; counterexample by evaluation |
| C64 | no new code | from C34: no step changes anything, as outputs in training and prediction agree for clauses that are not empty |
| C65 | no new code | probabilities as counts over all 2^32 words (Spec/Chance): `ways`, `prob`, `mean`; rounding error calculus for binary32/binary64 (Lemmas/Chance), counts of residues and thresholds by induction; Props/Chance. Words are assumed equally likely; nothing is claimed about the quality of MT19937 |
| C66 | no new code | exchanging two remainders in all words is a bijection of the tapes and exchanges two features in the result (induction over the tape); double counting; union bound over never drawn features and Bernoulli's inequality for termination (Lemmas/Fair, Props/Fair) |
| C67 | every float computation once more, operation by operation, with infinities and NaN (Overflow), and the public calls that reach them (OverflowCalls) | ranges of all intermediate results by monotony of rounding; the overflowing cases one by one (Lemmas/Overflow, Props/Overflow); whole histories by induction, with acceptable parameters as invariant (Props/OverflowCalls) |
| C68 | `Either` and `Maybe` as tagged unions with object lifetimes counted; programs of constructions, copies, moves, maps, destructions (Either) | each operation on each side; induction over programs and chains (Props/Either) |
| C69 | two estimators with the same parameters except weighted / max_weight, no weight able to exceed 1 | abstract steps related by "same automata and generators, all stored weights 0" (`SameBut`), lifted to histories through the refinement of C01/C02 (Lemmas/Light, LightRun, Props/Light) |
| C70 | `dump` (printer with its buffers and tables, Grisu2 with its cached powers), `parse` (lexer automata, parser with its stack) on bytes | Grisu2: error of the 64-bit products bounds the digits between the neighbours' midpoints, so they round back (Lemmas/Grisu*); strings character by character; induction over values with the parser's stack (Lemmas/Json*, Props/JsonText) |
| C71 | as C70 | the UTF-8 automaton accepts exactly encoded scalar values; induction over values |
| C72 | as C70; loops have a bound that is shown to suffice | the input gets shorter with every token; invariants of the parser's stack |
| C73 | `to_json_string`, `from_json_string` from state to bytes and back (StateText) | the documents are well-formed (bounds from the invariants of fitted states), C70, and C30's argument with the parameters in the map's order |
| C74 | `json_parse` and the factories on bytes (ParamsText) | C72 gives totality and distinct keys; C26, C27 for the rest |
| C75 | as C70; the grammar of RFC 8259 with its meaning is a specification of its own (Spec/JsonGrammar) | invariant of the parser: the bytes consumed are what the grammar derives for the open containers (sound); induction over derivations (complete) |
| C76 | rounding of `float` and `double` (Ieee, Overflow), conversion of read numbers to parameters | the number computed is a nearest one with even last digit if tied; two such numbers would be neighbours with even last digits, which there are not |
| C77 | as C60, with clones as sequences of loads | a clone only loads, and every value it may load keeps the estimator's invariant; C60 for the calls |
| C78 | a heap of states, variables that own them, and the public statements (Model/Session.lean), for one class at a time; the estimators' `number_of_states` works (C23) and their real parameters are finite floats (C30); texts from elsewhere are refused without changing anything, or can be loaded as a trained estimator whose parts fit together (else C51, C61, C80) | invariant over the statements: unique ownership, and every state simulates the abstract state its line of training leads to; C11, C73 and the twin-run lemma for the calls |
| C79 | `saveText`/`loadText` (Model/StateText.lean) and `EstState.CppEq`; fitted estimators with finite float parameters (C30) and a working `number_of_states` (C23) | the ordered parameter map sorts to one list; C17 and C73 for schedules and reloading; `parse_dump` gives injectivity |
| C80 | `load` on arbitrary documents; `Spec.FitsTogether` (Spec/Api.lean) says what it is for parts to fit, `Spec.ModelOf` what a hand-written model is. `Spec.Reached`, which nearly all properties quantify over, is a run of calls from a factory-made *or* loaded fitting state | the training invariant (`Fit`) is shown to be equivalent to fitting parts; `Start.sim` starts the refinement from a loaded state |
| C81 | `load` and `save` as in C80; `Spec.Setting` (Spec/Loaded.lean) lists the settings and values, `Spec.withSetting` edits the document | the edited state has fitting parts (C80), and `load` of the edited document is `load` of the document of the edited state; two refinements with equal counters, weights and observable parameters run alike (`run_twin`), and the reference semantics of read-only calls mentions only counters, weights, threshold and shape |
| C82 | `cppEq`, copies, moves and assignments of the flat matrices (Model/LayoutEq.lean); `Spec.BuiltNumbers`, `Spec.BuiltBits` (Spec/Compare.lean) are the matrices a program can have | invariant: the size fields determine the storage size and padding is 0; then equality of storage is equality of cells |
| C83 | no new model; `Spec.Counters` (Spec/Specificity.lean) compares the counters before and after | from C52: the number of chosen features is n for s = 1 and 0 for a huge s, whatever is drawn; a relation on clauses that both types of feedback satisfy is satisfied by training |
| C84 | no new model | from C34 as for C64, but with the votes as training counts them; three concrete estimators for the traps |
| C85 | no new model; `Spec.Reworded`, `SameSample`, `SameRules` (Spec/Symmetry.lean) say when two models are the same in other words | from C07 to C09: a clause is true for a sample iff its counterpart is for the other sample; sums of votes are equal under a permutation of clauses |
| C86 | `putInt`, `putReal` (the default format of a stream), `lineText`, `logText` (Model/LogText.lean); `Spec.Decimal`, `SixDigits`, `LineShown`, `Lines` (Spec/LogText.lean) | decimal exponent and six digits by bounds on powers of ten; every entry a history can log is one of a few forms (invariant on the parameters), whose texts are told apart |
| C87 | the model of C80, C07-C09 and C84 | the model of a given function is written down clause by clause (Spec/Express.lean) and its votes counted (Lemmas/Express.lean): among the clauses of a label each sample has at least threshold votes for or against; then C80 (it loads), C07-C09 (it predicts), C84 (it is stable) |
| C88 | the model of C07-C09, C80 and C85 | a prediction is determined by which literals each clause includes and its weight (C85), so there are at most as many predicted functions as such descriptions; counting (`Fintype.card`, Mathlib) leaves a function over |
| C52 | whole training, generators as abstract streams | refinement of a relational reference trainer; its uniqueness |

C26..C31, C51 and C61 are about JSON values, with the number kinds nlohmann's parser yields; C70..C72 are about the text below them, C73 and C74 join
the two.

## Trusted base

* Lean 4.33.0's kernel.  Every theorem depends on no axiom beyond `propext`, `Classical.choice` and
  `Quot.sound` (the three that core Lean uses); `vcheck` prints the axioms of every theorem and
  replays all modules.  No axioms are added, nothing is compiled (`decide +kernel` is evaluated by the
  kernel).
* That the definitions in `Model/*` say what the C++ code says.  Each cites the lines it models.
* That the specification vocabulary in `Spec/*` says what the English properties say.
* The assumptions about everything outside the library, which are exactly the fields named `*_law` of
  `Env`, `Sched` and `Machine` (`Model/Env.lean`): rounding to binary32/binary64 is monotone and leaves
  representable values alone; `std::shuffle` permutes; the float generator yields what `FRNG` makes of some
  32-bit word; an OpenMP loop runs every iteration once, in any order (in the estimator
  model iterations are not interleaved; C53 justifies that with a model of single memory accesses, sequentially
  consistent, which is what C++ guarantees of programs without data races); `hardware_concurrency` is any `int`.  `Model/Ieee.lean` (round to nearest, ties to even, by
  exact rational arithmetic), `Model/Mt.lean` and `Lemmas/RealEnv.lean` give an instance, so the assumptions are
  consistent and hold of IEEE arithmetic and the library's own generator.

## What is modelled

| file (lib/) | model |
|---|---|
| include/basic_bit_vector.hpp, basic_bit_vector_companion.hpp, is_power_of_two.hpp | Bits |
| include/basic_bit_matrix.hpp, basic_numeric_matrix.hpp | Layout (flat storage, 32-bit sizes); Classic, Bitwise (as rows) |
| include/mt.hpp | Mt |
| include/arg_extract.hpp, tsetlini_params.hpp, src/params_companion.hpp, src/tsetlini_params.cpp | Params, ParamsMake, ParamsText, Json |
| include/tsetlini.hpp (constructors, make_*, all estimator calls, clone), src/tsetlini.cpp, src/tsetlini_private.hpp | Estimator, History, ParamsMake |
| src/tsetlini_algo_classic.hpp | Classic |
| src/tsetlini_algo_bitwise.hpp | Bitwise, BitwiseUnused, BitOutputs |
| include/tsetlini.hpp, estimator_state_fwd.hpp: ownership of the states by estimators and by what clone_state returns, moving, destruction (src/estimator_state.cpp) | Session |
| the OpenMP loops of both, access by access | Threads |
| read-only calls made by several user threads, access by access | Shared |
| `tsetlini_state_json.cpp`, `estimator_state_cache.cpp`, `tsetlini_state.cpp`, `ta_state.cpp`, `tsetlini.cpp`: what is left when loading throws or training runs out of memory | Abort |
| src/tsetlini_algo_common.hpp | Estimator |
| src/ta_state.{hpp,cpp}, src/estimator_state*.{hpp,cpp}, src/tsetlini_state.cpp | Classic, Bitwise, Estimator, StateEq |
| src/coin_tosser_exact.hpp | CoinTosser |
| include/aligned_allocator.hpp (the size computation), aligned_array.hpp | Aligned |
| logger.hpp, the log statements of tsetlini_state.cpp and tsetlini.cpp (which lines; their text) | Estimator, Log, LogText |
| src/coin_tosser.hpp, src/frand_cache.hpp (used by no estimator) | CoinTosserApprox |
| src/loss_fn.cpp | Estimator |
| all float computations in IEEE 754 arithmetic with infinities and NaN, and the calls that reach them | Overflow, OverflowCalls |
| src/box_muller_approx.cpp | BoxMuller (the two tables are parameters) |
| src/tsetlini_state_json.cpp, include/tsetlini_state_json.hpp | StateJson, StateText |
| src/json/json.hpp: `dump` and `parse` with the arguments the library uses, their classes serializer, dtoa_impl, lexer, parser, json_sax_dom_parser | Grisu, JsonDump, JsonParse |
| include/neither/either.hpp, include/neither/maybe.hpp (overloads for copyable types; assignment is deleted by the `const` tag; elsewhere in the model a result is `left = error, right = value`) | Either |

Not modelled: assume_aligned.hpp, likely.h (no effect on values; that `_mm_malloc` returns
multiples of 64 is C39's assumption about the allocator); neither/lift.hpp, try.hpp (included by nothing in the library); strong_type; is_subset_of.hpp
(a `static_assert`; the model has `Compiles`); box_muller.hpp (not included anywhere); the examples.

## Simplifications

* Numbers: `float`/`double` are rationals that went through a rounding function; NaN and the
  infinities are separate values in the parameters only.  `rnd` is total: exponents have no upper bound.  C67
  proves that computing with overflow, infinities and NaN (Overflow) makes no difference.  Zeros have no sign (nothing
  depends on one), and no operations are fused (`-ffp-contract`).  `int`, `unsigned` and the counter types are integers with explicit
  overflow (`ub .overflow`) or wrap-around where the code has it.  The counters of evaluate and the
  indices of a batch are natural numbers (batches of less than 2^31 samples).
* Matrices are lists of rows.  The flat storage with its padding is modelled separately (Layout);
  C37/C39 show that within the sizes where nothing wraps, which C39_initialize_* ties to the
  model's own condition, it behaves as such a table.  `operator==` of matrices also compares padding
  cells; C82 shows that this makes no difference as long as writes are within the shape.  An access past the end of a row is `ub .oob`, although the flat storage may go
  on there (padding, or the next row): what it yields there is no counter of that row.
* `reserve`, capacity, copies and moves of vectors are not visible; allocation never fails, except in C62
  (Abort), where it may fail anywhere.
* The two generators (`IRNG`, `FRNG`) are separate abstract machines; in the instance both are Mersenne Twisters.
* The bitwise counters are drawn before the polarity bits are written (the code alternates; no
  draw depends on polarity).
* JSON text: strings are sequences of characters outside the printer and parser and UTF-8 bytes inside; `-0.0` and `0.0` are one value;
  the parser's and the printer's memory and stack do not run out; the C locale is in effect (the parser replaces its decimal point otherwise).  What a
  `from_json_string` that throws leaves behind is modelled in Abort (C61).  A loaded matrix whose rows differ in length is `ub`.  A loaded
  generator table that no seed leads to is `ub` for the instance `realGenIO`.
* Bitwise routines no caller uses (`block1`, the bit-vector version of `block2`, `block3_`, clause outputs into a
  bit vector) are modelled apart from training (BitwiseUnused, C56; BitOutputs, C57).
* Bitwise training with number_of_states = 1 corrupts polarity (a theorem); statements that relate bitwise to
  classic training assume number_of_states >= 2 or a classic machine.
