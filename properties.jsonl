{"id": "C01", "title": "Automaton states stay in [-N, N-1]", "statement": "After any sequence of fit / partial_fit / predict / decision_function / evaluate calls on an estimator built with number_of_states=N, every Tsetlin-automaton counter reachable through clone_state/to_json lies in [-N, N-1]. (Classic: every N>=1. Bitwise: every N>=2; for N=1 the unchanged code violates it, which is proved by a witness.)", "quantifier": "all parameter sets accepted by the factories, all data sets, label/response vectors, epoch counts, PRNG streams, loop schedules and call histories", "why_tests_cant": "unbounded histories and random streams; a violation needs a specific sequence of saturated updates", "anchors": ["lib/src/tsetlini_algo_classic.hpp:block1,block2,block3", "lib/src/tsetlini_algo_bitwise.hpp:block1_sparse,block2,block3", "lib/src/ta_state.cpp:initialize"]}
{"id": "C02", "title": "counting_type never overflows and is unobservable", "statement": "For the counter width picked from counting_type and number_of_states (at least 2 for bitwise estimators), no stored counter ever wraps; two estimators that differ only in counting_type return the same statuses, predictions and counters for every history. (A bitwise classifier with number_of_states = 1 escapes: two such that differ only in counting_type can predict different labels.)", "quantifier": "all counting_type values x all number_of_states x all histories", "why_tests_cant": "wrap-around appears only at the extreme counter value of each width after a long history", "anchors": ["lib/src/tsetlini_state.cpp:normalize_counting_type", "lib/src/ta_state.cpp:make_ta_state_matrix", "lib/src/tsetlini_algo_classic.hpp"]}
{"id": "C03", "title": "Clause weights stay in [1, max_weight]", "statement": "For a weighted estimator every effective clause weight (stored weight + 1) lies in [1, max_weight] after any history, and there is exactly one weight per clause output; an unweighted estimator never gets weights.", "quantifier": "all max_weight>=1, all histories", "why_tests_cant": "boundary at both ends reachable only through long specific feedback sequences", "anchors": ["lib/src/tsetlini_algo_classic.hpp:train_classifier_automata,train_regressor_automata", "lib/src/tsetlini_algo_bitwise.hpp", "lib/src/ta_state.cpp"]}
{"id": "C04", "title": "Clause output is the conjunction of its included literals", "statement": "While training a clause outputs 1 iff every included positive literal is 1 and every included negated literal is 0 in the sample (so an empty clause outputs 1); in predict/decision_function/evaluate it additionally needs at least one included literal (an empty clause outputs 0).", "quantifier": "all clauses, all binary samples, all feature counts including 0, all tile sizes", "why_tests_cant": "the implementation has two code paths, batching and early exit; all positions relative to the batch boundary matter", "anchors": ["lib/src/tsetlini_algo_classic.hpp:calculate_clause_output_T,calculate_clause_output_with_pruning_T", "lib/src/tsetlini_algo_bitwise.hpp"]}
{"id": "C05", "title": "clause_output_tile_size is unobservable", "statement": "Two estimators that differ only in clause_output_tile_size give the same statuses, predictions, scores and learned state for every history of calls with binary samples.", "quantifier": "all pairs of tile sizes, all histories", "why_tests_cant": "needs all feature counts modulo the tile and all positions of the first falsified literal", "anchors": ["lib/src/tsetlini_algo_common.hpp", "lib/src/tsetlini_algo_classic.hpp", "lib/src/tsetlini_algo_bitwise.hpp"]}
{"id": "C06", "title": "n_jobs and the loop schedule are unobservable", "statement": "Whatever n_jobs is and in whatever order the parallel clause-output iterations run, every call returns the same result and leaves the same learned state.", "quantifier": "all iteration orders of every parallel loop of every call in every history", "why_tests_cant": "number of schedules is factorial; tests see a handful", "anchors": ["lib/src/tsetlini_algo_classic.hpp:omp parallel for", "lib/src/tsetlini_algo_bitwise.hpp:omp parallel for"]}
{"id": "C07", "title": "decision_function is the clamped signed weighted vote", "statement": "For every label, decision_function returns clamp(sum over the label's clauses of +/-weight*output, -T, T), clauses alternating +,- with equally many of each; hence scores lie in [-T, T].", "quantifier": "all fitted classifiers, all binary samples of the fitted width", "why_tests_cant": "relation between a whole learned model and its scores for all inputs", "anchors": ["lib/src/tsetlini_algo_classic.hpp:sum_up_label_votes,sum_up_all_label_votes", "lib/src/tsetlini.cpp:predict_classifier_raw_impl"]}
{"id": "C08", "title": "predict returns the first label with the highest score", "statement": "Classifier predict returns the smallest label whose decision_function score is maximal; it is always in [0, number_of_labels).", "quantifier": "all fitted classifiers, all binary samples", "why_tests_cant": "ties and orders of scores are unbounded", "anchors": ["lib/src/tsetlini.cpp:predict_classifier_impl"]}
{"id": "C09", "title": "Regressor predict is the clamped weighted clause count", "statement": "Regressor predict returns clamp(sum of weights of true clauses, 0, T), hence lies in [0, T].", "quantifier": "all fitted regressors, all binary samples", "why_tests_cant": "relation between a whole learned model and responses for all inputs", "anchors": ["lib/src/tsetlini_algo_classic.hpp:sum_up_regressor_votes", "lib/src/tsetlini.cpp:predict_regressor_impl"]}
{"id": "C10", "title": "Batch calls equal mapped single calls", "statement": "predict(X)/decision_function(X) succeed exactly when X is non-empty and every row is individually accepted, and then return the list of the single-sample results in order.", "quantifier": "all states, all X", "why_tests_cant": "all batch lengths and contents", "anchors": ["lib/src/tsetlini.cpp:predict_classifier_impl", "lib/src/tsetlini.cpp:predict_classifier_raw_impl", "lib/src/tsetlini.cpp:predict_regressor_impl"]}
{"id": "C11", "title": "Read-only calls do not change observable state", "statement": "predict, decision_function and evaluate leave parameters, automata, weights and both generators unchanged, and no later result depends on what was left in the mutable cache.", "quantifier": "all histories interleaving read-only calls with training", "why_tests_cant": "the cache is mutable and reused; absence of leakage is a universally quantified non-interference statement", "anchors": ["lib/src/estimator_state.hpp:cache", "lib/src/tsetlini.cpp"]}
{"id": "C12", "title": "Input validation decisions are exact", "statement": "fit/partial_fit/predict/decision_function return S_VALUE_ERROR / S_NOT_FITTED_ERROR exactly for the documented malformed inputs (empty, mismatched lengths, ragged, non-binary, dirty padding, wrong width, negative or too large label, response outside [0,T]), reporting the first in the documented order, and S_OK otherwise.", "quantifier": "all X, y, states", "why_tests_cant": "decision logic over unbounded inputs", "anchors": ["lib/src/tsetlini.cpp:check_X_y", "lib/src/tsetlini.cpp:check_X", "lib/src/tsetlini.cpp:check_labels", "lib/src/tsetlini.cpp:check_response_y", "lib/src/tsetlini.cpp:check_for_predict"]}
{"id": "C13", "title": "Rejected training leaves the estimator unchanged", "statement": "If fit or partial_fit returns a non-OK status, the estimator (parameters, automata, weights, generators, cache) is exactly as before the call.", "quantifier": "all states, all inputs", "why_tests_cant": "all error paths and states", "anchors": ["lib/src/tsetlini.cpp:fit_classifier_impl", "lib/src/tsetlini.cpp:fit_regressor_impl", "lib/src/tsetlini.cpp:fit_classifier_online_with_input_check"]}
{"id": "C14", "title": "partial_fit on an unfitted estimator is fit", "statement": "On an estimator never successfully fitted, partial_fit(X,y,max_labels,epochs) has the same result and effect as fit with the same arguments.", "quantifier": "all unfitted states, all inputs", "why_tests_cant": "all inputs", "anchors": ["lib/src/tsetlini.cpp:partial_fit_impl"]}
{"id": "C15", "title": "partial_fit on a fitted estimator keeps its shape", "statement": "partial_fit on a fitted estimator never changes parameters, number_of_labels, number_of_features, the number of clauses or weights, and ignores max_number_of_labels.", "quantifier": "all fitted states, all inputs", "why_tests_cant": "all inputs and histories", "anchors": ["lib/src/tsetlini.cpp:fit_classifier_online_with_input_check", "lib/src/tsetlini.cpp:partial_fit_impl"]}
{"id": "C16", "title": "fit forgets earlier training, except clause weights", "statement": "Of what an estimator was trained on before, the result of a successful fit (status, parameters, automata, weights, generators) depends only on the clause weights left from it, a missing weight counting as 0. So unweighted estimators start from scratch; weighted ones do NOT (old clause weights survive a refit), proved by a witness.", "quantifier": "all pairs of prior histories, all inputs", "why_tests_cant": "compares two unbounded histories", "anchors": ["lib/src/ta_state.cpp:weights.resize", "lib/src/tsetlini_state.cpp:initialize_state"]}
{"id": "C17", "title": "Training is a function of parameters, seed and data", "statement": "Two estimators made with equal parameters (including random_state) that receive the same sequence of calls return the same results and end in equal states, whatever the hardware thread count, the random device and the schedules.", "quantifier": "all histories, environments", "why_tests_cant": "two-run property over all environments", "anchors": ["lib/src/tsetlini_state.cpp:initialize_state", "lib/src/tsetlini_params.cpp:normalize_random_state"]}
{"id": "C18", "title": "The opposite label differs from the target", "statement": "In each epoch of classifier training every sample is paired with a label that lies in [0,number_of_labels) and differs from its target, for every draw; every other label can be drawn. With number_of_labels=1 and epochs>=1 the code divides by zero.", "quantifier": "all label counts >= 2, all draws", "why_tests_cant": "all 2^32 draws times all label counts", "anchors": ["lib/src/tsetlini.cpp:generate_opposite_y"]}
{"id": "C19", "title": "Training on a sample touches only its two labels", "statement": "One training step on a sample changes only automata and weights of clauses of the target and the opposite label.", "quantifier": "all states, samples, draws", "why_tests_cant": "frame property over the complete state", "anchors": ["lib/src/tsetlini.cpp:classifier_update_impl"]}
{"id": "C20", "title": "Feedback type follows clause sign", "statement": "Type I feedback goes only to positive clauses of the target and negative clauses of the opposite label, Type II only to negative clauses of the target and positive clauses of the opposite label; no other clause gets feedback; a target whose score is already T (resp. opposite -T) gets none.", "quantifier": "all votes, thresholds, draws", "why_tests_cant": "all float draws", "anchors": ["lib/src/tsetlini_algo_classic.hpp:calculate_classifier_feedback_to_clauses"]}
{"id": "C21", "title": "Type II feedback only pushes contradicting excluded literals", "statement": "Type II feedback raises by 1 exactly the excluded literals that are false in the sample, of clauses that output 1, and never lowers a counter or raises an included one.", "quantifier": "all clauses, samples", "why_tests_cant": "all bit patterns and counters", "anchors": ["lib/src/tsetlini_algo_classic.hpp:block3", "lib/src/tsetlini_algo_bitwise.hpp:block3"]}
{"id": "C22", "title": "Classic: one feedback moves a counter by at most one", "statement": "In the classic algorithm one application of feedback to a clause changes every counter by at most 1 and the clause weight by at most 1; Type I never excludes a literal of a true clause that is true in the sample.", "quantifier": "all clauses, samples, tosses", "why_tests_cant": "all counters and toss vectors", "anchors": ["lib/src/tsetlini_algo_classic.hpp:block1", "lib/src/tsetlini_algo_classic.hpp:block2"]}
{"id": "C23", "title": "Bitwise polarity mirrors the counters", "statement": "For bitwise estimators with number_of_states>=2, after any history the polarity bit of a literal is 1 iff its counter is >=0 and all padding bits are 0. For number_of_states=1 the code corrupts the polarity (witness).", "quantifier": "all histories, feature counts", "why_tests_cant": "two redundant structures kept in sync by four different update routines", "anchors": ["lib/src/tsetlini_algo_bitwise.hpp", "lib/src/ta_state.cpp:TAStateWithPolarity::initialize"]}
{"id": "C24", "title": "Bitwise and classic agree on inference", "statement": "A bitwise and a classic model with the same counters and weights give the same clause outputs, scores, predictions and responses on corresponding samples.", "quantifier": "all models, all samples", "why_tests_cant": "all models and inputs", "anchors": ["lib/src/tsetlini_algo_bitwise.hpp:calculate_clause_output_with_pruning_T", "lib/src/tsetlini_algo_classic.hpp:calculate_clause_output_with_pruning_T"]}
{"id": "C25", "title": "Dirty bit-vector padding is detected", "statement": "A bit-vector sample built by the library's own constructors without surplus blocks is accepted iff all bits beyond its length are 0. With more than one whole surplus block the check shifts by an out-of-range amount (undefined).", "quantifier": "all lengths and block contents", "why_tests_cant": "all block values", "anchors": ["lib/src/tsetlini.cpp:check_clear_padding", "lib/include/basic_bit_vector.hpp"]}
{"id": "C26", "title": "Factories accept exactly valid parameter sets", "statement": "make_*_from_args (and from_json after merging defaults) succeed exactly when n_jobs is -1 or >=1, number_of_states>=1, s>=1 and finite, the clause count is positive and divisible by 4 (classifier) or 2 (regressor), boost is 0/1, threshold>=1, max_weight>=1, counting_type / loss_fn / tile size are in their enumerations; otherwise S_BAD_JSON.", "quantifier": "all argument tuples and JSON objects", "why_tests_cant": "all integers, floats, strings", "anchors": ["lib/src/tsetlini_params.cpp"]}
{"id": "C27", "title": "Unknown or ill-typed JSON parameters never yield an estimator", "statement": "If a JSON config is not an object or has a key outside the known list, S_BAD_JSON is returned (or, if an ill-typed value sorts before it, an exception is thrown); a known key with an ill-typed value is not reported by status but by an uncaught exception.", "quantifier": "all JSON values", "why_tests_cant": "unbounded key space", "anchors": ["lib/src/tsetlini_params.cpp:json_to_params"]}
{"id": "C28", "title": "Defaults fill exactly the unspecified parameters", "statement": "read_params() after a successful factory call returns for each key the user's value if given (normalised n_jobs/random_state), otherwise the documented default; nothing else.", "quantifier": "all JSON objects", "why_tests_cant": "all key subsets", "anchors": ["lib/src/tsetlini_params.cpp:merge", "lib/src/tsetlini_params.cpp:default_classifier_params"]}
{"id": "C29", "title": "n_jobs and random_state are concrete after construction", "statement": "After a successful factory call n_jobs is >=1 and random_state holds a seed; an explicit seed is kept.", "quantifier": "all configs, all hardware thread counts, all device values", "why_tests_cant": "depends on the environment", "anchors": ["lib/src/tsetlini_params.cpp:normalize_n_jobs", "lib/src/tsetlini_params.cpp:normalize_random_state"]}
{"id": "C30", "title": "Saving and loading a fitted state loses nothing", "statement": "to_json_string then from_json_string reproduces a state equal to the original (parameters, counters, weights, polarity, generators), so every later call returns the same results as on the original.", "quantifier": "all fitted states reachable by any history whose float parameters are finite (a non-finite loss_fn_C1, which is not validated, is shown to be lost)", "why_tests_cant": "all reachable states; type information is lost in JSON and rebuilt by a hack", "anchors": ["lib/src/tsetlini_state_json.cpp"]}
{"id": "C31", "title": "An unfitted state cannot be reloaded", "statement": "from_json_string applied to to_json_string of an unfitted state does not return normally.", "quantifier": "all unfitted states", "why_tests_cant": "all parameter sets", "anchors": ["lib/src/tsetlini_state_json.cpp:from_json"]}
{"id": "C32", "title": "The coin tosser marks exactly the drawn number of distinct features", "statement": "Each toss vector has one entry per feature, every entry 0 or 1, exactly floor(n/s) or floor(n/s)+1 ones, with n/s as the library computes it in float (never more than n, so the drawing loop can finish for every n up to 2^24), independent of what the vector held before.", "quantifier": "all n, s>=1, all PRNG streams, all prior contents", "why_tests_cant": "loop over random draws", "anchors": ["lib/src/coin_tosser_exact.hpp"]}
{"id": "C33", "title": "Regressor error sign decides the feedback", "statement": "Call error the response for a sample minus its target. A regressor step with zero error changes no automaton or weight; with negative error only Type I, with positive error only Type II feedback is applied, to clauses of valid index, at most number-of-clauses times.", "quantifier": "all states, samples, responses, draws", "why_tests_cant": "all float/loss/draw combinations", "anchors": ["lib/src/tsetlini_algo_classic.hpp:train_regressor_automata", "lib/src/tsetlini_algo_bitwise.hpp:train_regressor_automata"]}
{"id": "C34", "title": "Every epoch presents every sample exactly once", "statement": "In each epoch the training step is run exactly once per sample, each with its own target.", "quantifier": "all data sets, shuffles", "why_tests_cant": "all permutations", "anchors": ["lib/src/tsetlini.cpp:fit_classifier_online_impl", "lib/src/tsetlini.cpp:fit_regressor_online_impl"]}
{"id": "C35", "title": "Epochs are additive", "statement": "partial_fit with 0 epochs on a fitted estimator changes nothing; partial_fit for a epochs followed by b epochs equals one partial_fit for a+b epochs; fit for a epochs then partial_fit for b equals fit for a+b.", "quantifier": "all states, data, a, b", "why_tests_cant": "all epoch counts", "anchors": ["lib/src/tsetlini.cpp:fit_classifier_online_impl"]}
{"id": "C36", "title": "evaluate is the accuracy of predict", "statement": "On valid inputs evaluate(X,y) = 1 - (number of i with predict(X_i) != y_i)/n, in binary32 arithmetic. It validates nothing: on an unfitted estimator it throws, for an empty batch it is NaN, for too short y it reads out of bounds, and for a row longer than the fitted width it can read past the automata of a clause (witness).", "quantifier": "all fitted classifiers, all inputs", "why_tests_cant": "all inputs", "anchors": ["lib/src/tsetlini.cpp:evaluate_classifier_impl"]}
{"id": "C37", "title": "Bit vector and bit matrix obey array laws", "statement": "After set/clear/flip/assign/XOR at a position, reading that position gives the new value and every other position (and every other matrix row) is unchanged. A new vector or matrix reads as 0 everywhere; a vector's size() never exceeds the bits of its storage, and content_blocks()/tail_bits() describe its length.", "quantifier": "all sizes, positions, contents", "why_tests_cant": "all positions and block contents", "anchors": ["lib/include/basic_bit_vector.hpp", "lib/include/basic_bit_matrix.hpp"]}
{"id": "C38", "title": "from_range builds the bits of its range with clear padding", "statement": "basic_bit_vectors::from_range(range) has the range's length, element i equal to range[i]!=0, and zero padding, so it is always accepted by validation.", "quantifier": "all ranges", "why_tests_cant": "all lengths", "anchors": ["lib/include/basic_bit_vector_companion.hpp"]}
{"id": "C39", "title": "Matrix rows are aligned and do not alias", "statement": "In numeric_matrix and bit_matrix every row starts at an offset that is a multiple of the 64-byte alignment and cells of different (row, column) pairs occupy different storage. All cells lie inside the allocation exactly when neither the size of a row nor rows*row_items reaches 2^32; otherwise the 32-bit size arithmetic wraps and setting up a new machine of that shape writes out of bounds (undefined).", "quantifier": "all shapes, item sizes", "why_tests_cant": "all shapes", "anchors": ["lib/include/basic_numeric_matrix.hpp", "lib/include/basic_bit_matrix.hpp"]}
{"id": "C40", "title": "A cloned state is equal and independent", "statement": "clone_state() compares equal to the estimator's state; training one copy never affects the other; equal states answer every history identically.", "quantifier": "all states, histories", "why_tests_cant": "all histories", "anchors": ["lib/src/tsetlini.cpp:clone_state", "lib/src/estimator_state.cpp:operator=="]}
{"id": "C41", "title": "The generator never reads outside its tables", "statement": "For every seed, contents of memory before seeding and number of draws, the generator's index stays in range and every table access is in bounds; draw n is word 4992+n of eight interleaved recurrences (the initialisation, twist and tempering of MT19937, except that the twist takes bit 27 where MT19937 takes bit 31). The float generator with the same seed yields the same draws converted to float, which lie in (0,1]; 1 itself is possible.", "quantifier": "all seeds, all draw counts", "why_tests_cant": "unbounded number of draws", "anchors": ["lib/include/mt.hpp"]}
{"id": "C42", "title": "Clause ranges partition the clauses", "statement": "Every clause output index belongs to exactly one label, and each label has the same number of positive and negative clauses.", "quantifier": "all label counts and clause counts accepted by the factories", "why_tests_cant": "all sizes", "anchors": ["lib/src/tsetlini_algo_classic.hpp:clause_outputs_range_for_label"]}
{"id": "C43", "title": "Vote sums never overflow", "statement": "The 64-bit vote accumulators never overflow and the clamped result fits int, for every accepted parameter set and reachable weights.", "quantifier": "all reachable models and samples", "why_tests_cant": "extreme weights times clause counts", "anchors": ["lib/src/tsetlini_algo_classic.hpp:sum_up_label_votes", "lib/src/tsetlini_algo_classic.hpp:sum_up_regressor_votes"]}
{"id": "C44", "title": "Calls within stated limits never run into undefined behaviour", "statement": "Every predict and decision_function call; every evaluate of a fitted classifier with enough labels and acceptable samples; every classifier training whose labels are below INT_MAX, whose automata fit 32-bit sizes and, if it runs an epoch, that has at least two labels and a threshold below 2^30; every regressor training whose automata fit, without box_muller and with a loss constant in range (L1+2: in [0,1]): returns (or waits for ever in the coin tosser's rejection loop) without out-of-bounds access, division by zero, signed overflow, undefined conversion or shift, and without exception, in any history. For each limit a call outside it is shown to reach undefined behaviour.", "quantifier": "all histories of calls meeting the conditions (bitwise: number_of_states >= 2), all environments and schedules", "why_tests_cant": "memory safety over all inputs", "anchors": ["lib/src/tsetlini.cpp", "lib/src/tsetlini_algo_classic.hpp", "lib/src/tsetlini_algo_bitwise.hpp"]}
{"id": "C45", "title": "Loss values for attainable errors", "statement": "For errors in [-1,1], the losses MAE/L1, MSE/L2 and L1+2 with C1 in [0,1] lie in [0,1]; they vanish at 0 and are even. berHu with C1>0 can be negative just above C1 (witness).", "quantifier": "all errors and C1", "why_tests_cant": "all reals in range", "anchors": ["lib/src/loss_fn.cpp"]}
{"id": "C46", "title": "Named factory/fit arguments may come in any order", "statement": "make_* and fit/partial_fit give the same result for every order of their strongly typed optional arguments, missing ones taking the default (max_number_of_labels of a classifier's fit has none and must be given). A call compiles exactly if no setting is given twice and each is one of those the class has: a classifier's factory takes neither the clauses, the loss function, its C1 nor box_muller of a regressor, a regressor's none of the clauses per label, and fit only the number of labels and of epochs.", "quantifier": "all permutations of arguments", "why_tests_cant": "all orders", "anchors": ["lib/include/arg_extract.hpp", "lib/include/tsetlini.hpp"]}
{"id": "C47", "title": "Parameter checks report the first failure", "statement": "The status returned by a factory is that of the first failing check in the documented order; later checks are not run.", "quantifier": "all parameter sets", "why_tests_cant": "all combinations", "anchors": ["lib/src/tsetlini_params.cpp", "lib/include/neither/either.hpp"]}
{"id": "C48", "title": "The number of regressor feedback hits is bounded", "statement": "The number of clauses that get feedback in a regressor step is between 0 and the number of clause outputs whenever the float-to-unsigned conversion is defined; with box_muller it is undefined exactly when the rounded normal draw is negative, too large or not a number.", "quantifier": "all losses, draws", "why_tests_cant": "all floats", "anchors": ["lib/src/tsetlini_algo_classic.hpp:train_regressor_automata", "lib/src/box_muller_approx.cpp:binomial"]}
{"id": "C49", "title": "is_power_of_two is exact", "statement": "is_power_of_two(x) is true iff x = 2^k for some k.", "quantifier": "all unsigned values", "why_tests_cant": "all values", "anchors": ["lib/include/is_power_of_two.hpp"]}
{"id": "C50", "title": "Clause outputs, feedback and labels stay in their alphabets", "statement": "Every cached clause output is 0/1, every feedback entry is -1/0/+1, and every cached score is in [-T,T] after any history.", "quantifier": "all histories", "why_tests_cant": "all histories", "anchors": ["lib/src/estimator_state_cache.cpp", "lib/src/tsetlini_algo_classic.hpp"]}
{"id": "C51", "title": "Loading a state saved by another kind of estimator", "statement": "The text saved from a fitted bitwise estimator loads as a classic one of the same kind, with the same parameters, counters, weights and generators, and predicts the same for the same features; a classic text loaded as bitwise throws; a regressor text loaded as classifier throws; a classifier text loaded as regressor throws unless its parameters include number_of_regressor_clauses.", "quantifier": "all fitted states reachable by any history, all samples", "why_tests_cant": "all reachable states; the member that names the kind is not checked, so what happens follows from which members exist", "anchors": ["lib/src/tsetlini_state_json.cpp:from_json_string"]}
{"id": "C52", "title": "Training is a reference algorithm driven by two random streams", "statement": "The clauses, weights and both generator states after a successful fit or partial_fit equal those of a reference Tsetlin machine trainer: initial counters from the seeded integer stream, opposite labels drawn first, samples in shuffle order, one float number per clause of the target and then of the opposite label compared with (T -/+ score)/2T, literal choices drawn with rejection until the drawn number of distinct features occurred, regressor hits from the loss. The reference has at most one result.", "quantifier": "all histories, data, parameters, epochs, random streams, shuffles, thread schedules and roundings", "why_tests_cant": "tests fix a seed and compare aggregate accuracy; they cannot tell a wrong probability, a reused random number or a swapped draw from bad luck", "anchors": ["lib/src/tsetlini_algo_classic.hpp:train_classifier_automata", "lib/src/tsetlini_algo_classic.hpp:calculate_classifier_feedback_to_clauses", "lib/src/coin_tosser_exact.hpp", "lib/src/ta_state.cpp", "lib/src/tsetlini.cpp"]}
{"id": "C53", "title": "Parallel clause evaluation is race-free at the level of memory accesses", "statement": "With n_jobs > 1, however the iterations of a clause-output loop are shared out between any number of threads and however the individual reads and writes of these threads interleave, no two threads ever access the same memory location with one of them writing, nothing undefined happens, the loop never blocks and ends after a number of accesses that does not depend on the interleaving, with the outputs that sequential evaluation gives.", "quantifier": "all team sizes, distributions of iterations, and interleavings of memory accesses; all samples, tile sizes, trained machines", "why_tests_cant": "the number of interleavings is astronomical and data races do not reproduce", "anchors": ["lib/src/tsetlini_algo_classic.hpp:omp parallel for", "lib/src/tsetlini_algo_bitwise.hpp:omp parallel for"]}
{"id": "C54", "title": "The cached coin tossers hand out windows inside their cache and keep their bias", "statement": "A CoinTosser / CoinTosserBitwise populated with s holds size/s ones, rounded to the nearest integer; over any number of tosses every returned pointer is aligned and followed by at least base_size entries of the cache, and the number of ones never changes. With no entries beyond base_size a toss divides by zero; this is what the tosser of a bitwise cache does for one or two features, while from three features on it has room. populate ends once the generator has hit every position.", "quantifier": "all sizes, s, cache contents, generator streams and numbers of tosses", "why_tests_cant": "a window past the end is undefined behaviour that depends on the random stream; the drift of the bias only shows over long histories", "anchors": ["lib/src/coin_tosser.hpp:CoinTosser", "lib/src/coin_tosser.hpp:CoinTosserBitwise", "lib/src/estimator_state_cache.cpp:ClassifierStateBitwiseCache::reset"]}
{"id": "C55", "title": "The cache of random floats never returns a number twice", "statement": "For every sequence of refill and next calls on a frand_cache that takes at most size numbers after each refill (none before the first), every returned number was drawn from the generator and no drawn number is returned twice; a sequence that takes more reads outside the cache.", "quantifier": "all sizes, generators and call sequences", "why_tests_cant": "all interleavings of refill and next", "anchors": ["lib/src/frand_cache.hpp:frand_cache"]}
{"id": "C56", "title": "The bitwise feedback routines that training does not call agree with those it does", "statement": "The dense block1 (with char or bit tosses), the block2 with bit tosses and block3_ never fail on a clause whose polarity mirrors its counters, keep polarity mirroring the counters, and change the counters exactly as Type I feedback to a false clause, Type I feedback to a true clause and Type II feedback prescribe. Given the same tosses the two block1 agree, block3_ agrees with block3, and the two block2 agree for two or more states; with one state the bit version stays right while the one training uses corrupts polarity.", "quantifier": "all numbers of features and states, clauses, samples, toss outcomes, counter types that can hold the counters", "why_tests_cant": "agreement of two implementations on every clause, sample and toss outcome, including partial last blocks", "anchors": ["lib/src/tsetlini_algo_bitwise.hpp:block1", "lib/src/tsetlini_algo_bitwise.hpp:block2", "lib/src/tsetlini_algo_bitwise.hpp:block3_", "lib/src/tsetlini_algo_bitwise.hpp:block3"]}
{"id": "C57", "title": "Clause outputs stored in a bit vector are right only while no two threads share a block", "statement": "The overloads of the bitwise clause output routines that store into a bit vector: run by one thread, calculate_clause_output_T stores at every bit of its range exactly the output the char version computes and leaves the other bits alone. Run in parallel, a data race is possible exactly if two threads have iterations whose bits are in one 64-bit block; if none share a block every interleaving ends with the single-thread result, without a race, undefined behaviour or deadlock; if two do, an output that differs from the old bit can be lost. calculate_clause_output_with_pruning_T takes the bit vector by value and so never changes its caller's.", "quantifier": "all machines, samples, ranges, old contents, numbers of threads, distributions of iterations and interleavings of single memory accesses", "why_tests_cant": "a lost update needs one particular interleaving; absence of races must hold for all", "anchors": ["lib/src/tsetlini_algo_bitwise.hpp:calculate_clause_output_T", "lib/src/tsetlini_algo_bitwise.hpp:calculate_clause_output_with_pruning_T", "lib/include/basic_bit_vector.hpp:assign"]}
{"id": "C58", "title": "Aligned storage is aligned, large enough and copied by value", "statement": "aligned_allocator::allocate(n) throws std::length_error exactly if n*sizeof(T) does not fit size_t and otherwise requests exactly that many bytes (NULL for n = 0). An AlignedArray at any address: data() is a multiple of the alignment and all elements lie inside the object; element reads and writes obey the array laws; assigning or copy constructing at another address, whatever the two offsets, gives equal elements; == holds exactly if all elements are equal.", "quantifier": "all sizes, element counts, power-of-two alignments below 2^64, addresses and contents", "why_tests_cant": "depends on the address the object happens to get", "anchors": ["lib/include/aligned_allocator.hpp:allocate", "lib/include/aligned_array.hpp:AlignedArray"]}
{"id": "C59", "title": "verbose changes the log and nothing else", "statement": "Two estimators made with parameters that differ at most in verbose return the same from every history of calls and learn the same. With verbose off nothing is ever written to the log. With verbose on, a successful fit logs the parameters in effect (for a classifier the number of clauses of all labels together), the counter width in use, and Epoch 1..n, in this order; a successful partial_fit of a fitted estimator logs only its epochs, counted from 1 again; rejected calls and all reading calls log nothing. The log of a history is the logs of its calls one after the other, in the order of the calls. Evaluating the log statements never fails in a call that would otherwise return.", "quantifier": "all made parameters, both families, all histories, schedules and arguments", "why_tests_cant": "logging evaluates its operands whatever verbose is, so the claim is about every reachable parameter map and history", "anchors": ["lib/src/logger.hpp:LOG", "lib/src/tsetlini_state.cpp:log_classifier_params, log_regressor_params, initialize_state", "lib/src/tsetlini.cpp:fit_classifier_online_impl, fit_regressor_online_impl"]}
{"id": "C60", "title": "Read-only calls in flight at the same time", "statement": "Estimators share no scratch memory: const calls (predict, decision_function, evaluate) running at the same time on different estimators access no common location and each returns what it returns alone. On one estimator, any number of such calls, each of which would return when made alone and may use any number of threads (n_jobs), interleaved access by access in any way: none goes out of bounds, blocks or fails to return, every answer has the right form (labels below the number of labels, scores within the threshold), and the estimator answers and learns afterwards as if they had not been made. If they all look at the same sample each answer is the right one. Otherwise the answers can be wrong although the methods are const: for any two accepted samples some interleaving makes predict, decision_function or the regressor's predict return the answer for the other sample, the answer may even belong to neither, and any two accepted calls with samples are a data race.", "quantifier": "all reachable estimators of both families and kinds, any number of calls and estimators, all samples, all interleavings", "why_tests_cant": "interleavings of accesses cannot be enumerated or forced by tests", "anchors": ["lib/include/tsetlini.hpp:predict, decision_function, evaluate (const)", "lib/src/estimator_state.hpp:EstimatorStateCacheBase cache (mutable)", "lib/src/tsetlini.cpp:predict_classifier_impl, decision_function_impl, evaluate_classifier_impl, predict_regressor_impl"]}
{"id": "C61", "title": "What a failed load leaves", "statement": "from_json_string replaces the generators, the automata with the weights, and the parameters one after the other and then sets up the scratch memory; if one of these cannot be read it throws and everything from there on stays as it was. So a text with unreadable generators or automata (such as a classic estimator's, loaded into a bitwise one) changes only generators: every sequence of calls other than partial_fit comes to exactly what it would have come to. A fitted regressor's text loaded into a classifier, or the reverse, leaves an estimator of no use: no call gives a result any more, fit included, but it reports an error or throws. Loading a proper text afterwards always repairs the estimator. What must not be relied on: a text whose parameters cannot be read leaves automata and parameters that do not belong together; predicting an accepted sample then reads out of bounds, and fit with weights switched off does too.", "quantifier": "all estimators, all JSON texts, both families and kinds, all later sequences of calls", "why_tests_cant": "quantifies over every malformed text and every later use", "anchors": ["lib/src/tsetlini_state_json.cpp:from_json_string", "lib/src/estimator_state_cache.cpp:ClassifierStateCache::reset, RegressorStateCache::reset"]}
{"id": "C62", "title": "Calls that run out of memory", "statement": "If std::bad_alloc leaves fit or partial_fit after training has begun, the estimator is exactly what the same call with fewer epochs would have made it. If it leaves fit before training, repeating fit with the same data comes to exactly what it would have come to (likewise partial_fit as long as the estimator does not count as fitted); partial_fit of a fitted estimator changes nothing before training. A call that only reads, abandoned anywhere, leaves an estimator that cannot be told from the one before. A fitted classic regressor refitted with the same number of features stays usable whenever it is left. What must not be relied on: using a classifier that was left before training in any other way - a new one may count as fitted without scratch memory, one refitted with wider samples accepts them for the old automata, and even with data of the same shape label scores may be missing; predictions then access memory out of bounds.", "quantifier": "all estimators and data, both families and kinds, every point at which memory is allocated", "why_tests_cant": "every allocation is a possible point of failure; tests do not fail allocations one by one", "anchors": ["lib/src/tsetlini.cpp:fit_classifier_impl, fit_regressor_impl, fit_classifier_online_impl, fit_regressor_online_impl, partial_fit_impl", "lib/src/tsetlini_state.cpp:initialize_state", "lib/src/ta_state.cpp:initialize", "lib/src/estimator_state_cache.cpp:reset"]}
{"id": "C63", "title": "Training on a sample does not hurt that sample", "statement": "partial_fit of a fitted classifier with any number of copies of one sample of label t, for any number of epochs, never lowers the decision_function score of t for that sample and never raises the score of another label; so a sample that is predicted right is still predicted right. After one epoch with one sample, a regressor whose prediction was at or above the wanted response does not predict more, and, if it has no empty clause, one whose prediction was below does not predict less and one that was right stays right. What must not be relied on: the last part for a regressor with empty clauses, which count in training but not in prediction - training with a sample whose prediction is too low can make it lower still.", "quantifier": "all reachable fitted estimators, samples, labels, responses, epochs, random draws and schedules, both families", "why_tests_cant": "depends on every random draw and every earlier history", "anchors": ["lib/src/tsetlini.cpp:partial_fit_impl, fit_classifier_online_impl, fit_regressor_online_impl", "lib/src/tsetlini_algo_classic.hpp:train_classifier_automata, train_regressor_automata, calculate_classifier_feedback_to_clauses", "lib/src/tsetlini_algo_bitwise.hpp:train_classifier_automata, train_regressor_automata"]}
{"id": "C64", "title": "A perfect model is left as it is", "statement": "If no clause is empty and decision_function gives each of the training samples the threshold as the score of its label and minus the threshold as the score of every other label, partial_fit with these samples, for any number of epochs, changes no counter and no weight. The same holds for a regressor without empty clauses that predicts each of the training samples right.", "quantifier": "all reachable fitted estimators, all data, epochs, random draws and schedules, both families and kinds", "why_tests_cant": "must hold for every sequence of random draws and any number of epochs", "anchors": ["lib/src/tsetlini.cpp:partial_fit_impl, fit_classifier_online_impl, fit_regressor_online_impl", "lib/src/tsetlini_algo_classic.hpp:calculate_classifier_feedback_to_clauses"]}
{"id": "C65", "title": "Random choices have the intended probabilities", "statement": "If the 2^32 words of a generator are equally likely then, in binary32 arithmetic: a clause of the target gets feedback with probability (T-v)/2T and one of the opposite label with probability (T+v)/2T for its label's score v (relative error at most 2^-21, absolute 2^-33; exactly never if the score is already T resp. -T); each other label is the opposite label with equal probability; the tosser for specificity s chooses n/s of n features on average (relative error at most 2^-21, absolute 2^-30); a regressor whose loss p makes n*p less than half a clause trains one clause with probability n*p (relative error at most 2^-22, absolute 2^-30); features and clauses are picked with equal probability; initial automata are -1 or 0 with probability exactly 1/2, each by a draw of its own.", "quantifier": "all thresholds, scores, label counts, feature counts, specificities, losses; exact counts over all 2^32 words", "why_tests_cant": "a statistical test samples a few seeds and parameters and accepts a tolerance of percents; the claim is an exact count over all words for all parameters", "anchors": ["lib/src/tsetlini_algo_classic.hpp: calculate_classifier_feedback_to_clauses, train_regressor_automata", "lib/src/coin_tosser_exact.hpp: CoinTosserExact", "lib/src/tsetlini.cpp: generate_opposite_y", "lib/src/ta_state.cpp: initialize", "lib/include/mt.hpp: FRNG::post_process"]}
{"id": "C66", "title": "No feature is preferred by a toss", "statement": "For every number n of features and whatever the first word, which decides how many features h are marked: among all sequences of further words below the largest multiple of n (all but fewer than n of the 2^32 words), every feature is marked by the same number of sequences, namely the fraction h/n of those for which the toss ends; within m draws the toss fails to end for at most a fraction n((n-1)/n)^m of the sequences (n <= 2^24), so it ends almost surely.", "quantifier": "all n, specificities, first words, prior contents, bounds m; exact counts over all sequences of m words", "why_tests_cant": "the repository samples a few seeds and accepts 1 percent deviation; the claim is an exact count over all sequences of words of any length", "anchors": ["lib/src/coin_tosser_exact.hpp: CoinTosserExact::tosses_, estimate_hits"]}
{"id": "C67", "title": "Float overflow does not matter", "statement": "On a machine with IEEE 754 floats (binary32 with infinities and NaN, overflow to infinity) the following are what rounded arithmetic without a bound on exponents gives, so every other property stated for such arithmetic carries over: which clauses of a classifier get feedback, the constants of the coin tosses for every accepted specificity, the numbers of the float generator, the accuracy evaluate returns, and training a regressor with a sample, for each loss function, every float loss_fn_C1 including the infinities, NaN and the largest ones, with or without box_muller. Hence every history of calls on any estimator that can arise returns the same and ends in the same state, and is undefined or throws in the same cases. Only the loss berHu overflows at all (C1 below about -2^63), which leads to the same training or the same undefined conversion.", "quantifier": "all parameters (thresholds up to INT_MAX, specificities, C1 any float), scores, errors, clause and feature counts, random draws", "why_tests_cant": "concerns the extremes of the float range in combination with every parameter and draw; a test can only try some values", "anchors": ["lib/src/loss_fn.cpp: make_loss_fn", "lib/src/box_muller_approx.cpp: binomial, normal", "lib/src/tsetlini_algo_classic.hpp: train_regressor_automata, calculate_classifier_feedback_to_clauses", "lib/src/coin_tosser_exact.hpp: CoinTosserExact", "lib/include/mt.hpp: FRNG::post_process", "lib/src/tsetlini.cpp: evaluate_classifier_impl"]}
{"id": "C68", "title": "Results are ordinary values: nothing lost, nothing destroyed twice", "statement": "The objects in which the API returns results and errors (Either, Maybe) behave as plain values. A program that constructs, copies, moves, maps (leftMap, rightMap, leftFlatMap, rightFlatMap, on const or on expiring objects) and destroys results in any order, using only results it holds, has no undefined behaviour, sees exactly the values its operations compute, ends with exactly the values alive that it holds, and has its functions called exactly when there is a value of the right side. left(), right(), the conversion to bool, join and == tell the truth and give back their temporaries. A chain of rightFlatMaps, as used to check parameters, gives the first error or the last value and calls nothing after the first failure. A program that uses a destroyed result, or unsafeGet of an empty Maybe, has undefined behaviour.", "quantifier": "all value types and values, all functions given to the maps, all programs of any length over any number of results, all chains of any length", "why_tests_cant": "The unions are filled and emptied by hand; whether every path destroys exactly the member that is alive depends on the whole history of copies, moves and maps, of which tests run a few.", "anchors": ["lib/include/neither/either.hpp:Either", "lib/include/neither/maybe.hpp:Maybe", "lib/src/tsetlini_params.cpp:make_classifier_params_from_json"]}
{"id": "C69", "title": "Weights limited to one are no weights", "statement": "Clause weighting can be switched off (weighted = false) or made ineffective (weighted = true with max_weight = 1). Two estimators made with such parameters, and otherwise the same ones (a different max_weight of unweighted estimators included), cannot be told apart: every history of fit, partial_fit, predict, decision_function and evaluate calls, with whatever arguments, returns the same on both, they end with the same automata and generators, their parameters differ in weighted and max_weight only, and every clause of both has exactly one vote.", "quantifier": "all pairs of parameter sets the factories make that differ at most in weighted and max_weight and leave no weight above 1, classic and bitwise estimators, classifiers and regressors, all histories of calls with any arguments, all schedules and n_jobs", "why_tests_cant": "The weights are changed in the middle of training, once per clause and sample; only a few training runs can be compared, and a limit that is off by one shows up only in runs in which a weight would have grown.", "anchors": ["lib/src/tsetlini_algo_classic.hpp:train_classifier_automata", "lib/src/tsetlini_algo_classic.hpp:train_regressor_automata", "lib/src/tsetlini_algo_bitwise.hpp:train_classifier_automata", "lib/src/tsetlini_algo_classic.hpp:sum_up_label_votes"]}
{"id": "C70", "title": "JSON text keeps every value", "statement": "Writing a JSON value whose strings are UTF-8 gives a text that reads back as the same value: every boolean, every 64-bit integer, every string with all its characters (quotes, backslashes, control characters, any Unicode), every finite double exactly, every array and object with all members. Only the signedness of a non-negative integer and infinities and NaN (written as null) are not kept. Positive doubles are written with at most 17 digits, none of them a leading or trailing zero.", "quantifier": "all JSON values of any depth and size with 64-bit integers, doubles (subnormal ones included) and UTF-8 strings", "why_tests_cant": "2^64 doubles each need their own digits (the printer is not correctly rounded but relies on error bounds of cached powers of ten), and strings and nesting are unbounded.", "anchors": ["lib/src/json/json.hpp:basic_json::dump", "lib/src/json/json.hpp:serializer", "lib/src/json/json.hpp:dtoa_impl::grisu2", "lib/src/json/json.hpp:lexer", "lib/src/json/json.hpp:parser"]}
{"id": "C71", "title": "Writing JSON fails exactly on strings that are not UTF-8", "statement": "Writing a JSON value throws the JSON library's exception if some string in it, keys included, is not UTF-8, and returns a text otherwise; there is no other outcome (no write past the fixed-size buffers, no failed assertion).", "quantifier": "all JSON values of any depth and size with 64-bit integers, doubles, infinities and NaN, and strings of any bytes", "why_tests_cant": "Buffers are flushed depending on how many bytes were written before, the UTF-8 automaton has to be right for every byte sequence, and the digit generation for every double.", "anchors": ["lib/src/json/json.hpp:serializer::dump_escaped", "lib/src/json/json.hpp:serializer::decode", "lib/src/json/json.hpp:serializer::dump_integer", "lib/src/json/json.hpp:dtoa_impl"]}
{"id": "C72", "title": "Any text is read or refused", "statement": "Reading any bytes as JSON ends, either with the JSON library's exception or with a value whose integers fit 64 bits, whose numbers are finite doubles, whose strings are UTF-8, and whose objects have distinct, ordered keys. What was read can be written and reads back as it was (a \"-0\" as 0).", "quantifier": "all byte sequences", "why_tests_cant": "The input is arbitrary; termination and the absence of undefined behaviour have to hold for every one.", "anchors": ["lib/src/json/json.hpp:parser::parse", "lib/src/json/json.hpp:parser::sax_parse_internal", "lib/src/json/json.hpp:lexer::scan_string", "lib/src/json/json.hpp:lexer::scan_number", "lib/src/json/json.hpp:json_sax_dom_parser"]}
{"id": "C73", "title": "The saved text is the estimator", "statement": "to_json_string always returns a text, fitted or not. from_json_string of the text of a fitted estimator, called with a state of whatever contents, gives a state that compares equal to the saved one, with the same parameters, automata, weights and generators, and that answers every later sequence of calls identically. Bytes that are not JSON are refused with an exception and change nothing. What must not be relied on: reading the text of an unfitted estimator is undefined behaviour.", "quantifier": "all estimators made by a factory and used in any history of calls whose real parameters are finite floats, both families and kinds, all states read into, all byte sequences", "why_tests_cant": "Every counter, weight, seed, generator table and float must survive printing and parsing; the histories before and after are unbounded.", "anchors": ["lib/src/tsetlini_state_json.cpp:to_json_string", "lib/src/tsetlini_state_json.cpp:from_json_string", "lib/src/json/json.hpp:basic_json::dump", "lib/src/json/json.hpp:basic_json::parse"]}
{"id": "C74", "title": "Any configuration text is handled", "statement": "make_*_from_json called with any bytes returns an estimator or a status, except for a JSON object with an ill-typed member (an exception) or a fraction too great for an integer parameter (undefined behaviour). Bytes that are not a JSON object give S_BAD_JSON. For a JSON object the outcome is that of its members, of which no two have the same name even if the text repeats one; an estimator so made has all properties of estimators made by factories.", "quantifier": "all byte sequences, both kinds, all machines", "why_tests_cant": "The text is arbitrary input.", "anchors": ["lib/src/tsetlini_params.cpp:json_parse", "lib/src/tsetlini_params.cpp:make_classifier_params_from_json", "lib/src/tsetlini_params.cpp:make_regressor_params_from_json", "lib/src/json/json.hpp:basic_json::parse"]}
{"id": "C75", "title": "Exactly the JSON texts are read", "statement": "json_parse, from_json_string and the factories that take JSON read exactly the texts of RFC 8259, in UTF-8, and read them as what they denote: escapes and surrogate pairs as the characters they stand for, integers that fit 64 bits exactly, other numbers as the nearest double, of members with the same name the last. Every other text is refused with an exception. No text is ambiguous. What is written is such a text. Beyond the standard a byte order mark may come first, and (a defect) everything after a NUL byte is ignored.", "quantifier": "all byte sequences, all values", "why_tests_cant": "The grammar has infinitely many texts and every other byte sequence must be refused.", "anchors": ["lib/src/json/json.hpp:basic_json::parse", "lib/src/json/json.hpp:lexer::scan", "lib/src/json/json.hpp:lexer::scan_string", "lib/src/json/json.hpp:lexer::scan_number", "lib/src/json/json.hpp:parser::sax_parse_internal", "lib/src/json/json.hpp:basic_json::dump"]}
{"id": "C76", "title": "Real numbers are rounded to nearest, ties to even", "statement": "Wherever the library turns a real number into a float or double - in its arithmetic, in the numbers it reads from texts, in the parameters s and loss_fn_C1 - the result is the representable number nearest to it, of two equally near the one whose last digit is even, and infinite exactly from half a unit above the greatest representable number on; there is exactly one such number. A parameter s given in a JSON text is the float nearest to the number read, which is itself the double nearest to the number written; because of the two roundings it need not be the float nearest to the number written.", "quantifier": "all real numbers, all texts", "why_tests_cant": "Ties, subnormals and the limits of the range are isolated points among all numbers.", "anchors": ["lib/include/tsetlini_types.hpp:real_type", "lib/src/json/json.hpp:lexer::scan_number", "lib/src/tsetlini_params.cpp:json_to_params"]}
{"id": "C77", "title": "Cloning and saving while predictions run", "statement": "clone_state is const, like predict. Made while any number of const calls (predict, decision_function, evaluate) are in flight on the same estimator, interleaved access by access in any way, it returns, reads nothing out of bounds and does not disturb those calls, and the clone compares equal to the estimator and answers and learns as the estimator does, although it may have copied scratch memory in the middle of a prediction. On an estimator with no call in flight any number of clones may be made at once, without a race, and each is an exact copy. To a C++ program the former is nevertheless forbidden: a clone and an accepted call with a sample on the same estimator are a data race. Saving (to_json_string) and read_params use nothing that those calls write and give the same result at every moment.", "quantifier": "all reachable estimators of both families and kinds, any number of estimators, calls and clones, all samples, all interleavings", "why_tests_cant": "Interleavings of single accesses cannot be enumerated or forced by a test, and a torn copy need not show.", "anchors": ["lib/src/tsetlini.cpp:clone_state", "lib/src/estimator_state.hpp:EstimatorState::cache", "lib/src/estimator_state_cache.hpp:ClassifierStateCache::value_type", "lib/src/tsetlini_state_json.cpp:to_json_string"]}
{"id": "C78", "title": "An estimator is its training history, in every program", "statement": "A program makes any number of estimators with the factories, calls their methods, clones their states, builds estimators from states, moves and assigns them, saves states as texts, loads texts into states and destroys variables, in any order. The texts include those from elsewhere: any text that is refused without changing anything (one that is not JSON, or whose member igen is missing or wrong), and any that can be loaded as a trained estimator whose parts fit together (C80), whoever wrote it. Every method call returns exactly what it would return on an estimator made with the same parameters, or loaded from the same text from elsewhere, and put through the training calls of its ancestry (those made on it, or on what it was cloned, built, moved, assigned or loaded from, up to then) and nothing else: neither predictions, nor other estimators, nor refused loads, nor the schedules of the parallel loops show. Trained objects of the same ancestry compare equal (==). A statement changes no object but its target. Every state on the heap has exactly one owner among the variables and is deleted when that is destroyed or overwritten: nothing leaks, is deleted twice or used after deletion. A statement returns exactly if its operands are alive and not moved from, the factory or method returns, and a text to be loaded is refused or that of a trained estimator.", "quantifier": "all programs, i.e. all finite sequences of statements with any number of variables, both families and kinds, all schedules, all generators", "why_tests_cant": "Programs and their object graphs are unbounded; a leak, a shared buffer or a lost part of the state shows only after particular sequences of copies, moves and training.", "anchors": ["lib/include/tsetlini.hpp:ClassifierClassic", "lib/include/estimator_state_fwd.hpp:ClassifierStateClassicPtr", "lib/src/tsetlini.cpp:clone_state", "lib/src/estimator_state.cpp", "lib/src/tsetlini_state_json.cpp:to_json_string,from_json_string"]}
{"id": "C79", "title": "One text per estimator", "statement": "to_json_string is a canonical form. Its bytes depend on nothing but the parameter values, the automata, the weights and the generators: not on buffers, nor the order in which the parameters were stored. predict, decision_function and evaluate never change it. The same parameters and the same calls give the same bytes under any schedule of the parallel loops. Loading a saved text and saving again gives the same bytes. Two fitted estimators of a class have the same text exactly if they compare equal (==). Estimators of different classes (family, kind) never have the same text.", "quantifier": "all reachable estimators of both families and kinds, all call sequences and schedules, all faithful generator serialisations", "why_tests_cant": "Injectivity and determinism range over pairs of unbounded training histories and their schedules.", "anchors": ["lib/src/tsetlini_state_json.cpp:to_json_string,from_json_string", "lib/src/estimator_state.cpp:operator=="]}
{"id": "C80", "title": "Loaded estimators are first-class", "statement": "Any document whose parts fit together (the parameters of an estimator, with acceptable values and possibly others besides, and automata and weights of the sizes and ranges these ask for, in the bitwise family with polarity bits that mirror the counters) loads into an estimator on which all other properties of this list hold, whoever wrote the document. The parts of a trained estimator always fit together, so a text saved by the library, and the text of a bitwise estimator loaded into a classic one, are such documents. Conversely any model, i.e. clauses and weights of any values in range and generators in any state, can be written down and loaded, and the estimator then has just these. What must not be relied on: a document whose parts do not fit together may load as well, and a prediction then reads out of bounds.", "quantifier": "all documents, all reachable estimators of both families and kinds, all clauses, weights and generator states in range", "why_tests_cant": "The claim ranges over all documents that fit and over all histories of calls made after loading.", "anchors": ["lib/src/tsetlini_state_json.cpp:from_json_string,to_json_string", "lib/src/estimator_state_cache.cpp:reset", "lib/src/tsetlini_state.cpp:reset_state_cache"]}
{"id": "C81", "title": "Settings of a trained estimator may be changed", "statement": "In the text of a trained estimator any one setting may be given another acceptable value, except those its automata have the shape of (number of clauses, weighted, counting_type): threshold, s, boost_true_positive_feedback, n_jobs, verbose, clause_output_tile_size, random_state, for regressors loss_fn, loss_fn_C1 and box_muller, and max_weight and number_of_states where the weights and counters there are leave room. The text still loads, the new estimator has the same automata, weights and generators and otherwise the same parameters, and all other properties hold of it. What it predicts can change only if the threshold was changed: predictions, scores and accuracy depend on counters, weights, threshold and the numbers of clauses, labels and features alone. If n_jobs, verbose or clause_output_tile_size was changed it also trains exactly as before; this is true of any two estimators with equal automata, weights and generators that differ in these settings only, however they came about, and for counting_type if their counters are equal.", "quantifier": "all reachable trained estimators of both families and kinds, all settings and acceptable values, all later histories of calls and schedules", "why_tests_cant": "Ranges over all trained states, all values of settings and all later histories.", "anchors": ["lib/src/tsetlini_state_json.cpp:from_json_string,to_json_string", "lib/src/tsetlini.cpp:ClassifierClassic,RegressorClassic"]}
{"id": "C82", "title": "Matrices compare equal exactly if shape and cells are equal", "statement": "operator== of two matrices of counters, or of two bit matrices, is true exactly if they have the same number of rows and columns and every cell within the shape reads the same, whatever writes within the shape, copies, moves and assignments produced each of them. In particular padding at the ends of rows never decides, and comparing two estimators compares their tables of counters and polarities. Copies, and matrices constructed or assigned from another one by copying or moving, equal what the source was and read the same; what is left of the source of a move equals a default-constructed matrix.", "quantifier": "all matrices of 1, 2 or 4 byte items and all bit matrices, of any shape whose size arithmetic does not wrap, after any history of writes, copies, moves and assignments", "why_tests_cant": "Ranges over all shapes and all histories of writes; a single stray write to padding would break it for that matrix only.", "anchors": ["lib/include/basic_numeric_matrix.hpp:basic_numeric_matrix::operator==", "lib/include/basic_bit_matrix.hpp:operator=="]}
{"id": "C83", "title": "The extremes of the specificity", "statement": "With s = 1, boost_true_positive_feedback off and at most 2^24 features, training never raises a counter above 0: after partial_fit every counter is at most the larger of 0 and what it was, and after fit no counter is above 0 (every inclusion is marginal). With s of at least 2^34 times the number of features (rounded up to a power of two) partial_fit never lowers a counter: a literal that a clause includes stays included for good.", "quantifier": "all reachable estimators of both families, classifiers and regressors, with such settings; all data, epochs, random streams, schedules and float rounding", "why_tests_cant": "Ranges over all data, random streams and lengths of training; the bounds rest on float rounding at every number of features.", "anchors": ["lib/src/coin_tosser_exact.hpp:coin_tosser_exact::tosses", "lib/src/tsetlini_algo_classic.hpp:block1,block2", "lib/src/tsetlini_algo_bitwise.hpp:block1,block2"]}
{"id": "C84", "title": "When training changes nothing, and samples that cannot be learned", "statement": "If, with empty clauses counted as true, the votes give every training sample the score T for its label and -T for every other label (for a regressor: its target response), partial_fit changes no clause, weight or prediction, for however many epochs. As empty clauses do not count in predictions, this does not mean that the samples are predicted right: there are trained estimators of both families and a sample they were trained with which they predict wrong, and which no number of further epochs with that sample will teach them.", "quantifier": "all reachable fitted estimators, data, numbers of epochs, random streams and schedules; the traps are exhibited and hold for all numbers of epochs and schedules", "why_tests_cant": "That no amount of training helps is a statement about all numbers of epochs; that nothing changes must hold for all models and streams.", "anchors": ["lib/src/tsetlini_algo_classic.hpp:sum_up_label_votes,train_classifier_automata,train_regressor_automata", "lib/src/tsetlini_algo_bitwise.hpp:train_classifier_automata"]}
{"id": "C85", "title": "What predictions depend on", "statement": "A prediction depends on a model only through the literals its clauses include and their weights. If the clauses of a label of one fitted classifier say the same as those of a label of another one, perhaps of the other family, in other words - features renamed or complemented, clauses of the same sign in another order, counters at any distance from the boundary - and two samples are the same in these words, at least on the features some clause mentions, the two labels get the same score; if this holds for all labels both predict the same label. The same goes for regressors. In particular, features none of whose literals is included in any clause do not matter.", "quantifier": "all pairs of reachable fitted estimators of any families, all renamings, all orders of clauses, all samples and schedules", "why_tests_cant": "Ranges over all models, renamings, permutations of clauses and samples.", "anchors": ["lib/src/tsetlini_algo_classic.hpp:calculate_clause_output,sum_up_all_label_votes", "lib/src/tsetlini_algo_bitwise.hpp:calculate_clause_output", "lib/src/estimator_state.cpp"]}
{"id": "C86", "title": "The text of the log", "statement": "With verbose on, what a history of calls writes is a text of lines, one for each entry of the log, and nothing but the ends of lines ends a line: each starts with the level and the module of its entry (INFO or TRACE, tsetlini-core or tsetlini) and names the parameter and its value, the selected type of counters or the number of the epoch. Whole numbers are shown exactly, in decimal notation; other numbers with six significant digits, and exactly when six suffice; truth values as 0 and 1. So the text can be read back: two histories, even of different estimators, write the same text only if they log the same entries, except for numbers that are alike to six digits.", "quantifier": "all reachable estimators of both families and kinds, all parameters, histories of calls and schedules", "why_tests_cant": "Ranges over all parameters (numbers of any size) and all histories; that texts are told apart is about all pairs of histories.", "anchors": ["lib/src/logger.hpp:logger_impl,LOG", "lib/src/tsetlini_state.cpp:log_estimator_params,initialize_state", "lib/src/tsetlini.cpp:701,863"]}
{"id": "C87", "title": "Estimators can express every function", "statement": "With enough clauses an estimator can be anything. For any parameters a factory accepts with at least 4 * threshold * 2^n clauses per label (regressors: 2 * threshold * 2^n clauses), any n > 0 for which the model stays within the library's sizes, and any function from samples of n features to labels (regressors: to responses of 0 to threshold), there is a text that from_json_string loads, in any state, as a trained estimator - of either family, with any random generators - which predicts the value of the function for every sample and any number of threads, and which is stable: partial_fit with correctly labelled samples, for any number of epochs, leaves its clauses and weights as they are.", "quantifier": "all accepted parameters, numbers of features and labels, all functions from samples to labels or responses, both families, all generators, samples, training data, numbers of epochs and schedules", "why_tests_cant": "Ranges over all functions of all numbers of features.", "anchors": ["lib/src/tsetlini_state_json.cpp:from_json_string", "lib/src/tsetlini_algo_classic.hpp:sum_up_label_votes,sum_up_all_label_votes", "lib/src/tsetlini_algo_bitwise.hpp:train_classifier_automata", "lib/src/tsetlini.cpp:predict_classifier_raw_impl,partial_fit"]}
{"id": "C88", "title": "What estimators with few clauses cannot express", "statement": "If there are fewer models - for each clause a set of literals and a weight - than functions from samples to labels, that is if (4^n * W)^(labels * number_of_clauses_per_label / 2) < labels^(2^n), where W is max_weight if the estimator is weighted and 1 otherwise, then there is a function from samples of n features to labels which no trained classifier with these settings predicts, of either family, with whatever generators, number of states and other settings that the predictions do not depend on, and whatever it was trained with: for some sample it predicts something else, with any number of threads. The same goes for regressors and functions from samples to responses of 0 to threshold.", "quantifier": "all settings for which the inequality holds; all reachable fitted estimators with them, of both families and with all generators; all schedules", "why_tests_cant": "That no training history leads to a given function is a statement about all histories.", "anchors": ["lib/src/tsetlini_algo_classic.hpp:sum_up_label_votes,sum_up_all_label_votes,sum_up_regressor_votes", "lib/src/tsetlini.cpp:predict_classifier_raw_impl,predict_regressor_impl"]}
