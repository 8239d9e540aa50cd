{
 "C01": {
  "note": "Bitwise with number_of_states = 1 is the stated exception, proved by a witness."
 },
 "C02": {
  "note": "Second half is for histories both estimators survive (matrices of different counter widths differ in size). Bitwise N = 1 excluded, witness."
 },
 "C05": {
  "note": "evaluate, which validates nothing, must get acceptable samples; otherwise the result can depend on the tile size (witness)."
 },
 "C06": {
  "note": "Iteration orders here; interleaving of single accesses is C53."
 },
 "C12": {
  "note": "A label of INT_MAX overflows before it could be reported (C12_int_max_label)."
 },
 "C16": {
  "note": "Weighted estimators keep old weights on a refit; witness."
 },
 "C18": {
  "note": "With one label the code divides by zero; proved for fit and partial_fit."
 },
 "C23": {
  "note": "Bitwise N = 1 excluded, witness."
 },
 "C25": {
  "note": "More than one surplus block: out-of-range shift, proved as undefined behaviour."
 },
 "C27": {
  "note": "Ill-typed values escape as exceptions, as stated."
 },
 "C30": {
  "note": "A NaN loss constant does not survive (proved); JSON text itself is assumed to preserve values."
 },
 "C36": {
  "note": "evaluate checks nothing; the cases are proved separately."
 },
 "C39": {
  "note": "Exact condition for the 32-bit size arithmetic not to wrap."
 },
 "C40": {
  "note": "A state whose C1 is NaN does not compare equal to its clone (proved)."
 },
 "C41": {
  "note": "The generator is specified independently of the model; the mask 0x8000000 is as in the code."
 },
 "C44": {
  "note": "The stated limits are sharp in the cases proved elsewhere (C12, C18, C39, C48)."
 },
 "C48": {
  "note": "box_muller tables are parameters of the model."
 },
 "C52": {
  "note": "Reference trainer is a separate specification; uniqueness of its result is proved too."
 },
 "C53": {
  "note": "Sequentially consistent accesses, justified by the absence of races proved here."
 },
 "C54": {
  "note": "Classes no estimator uses."
 },
 "C55": {
  "note": "Class no estimator uses."
 },
 "C56": {
  "note": "Routines training does not call."
 },
 "C57": {
  "note": "Overloads the library does not call."
 },
 "C58": {
  "note": "AlignedArray is used by no estimator; the allocator by all containers."
 },
 "C59": {
  "note": "Which lines are written and with which values; for their text see C86."
 },
 "C60": {
  "note": "Values are loaded and stored whole and in a sequentially consistent order, also where the calls race. Each call may use any number of threads (n_jobs): they store the clause outputs in any order and join at the end of the loop, and do nothing else to the scratch memory. For racing calls C++ guarantees nothing (C60_race); the other theorems say what happens on a machine that executes the accesses one by one."
 },
 "C61": {
  "note": "JSON text is modelled as a parsed value; a text that is no JSON at all throws in json::parse before anything is changed. Texts are read by the models of from_json of C30/C31/C51."
 },
 "C62": {
  "note": "Allocation points as listed in Model/Abort: keys and map nodes of the parameters, log statements, matrices, vectors. Training on one sample, shuffling and reseeding allocate nothing and are not interrupted; a log statement of any epoch may throw. The half-made bitwise matrix pair is among the states. A read-only call is abandoned between any two accesses of its scratch memory, which is more than its allocations allow."
 },
 "C77": {
  "note": "Values are loaded and stored whole and in a sequentially consistent order, also where the calls race. Each call may use any number of threads (n_jobs): they store the clause outputs in any order and join at the end of the loop, and do nothing else to the scratch memory. For racing calls C++ guarantees nothing (C77_race); the other theorems say what happens on a machine that executes the accesses one by one."
 },
 "C78": {
  "note": "One of the four classes at a time; allocation succeeds (C62). Estimators are made with a number_of_states that works (at least 2 for the bitwise family, C23) and finite real parameters (C30 shows what a NaN does); a text that the program did not save itself may be used if every load of it is refused without changing the target (C78_refused_texts), or if it can be loaded as a trained estimator whose parts fit together (C80), with finite float parameters and a number_of_states that works; JSON texts of which a load changes a part and is then refused, or loads an untrained or incoherent state, are covered by C51 and C61, not here. C78_equal needs a trained estimator."
 },
 "C79": {
  "note": "C79_again and C79_identifies are for fitted estimators with finite float parameters and a number_of_states that works; the text of a generator is a parameter of the model assumed faithful (as in C73)."
 },
 "C80": {
  "note": "Finite float parameters (C30) and faithful generator serialisation are assumed where a state is saved first; ModelOf bounds the sizes by the library's own 32-bit limits. C80_saved_text, C80_any_text and C80_foreign_text say it of the bytes of JSON texts, the others of JSON values."
 },
 "C81": {
  "note": "One setting at a time (the result is again a reachable estimator, so edits compose). Finite float parameters and faithful generator serialisation are assumed as in C30. evaluate needs samples predict would accept where the tile size differs (C05)."
 },
 "C82": {
  "note": "Shapes whose size arithmetic wraps are excluded (C39_wraps); an assignment of a matrix to itself is not considered. A write into padding, which the library never does, would be seen by operator== (example)."
 },
 "C83": {
  "note": "Beyond 2^24 features s = 1 may not choose all of them (or, C32_hangs, never end), so the first part is stated up to there."
 },
 "C84": {
  "note": "Finding: with empty clauses a classifier or regressor can be stuck with a wrong prediction for a training sample (C84_unlearnable*); training with other samples may still change it."
 },
 "C85": {
  "note": "About scores and predictions, not about training, which draws random numbers per feature and clause and so does depend on their order. Both estimators have the same threshold and number of clauses."
 },
 "C86": {
  "note": "The numbers are the values of the floating-point parameters; the signs of zeros and NaNs, which the model's numbers do not have, are not shown. The format is that of the C locale."
 },
 "C87": {
  "note": "Existence: nothing is said of what training finds. n = 0 is excluded: a clause without literals does not count in predictions."
 },
 "C88": {
  "note": "A counting argument: the function is shown to exist, not exhibited. The only use of Mathlib (Mathlib.Data.Fintype.BigOperators, in Lemmas/Few.lean)."
 }
}