{
 "claims": [
  {
   "property": "C01",
   "status": "proved",
   "theorems": [
    "Tsetlini.C01_counters_in_range",
    "Tsetlini.C01_bitwise_one_state_violates"
   ],
   "note": "Bitwise with number_of_states = 1 is the stated exception, proved by a witness."
  },
  {
   "property": "C02",
   "status": "proved",
   "theorems": [
    "Tsetlini.C02_never_wraps",
    "Tsetlini.C02_counting_type",
    "Tsetlini.C02_bitwise_one_state_differs"
   ],
   "note": "Second half is for histories both estimators survive (matrices of different counter widths differ in size). Bitwise N = 1 excluded, witness."
  },
  {
   "property": "C03",
   "status": "proved",
   "theorems": [
    "Tsetlini.C03_weights"
   ],
   "note": ""
  },
  {
   "property": "C04",
   "status": "proved",
   "theorems": [
    "Tsetlini.C04_training_output",
    "Tsetlini.C04_prediction_output"
   ],
   "note": ""
  },
  {
   "property": "C05",
   "status": "proved",
   "theorems": [
    "Tsetlini.C05_tile_size",
    "Tsetlini.C05_evaluate_unchecked"
   ],
   "note": "evaluate, which validates nothing, must get acceptable samples; otherwise the result can depend on the tile size (witness)."
  },
  {
   "property": "C06",
   "status": "proved",
   "theorems": [
    "Tsetlini.C06_jobs_and_schedules"
   ],
   "note": "Iteration orders here; interleaving of single accesses is C53."
  },
  {
   "property": "C07",
   "status": "proved",
   "theorems": [
    "Tsetlini.C07_decision"
   ],
   "note": ""
  },
  {
   "property": "C08",
   "status": "proved",
   "theorems": [
    "Tsetlini.C08_predict"
   ],
   "note": ""
  },
  {
   "property": "C09",
   "status": "proved",
   "theorems": [
    "Tsetlini.C09_predict"
   ],
   "note": ""
  },
  {
   "property": "C10",
   "status": "proved",
   "theorems": [
    "Tsetlini.C10_predict",
    "Tsetlini.C10_decision",
    "Tsetlini.C10_predict_regressor"
   ],
   "note": ""
  },
  {
   "property": "C11",
   "status": "proved",
   "theorems": [
    "Tsetlini.C11_readers_change_nothing",
    "Tsetlini.C11_cache_unobservable",
    "Tsetlini.C11_readers_unobservable"
   ],
   "note": ""
  },
  {
   "property": "C12",
   "status": "proved",
   "theorems": [
    "Tsetlini.C12_fit",
    "Tsetlini.C12_partial_fit",
    "Tsetlini.C12_fit_regressor",
    "Tsetlini.C12_partial_fit_regressor",
    "Tsetlini.C12_int_max_label",
    "Tsetlini.C12_predict",
    "Tsetlini.C12_predict_batch",
    "Tsetlini.C12_predict_regressor"
   ],
   "note": "A label of INT_MAX overflows before it could be reported (C12_int_max_label)."
  },
  {
   "property": "C13",
   "status": "proved",
   "theorems": [
    "Tsetlini.C13_rejected_training"
   ],
   "note": ""
  },
  {
   "property": "C14",
   "status": "proved",
   "theorems": [
    "Tsetlini.C14_partial_fit_unfitted",
    "Tsetlini.C14_never_fitted"
   ],
   "note": ""
  },
  {
   "property": "C15",
   "status": "proved",
   "theorems": [
    "Tsetlini.C15_partial_fit",
    "Tsetlini.C15_partial_fit_regressor"
   ],
   "note": ""
  },
  {
   "property": "C16",
   "status": "proved",
   "theorems": [
    "Tsetlini.C16_fit",
    "Tsetlini.C16_fit_regressor",
    "Tsetlini.C16_weighted_violates"
   ],
   "note": "Weighted estimators keep old weights on a refit; witness."
  },
  {
   "property": "C17",
   "status": "proved",
   "theorems": [
    "Tsetlini.C17_reproducible",
    "Tsetlini.C17_same_parameters"
   ],
   "note": ""
  },
  {
   "property": "C18",
   "status": "proved",
   "theorems": [
    "Tsetlini.C18_one_label_partial_fit",
    "Tsetlini.C18_one_label_fit",
    "Tsetlini.C18_opposite",
    "Tsetlini.C18_every_other_label"
   ],
   "note": "With one label the code divides by zero; proved for fit and partial_fit."
  },
  {
   "property": "C19",
   "status": "proved",
   "theorems": [
    "Tsetlini.C19_only_two_labels"
   ],
   "note": ""
  },
  {
   "property": "C20",
   "status": "proved",
   "theorems": [
    "Tsetlini.C20_feedback_types"
   ],
   "note": ""
  },
  {
   "property": "C21",
   "status": "proved",
   "theorems": [
    "Tsetlini.C21_type_II",
    "Tsetlini.C21_contradicting_literals"
   ],
   "note": ""
  },
  {
   "property": "C22",
   "status": "proved",
   "theorems": [
    "Tsetlini.C22_feedback",
    "Tsetlini.C22_step"
   ],
   "note": ""
  },
  {
   "property": "C23",
   "status": "proved",
   "theorems": [
    "Tsetlini.C23_polarity",
    "Tsetlini.C23_one_state_violates"
   ],
   "note": "Bitwise N = 1 excluded, witness."
  },
  {
   "property": "C24",
   "status": "proved",
   "theorems": [
    "Tsetlini.C24_outputs",
    "Tsetlini.C24_decision",
    "Tsetlini.C24_predict",
    "Tsetlini.C24_predict_regressor"
   ],
   "note": ""
  },
  {
   "property": "C25",
   "status": "proved",
   "theorems": [
    "Tsetlini.C25_classifier",
    "Tsetlini.C25_regressor"
   ],
   "note": "More than one surplus block: out-of-range shift, proved as undefined behaviour."
  },
  {
   "property": "C26",
   "status": "proved",
   "theorems": [
    "Tsetlini.C26_accepts_exactly",
    "Tsetlini.C26_rejects",
    "Tsetlini.C26_args_always_request"
   ],
   "note": ""
  },
  {
   "property": "C27",
   "status": "proved",
   "theorems": [
    "Tsetlini.C27_not_an_object",
    "Tsetlini.C27_first_fault",
    "Tsetlini.C27_never_an_estimator",
    "Tsetlini.C27_faultless_requests"
   ],
   "note": "Ill-typed values escape as exceptions, as stated."
  },
  {
   "property": "C28",
   "status": "proved",
   "theorems": [
    "Tsetlini.C28_values",
    "Tsetlini.C28_args_nothing_else",
    "Tsetlini.C28_json_nothing_else"
   ],
   "note": ""
  },
  {
   "property": "C29",
   "status": "proved",
   "theorems": [
    "Tsetlini.C29_concrete"
   ],
   "note": ""
  },
  {
   "property": "C30",
   "status": "proved",
   "theorems": [
    "Tsetlini.C30_round_trip",
    "Tsetlini.C30_generators",
    "Tsetlini.C30_nonfinite_lost"
   ],
   "note": "A NaN loss constant does not survive (proved); JSON text itself is assumed to preserve values."
  },
  {
   "property": "C31",
   "status": "proved",
   "theorems": [
    "Tsetlini.C31_unfitted"
   ],
   "note": ""
  },
  {
   "property": "C32",
   "status": "proved",
   "theorems": [
    "Tsetlini.C32_choice",
    "Tsetlini.C32_history",
    "Tsetlini.C32_at_most",
    "Tsetlini.C32_floor",
    "Tsetlini.C32_finishes",
    "Tsetlini.C32_never_ends",
    "Tsetlini.C32_hangs",
    "Tsetlini.C32_estimator"
   ],
   "note": ""
  },
  {
   "property": "C33",
   "status": "proved",
   "theorems": [
    "Tsetlini.C33_regressor_step"
   ],
   "note": ""
  },
  {
   "property": "C34",
   "status": "proved",
   "theorems": [
    "Tsetlini.C34_fit",
    "Tsetlini.C34_partial_fit",
    "Tsetlini.C34_fit_regressor",
    "Tsetlini.C34_partial_fit_regressor"
   ],
   "note": ""
  },
  {
   "property": "C35",
   "status": "proved",
   "theorems": [
    "Tsetlini.C35_no_epochs",
    "Tsetlini.C35_partial_fit_twice",
    "Tsetlini.C35_fit_then_partial_fit",
    "Tsetlini.C35_no_epochs_regressor",
    "Tsetlini.C35_partial_fit_twice_regressor",
    "Tsetlini.C35_fit_then_partial_fit_regressor"
   ],
   "note": ""
  },
  {
   "property": "C36",
   "status": "proved",
   "theorems": [
    "Tsetlini.C36_accuracy",
    "Tsetlini.C36_range",
    "Tsetlini.C36_unfitted",
    "Tsetlini.C36_empty",
    "Tsetlini.C36_short_labels",
    "Tsetlini.C36_wide_row"
   ],
   "note": "evaluate checks nothing; the cases are proved separately."
  },
  {
   "property": "C37",
   "status": "proved",
   "theorems": [
    "Tsetlini.C37_new",
    "Tsetlini.C37_content",
    "Tsetlini.C37_vector",
    "Tsetlini.C37_matrix"
   ],
   "note": ""
  },
  {
   "property": "C38",
   "status": "proved",
   "theorems": [
    "Tsetlini.C38_from_range",
    "Tsetlini.C38_accepted",
    "Tsetlini.C38_accepted_regressor"
   ],
   "note": ""
  },
  {
   "property": "C39",
   "status": "proved",
   "theorems": [
    "Tsetlini.C39_numeric_exact",
    "Tsetlini.C39_bits_exact",
    "Tsetlini.C39_initialize_classic",
    "Tsetlini.C39_initialize_bitwise",
    "Tsetlini.C39_numeric",
    "Tsetlini.C39_bits",
    "Tsetlini.C39_wraps"
   ],
   "note": "Exact condition for the 32-bit size arithmetic not to wrap."
  },
  {
   "property": "C40",
   "status": "proved",
   "theorems": [
    "Tsetlini.C40_clone_equal",
    "Tsetlini.C40_nan_clone_differs",
    "Tsetlini.C40_equal_states_agree",
    "Tsetlini.C40_independent"
   ],
   "note": "A state whose C1 is NaN does not compare equal to its clone (proved)."
  },
  {
   "property": "C41",
   "status": "proved",
   "theorems": [
    "Tsetlini.C41_draws",
    "Tsetlini.C41_frng",
    "Tsetlini.C41_frng_range",
    "Tsetlini.C41_env"
   ],
   "note": "The generator is specified independently of the model; the mask 0x8000000 is as in the code."
  },
  {
   "property": "C42",
   "status": "proved",
   "theorems": [
    "Tsetlini.C42_clause_ranges"
   ],
   "note": ""
  },
  {
   "property": "C43",
   "status": "proved",
   "theorems": [
    "Tsetlini.C43_votes_fit"
   ],
   "note": ""
  },
  {
   "property": "C44",
   "status": "proved",
   "theorems": [
    "Tsetlini.C44_call_defined",
    "Tsetlini.C44_history_defined",
    "Tsetlini.C44_new_defined",
    "Tsetlini.C44_threshold_overflows",
    "Tsetlini.C44_size_overflows",
    "Tsetlini.C44_allocation_wraps",
    "Tsetlini.C44_evaluate_out_of_bounds",
    "Tsetlini.C44_loss_too_large",
    "Tsetlini.C44_box_muller_undefined",
    "Tsetlini.C44_box_muller_nan"
   ],
   "note": "The stated limits are sharp in the cases proved elsewhere (C12, C18, C39, C48)."
  },
  {
   "property": "C45",
   "status": "proved",
   "theorems": [
    "Tsetlini.C45_attainable_errors",
    "Tsetlini.C45_range",
    "Tsetlini.C45_range_any_rounding",
    "Tsetlini.C45_zero",
    "Tsetlini.C45_even",
    "Tsetlini.C45_monotone",
    "Tsetlini.C45_berHu_negative"
   ],
   "note": ""
  },
  {
   "property": "C46",
   "status": "proved",
   "theorems": [
    "Tsetlini.C46_classifier_accepts",
    "Tsetlini.C46_regressor_accepts",
    "Tsetlini.C46_fit_accepts",
    "Tsetlini.C46_factory_order",
    "Tsetlini.C46_fit_order",
    "Tsetlini.C46_fit_values"
   ],
   "note": ""
  },
  {
   "property": "C47",
   "status": "proved",
   "theorems": [
    "Tsetlini.C47_first_failure"
   ],
   "note": ""
  },
  {
   "property": "C48",
   "status": "proved",
   "theorems": [
    "Tsetlini.C48_rounding",
    "Tsetlini.C48_hits",
    "Tsetlini.C48_hits_bounded",
    "Tsetlini.C48_step"
   ],
   "note": "box_muller tables are parameters of the model."
  },
  {
   "property": "C49",
   "status": "proved",
   "theorems": [
    "Tsetlini.C49_is_power_of_two"
   ],
   "note": ""
  },
  {
   "property": "C50",
   "status": "proved",
   "theorems": [
    "Tsetlini.C50_cache_alphabets"
   ],
   "note": ""
  },
  {
   "property": "C51",
   "status": "proved",
   "theorems": [
    "Tsetlini.C51_text_bitwise_as_classic",
    "Tsetlini.C51_text_classic_as_bitwise",
    "Tsetlini.C51_text_regressor_as_classifier",
    "Tsetlini.C51_text_classifier_as_regressor",
    "Tsetlini.C51_bitwise_as_classic",
    "Tsetlini.C51_classic_as_bitwise",
    "Tsetlini.C51_regressor_as_classifier",
    "Tsetlini.C51_classifier_as_regressor"
   ],
   "note": ""
  },
  {
   "property": "C52",
   "status": "proved",
   "theorems": [
    "Tsetlini.C52_fit",
    "Tsetlini.C52_partial_fit",
    "Tsetlini.C52_fit_regressor",
    "Tsetlini.C52_partial_fit_regressor",
    "Tsetlini.C52_one_result",
    "Tsetlini.C52_one_result_regressor",
    "Tsetlini.C52_one_start"
   ],
   "note": "Reference trainer is a separate specification; uniqueness of its result is proved too."
  },
  {
   "property": "C53",
   "status": "proved",
   "theorems": [
    "Tsetlini.C53_classic",
    "Tsetlini.C53_classic_training",
    "Tsetlini.C53_bitwise",
    "Tsetlini.C53_bitwise_training",
    "Tsetlini.C53_classic_machines",
    "Tsetlini.C53_bitwise_machines"
   ],
   "note": "Sequentially consistent accesses, justified by the absence of races proved here."
  },
  {
   "property": "C54",
   "status": "proved",
   "theorems": [
    "Tsetlini.C54_populate",
    "Tsetlini.C54_bitwise_populate",
    "Tsetlini.C54_populate_ends",
    "Tsetlini.C54_bitwise_populate_ends",
    "Tsetlini.C54_windows",
    "Tsetlini.C54_bitwise_windows",
    "Tsetlini.C54_stuck",
    "Tsetlini.C54_no_extra",
    "Tsetlini.C54_bitwise_no_extra",
    "Tsetlini.C54_make",
    "Tsetlini.C54_features",
    "Tsetlini.C54_few_features"
   ],
   "note": "Classes no estimator uses."
  },
  {
   "property": "C55",
   "status": "proved",
   "theorems": [
    "Tsetlini.C55_fresh",
    "Tsetlini.C55_exhausted"
   ],
   "note": "Class no estimator uses."
  },
  {
   "property": "C56",
   "status": "proved",
   "theorems": [
    "Tsetlini.C56_weaken",
    "Tsetlini.C56_weaken_bits",
    "Tsetlini.C56_strengthen_bits",
    "Tsetlini.C56_strengthen_same",
    "Tsetlini.C56_one_state",
    "Tsetlini.C56_contradict_same"
   ],
   "note": "Routines training does not call."
  },
  {
   "property": "C57",
   "status": "proved",
   "theorems": [
    "Tsetlini.C57_sequential",
    "Tsetlini.C57_by_value",
    "Tsetlini.C57_apart",
    "Tsetlini.C57_race",
    "Tsetlini.C57_lost"
   ],
   "note": "Overloads the library does not call."
  },
  {
   "property": "C58",
   "status": "proved",
   "theorems": [
    "Tsetlini.C58_allocate",
    "Tsetlini.C58_data",
    "Tsetlini.C58_elements",
    "Tsetlini.C58_assign",
    "Tsetlini.C58_copy",
    "Tsetlini.C58_eq"
   ],
   "note": "AlignedArray is used by no estimator; the allocator by all containers."
  },
  {
   "property": "C59",
   "status": "proved",
   "theorems": [
    "Tsetlini.C59_verbose",
    "Tsetlini.C59_silent",
    "Tsetlini.C59_total",
    "Tsetlini.C59_history",
    "Tsetlini.C59_fit_classifier",
    "Tsetlini.C59_fit_regressor",
    "Tsetlini.C59_partial_fit",
    "Tsetlini.C59_others"
   ],
   "note": "Which lines are written and with which values; for their text see C86."
  },
  {
   "property": "C60",
   "status": "proved",
   "theorems": [
    "Tsetlini.C60_safe",
    "Tsetlini.C60_same",
    "Tsetlini.C60_separate",
    "Tsetlini.C60_mixed_predict",
    "Tsetlini.C60_mixed_decision",
    "Tsetlini.C60_mixed_response",
    "Tsetlini.C60_race",
    "Tsetlini.C60_neither"
   ],
   "note": "Values are loaded and stored whole and in a sequentially consistent order, also where the calls race. Each call may use any number of threads (n_jobs): they store the clause outputs in any order and join at the end of the loop, and do nothing else to the scratch memory. For racing calls C++ guarantees nothing (C60_race); the other theorems say what happens on a machine that executes the accesses one by one."
  },
  {
   "property": "C61",
   "status": "proved",
   "theorems": [
    "Tsetlini.C61_returns",
    "Tsetlini.C61_left",
    "Tsetlini.C61_automata_unreadable",
    "Tsetlini.C61_classic_as_bitwise",
    "Tsetlini.C61_regressor_as_classifier",
    "Tsetlini.C61_classifier_as_regressor",
    "Tsetlini.C61_recovers",
    "Tsetlini.C61_mixed",
    "Tsetlini.C61_mixed_fit",
    "Tsetlini.C61_missing"
   ],
   "note": "JSON text is modelled as a parsed value; a text that is no JSON at all throws in json::parse before anything is changed. Texts are read by the models of from_json of C30/C31/C51."
  },
  {
   "property": "C62",
   "status": "proved",
   "theorems": [
    "Tsetlini.C62_retry",
    "Tsetlini.C62_during",
    "Tsetlini.C62_left",
    "Tsetlini.C62_partial_fit",
    "Tsetlini.C62_retry_partial_fit",
    "Tsetlini.C62_reading",
    "Tsetlini.C62_regressor",
    "Tsetlini.C62_half_made",
    "Tsetlini.C62_wider",
    "Tsetlini.C62_same_shape"
   ],
   "note": "Allocation points as listed in Model/Abort: keys and map nodes of the parameters, log statements, matrices, vectors. Training on one sample, shuffling and reseeding allocate nothing and are not interrupted; a log statement of any epoch may throw. The half-made bitwise matrix pair is among the states. A read-only call is abandoned between any two accesses of its scratch memory, which is more than its allocations allow."
  },
  {
   "property": "C63",
   "status": "proved",
   "theorems": [
    "Tsetlini.C63_scores",
    "Tsetlini.C63_stays_right",
    "Tsetlini.C63_response",
    "Tsetlini.C63_empty_clause"
   ],
   "note": ""
  },
  {
   "property": "C64",
   "status": "proved",
   "theorems": [
    "Tsetlini.C64_classifier",
    "Tsetlini.C64_regressor"
   ],
   "note": ""
  },
  {
   "property": "C65",
   "status": "proved",
   "theorems": [
    "Tsetlini.C65_feedback",
    "Tsetlini.C65_opposite",
    "Tsetlini.C65_features",
    "Tsetlini.C65_index",
    "Tsetlini.C65_regressor",
    "Tsetlini.C65_initial",
    "Tsetlini.C65_initial_regressor"
   ],
   "note": ""
  },
  {
   "property": "C66",
   "status": "proved",
   "theorems": [
    "Tsetlini.C66_symmetric",
    "Tsetlini.C66_feature",
    "Tsetlini.C66_ends",
    "Tsetlini.C66_almost_surely"
   ],
   "note": ""
  },
  {
   "property": "C67",
   "status": "proved",
   "theorems": [
    "Tsetlini.C67_loss",
    "Tsetlini.C67_regressor",
    "Tsetlini.C67_generator",
    "Tsetlini.C67_classifier",
    "Tsetlini.C67_coin_tosser",
    "Tsetlini.C67_accuracy",
    "Tsetlini.C67_history"
   ],
   "note": ""
  },
  {
   "property": "C68",
   "status": "proved",
   "theorems": [
    "Tsetlini.C68_operations",
    "Tsetlini.C68_queries",
    "Tsetlini.C68_programs",
    "Tsetlini.C68_chains"
   ],
   "note": ""
  },
  {
   "property": "C69",
   "status": "proved",
   "theorems": [
    "Tsetlini.C69_weights_of_one"
   ],
   "note": ""
  },
  {
   "property": "C70",
   "status": "proved",
   "theorems": [
    "Tsetlini.C70_round_trip",
    "Tsetlini.C70_same",
    "Tsetlini.C70_injective",
    "Tsetlini.C70_digits"
   ],
   "note": ""
  },
  {
   "property": "C71",
   "status": "proved",
   "theorems": [
    "Tsetlini.C71_refused"
   ],
   "note": ""
  },
  {
   "property": "C72",
   "status": "proved",
   "theorems": [
    "Tsetlini.C72_total",
    "Tsetlini.C72_rewritten"
   ],
   "note": ""
  },
  {
   "property": "C73",
   "status": "proved",
   "theorems": [
    "Tsetlini.C73_round_trip",
    "Tsetlini.C73_generators",
    "Tsetlini.C73_saves",
    "Tsetlini.C73_unfitted",
    "Tsetlini.C73_not_json",
    "Tsetlini.C73_leaves"
   ],
   "note": ""
  },
  {
   "property": "C74",
   "status": "proved",
   "theorems": [
    "Tsetlini.C74_value",
    "Tsetlini.C74_not_an_object",
    "Tsetlini.C74_made",
    "Tsetlini.C74_outcome"
   ],
   "note": ""
  },
  {
   "property": "C75",
   "status": "proved",
   "theorems": [
    "Tsetlini.C75_reads",
    "Tsetlini.C75_json",
    "Tsetlini.C75_only_json",
    "Tsetlini.C75_unique",
    "Tsetlini.C75_written"
   ],
   "note": ""
  },
  {
   "property": "C76",
   "status": "proved",
   "theorems": [
    "Tsetlini.C76_exists_unique",
    "Tsetlini.C76_arithmetic",
    "Tsetlini.C76_double",
    "Tsetlini.C76_float",
    "Tsetlini.C76_same",
    "Tsetlini.C76_parameter",
    "Tsetlini.C76_parameter_C1"
   ],
   "note": ""
  },
  {
   "property": "C77",
   "status": "proved",
   "theorems": [
    "Tsetlini.C77_clone",
    "Tsetlini.C77_exact",
    "Tsetlini.C77_race",
    "Tsetlini.C77_save"
   ],
   "note": "Values are loaded and stored whole and in a sequentially consistent order, also where the calls race. Each call may use any number of threads (n_jobs): they store the clause outputs in any order and join at the end of the loop, and do nothing else to the scratch memory. For racing calls C++ guarantees nothing (C77_race); the other theorems say what happens on a machine that executes the accesses one by one."
  },
  {
   "property": "C78",
   "status": "proved",
   "theorems": [
    "Tsetlini.C78_texts_without_igen",
    "Tsetlini.C78_answers",
    "Tsetlini.C78_objects",
    "Tsetlini.C78_equal",
    "Tsetlini.C78_heap",
    "Tsetlini.C78_returns",
    "Tsetlini.C78_separate",
    "Tsetlini.C78_texts",
    "Tsetlini.C78_bitwise_texts",
    "Tsetlini.C78_refused_texts"
   ],
   "note": "One of the four classes at a time; allocation succeeds (C62). Estimators are made with a number_of_states that works (at least 2 for the bitwise family, C23) and finite real parameters (C30 shows what a NaN does); a text that the program did not save itself may be used if every load of it is refused without changing the target (C78_refused_texts), or if it can be loaded as a trained estimator whose parts fit together (C80), with finite float parameters and a number_of_states that works; JSON texts of which a load changes a part and is then refused, or loads an untrained or incoherent state, are covered by C51 and C61, not here. C78_equal needs a trained estimator."
  },
  {
   "property": "C79",
   "status": "proved",
   "theorems": [
    "Tsetlini.C79_text",
    "Tsetlini.C79_readers",
    "Tsetlini.C79_reproducible",
    "Tsetlini.C79_again",
    "Tsetlini.C79_identifies",
    "Tsetlini.C79_class"
   ],
   "note": "C79_again and C79_identifies are for fitted estimators with finite float parameters and a number_of_states that works; the text of a generator is a parameter of the model assumed faithful (as in C73)."
  },
  {
   "property": "C80",
   "status": "proved",
   "theorems": [
    "Tsetlini.C80_fit_together",
    "Tsetlini.C80_saved",
    "Tsetlini.C80_bitwise_as_classic",
    "Tsetlini.C80_any_model",
    "Tsetlini.C80_mismatched",
    "Tsetlini.C80_saved_text",
    "Tsetlini.C80_any_text",
    "Tsetlini.C80_foreign_text"
   ],
   "note": "Finite float parameters (C30) and faithful generator serialisation are assumed where a state is saved first; ModelOf bounds the sizes by the library's own 32-bit limits. C80_saved_text, C80_any_text and C80_foreign_text say it of the bytes of JSON texts, the others of JSON values."
  },
  {
   "property": "C81",
   "status": "proved",
   "theorems": [
    "Tsetlini.C81_changed",
    "Tsetlini.C81_quiet",
    "Tsetlini.C81_counting_type",
    "Tsetlini.C81_predictions",
    "Tsetlini.C81_changed_predicts",
    "Tsetlini.C81_changed_quietly",
    "Tsetlini.C81_threshold"
   ],
   "note": "One setting at a time (the result is again a reachable estimator, so edits compose). Finite float parameters and faithful generator serialisation are assumed as in C30. evaluate needs samples predict would accept where the tile size differs (C05)."
  },
  {
   "property": "C82",
   "status": "proved",
   "theorems": [
    "Tsetlini.C82_numbers",
    "Tsetlini.C82_bits",
    "Tsetlini.C82_tables",
    "Tsetlini.C82_copies"
   ],
   "note": "Shapes whose size arithmetic wraps are excluded (C39_wraps); an assignment of a matrix to itself is not considered. A write into padding, which the library never does, would be seen by operator== (example)."
  },
  {
   "property": "C83",
   "status": "proved",
   "theorems": [
    "Tsetlini.C83_unspecific",
    "Tsetlini.C83_unspecific_fit",
    "Tsetlini.C83_unspecific_regressor",
    "Tsetlini.C83_unspecific_fit_regressor",
    "Tsetlini.C83_specific",
    "Tsetlini.C83_specific_regressor"
   ],
   "note": "Beyond 2^24 features s = 1 may not choose all of them (or, C32_hangs, never end), so the first part is stated up to there."
  },
  {
   "property": "C84",
   "status": "proved",
   "theorems": [
    "Tsetlini.C84_classifier",
    "Tsetlini.C84_regressor",
    "Tsetlini.C84_unlearnable",
    "Tsetlini.C84_unlearnable_bitwise",
    "Tsetlini.C84_unlearnable_regressor"
   ],
   "note": "Finding: with empty clauses a classifier or regressor can be stuck with a wrong prediction for a training sample (C84_unlearnable*); training with other samples may still change it."
  },
  {
   "property": "C85",
   "status": "proved",
   "theorems": [
    "Tsetlini.C85_score",
    "Tsetlini.C85_predict",
    "Tsetlini.C85_response",
    "Tsetlini.C85_irrelevant",
    "Tsetlini.C85_irrelevant_regressor"
   ],
   "note": "About scores and predictions, not about training, which draws random numbers per feature and clause and so does depend on their order. Both estimators have the same threshold and number of clauses."
  },
  {
   "property": "C86",
   "status": "proved",
   "theorems": [
    "Tsetlini.C86_lines",
    "Tsetlini.C86_unique"
   ],
   "note": "The numbers are the values of the floating-point parameters; the signs of zeros and NaNs, which the model's numbers do not have, are not shown. The format is that of the C locale."
  },
  {
   "property": "C87",
   "status": "proved",
   "theorems": [
    "Tsetlini.C87_classifier",
    "Tsetlini.C87_regressor"
   ],
   "note": "Existence: nothing is said of what training finds. n = 0 is excluded: a clause without literals does not count in predictions."
  },
  {
   "property": "C88",
   "status": "proved",
   "theorems": [
    "Tsetlini.C88_classifier",
    "Tsetlini.C88_regressor"
   ],
   "note": "A counting argument: the function is shown to exist, not exhibited. The only use of Mathlib (Mathlib.Data.Fintype.BigOperators, in Lemmas/Few.lean)."
  }
 ]
}