{
 "claims": [
  {
   "property": "C01",
   "status": "partial",
   "theorems": [
    "Verif.CodecProps.C01_text_roundtrip",
    "Verif.CodecProps.C01_no_points",
    "Verif.CodecProps.C01_array_roundtrip_partial",
    "Verif.CodecProps.C01_array_one_point_wrong",
    "Verif.CodecProps.C01_array_roundtrip_false",
    "Verif.CodecProps.C01_format",
    "Verif.CodecProps.C01_text_form",
    "Verif.CodecProps.C01_injective",
    "Verif.CodecProps.C01_text_readable",
    "Verif.CodecProps.C01_lone_number"
   ],
   "note": "Full round trip for the text form. For the array form the round trip holds from two points on; C01_array_roundtrip_false shows a one-point vector comes back wrong."
  },
  {
   "property": "C02",
   "status": "partial",
   "theorems": [
    "Verif.ActivationProps.C02_constructor_false",
    "Verif.ActivationProps.C02_constructor_wrong_vector",
    "Verif.CodecProps.C02_integer_value",
    "Verif.CodecProps.C02_integer_roundtrip",
    "Verif.CodecProps.C02_integer_read",
    "Verif.CodecProps.C02_integer_injective",
    "Verif.CodecProps.C02_bitarray"
   ],
   "note": "Conversions proved both ways, including refusal of integers too big for the length in _integer_to_raw. The constructor accepts too big integers when WILL_COMPARE is off (C02_constructor_false)."
  },
  {
   "property": "C03",
   "status": "partial",
   "theorems": [
    "Verif.ActivationProps.C03_storage_invisible_partial",
    "Verif.ActivationProps.C03_creation_partial",
    "Verif.ActivationProps.C03_no_interference",
    "Verif.ActivationProps.C03_clear",
    "Verif.ActivationProps.C03_copy",
    "Verif.ActivationProps.C03_one_point_false",
    "Verif.ActivationProps.C03_empty_false",
    "Verif.ActivationProps.C03_lasy_false",
    "Verif.ActivationProps.C03_empty_bits_false",
    "Verif.ActivationProps.C03_bytes_false"
   ],
   "note": "Proved over all histories of operations for non-empty vectors (two points or more under DTYPE=np.ndarray) and lasy=False; the three excluded cases are violations, proved as C03_*_false."
  },
  {
   "property": "C04",
   "status": "proved",
   "theorems": [
    "Verif.ActivationProps.C04_entropy",
    "Verif.ActivationProps.C04_entropy_one_point"
   ],
   "note": "Over all histories; one-point vectors under DTYPE=np.ndarray by a separate theorem about construction."
  },
  {
   "property": "C05",
   "status": "partial",
   "theorems": [
    "Verif.ActivationProps.C05_pointwise_partial",
    "Verif.ActivationProps.C05_never_wrong",
    "Verif.ActivationProps.C05_length_mismatch",
    "Verif.ActivationProps.C05_integers_raise",
    "Verif.ActivationProps.C05_integers_false"
   ],
   "note": "Right whenever it returns; two activations stored as integers always raise (violation); a taken file name raises."
  },
  {
   "property": "C06",
   "status": "partial",
   "theorems": [
    "Verif.ActivationProps.C06_multi_partial",
    "Verif.ActivationProps.C06_multi_asarray",
    "Verif.ActivationProps.C06_memory_error",
    "Verif.BinaryProps.C06_binary",
    "Verif.BinaryProps.C06_other_numbers_false"
   ],
   "note": "All memory reports; one-point vectors under DTYPE=np.ndarray and empty lists are outside the hypotheses of the activation version, not of the array version. An array with other numbers than 0 and 1 given as activation makes the result depend on the free memory (`C06_other_numbers_false`)."
  },
  {
   "property": "C07",
   "status": "partial",
   "theorems": [
    "Verif.ActivationProps.C07_multi_xor_partial",
    "Verif.ActivationProps.C07_multi_xor_asarray",
    "Verif.ActivationProps.C07_two",
    "Verif.ActivationProps.C07_single_false"
   ],
   "note": "At least two operands; for a single operand the claim is false (C07_single_false)."
  },
  {
   "property": "C08",
   "status": "partial",
   "theorems": [
    "Verif.ActivationProps.C08_difference_partial",
    "Verif.ActivationProps.C08_difference_never_wrong",
    "Verif.ActivationProps.C08_integers_false",
    "Verif.ActivationProps.C08_sum_is_left",
    "Verif.ActivationProps.C08_sum_false"
   ],
   "note": "Difference: right whenever it returns, always returns unless the left operand is an integer or in a file. Sum: false, a + b is a."
  },
  {
   "property": "C09",
   "status": "partial",
   "theorems": [
    "Verif.ActivationProps.C09_contains_exact",
    "Verif.ActivationProps.C09_contains_partial",
    "Verif.ActivationProps.C09_contains_answers_partial",
    "Verif.ActivationProps.C09_contains_false"
   ],
   "note": "Exact meaning proved (one of the two is included in the other), which makes the claim false (C09_contains_false); right when the container marks at least as many points."
  },
  {
   "property": "C10",
   "status": "proved",
   "theorems": [
    "Verif.ActivationProps.C10_value",
    "Verif.ActivationProps.C10_similarity",
    "Verif.ActivationProps.C10_triangle",
    "Verif.ActivationProps.C10_length_mismatch"
   ],
   "note": "Over all histories."
  },
  {
   "property": "C11",
   "status": "partial",
   "theorems": [
    "Verif.ConditionProps.C11_evaluate",
    "Verif.ConditionProps.C11_evaluate_named",
    "Verif.ConditionProps.C11_out_of_range_partial",
    "Verif.ConditionProps.C11_missing_column_partial",
    "Verif.ConditionProps.C11_out_of_range_false",
    "Verif.ConditionProps.C11_no_feature_false",
    "Verif.ConditionProps.C11_given"
   ],
   "note": "Exact for arrays and DataFrames, all reachable conditions. Missing columns: IndexError for possible conditions; an impossible condition gives zeros instead (violation). A condition without features raises on DataFrames (violation)."
  },
  {
   "property": "C12",
   "status": "proved",
   "theorems": [
    "Verif.ConditionProps.C12_order_of_arguments",
    "Verif.ConditionProps.C12_order_default_names",
    "Verif.ConditionProps.C12_order_irrelevant",
    "Verif.ConditionProps.C12_sort"
   ],
   "note": "Constructor arguments in any order give the same condition or the same exception; evaluation, equality and sort."
  },
  {
   "property": "C13",
   "status": "partial",
   "theorems": [
    "Verif.ConditionProps.C13_evaluate_partial",
    "Verif.ConditionProps.C13_index_error",
    "Verif.ConditionProps.C13_nan_false"
   ],
   "note": "Evaluation of the intersection proved for bounds which are not NaN (false with NaN bounds). IndexError exactly on disagreement. Operands unchanged: conditions are values in this model."
  },
  {
   "property": "C14",
   "status": "partial",
   "theorems": [
    "Verif.ConditionProps.C14_well_formed_partial",
    "Verif.ConditionProps.C14_impossible_false",
    "Verif.ConditionProps.C14_no_feature_false",
    "Verif.ConditionProps.C14_rejected_false",
    "Verif.ConditionProps.C14_filled"
   ],
   "note": "Same lengths, distinct names and indexes, over all sequences of assignments, for conditions with features; conditions made empty are filled in any order of assignments (C14_filled); the impossible flag is exactly 'was impossible at some time', which makes the claim false after a repair."
  },
  {
   "property": "C15",
   "status": "partial",
   "theorems": [
    "Verif.ConditionProps.C15_equal",
    "Verif.ConditionProps.C15_only_if_partial",
    "Verif.ConditionProps.C15_same_rows",
    "Verif.ConditionProps.C15_collision_false",
    "Verif.ConditionProps.C15_repaired_false"
   ],
   "note": "Equality holds for equal requirements, whatever the hash functions; conversely up to hash collisions, which do happen (hash(-1) == hash(-2))."
  },
  {
   "property": "C16",
   "status": "partial",
   "theorems": [
    "Verif.ThresholdProps.C16_unlisted",
    "Verif.ThresholdProps.C16_absent",
    "Verif.ThresholdProps.C16_accepts_partial",
    "Verif.ThresholdProps.C16_bad_limit",
    "Verif.ThresholdProps.C16_unknown_arg",
    "Verif.ThresholdProps.C16_text",
    "Verif.ThresholdProps.C16_nan",
    "Verif.ThresholdProps.C16_nan_limit",
    "Verif.ThresholdProps.C16_unchanged",
    "Verif.ThresholdProps.C16_default_coverage",
    "Verif.ThresholdProps.C16_nan_false"
   ],
   "note": "Exact answer for numeric values and limits which are not NaN; unlisted and absent attributes pass; a limit naming an attribute that is missing raises; configuration unchanged; default coverage. Values which are NaN or texts: exact answer, which is not the documented one (C16_nan_false, C16_text: texts can only be rejected or raise). Limits which are NaN: exact answer (C16_nan_limit)."
  },
  {
   "property": "C17",
   "status": "proved",
   "theorems": [
    "Verif.RuleProps.C17_stays_rejected",
    "Verif.RuleProps.C17_good_iff",
    "Verif.RuleProps.C17_check",
    "Verif.RuleProps.C17_good_within_limits",
    "Verif.RuleProps.C17_eval_rejected"
   ],
   "note": "Over all histories of calls, thresholds free to change between calls; the record of answers is a ghost field written where checks are made (C17_check). A rule good after fit or eval is within all limits."
  },
  {
   "property": "C18",
   "status": "partial",
   "theorems": [
    "Verif.RulePredictProps.C18_frame_partial",
    "Verif.RulePredictProps.C18_one_row",
    "Verif.RulePredictProps.C18_one_row_false",
    "Verif.RulePredictProps.C18_array",
    "Verif.RuleProps.C18_predict_number",
    "Verif.RuleProps.C18_predict_class_partial",
    "Verif.RuleProps.C18_predict_array",
    "Verif.RuleProps.C18_predict_array_class_partial",
    "Verif.RuleProps.C18_vector_partial",
    "Verif.RuleProps.C18_unfitted",
    "Verif.RuleProps.C18_long_name_false",
    "Verif.RuleProps.C18_nan_name_false",
    "Verif.RuleProps.C18_no_feature_false"
   ],
   "note": "Numbers: exact, stored activation and new arrays. Class names: up to 32 characters and not 'nan' (both false otherwise); calc_prediction_vector is wrong for rules without features. DataFrames: a Series with the index of the DataFrame, but a single value for one row (violation). Conditions without features are excluded for DataFrames."
  },
  {
   "property": "C19",
   "status": "partial",
   "theorems": [
    "Verif.RuleStatProps.C19_prediction",
    "Verif.RuleStatProps.C19_std_partial",
    "Verif.RuleStatProps.C19_std_no_target_false",
    "Verif.RuleStatProps.C19_std_one_target_false"
   ],
   "note": "After any successful fit of a rule still good or with force_if_not_good, exact arithmetic, square root by its sign behaviour. Prediction, bounds, sign: exact. Standard deviation false for one activated point without target, and for several with only one target."
  },
  {
   "property": "C20",
   "status": "partial",
   "theorems": [
    "Verif.RuleStatProps.C20_frequencies",
    "Verif.RuleStatProps.C20_number",
    "Verif.RuleStatProps.C20_text_partial",
    "Verif.RuleStatProps.C20_no_point",
    "Verif.RuleStatProps.C20_text_false"
   ],
   "note": "Frequencies exact. Most frequent class, smallest on ties: for numbers; for texts when the texts of frequencies are ordered as numbers, false otherwise (20000 points)."
  },
  {
   "property": "C21",
   "status": "partial",
   "theorems": [
    "Verif.RuleSetProps.C21_predict_partial",
    "Verif.RuleSetProps.C21_predict_stacked_partial",
    "Verif.VoteProps.C21_unstacked_partial",
    "Verif.VoteProps.C21_stacked_partial",
    "Verif.VoteProps.C21_stack",
    "Verif.VoteProps.C21_agree_partial",
    "Verif.VoteProps.C21_order_partial",
    "Verif.VoteProps.C21_attribute_partial",
    "Verif.VoteProps.C21_cancel_false",
    "Verif.VoteProps.C21_zero_false",
    "Verif.VoteProps.C21_order_false",
    "Verif.VoteProps.C21_no_weight_false",
    "Verif.VoteProps.C21_stacked_none_false",
    "Verif.VoteProps.C21_nan_false"
   ],
   "note": "Exact arithmetic. Stacked: full for rules with different condition texts, some rule with a weight active somewhere (raises otherwise). Unstacked: when no weighted sum is zero and the first rule with a weight does not predict 0; false otherwise (missing or TypeError), and false for rules predicting NaN. Agreement and order under these conditions."
  },
  {
   "property": "C22",
   "status": "partial",
   "theorems": [
    "Verif.RuleSetProps.C22_predict_partial",
    "Verif.RuleSetProps.C22_predict_stacked_partial",
    "Verif.UnfittedProps.C22_unfitted_stacked",
    "Verif.VoteProps.C22_unstacked_partial",
    "Verif.VoteProps.C22_stacked",
    "Verif.VoteProps.C22_mean_unique",
    "Verif.VoteProps.C22_cancel_false",
    "Verif.VoteProps.C22_zero_false",
    "Verif.VoteProps.C22_count_false",
    "Verif.VoteProps.C22_changes_false"
   ],
   "note": "Stacked: for rules with different condition texts. Unstacked: when no sum is zero, the first prediction is not 0, and at most 255 rules are active at a point; false otherwise. Computing from stored activations changes the first rule (violation)."
  },
  {
   "property": "C23",
   "status": "partial",
   "theorems": [
    "Verif.RuleSetProps.C23_predict_partial",
    "Verif.RuleSetProps.C23_predict_stacked_partial",
    "Verif.VoteProps.C23_unstacked_partial",
    "Verif.VoteProps.C23_stacked_partial",
    "Verif.VoteProps.C23_agree_false",
    "Verif.VoteProps.C23_none_false"
   ],
   "note": "Unstacked: exact for weights which are not negative; raises when nothing is active anywhere. Stacked: exactly the vote of the heaviest active rules, which differs (C23_agree_false)."
  },
  {
   "property": "C24",
   "status": "partial",
   "theorems": [
    "Verif.RuleSetProps.C24_predict_partial",
    "Verif.RuleSetProps.C24_predict_stacked_partial",
    "Verif.VoteProps.C24_unstacked_partial",
    "Verif.VoteProps.C24_stacked_partial",
    "Verif.VoteProps.C24_stacked_one_false",
    "Verif.VoteProps.C24_stacked_none_false",
    "Verif.VoteProps.C24_none_false",
    "Verif.VoteProps.C24_nan_false"
   ],
   "note": "Unstacked: exact; raises when nothing is active anywhere. Stacked: when at least two points are decided; false with one or none (proved for all rules), and for a class called nan."
  },
  {
   "property": "C25",
   "status": "partial",
   "theorems": [
    "Verif.RuleSetProps.C25_union_partial",
    "Verif.RuleSetProps.C25_empty",
    "Verif.RuleSetProps.C25_stacked_partial",
    "Verif.RuleSetProps.C25_no_update_false",
    "Verif.RuleSetProps.C25_no_compute_false",
    "Verif.RuleSetProps.C25_no_activation_false",
    "Verif.RuleSetProps.C25_same_text_false",
    "Verif.RuleSetProps.C25_mixed_stack_false"
   ],
   "note": "Over all sequences of construction, append, += and + of rulesets which update activations, rules with activations of n points. Coverage by C37. False without update, for rules without activation, for stacked columns of rules with the same condition text, and for mixed stack settings."
  },
  {
   "property": "C26",
   "status": "partial",
   "theorems": [
    "Verif.RuleSetProps.C26_add_partial",
    "Verif.RuleSetProps.C26_add_stack",
    "Verif.RuleSetProps.C26_iadd",
    "Verif.RuleSetProps.C26_append",
    "Verif.RuleSetProps.C26_add_rule",
    "Verif.RuleSetProps.C26_types",
    "Verif.RuleSetProps.C26_collision_false",
    "Verif.RuleSetProps.C26_indexes_false"
   ],
   "note": "Rules of the sum up to rule equality, order of +=, refusals. Rule equality is equality of hashes of conditions, so collisions lose rules (C26_collision_false); allIndexes not empty changes indexes (C26_indexes_false). Operands unchanged: rulesets are values in this model."
  },
  {
   "property": "C27",
   "status": "partial",
   "theorems": [
    "Verif.RuleSetProps.C27_same_rules",
    "Verif.RuleSetProps.C27_order_partial",
    "Verif.RuleSetProps.C27_again_partial",
    "Verif.RuleSetProps.C27_initial_order_partial",
    "Verif.RuleSetProps.C27_columns",
    "Verif.RuleSetProps.C27_criterion_partial",
    "Verif.RuleSetProps.C27_good",
    "Verif.RuleSetProps.C27_criterion_text",
    "Verif.RuleSetProps.C27_criterion_mixed",
    "Verif.RuleSetProps.C27_index_order_false",
    "Verif.RuleSetProps.C27_name_order_false",
    "Verif.RuleSetProps.C27_nan_false",
    "Verif.RuleSetProps.C27_no_feature_false",
    "Verif.RuleSetProps.C27_no_stack_false",
    "Verif.RuleSetProps.C27_criterion_nan_false",
    "Verif.TextProps.C27_texts"
   ],
   "note": "The texts of lists which Python writes can be told apart (C27_texts). Same rules and columns: full. Order, repetition, independence of initial order: for rules with names, bounds not NaN and texts of lists which can be told apart; order is that of texts of names and indexes (C27_index_order_false, C27_name_order_false: '10' before '2'). False with NaN bounds; raises for rules without features. By a criterion which is a number or a text: full and stable; false for NaN; values which cannot be compared raise and change nothing (C27_criterion_mixed)."
  },
  {
   "property": "C28",
   "status": "partial",
   "theorems": [
    "Verif.RuleSetProps.C28_fit",
    "Verif.RuleSetProps.C28_fit_partial",
    "Verif.RuleSetProps.C28_fit_activation",
    "Verif.RuleSetProps.C28_equal_false",
    "Verif.RuleSetProps.C28_fitted_false",
    "Verif.RuleSetProps.C28_clear_false",
    "Verif.RuleSetProps.C28_eval",
    "Verif.RuleSetProps.C28_eval_partial",
    "Verif.RuleSetProps.C28_eval_activation_partial",
    "Verif.RuleSetProps.C28_eval_zeros_false"
   ],
   "note": "Exact set of rules kept by fit and eval: good and not equal to a bad one; the good ones when no two rules are equal. Activation after fit: full. Activation after eval: when new activations are kept or nothing is dropped; zeros otherwise (violation). False for equal rules, for rules already fitted, after everything was dropped."
  },
  {
   "property": "C29",
   "status": "partial",
   "theorems": [
    "Verif.SaveProps.C29_spoilt",
    "Verif.SaveProps.C29_rules_partial",
    "Verif.SaveProps.C29_empty",
    "Verif.SaveProps.C29_test_size_false",
    "Verif.SaveProps.C29_figures_false",
    "Verif.SaveProps.C29_bounds_false",
    "Verif.SaveProps.C29_class_false",
    "Verif.SaveProps.C29_class_value_false",
    "Verif.SaveProps.C29_unsorted_false",
    "Verif.SaveProps.C29_figures"
   ],
   "note": "Rules come back in order with class, condition, prediction and figures, for conditions made by the sorting constructor with finite bounds, figures which are numbers or NaN, classes which are not taken for something else, and a read_csv which does not round. Texts of lists as Python writes them, with all escapes, are modelled and proved to be read back. False: size of the test set, coverage and criterion of the ruleset (come back as texts), NaN and infinite bounds (load raises), classes of two words (load raises), classes which look like numbers or missing values, unsorted conditions."
  },
  {
   "property": "C30",
   "status": "partial",
   "theorems": [
    "Verif.TreeProps.C30_rules",
    "Verif.TreeProps.C30_covers",
    "Verif.TreeProps.C30_only_partial",
    "Verif.TreeProps.C30_within",
    "Verif.TreeProps.C30_prediction",
    "Verif.TreeProps.C30_unique_partial",
    "Verif.TreeProps.C30_return_false",
    "Verif.TreeProps.C30_threshold_false",
    "Verif.TreeProps.C30_value_false",
    "Verif.TreeProps.C30_root_false",
    "Verif.TreeProps.C30_names_false"
   ],
   "note": "For arrays which hold a tree, sortable settings, different names and bounds which are not NaN. Number, order, features and predictions of the rules, and that samples falling in a leaf activate its rule: full. Only-if: for comparisons which are not followed by a right turn on the same feature; false otherwise (C30_return_false, line 178 restores the maximum). False: a tree of one leaf raises, names are needed with recent sklearn, without get_leaf the predictions are those of the parents. sklearn itself, recursion beyond the limit of Python and the overflow of numbers are not modelled."
  },
  {
   "property": "C31",
   "status": "partial",
   "theorems": [
    "Verif.ActivationProps.C31_no_sharing",
    "Verif.ActivationProps.C31_no_overwrite",
    "Verif.ActivationProps.C31_delete",
    "Verif.ActivationProps.C31_user_files",
    "Verif.ActivationProps.C31_no_leak_partial",
    "Verif.ActivationProps.C31_clear_leaks_false",
    "Verif.ActivationProps.C31_sub_leaks_false",
    "Verif.ActivationProps.C31_collision_raises",
    "Verif.ActivationProps.C31_lasy_overwrites_false",
    "Verif.ActivationProps.C31_double_delete_false",
    "Verif.ActivationProps.C31_clean_files"
   ],
   "note": "No sharing, no overwriting, delete: over all histories with lasy=False. No leak: without clear and -, which leak (violations). lasy and double delete violate it."
  },
  {
   "property": "C32",
   "status": "partial",
   "theorems": [
    "Verif.RuleSetProps.C32_accepted",
    "Verif.RuleSetProps.C32_refused_partial",
    "Verif.RuleSetProps.C32_refused_set",
    "Verif.RuleSetProps.C32_settings_false",
    "Verif.RuleSetProps.C32_stale_false",
    "Verif.RuleSetProps.C32_length_false"
   ],
   "note": "Accepted: full. Refused with different types: nothing changes for +=; append with update_activation=False loses the settings (C32_settings_false)."
  },
  {
   "property": "C33",
   "status": "partial",
   "theorems": [
    "Verif.FigureProps.C33_mse_norm_baseline",
    "Verif.FigureProps.C33_aae_baseline",
    "Verif.FigureProps.C33_infinite",
    "Verif.FigureProps.C33_median",
    "Verif.MeasureProps.C33_mse",
    "Verif.MeasureProps.C33_mae",
    "Verif.MeasureProps.C33_mse_norm_partial",
    "Verif.MeasureProps.C33_mse_norm_missing",
    "Verif.MeasureProps.C33_aae_partial",
    "Verif.MeasureProps.C33_aae_missing",
    "Verif.MeasureProps.C33_mae_norm_infinite",
    "Verif.MeasureProps.C33_mae_norm_false",
    "Verif.MeasureProps.C33_success_rate",
    "Verif.MeasureProps.C33_success_rate_vector",
    "Verif.MeasureProps.C33_rule_mse",
    "Verif.MeasureProps.C33_rule_success"
   ],
   "note": "Exact arithmetic, targets as arrays. mse, mae, success rates, criterion of an evaluated rule; mse_norm and aae for targets all present, median exact, no constant prediction is better than the baseline; infinite predictions; mae_norm is false (divides by zero)."
  },
  {
   "property": "C34",
   "status": "partial",
   "theorems": [
    "Verif.RuleSetProps.C34_contains_partial",
    "Verif.RuleSetProps.C34_monotone",
    "Verif.RuleSetProps.C34_member",
    "Verif.RuleSetProps.C34_prediction_false",
    "Verif.TextProps.C34_numbers_partial"
   ],
   "note": "With the texts of Python and numbers as predictions: exact (C34_numbers_partial). For texts of lists which can be told apart: same features (names if the ruleset has names, indexes otherwise), bounds and text of prediction; different predictions can have the same text (C34_prediction_false)."
  },
  {
   "property": "C35",
   "status": "partial",
   "theorems": [
    "Verif.RuleSetProps.C35_fit_false",
    "Verif.RuleSetProps.C35_features_partial",
    "Verif.RuleSetProps.C35_counter",
    "Verif.RuleSetProps.C35_counter_false",
    "Verif.RuleSetProps.C35_order_false"
   ],
   "note": "Over all sequences of additions; the counter of a ruleset with names. False: order of the indexes is that of a Python set (C35_order_false), counter without names raises, and after fit drops rules (C35_fit_false)."
  },
  {
   "property": "C36",
   "status": "partial",
   "theorems": [
    "Verif.ActivationProps.C36_settings_partial",
    "Verif.ActivationProps.C36_assigned",
    "Verif.ActivationProps.C36_settings_false",
    "Verif.ActivationProps.C36_settings_off_false"
   ],
   "note": "Over all histories on live objects; false for deleted ones."
  },
  {
   "property": "C37",
   "status": "partial",
   "theorems": [
    "Verif.FigureProps.C37_coverage_partial",
    "Verif.FigureProps.C37_fit",
    "Verif.FigureProps.C37_assigned_false"
   ],
   "note": "Over all histories in which no coverage is assigned; an assigned coverage stays (C37_assigned_false)."
  },
  {
   "property": "C38",
   "status": "proved",
   "theorems": [
    "Verif.FigureProps.C38_zscore"
   ],
   "note": "Exact arithmetic, the square root as a parameter."
  },
  {
   "property": "C39",
   "status": "partial",
   "theorems": [
    "Verif.RuleSetProps.C39_equal",
    "Verif.RuleSetProps.C39_only_if_partial",
    "Verif.RuleSetProps.C39_equivalence",
    "Verif.RuleSetProps.C39_collision_false"
   ],
   "note": "If: full, for conditions made by the constructors and updates. Only if: up to collisions of the hashes of names and bounds, which do happen (C39_collision_false: -1 and -2). Equivalence: full; a rule whose hash raises makes the comparison raise."
  },
  {
   "property": "C40",
   "status": "partial",
   "theorems": [
    "Verif.RuleSetProps.C40_accepted",
    "Verif.RuleSetProps.C40_exactly",
    "Verif.RuleSetProps.C40_added_false"
   ],
   "note": "Made from rules: exact, for texts of lists which can be told apart (as Python writes them, C27_texts) and predictions compared as texts. append and += of a ruleset do not check again (C40_added_false)."
  },
  {
   "property": "C41",
   "status": "partial",
   "theorems": [
    "Verif.RuleSetProps.C41_slice_partial",
    "Verif.RuleSetProps.C41_activation_partial",
    "Verif.RuleSetProps.C41_step",
    "Verif.RuleSetProps.C41_item",
    "Verif.RuleSetProps.C41_indexes_false"
   ],
   "note": "Exact positions and order for any start, stop and step, when allIndexes is empty; otherwise the indexes of the rules change (C41_indexes_false). The result never has a stack; its activation is that of the rules selected when all rules have one (C41_activation_partial)."
  },
  {
   "property": "C42",
   "status": "proved",
   "theorems": [
    "Verif.RuleSetProps.C42_mse",
    "Verif.RuleSetProps.C42_measure",
    "Verif.RuleSetProps.C42_default",
    "Verif.RuleSetProps.C42_no_prediction",
    "Verif.RuleSetProps.C42_success",
    "Verif.RuleSetProps.C42_train_size",
    "Verif.RuleSetProps.C42_eval"
   ],
   "note": "Regression: mean squared error and the default measure in all cases; classification: success rate among the activated points; nothing predicted: NaN; sizes noted by fit and eval. Relative to the predictions, described by C21 to C24."
  },
  {
   "property": "C43",
   "status": "partial",
   "theorems": [
    "Verif.RuleSetProps.C43_removed",
    "Verif.RuleSetProps.C43_left_false",
    "Verif.RuleSetProps.C43_rules_partial",
    "Verif.RuleSetProps.C43_same_partial",
    "Verif.RuleSetProps.C43_one_point_false",
    "Verif.RuleSetProps.C43_bad_kept_false",
    "Verif.RuleSetProps.C43_repeated_false",
    "Verif.RuleSetProps.C43_texts_false",
    "Verif.RuleSetProps.C43_class_false",
    "Verif.RuleSetProps.C43_raises_false",
    "Verif.RuleSetProps.C43_refit_false",
    "Verif.RuleSetProps.C43_activation_false",
    "Verif.RuleSetProps.C43_setting_false",
    "Verif.RuleSetProps.C43_mixed_false"
   ],
   "note": "When both fits go through, for rules with different conditions and condition texts: every rule gets the same activation, verdict and figures; the same ruleset when no bad rule is kept. Numbers: rules with one activated point differ (standard deviation). Classes: numbers, or texts other than '' and 'zero'. False: bad rules kept, repeated rules in the returned list, same texts, IndexError for rules without activated point, TypeError when the most frequent classes are a number and a text, rules fitted again, activation not computed, stack_activation left True. Stacked activations which are not to be kept are removed, unless the fit raises."
  },
  {
   "property": "C44",
   "status": "partial",
   "theorems": [
    "Verif.RuleSetProps.C44_ruleset_partial",
    "Verif.RuleSetProps.C44_stacked",
    "Verif.RuleSetProps.C44_stale_false",
    "Verif.RuleSetProps.C44_rules_partial",
    "Verif.RuleSetProps.C44_same_partial",
    "Verif.RuleSetProps.C44_bad_kept_false",
    "Verif.RuleSetProps.C44_class_false",
    "Verif.RuleSetProps.C44_missing_false",
    "Verif.RuleSetProps.C44_empty_false",
    "Verif.RuleSetProps.C44_texts_false",
    "Verif.RuleSetProps.C44_raises_false",
    "Verif.RuleSetProps.C44_activation_false",
    "Verif.RuleSetProps.C44_cleared_false"
   ],
   "note": "When both evals go through, for rules with different conditions and condition texts: every rule gets the same verdict, reason, criterion and activation; good rules are kept, only bad ones returned, none twice; the same rules when no bad rule is kept, and then, without stacked activations, the same activations and criterion of the ruleset. With them, they are those of the rules afterwards. Classes: numbers other than NaN, or texts other than '' and 'zero'; regression rules with features. False: bad rules kept, class 'zero', missing targets, rules without features, same texts, rules without activation, activations after the criterion of the ruleset."
  },
  {
   "property": "C45",
   "status": "partial",
   "theorems": [
    "Verif.MeetProps.C45_commutative_partial",
    "Verif.MeetProps.C45_associative_partial",
    "Verif.MeetProps.C45_idempotent",
    "Verif.MeetProps.C45_nan_false"
   ],
   "note": "For conditions however made and changed. Order and grouping: literally the same result, exceptions included, for bounds other than NaN; false for NaN (C45_nan_false). Repetition: full."
  },
  {
   "property": "C46",
   "status": "partial",
   "theorems": [
    "Verif.MeetProps.C46_activation",
    "Verif.MeetProps.C46_evaluate_partial",
    "Verif.MeetProps.C46_new",
    "Verif.MeetProps.C46_coverage",
    "Verif.MeetProps.C46_fit",
    "Verif.MeetProps.C46_fails",
    "Verif.MeetProps.C46_commutative_partial",
    "Verif.MeetProps.C46_unfitted_false"
   ],
   "note": "Activation, coverage, verdict, absence of figures, prediction after fit, exceptions: full, for whatever can or cannot be stored (parameter `fits`). Agreement of condition and activation and order of the operands: bounds other than NaN. False: rules without activation cannot be combined though their conditions can."
  },
  {
   "property": "C47",
   "status": "partial",
   "theorems": [
    "Verif.RuleHeapProps.C47_missing",
    "Verif.RuleHeapProps.C47_exact",
    "Verif.RuleHeapProps.C47_contains_partial",
    "Verif.RuleHeapProps.C47_answers_partial",
    "Verif.RuleHeapProps.C47_meet",
    "Verif.RuleHeapProps.C47_contains_false",
    "Verif.RuleHeapProps.C47_answers_false"
   ],
   "note": "Exact meaning proved: one of the two activations is included in the other. As documented when r1 activates at least as many points; false otherwise (C47_contains_false). Raises for two activations kept as integers and for deleted ones (C47_answers_false)."
  },
  {
   "property": "C48",
   "status": "partial",
   "theorems": [
    "Verif.RuleHeapProps.C48_value_partial",
    "Verif.RuleHeapProps.C48_similarity_partial",
    "Verif.RuleHeapProps.C48_lengths",
    "Verif.RuleHeapProps.C48_features_false",
    "Verif.RuleHeapProps.C48_zero_false"
   ],
   "note": "For rules with the same number of features and predictions which are numbers other than 0. False: different numbers of features raise, since len(rule) is compared; prediction 0 gives NaN or ZeroDivisionError; text classes raise."
  },
  {
   "property": "C49",
   "status": "partial",
   "theorems": [
    "Verif.RuleHeapProps.C49_deleted",
    "Verif.RuleHeapProps.C49_figures",
    "Verif.RuleHeapProps.C49_coverage",
    "Verif.RuleHeapProps.C49_others",
    "Verif.RuleHeapProps.C49_activation_raises",
    "Verif.RuleHeapProps.C49_activation_false"
   ],
   "note": "Availability, figures read before, coverage of the rule, other rules: full. False: `activation` raises after deletion instead of being None (unless the vector was stored as it is)."
  },
  {
   "property": "C50",
   "status": "partial",
   "theorems": [
    "Verif.RuleAttrProps.C50_read",
    "Verif.RuleAttrProps.C50_write",
    "Verif.RuleAttrProps.C50_assignable",
    "Verif.RuleAttrProps.C50_condition_untouched",
    "Verif.RuleAttrProps.C50_assign_false"
   ],
   "note": "Reading, assigned names and the other names, which names are assignable: full. False: an assignment never reaches the condition, it only hides it."
  },
  {
   "property": "C51",
   "status": "partial",
   "theorems": [
    "Verif.SettingsProps.C51_in_force",
    "Verif.SettingsProps.C51_checks_partial",
    "Verif.SettingsProps.C51_shown",
    "Verif.SettingsProps.C51_own_false",
    "Verif.SettingsProps.C51_remove_false",
    "Verif.SettingsProps.C51_future_false"
   ],
   "note": "Settings of classes: full. Checks against the thresholds of the class at that moment. False: `set_thresholds` has no effect on checks, `set_thresholds(None)` raises or does nothing, settings for \"future rules\" apply to existing ones, which do not show them."
  },
  {
   "property": "C52",
   "status": "partial",
   "theorems": [
    "Verif.SetHeapProps.C52_separate",
    "Verif.SetHeapProps.C52_union",
    "Verif.SetHeapProps.C52_computes_partial",
    "Verif.SetHeapProps.C52_unavailable",
    "Verif.SetHeapProps.C52_append",
    "Verif.SetHeapProps.C52_clear",
    "Verif.SetHeapProps.C52_live",
    "Verif.SetHeapProps.C52_deleted",
    "Verif.SetHeapProps.C52_own_deleted",
    "Verif.SetHeapProps.C52_coverage_false",
    "Verif.SetHeapProps.C52_coverage_deleted",
    "Verif.SetHeapProps.C52_append_false",
    "Verif.SetHeapProps.C52_stacked_false"
   ],
   "note": "Separation, the union, appending, clearing, both deletions: full, for rulesets whose rules have available activations of one length. That the activation can be computed needs enough memory. False: the coverage of the ruleset is lost by del_activation, append raises after it, stacked_activations_available raises without activation and otherwise does not look at stacked activations."
  },
  {
   "property": "C53",
   "status": "partial",
   "theorems": [
    "Verif.RuleSetProps.C53_rules",
    "Verif.RuleSetProps.C53_rulesets",
    "Verif.RuleSetProps.C53_contract_partial",
    "Verif.RuleSetProps.C53_rule_contract_partial",
    "Verif.RuleSetProps.C53_contract_false",
    "Verif.RuleSetProps.C53_flattened"
   ],
   "note": "Same requirements give equal hashes: full. Equality implies equal hashes unless hashes of requirements collide; false with the collision of -1 and -2, which the code takes for equality."
  },
  {
   "property": "C54",
   "status": "partial",
   "theorems": [
    "Verif.CondHeap.C54_program",
    "Verif.CondHeap.C54_others",
    "Verif.CondHeap.C54_meet",
    "Verif.CondHeap.C54_given_partial",
    "Verif.CondHeap.C54_given_false",
    "Verif.CondHeap.C54_assigned_false",
    "Verif.CondHeap.C54_put"
   ],
   "note": "Programs with lists written where they are used: full. `&`: full, whatever is shared. Lists given to the constructor are copied only by sorting several features; false for one feature or sort=False, and for assigned lists."
  },
  {
   "property": "C55",
   "status": "partial",
   "theorems": [
    "Verif.SetEvalProps.C55_evaluate",
    "Verif.SetEvalProps.C55_raises",
    "Verif.SetEvalProps.C55_order",
    "Verif.SetEvalProps.C55_more",
    "Verif.SetEvalProps.C55_self",
    "Verif.SetEvalProps.C55_calc",
    "Verif.SetEvalProps.C55_memory_false",
    "Verif.SetEvalProps.C55_empty_false",
    "Verif.SetEvalProps.C55_no_points_false"
   ],
   "note": "Full for calls which do not raise on at least one point. evaluate raises when memory lacks although evaluate_self_activation does not; the three differ on the empty ruleset and on no points."
  },
  {
   "property": "C56",
   "status": "partial",
   "theorems": [
    "Verif.RoundedProps.C56_coverage",
    "Verif.RoundedProps.C56_order",
    "Verif.RoundedProps.C56_threshold",
    "Verif.RoundedProps.C56_success",
    "Verif.RoundedProps.C56_class",
    "Verif.RoundedProps.C56_sum_partial",
    "Verif.RoundedProps.C56_sum_false"
   ],
   "note": "Full for classes which are numbers (texts are compared as texts, see C15). Probabilities sum to one only up to one rounding: false exactly. Overflow and underflow are not modelled."
  },
  {
   "property": "C57",
   "status": "partial",
   "theorems": [
    "Verif.RoundedProps.C57_mean",
    "Verif.RoundedProps.C57_column",
    "Verif.RoundedProps.C57_sign_partial",
    "Verif.RoundedProps.C57_sign_false",
    "Verif.RoundedProps.C57_order_false",
    "Verif.RoundedProps.C57_order_partial",
    "Verif.RoundedProps.C57_integers",
    "Verif.RoundedProps.C57_between_false",
    "Verif.RoundedProps.C57_std_partial",
    "Verif.RoundedProps.C57_std_error",
    "Verif.RoundedProps.C57_std_false",
    "Verif.RoundedProps.C57_mae",
    "Verif.RoundedProps.C57_mse"
   ],
   "note": "Error bounds are full. False of floats: the sign of the mean for targets of both signs, independence of the order, the mean lying between the targets, standard deviation zero for equal targets (witnesses); true of integers. The bound for the standard deviation concerns its square, and targets without missing values. Overflow and underflow are not modelled."
  },
  {
   "property": "C58",
   "status": "partial",
   "theorems": [
    "Verif.RoundedVoteProps.C58_weighted_partial",
    "Verif.RoundedVoteProps.C58_sign",
    "Verif.RoundedVoteProps.C58_stacked",
    "Verif.RoundedVoteProps.C58_order_partial",
    "Verif.RoundedVoteProps.C58_order_false",
    "Verif.RoundedVoteProps.C58_single_false",
    "Verif.RoundedVoteProps.C58_class_partial",
    "Verif.RoundedVoteProps.C58_class_integers",
    "Verif.RoundedVoteProps.C58_class_false"
   ],
   "note": "Error bounds are full, but unstacked the first rule with a weight must not predict 0 (see C21). False of floats: independence of the order of the rules (a number or NaN, a class or NaN), and that a ruleset of one rule predicts what the rule predicts (witnesses). Rules have different names. Overflow and underflow are not modelled."
  },
  {
   "property": "C59",
   "status": "partial",
   "theorems": [
    "Verif.RuleTypeProps.C59_typed",
    "Verif.RuleTypeProps.C59_typed_predict",
    "Verif.RuleTypeProps.C59_type_refused",
    "Verif.SetHistoryProps.C59_class_partial",
    "Verif.SetHistoryProps.C59_refused_partial",
    "Verif.SetHistoryProps.C59_assign_false",
    "Verif.SetHistoryProps.C59_assign_first_false",
    "Verif.SetHistoryProps.C59_assigned",
    "Verif.SetHistoryProps.C59_assign_error"
   ],
   "note": "Holds for all histories in which rules are assigned (`rs.rules = ...`) only if they are of the announced class. False for other assignments: the setter does not set the class (C59_assign_false, C59_assign_first_false); when the class is assigned too, the ruleset is the one which the constructor makes (C59_typed, C59_typed_predict)."
  },
  {
   "property": "C60",
   "status": "partial",
   "theorems": [
    "Verif.FrameHeapProps.C60_values_partial",
    "Verif.FrameHeapProps.C60_rest",
    "Verif.FrameHeapProps.C60_join_false",
    "Verif.FrameHeapProps.C60_fit_false"
   ],
   "note": "Full for histories in which no ruleset with stacked activations is added (`+=`) to one which stacks activations and has none. False then: both share one DataFrame, a rule added to one adds a column to the other (C60_join_false), and a later stacked fit gives a rule the prediction of a rule of another ruleset (C60_fit_false)."
  },
  {
   "property": "C61",
   "status": "partial",
   "theorems": [
    "Verif.SharedRulesProps.C61_fit_partial",
    "Verif.SharedRulesProps.C61_disjoint",
    "Verif.SharedRulesProps.C61_shared",
    "Verif.SharedRulesProps.C61_rule",
    "Verif.SharedRulesProps.C61_add",
    "Verif.SharedRulesProps.C61_make",
    "Verif.SharedRulesProps.C61_slice_false",
    "Verif.SharedRulesProps.C61_bad_false",
    "Verif.SharedRulesProps.C61_twice_false"
   ],
   "note": "The frame statements are full (C61_disjoint, C61_shared, C61_rule, C61_add, C61_make with `all_features_indexes` empty); that a fit acts as on values is shown for rulesets which have no rule object twice. The consistency of the original ruleset is false: after a slice was fitted on other data its activation is not that of its rules (C61_slice_false), and a rule which became bad and was dropped in the slice stays in the original (C61_bad_false)."
  },
  {
   "property": "C62",
   "status": "partial",
   "theorems": [
    "Verif.ShowTextProps.C62_rule_partial",
    "Verif.ShowTextProps.C62_set",
    "Verif.ShowTextProps.C62_class_false",
    "Verif.ShowTextProps.C62_apart_partial",
    "Verif.ShowTextProps.C62_columns_partial",
    "Verif.ShowTextProps.C62_names_false",
    "Verif.ShowTextProps.C62_same_partial",
    "Verif.ShowTextProps.C62_order_false",
    "Verif.ShowTextProps.C62_nameless_false",
    "Verif.ShowTextProps.C62_lines",
    "Verif.ShowTextProps.C62_dots_false"
   ],
   "note": "Telling apart: full for names which do not contain ' in ['; false otherwise (C62_names_false: two rules, one column) and for conditions without names (C62_nameless_false). Same texts: for features in the order of names; false for equal conditions in other orders (C62_order_false). Lines of a ruleset: full, except that with exactly 2 * NLINES rules the dots stand for nothing (C62_dots_false). Integers and floats as bounds have different texts in Python (not modelled)."
  },
  {
   "property": "C63",
   "status": "partial",
   "theorems": [
    "Verif.LoadFlagProps.C63_load",
    "Verif.RuleFlagProps.C63_fit",
    "Verif.RuleFlagProps.C63_fit_bad",
    "Verif.RuleFlagProps.C63_fit_leaves",
    "Verif.RuleFlagProps.C63_eval_leaves",
    "Verif.RuleFlagProps.C63_eval_partial",
    "Verif.RuleFlagProps.C63_eval_bad",
    "Verif.RuleFlagProps.C63_size",
    "Verif.RuleFlagProps.C63_size_partial",
    "Verif.RuleFlagProps.C63_size_false",
    "Verif.RuleFlagProps.C63_bad_false",
    "Verif.RuleFlagProps.C63_stale_false",
    "Verif.RuleFlagProps.C63_again_false"
   ],
   "note": "fit and what is left alone: full. eval: the flag for good rules only (C63_eval_partial); eval of a bad rule says that the rule is fitted instead of evaluated (C63_bad_false, C63_eval_bad). The size of the test set is never computed (C63_size, C63_size_false). A rule fitted again keeps the criterion of its former prediction (C63_stale_false), and a fitted rule ignores new targets given without features (C63_again_false). Rules read from a file: C63_load."
  },
  {
   "property": "C64",
   "status": "partial",
   "theorems": [
    "Verif.ActivationProps.C64_shows_partial",
    "Verif.ActivationProps.C64_storage_partial",
    "Verif.ActivationProps.C64_files_partial",
    "Verif.ActivationProps.C64_raises_partial",
    "Verif.ActivationProps.C64_idle",
    "Verif.ActivationProps.C64_lasy_false",
    "Verif.ActivationProps.C64_halfway_false"
   ],
   "note": "Over all histories with lasy=False and vectors with points; measures are operations of the histories, so C03-C10, C31, C36 hold with measures in between. It raises only on a taken file name. False for lasy activations not read yet (a file is left behind, delete removes the file of the user) and for activations without points (a measure which raises leaves another format)."
  },
  {
   "property": "C65",
   "status": "partial",
   "theorems": [
    "Verif.RuleSetProps.C65_series",
    "Verif.RuleSetProps.C65_sequence_partial",
    "Verif.RuleSetProps.C65_methods_partial",
    "Verif.RuleSetProps.C65_by_label",
    "Verif.RuleSetProps.C65_methods_false",
    "Verif.RuleSetProps.C65_raised_false",
    "Verif.RuleSetProps.C65_classes_raise",
    "Verif.RuleSetProps.C65_labels_raise"
   ],
   "note": "fit and eval of a Series, and sequences of calls none of which raises. False after a call which raised: the index of its targets stays on the stacked activations and a later fit with an array gets wrong deviations. False for calc_stds and calc_predictions called by the user, which for classes and deviations go by label (C65_by_label says exactly how) and for means by position, and raise TypeError when the labels do not match and a target is 0 or a text (C65_labels_raise)."
  },
  {
   "property": "C66",
   "status": "partial",
   "theorems": [
    "Verif.LocalProps.C66_rule",
    "Verif.LocalProps.C66_regression_partial",
    "Verif.LocalProps.C66_weighted_classes_partial",
    "Verif.LocalProps.C66_classes_partial",
    "Verif.LocalProps.C66_stacked_classes_partial",
    "Verif.LocalProps.C66_negative_false",
    "Verif.LocalProps.C66_raises_false",
    "Verif.LocalProps.C66_zero_false",
    "Verif.LocalProps.C66_stacked_false"
   ],
   "note": "Full for Rule.predict. For rulesets: regression in all four variants whenever both calls return; classification without stacked activations when the weights are not negative and some rule with a weight is active in each data set; with stacked activations and no weights when two points are decided in each data set. False otherwise: with a negative weight a point is undecided in the whole table and decided alone; a batch without active rule raises; with stacked activations the class of the only decided point goes to the first point of the batch."
  },
  {
   "property": "C67",
   "status": "partial",
   "theorems": [
    "Verif.RowOrderProps.C67_criterion_classes_partial",
    "Verif.RowOrderProps.C67_criterion_weighted_classes_partial",
    "Verif.RowOrderProps.C67_criterion",
    "Verif.RowOrderProps.C67_set_eval_same_partial",
    "Verif.RowOrderProps.C67_fit",
    "Verif.RowOrderProps.C67_eval",
    "Verif.RowOrderProps.C67_sequence",
    "Verif.RowOrderProps.C67_targets_false",
    "Verif.RowOrderProps.C67_set_raises",
    "Verif.RowOrderProps.C67_set_partial",
    "Verif.RowOrderProps.C67_set_eval_partial"
   ],
   "note": "In exact arithmetic, for calls with features: fit and eval of a rule, and sequences of them; fit and eval of a ruleset when they go through in both orders (C67_set_partial, C67_set_eval_partial), with the same criterion of the ruleset for regression rules; when there is room for the activations, fit of a ruleset raises the same exception for both orders or goes through for both (C67_set_raises); criterion: C67_criterion, C67_set_eval_same_partial. Assumed: making an activation and attributes which are not modelled do not depend on the order (`OrderFree`). With rounding the order matters (C57_order_false, C58_order_false). Without features the activation of the last fit is used, so that the targets must be in its order (C67_targets_false)."
  },
  {
   "property": "C68",
   "status": "partial",
   "theorems": [
    "Verif.AgainSetProps.C68_set_eval_partial",
    "Verif.AgainSetProps.C68_set_eval_keep_partial",
    "Verif.AgainSetProps.C68_set_eval_false",
    "Verif.AgainProps.C68_fit_partial",
    "Verif.AgainProps.C68_bad_false",
    "Verif.AgainProps.C68_eval",
    "Verif.AgainProps.C68_repeated",
    "Verif.AgainProps.C68_fresh",
    "Verif.AgainSetProps.C68_set_empty",
    "Verif.AgainSetProps.C68_set",
    "Verif.AgainSetProps.C68_set_none"
   ],
   "note": "Assumed: dir(rule) has the names of the attributes (`Listed`). False for rules which fit rejects: the second fit replaces by NaN what the first one computed before the rejection (C68_bad_false). Rulesets: fit in full; eval with features, for fitted rules (C68_set_eval_partial) or with keep_new_activations (C68_set_eval_keep_partial); false without features (C68_set_eval_false): the prediction made for the criterion changes the activation of the first rule, so that the next eval gives another criterion."
  },
  {
   "property": "C69",
   "status": "partial",
   "theorems": [
    "Verif.Units.C69_fit",
    "Verif.Units.C69_eval",
    "Verif.Units.C69_cycle",
    "Verif.Units.C69_predict_partial",
    "Verif.Units.C69_predict_stacked",
    "Verif.Units.C69_mean_stacked",
    "Verif.Units.C69_cancel_false",
    "Verif.Units.C69_zero_false"
   ],
   "note": "Exact arithmetic and a root with sqrt(a*a*t) = a*sqrt(t) (`Root`); both calls are supposed not to raise and to leave a good rule (thresholds may have a unit). False for predict of a ruleset without stacked activations when predictions cancel, or the first one is zero, in one of the units (C69_cancel_false, C69_zero_false)."
  },
  {
   "property": "C70",
   "status": "proved",
   "theorems": [
    "Verif.Scales.C70_evaluate",
    "Verif.Scales.C70_impossible",
    "Verif.Scales.C70_and",
    "Verif.Scales.C70_fit",
    "Verif.Scales.C70_eval",
    "Verif.Scales.C70_predict",
    "Verif.Scales.C70_predict_set",
    "Verif.Scales.C70_activation_set"
   ],
   "note": "Bounds are exact numbers. Thresholds on attributes which show the condition itself are excluded (`CondFree`): such a threshold compares bounds. For rulesets the texts of the conditions must tell the same rules apart in both units; RuleSet.fit and RuleSet.eval are covered rule by rule."
  },
  {
   "property": "C71",
   "status": "partial",
   "theorems": [
    "Verif.ClassNames.C71_frequencies",
    "Verif.ClassNames.C71_fit_partial",
    "Verif.ClassNames.C71_tie_false",
    "Verif.ClassNames.C71_eval",
    "Verif.ClassNames.C71_predict_partial",
    "Verif.ClassNames.C71_predict_equal_partial",
    "Verif.ClassNames.C71_predict_stacked_partial",
    "Verif.ClassNames.C71_criterion_set",
    "Verif.ClassNames.C71_nan_false"
   ],
   "note": "False for equally frequent classes, where the rule takes the first name (C71_tie_false), for a class called \"nan\" in the stacked vote (C71_nan_false), and for texts when the written frequencies have exponents (C20_text_false). The limits of C23, C24 and C42 apply to rulesets."
  },
  {
   "property": "C72",
   "status": "partial",
   "theorems": [
    "Verif.RuleSetProps.C72_rule",
    "Verif.RuleSetProps.C72_rule_class",
    "Verif.RuleSetProps.C72_predict_partial",
    "Verif.RuleSetProps.C72_predict_class",
    "Verif.RuleSetProps.C72_fit_predict_partial",
    "Verif.RuleSetProps.C72_fit_predict_class",
    "Verif.RuleSetProps.C72_nan_false"
   ],
   "note": "False when a rule covers no training point: fit keeps it with the prediction NaN, and the unstacked computation then loses the sum of the rules before it but not their weights, so that targets all equal to 10 give the prediction 5 on the training data itself (C72_nan_false). Also false for 256 rules active at a point without weights (C22_count_false)."
  },
  {
   "property": "C73",
   "status": "partial",
   "theorems": [
    "Verif.ColumnProps.C73_evaluate",
    "Verif.ColumnProps.C73_widened",
    "Verif.ColumnProps.C73_more",
    "Verif.ColumnProps.C73_negative_false",
    "Verif.ColumnProps.C73_rule",
    "Verif.ColumnProps.C73_predict",
    "Verif.ColumnProps.C73_set_evaluate",
    "Verif.ColumnProps.C73_fit",
    "Verif.ColumnProps.C73_eval"
   ],
   "note": "False for columns counted from the end of an array: an index of -1 is accepted, and a column added at the end changes what the rule means (C73_negative_false)."
  },
  {
   "property": "C74",
   "status": "proved",
   "theorems": [
    "Verif.Strict.C74_rule_fit",
    "Verif.Strict.C74_rule_eval",
    "Verif.Strict.C74_fit",
    "Verif.Strict.C74_eval"
   ],
   "note": "For rulesets both runs are supposed to work: nothing is computed for a rejected rule, so that wrong targets can go unnoticed under the stricter thresholds (example in TighterProps)."
  },
  {
   "property": "C75",
   "status": "partial",
   "theorems": [
    "Verif.ActiveProps.C75_weighted_means_partial",
    "Verif.ActiveProps.C75_means_partial",
    "Verif.ActiveProps.C75_weighted_votes_partial",
    "Verif.ActiveProps.C75_weighted_votes_stacked_partial",
    "Verif.ActiveProps.C75_votes_partial",
    "Verif.ActiveProps.C75_sort_votes",
    "Verif.ActiveProps.C75_sort_weighted_votes",
    "Verif.ActiveProps.C75_sort_means_partial",
    "Verif.ActiveProps.C75_zero_false",
    "Verif.ActiveProps.C75_stacked_false"
   ],
   "note": "False when a weighted sum is zero: a rule which predicts zero gives 0 alone and NaN after another rule which is not active at the point (C75_zero_false). False of stacked votes when fewer than two points are decided (C75_stacked_false). With stacked activations only the heaviest active rules vote (C75_weighted_votes_stacked_partial). Sums of exact numbers: with floats the order of the rules can change the last digits."
  },
  {
   "property": "C76",
   "status": "proved",
   "theorems": [
    "Verif.RepeatProps.C76_coverage",
    "Verif.RepeatProps.C76_regression",
    "Verif.RepeatProps.C76_classes",
    "Verif.RepeatProps.C76_std",
    "Verif.RepeatProps.C76_errors",
    "Verif.RepeatProps.C76_success_rate"
   ],
   "note": "Thresholds on train_set_size, std or zscore may reject the rule in one fit only, hence the hypothesis that both leave it good. Numbers are exact: with floats the mean of repeated targets can differ in the last digits."
  },
  {
   "property": "C77",
   "status": "proved",
   "theorems": [
    "Verif.TraverseProps.C77_positions",
    "Verif.TraverseProps.C77_elements",
    "Verif.TraverseProps.C77_again",
    "Verif.TraverseProps.C77_names",
    "Verif.TraverseProps.C77_load"
   ],
   "note": "Objects which contain themselves, or nested deeper than the recursion limit of Python, are not modelled."
  },
  {
   "property": "C78",
   "status": "partial",
   "theorems": [
    "Verif.InsideProps.C78_regression",
    "Verif.InsideProps.C78_classes",
    "Verif.InsideProps.C78_criterion_partial",
    "Verif.InsideProps.C78_success",
    "Verif.InsideProps.C78_default_false",
    "Verif.InsideProps.C78_set"
   ],
   "note": "Prediction, deviation, sign, classes, success rate and rulesets: full (the rule is good after both fits, or force_if_not_good). Criterion of regression rules: for mse and mae; false for the default measure mse_norm, which divides by the error of the mean of all targets (C78_default_false). Exact arithmetic."
  },
  {
   "property": "C79",
   "status": "proved",
   "theorems": [
    "Verif.NarrowProps.C79_points",
    "Verif.NarrowProps.C79_coverage",
    "Verif.NarrowProps.C79_union",
    "Verif.NarrowProps.C79_meet",
    "Verif.NarrowProps.C79_exact"
   ],
   "note": "Full for columns which the data have; the intersection for bounds which are not NaN (see C13). The converse for arrays and columns given by indexes from 0. That `in` between the rules says so is C47, and false for rules with fewer points."
  },
  {
   "property": "C80",
   "status": "partial",
   "theorems": [
    "Verif.SetCoverProps.C80_built",
    "Verif.SetCoverProps.C80_fit",
    "Verif.SetCoverProps.C80_eval_false",
    "Verif.SetCoverProps.C80_assigned_false",
    "Verif.SetCoverProps.C80_more"
   ],
   "note": "Full for building and for fit. False after an eval which drops a rule (`C80_eval_false`: the ruleset then covers nothing, see C28) and when the coverage of a rule was assigned (`C80_assigned_false`); the theorems therefore speak of computed coverages."
  },
  {
   "property": "C81",
   "status": "partial",
   "theorems": [
    "Verif.VersionProps.C81_branch",
    "Verif.VersionProps.C81_detached",
    "Verif.VersionProps.C81_checkout",
    "Verif.VersionProps.C81_identifies_partial",
    "Verif.VersionProps.C81_plus_false",
    "Verif.VersionProps.C81_date",
    "Verif.VersionProps.C81_untagged",
    "Verif.VersionProps.C81_raises_false",
    "Verif.VersionProps.C81_unpacked",
    "Verif.VersionProps.C81_archive",
    "Verif.VersionProps.C81_archive_order",
    "Verif.VersionProps.C81_release",
    "Verif.VersionProps.C81_agree",
    "Verif.VersionProps.C81_smallest_false"
   ],
   "note": "Full for the configuration of the package, with what git prints given. That the version identifies the checkout is false for tags with a plus sign (`C81_plus_false`). If git fails after its first commands an exception leaves the import (`C81_raises_false`). In an archive the tags are compared as texts, so that neither the newest nor the oldest version is taken (`C81_smallest_false`). The branch is found by git (`C81_branch`, `C81_detached`) but not part of the version."
  },
  {
   "property": "C82",
   "status": "partial",
   "theorems": [
    "Verif.SetHeapProps.C82_read",
    "Verif.SetHeapProps.C82_coverage",
    "Verif.SetHeapProps.C82_none",
    "Verif.SetHeapProps.C82_empty_false",
    "Verif.SetHeapProps.C82_deleted_false",
    "Verif.SetHeapProps.C82_loaded_false",
    "Verif.SetHeapProps.C82_deleted_encodings",
    "Verif.SetHeapProps.C82_activation_none"
   ],
   "note": "Full for rulesets whose activation is there or which have none. After `del_activation`, for a ruleset without rules, and for a loaded one the two coverages differ and `hasattr` may raise (`C82_deleted_false`, `C82_empty_false`, `C82_loaded_false`)."
  },
  {
   "property": "C83",
   "status": "partial",
   "theorems": [
    "Verif.SaveProps.C83_rules",
    "Verif.SaveProps.C83_predict_partial",
    "Verif.SaveProps.C83_evaluate",
    "Verif.SaveProps.C83_criterion_partial",
    "Verif.SaveProps.C83_stacked_false",
    "Verif.SaveProps.C83_remembered",
    "Verif.SaveProps.C83_remembered_false"
   ],
   "note": "Full for predictions which do not use stacked activations. With `STACKED_FIT` the loaded ruleset predicts differently (`C83_stacked_false`), and without features it raises ValueError, as activations are not saved (`C83_remembered`, `C83_remembered_false`)."
  },
  {
   "property": "C84",
   "status": "partial",
   "theorems": [
    "Verif.TreeProps.C84_regression_partial",
    "Verif.TreeProps.C84_weighted_partial",
    "Verif.TreeProps.C84_classes_partial",
    "Verif.TreeProps.C84_zero_false",
    "Verif.TreeProps.C84_zero_first_false",
    "Verif.TreeProps.C84_threshold_false",
    "Verif.TreeProps.C84_return_false"
   ],
   "note": "For samples between xmins and xmaxs and not on thresholds, trees which do not return to the right of a feature, and leaves whose value is not 0. For the others it is false (`C84_threshold_false`, `C84_return_false`, `C84_zero_false`, `C84_zero_first_false`). Classes given as texts are missing."
  },
  {
   "property": "C85",
   "status": "partial",
   "theorems": [
    "Verif.IdleColumnProps.C85_equal_stacked_idle_partial",
    "Verif.IdleColumnProps.C85_idle_nan_false",
    "Verif.WeightRatioProps.C85_scale",
    "Verif.WeightRatioProps.C85_scale_criterion",
    "Verif.WeightRatioProps.C85_scale_eval",
    "Verif.WeightRatioProps.C85_factor_false",
    "Verif.WeightRatioProps.C85_zero",
    "Verif.WeightRatioProps.C85_none",
    "Verif.WeightRatioProps.C85_equal_classes",
    "Verif.WeightRatioProps.C85_equal_numbers_partial",
    "Verif.WeightRatioProps.C85_equal_false",
    "Verif.WeightRatioProps.C85_equal_stacked_partial",
    "Verif.WeightRatioProps.C85_zero_stacked_partial",
    "Verif.WeightRatioProps.C85_stacked_false"
   ],
   "note": "The factor: full, including exceptions and the ruleset afterwards. Weight 0: full without stacked activations. Equal weights: full for classes without stacked activations, for at most 255 regression rules, and with stacked activations if some rule is active somewhere and no class is called \"nan\". False of 256 regression rules (`C85_equal_false`), of stacked activations without active rule (`C85_stacked_false`), and of a class called \"nan\" if the first rule is active nowhere (`C85_idle_nan_false`). Factors are exact rationals: that floats round differently is not modelled."
  },
  {
   "property": "C86",
   "status": "partial",
   "theorems": [
    "Verif.FeatureTableProps.C86_make",
    "Verif.FeatureTableProps.C86_columns",
    "Verif.FeatureTableProps.C86_frames",
    "Verif.FeatureTableProps.C86_unknown",
    "Verif.FeatureTableProps.C86_known",
    "Verif.FeatureTableProps.C86_added_false",
    "Verif.FeatureTableProps.C86_shared_false"
   ],
   "note": "Full for the constructor. False of rules which are added with `+=` or `append` (`C86_added_false`): they keep their own number, so that one ruleset reads the same feature in two columns. The numbers are written into the rules given, so that rulesets made before change (`C86_shared_false`)."
  },
  {
   "property": "C87",
   "status": "partial",
   "theorems": [
    "Verif.ConditionItemsProps.C87_item",
    "Verif.ConditionItemsProps.C87_last",
    "Verif.ConditionItemsProps.C87_outside",
    "Verif.ConditionItemsProps.C87_iterate",
    "Verif.ConditionItemsProps.C87_len",
    "Verif.ConditionItemsProps.C87_empty_false"
   ],
   "note": "Full for conditions with features. An empty condition has length 0 but raises TypeError when it is iterated (`C87_empty_false`). Slices as places are not modelled."
  },
  {
   "property": "C88",
   "status": "partial",
   "theorems": [
    "Verif.BoundTextProps.C88_mins_partial",
    "Verif.BoundTextProps.C88_maxs_partial",
    "Verif.BoundTextProps.C88_truncated_mins",
    "Verif.BoundTextProps.C88_truncated_maxs",
    "Verif.BoundTextProps.C88_rejected",
    "Verif.BoundTextProps.C88_names_indexes",
    "Verif.BoundTextProps.C88_fraction_false"
   ],
   "note": "True of integers, names and indexes. Of other numbers the digits after the point are lost (`C88_truncated_mins`, `C88_truncated_maxs`, witness `C88_fraction_false`); infinite bounds raise OverflowError (`C88_rejected`). What `ast.literal_eval` makes of a text is an argument of the model."
  },
  {
   "property": "C89",
   "status": "partial",
   "theorems": [
    "Verif.DefaultNamesProps.C89_unnamed",
    "Verif.DefaultNamesProps.C89_unindexed",
    "Verif.DefaultNamesProps.C89_agree",
    "Verif.DefaultNamesProps.C89_unnamed_agree",
    "Verif.DefaultNamesProps.C89_negative_false"
   ],
   "note": "Full for indexes counted from the beginning. An index counted from the end gets a name which is no column (`C89_negative_false`). Conditions without features raise on DataFrames (`C11_no_feature_false`)."
  },
  {
   "property": "C90",
   "status": "partial",
   "theorems": [
    "Verif.FailProps.C90_predict_partial",
    "Verif.FailProps.C90_predict_false",
    "Verif.FailProps.C90_refused",
    "Verif.FailProps.C90_fit_partial",
    "Verif.FailProps.C90_eval_partial",
    "Verif.FailProps.C90_fit_false",
    "Verif.FailProps.C90_eval_false",
    "Verif.FailProps.C90_sort_partial",
    "Verif.FailProps.C90_sort",
    "Verif.FailProps.C90_sort_false",
    "Verif.FailProps.C90_add_partial",
    "Verif.FailProps.C90_add_set_partial",
    "Verif.FailProps.C90_figures"
   ],
   "note": "Full for calls which are refused at once, for predictions which do not write into stored arrays, and for the sizes and the criterion of the ruleset (`C90_figures`). Otherwise what is left is determined: a rule which cannot be fitted or evaluated leaves those before it fitted (`C90_fit_false`), `eval` may already have dropped rules (`C90_eval_false`), `sort` may already have sorted (`C90_sort_false`), plain means may have changed the first activation (`C90_predict_false`), and a rule added may stay (`C32_length_false`). `fit` and `eval` are those with `STACKED_FIT` off."
  },
  {
   "property": "C91",
   "status": "partial",
   "theorems": [
    "Verif.OneRuleProps.C91_criterion",
    "Verif.OneRuleProps.C91_regression",
    "Verif.OneRuleProps.C91_weighted",
    "Verif.OneRuleProps.C91_classes_partial",
    "Verif.OneRuleProps.C91_text_partial",
    "Verif.OneRuleProps.C91_text_false",
    "Verif.OneRuleProps.C91_idle_false",
    "Verif.OneRuleProps.C91_featureless_false",
    "Verif.OneRuleProps.C91_stacked"
   ],
   "note": "Full for regression rules with at least one feature, without weights, and with a weight for finite predictions. For classes only when the rule is active at some point and the class is a number: a rule active at no point makes the ruleset raise (`C91_idle_false`), and texts are cut and become `nan` in the predictions of the rule (`C91_text_false`). Stacked: plain means of regression rules (`C91_stacked`), rules without features included. The criterion of regression agrees too (`C91_criterion`)."
  },
  {
   "property": "C92",
   "status": "partial",
   "theorems": [
    "Verif.RuleFailProps.C92_fit_partial",
    "Verif.RuleFailProps.C92_eval_partial",
    "Verif.RuleFailProps.C92_refused",
    "Verif.RuleFailProps.C92_fit_false",
    "Verif.RuleFailProps.C92_eval_false"
   ],
   "note": "Full for the flags, the condition, what belongs to the other set, and refused calls. False of the activation and the size of the train set: after targets which are refused, a fitted rule has the activation of the new points and the prediction of the old ones (`C92_fit_false`, `C92_eval_false`)."
  },
  {
   "property": "C93",
   "status": "partial",
   "theorems": [
    "Verif.EachPointProps.C93_rule",
    "Verif.EachPointProps.C93_ruleset_partial",
    "Verif.EachPointProps.C93_stored",
    "Verif.EachPointProps.C93_empty_false"
   ],
   "note": "Full for rules and for rulesets which have rules, and, when not stacked, for the points of stored activations (`C93_stored`). A ruleset without rules gives no predictions (`C93_empty_false`). That Series of one element can be squeezed to a number is not modelled."
  }
 ]
}