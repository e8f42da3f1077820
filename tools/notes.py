STATUS={}
NOTES={
'C01':"Full round trip for the text form. For the array form the round trip holds from two points on; C01_array_roundtrip_false shows a one-point vector comes back wrong.",
'C02':"Conversions proved both ways, including refusal of integers too big for the length in _integer_to_raw. The constructor accepts too big integers when WILL_COMPARE is off (C02_constructor_false).",
'C03':"Proved over all histories of operations for non-empty vectors (two points or more under DTYPE=np.ndarray) and lasy=False; the three excluded cases are violations, proved as C03_*_false.",
'C04':"Over all histories; one-point vectors under DTYPE=np.ndarray by a separate theorem about construction.",
'C05':"Right whenever it returns; two activations stored as integers always raise (violation); a taken file name raises.",
'C06':"All memory reports; one-point vectors under DTYPE=np.ndarray and empty lists are outside the hypotheses of the activation version, not of the array version. An array with other numbers than 0 and 1 given as activation makes the result depend on the free memory (`C06_other_numbers_false`).",
'C07':"At least two operands; for a single operand the claim is false (C07_single_false).",
'C08':"Difference: right whenever it returns, always returns unless the left operand is an integer or in a file. Sum: false, a + b is a.",
'C09':"Exact meaning proved (one of the two is included in the other), which makes the claim false (C09_contains_false); right when the container marks at least as many points.",
'C10':"Over all histories.",
'C31':"No sharing, no overwriting, delete: over all histories with lasy=False. No leak: without clear and -, which leak (violations). lasy and double delete violate it.",
'C36':"Over all histories on live objects; false for deleted ones.",

'C11':"Exact for arrays and DataFrames, all reachable conditions. Missing columns: IndexError for possible conditions; an impossible condition gives zeros instead (violation). A condition without features raises on DataFrames (violation).",
'C12':"Constructor arguments in any order give the same condition or the same exception; evaluation, equality and sort.",
'C13':"Evaluation of the intersection proved for bounds which are not NaN (false with NaN bounds). IndexError exactly on disagreement. Operands unchanged: conditions are values in this model.",
'C14':"Same lengths, distinct names and indexes, over all sequences of assignments, for conditions with features; conditions made empty are filled in any order of assignments (C14_filled); the impossible flag is exactly 'was impossible at some time', which makes the claim false after a repair.",
'C15':"Equality holds for equal requirements, whatever the hash functions; conversely up to hash collisions, which do happen (hash(-1) == hash(-2)).",

'C16':"Exact answer for numeric values and limits which are not NaN; unlisted and absent attributes pass; a limit naming an attribute that is missing raises; configuration unchanged; default coverage. Values which are NaN or texts: exact answer, which is not the documented one (C16_nan_false, C16_text: texts can only be rejected or raise). Limits which are NaN: exact answer (C16_nan_limit).",

'C17':"Over all histories of calls, thresholds free to change between calls; the record of answers is a ghost field written where checks are made (C17_check). A rule good after fit or eval is within all limits.",
'C18':"Numbers: exact, stored activation and new arrays. Class names: up to 32 characters and not 'nan' (both false otherwise); calc_prediction_vector is wrong for rules without features. DataFrames: a Series with the index of the DataFrame, but a single value for one row (violation). Conditions without features are excluded for DataFrames.",
'C19':"After any successful fit of a rule still good or with force_if_not_good, exact arithmetic, square root by its sign behaviour. Prediction, bounds, sign: exact. Standard deviation false for one activated point without target, and for several with only one target.",
'C20':"Frequencies exact. Most frequent class, smallest on ties: for numbers; for texts when the texts of frequencies are ordered as numbers, false otherwise (20000 points).",
'C33':"Exact arithmetic, targets as arrays. mse, mae, success rates, criterion of an evaluated rule; mse_norm and aae for targets all present, median exact, no constant prediction is better than the baseline; infinite predictions; mae_norm is false (divides by zero).",

'C21':"Exact arithmetic. Stacked: full for rules with different condition texts, some rule with a weight active somewhere (raises otherwise). Unstacked: when no weighted sum is zero and the first rule with a weight does not predict 0; false otherwise (missing or TypeError), and false for rules predicting NaN. Agreement and order under these conditions.",
'C22':"Stacked: for rules with different condition texts. Unstacked: when no sum is zero, the first prediction is not 0, and at most 255 rules are active at a point; false otherwise. Computing from stored activations changes the first rule (violation).",
'C23':"Unstacked: exact for weights which are not negative; raises when nothing is active anywhere. Stacked: exactly the vote of the heaviest active rules, which differs (C23_agree_false).",
'C24':"Unstacked: exact; raises when nothing is active anywhere. Stacked: when at least two points are decided; false with one or none (proved for all rules), and for a class called nan.",
'C37':"Over all histories in which no coverage is assigned; an assigned coverage stays (C37_assigned_false).",
'C38':"Exact arithmetic, the square root as a parameter.",

'C25':"Over all sequences of construction, append, += and + of rulesets which update activations, rules with activations of n points. Coverage by C37. False without update, for rules without activation, for stacked columns of rules with the same condition text, and for mixed stack settings.",
'C26':"Rules of the sum up to rule equality, order of +=, refusals. Rule equality is equality of hashes of conditions, so collisions lose rules (C26_collision_false); allIndexes not empty changes indexes (C26_indexes_false). Operands unchanged: rulesets are values in this model.",
'C27':"The texts of lists which Python writes can be told apart (C27_texts). Same rules and columns: full. Order, repetition, independence of initial order: for rules with names, bounds not NaN and texts of lists which can be told apart; order is that of texts of names and indexes (C27_index_order_false, C27_name_order_false: '10' before '2'). False with NaN bounds; raises for rules without features. By a criterion which is a number or a text: full and stable; false for NaN; values which cannot be compared raise and change nothing (C27_criterion_mixed).",
'C28':"Exact set of rules kept by fit and eval: good and not equal to a bad one; the good ones when no two rules are equal. Activation after fit: full. Activation after eval: when new activations are kept or nothing is dropped; zeros otherwise (violation). False for equal rules, for rules already fitted, after everything was dropped.",
'C32':"Accepted: full. Refused with different types: nothing changes for +=; append with update_activation=False loses the settings (C32_settings_false).",
'C34':"With the texts of Python and numbers as predictions: exact (C34_numbers_partial). For texts of lists which can be told apart: same features (names if the ruleset has names, indexes otherwise), bounds and text of prediction; different predictions can have the same text (C34_prediction_false).",
'C35':"Over all sequences of additions; the counter of a ruleset with names. False: order of the indexes is that of a Python set (C35_order_false), counter without names raises, and after fit drops rules (C35_fit_false).",
'C29':"Rules come back in order with class, condition, prediction and figures, for conditions made by the sorting constructor with finite bounds, figures which are numbers or NaN, classes which are not taken for something else, and a read_csv which does not round. Texts of lists as Python writes them, with all escapes, are modelled and proved to be read back. False: size of the test set, coverage and criterion of the ruleset (come back as texts), NaN and infinite bounds (load raises), classes of two words (load raises), classes which look like numbers or missing values, unsorted conditions.",

'C39':"If: full, for conditions made by the constructors and updates. Only if: up to collisions of the hashes of names and bounds, which do happen (C39_collision_false: -1 and -2). Equivalence: full; a rule whose hash raises makes the comparison raise.",
'C40':"Made from rules: exact, for texts of lists which can be told apart (as Python writes them, C27_texts) and predictions compared as texts. append and += of a ruleset do not check again (C40_added_false).",
'C41':"Exact positions and order for any start, stop and step, when allIndexes is empty; otherwise the indexes of the rules change (C41_indexes_false). The result never has a stack; its activation is that of the rules selected when all rules have one (C41_activation_partial).",
'C42':"Regression: mean squared error and the default measure in all cases; classification: success rate among the activated points; nothing predicted: NaN; sizes noted by fit and eval. Relative to the predictions, described by C21 to C24.",

'C30':"For arrays which hold a tree, sortable settings, different names and bounds which are not NaN. Number, order, features and predictions of the rules, and that samples falling in a leaf activate its rule: full. Only-if: for comparisons which are not followed by a right turn on the same feature; false otherwise (C30_return_false, line 178 restores the maximum). False: a tree of one leaf raises, names are needed with recent sklearn, without get_leaf the predictions are those of the parents. sklearn itself, recursion beyond the limit of Python and the overflow of numbers are not modelled.",

'C43':"When both fits go through, for rules with different conditions and condition texts: every rule gets the same activation, verdict and figures; the same ruleset when no bad rule is kept. Numbers: rules with one activated point differ (standard deviation). Classes: numbers, or texts other than '' and 'zero'. False: bad rules kept, repeated rules in the returned list, same texts, IndexError for rules without activated point, TypeError when the most frequent classes are a number and a text, rules fitted again, activation not computed, stack_activation left True. Stacked activations which are not to be kept are removed, unless the fit raises.",
'C44':"When both evals go through, for rules with different conditions and condition texts: every rule gets the same verdict, reason, criterion and activation; good rules are kept, only bad ones returned, none twice; the same rules when no bad rule is kept, and then, without stacked activations, the same activations and criterion of the ruleset. With them, they are those of the rules afterwards. Classes: numbers other than NaN, or texts other than '' and 'zero'; regression rules with features. False: bad rules kept, class 'zero', missing targets, rules without features, same texts, rules without activation, activations after the criterion of the ruleset.",

'C45':"For conditions however made and changed. Order and grouping: literally the same result, exceptions included, for bounds other than NaN; false for NaN (C45_nan_false). Repetition: full.",
'C46':"Activation, coverage, verdict, absence of figures, prediction after fit, exceptions: full, for whatever can or cannot be stored (parameter `fits`). Agreement of condition and activation and order of the operands: bounds other than NaN. False: rules without activation cannot be combined though their conditions can.",
'C47':'Exact meaning proved: one of the two activations is included in the other. As documented when r1 activates at least as many points; false otherwise (C47_contains_false). Raises for two activations kept as integers and for deleted ones (C47_answers_false).',
'C48':'For rules with the same number of features and predictions which are numbers other than 0. False: different numbers of features raise, since len(rule) is compared; prediction 0 gives NaN or ZeroDivisionError; text classes raise.',
'C49':'Availability, figures read before, coverage of the rule, other rules: full. False: `activation` raises after deletion instead of being None (unless the vector was stored as it is).',
'C50':'Reading, assigned names and the other names, which names are assignable: full. False: an assignment never reaches the condition, it only hides it.',
'C51':'Settings of classes: full. Checks against the thresholds of the class at that moment. False: `set_thresholds` has no effect on checks, `set_thresholds(None)` raises or does nothing, settings for "future rules" apply to existing ones, which do not show them.',
'C52':'Separation, the union, appending, clearing, both deletions: full, for rulesets whose rules have available activations of one length. That the activation can be computed needs enough memory. False: the coverage of the ruleset is lost by del_activation, append raises after it, stacked_activations_available raises without activation and otherwise does not look at stacked activations.',
'C53':'Same requirements give equal hashes: full. Equality implies equal hashes unless hashes of requirements collide; false with the collision of -1 and -2, which the code takes for equality.',
'C54':'Programs with lists written where they are used: full. `&`: full, whatever is shared. Lists given to the constructor are copied only by sorting several features; false for one feature or sort=False, and for assigned lists.',
'C55':'Full for calls which do not raise on at least one point. evaluate raises when memory lacks although evaluate_self_activation does not; the three differ on the empty ruleset and on no points.',
'C56':'Full for classes which are numbers (texts are compared as texts, see C15). Probabilities sum to one only up to one rounding: false exactly. Overflow and underflow are not modelled.',
'C57':'Error bounds are full. False of floats: the sign of the mean for targets of both signs, independence of the order, the mean lying between the targets, standard deviation zero for equal targets (witnesses); true of integers. The bound for the standard deviation concerns its square, and targets without missing values. Overflow and underflow are not modelled.',
'C58':'Error bounds are full, but unstacked the first rule with a weight must not predict 0 (see C21). False of floats: independence of the order of the rules (a number or NaN, a class or NaN), and that a ruleset of one rule predicts what the rule predicts (witnesses). Rules have different names. Overflow and underflow are not modelled.',
'C59':'Holds for all histories in which rules are assigned (`rs.rules = ...`) only if they are of the announced class. False for other assignments: the setter does not set the class (C59_assign_false, C59_assign_first_false); when the class is assigned too, the ruleset is the one which the constructor makes (C59_typed, C59_typed_predict).',
'C60':'Full for histories in which no ruleset with stacked activations is added (`+=`) to one which stacks activations and has none. False then: both share one DataFrame, a rule added to one adds a column to the other (C60_join_false), and a later stacked fit gives a rule the prediction of a rule of another ruleset (C60_fit_false).',
'C61':'The frame statements are full (C61_disjoint, C61_shared, C61_rule, C61_add, C61_make with `all_features_indexes` empty); that a fit acts as on values is shown for rulesets which have no rule object twice. The consistency of the original ruleset is false: after a slice was fitted on other data its activation is not that of its rules (C61_slice_false), and a rule which became bad and was dropped in the slice stays in the original (C61_bad_false).',
'C62':"Telling apart: full for names which do not contain ' in ['; false otherwise (C62_names_false: two rules, one column) and for conditions without names (C62_nameless_false). Same texts: for features in the order of names; false for equal conditions in other orders (C62_order_false). Lines of a ruleset: full, except that with exactly 2 * NLINES rules the dots stand for nothing (C62_dots_false). Integers and floats as bounds have different texts in Python (not modelled).",
'C63':'fit and what is left alone: full. eval: the flag for good rules only (C63_eval_partial); eval of a bad rule says that the rule is fitted instead of evaluated (C63_bad_false, C63_eval_bad). The size of the test set is never computed (C63_size, C63_size_false). A rule fitted again keeps the criterion of its former prediction (C63_stale_false), and a fitted rule ignores new targets given without features (C63_again_false). Rules read from a file: C63_load.',
'C64':'Over all histories with lasy=False and vectors with points; measures are operations of the histories, so C03-C10, C31, C36 hold with measures in between. It raises only on a taken file name. False for lasy activations not read yet (a file is left behind, delete removes the file of the user) and for activations without points (a measure which raises leaves another format).',
'C65':'fit and eval of a Series, and sequences of calls none of which raises. False after a call which raised: the index of its targets stays on the stacked activations and a later fit with an array gets wrong deviations. False for calc_stds and calc_predictions called by the user, which for classes and deviations go by label (C65_by_label says exactly how) and for means by position, and raise TypeError when the labels do not match and a target is 0 or a text (C65_labels_raise).',
'C66':'Full for Rule.predict. For rulesets: regression in all four variants whenever both calls return; classification without stacked activations when the weights are not negative and some rule with a weight is active in each data set; with stacked activations and no weights when two points are decided in each data set. False otherwise: with a negative weight a point is undecided in the whole table and decided alone; a batch without active rule raises; with stacked activations the class of the only decided point goes to the first point of the batch.',
'C67':'In exact arithmetic, for calls with features: fit and eval of a rule, and sequences of them; fit and eval of a ruleset when they go through in both orders (C67_set_partial, C67_set_eval_partial), with the same criterion of the ruleset for regression rules; when there is room for the activations, fit of a ruleset raises the same exception for both orders or goes through for both (C67_set_raises); criterion: C67_criterion, C67_set_eval_same_partial. Assumed: making an activation and attributes which are not modelled do not depend on the order (`OrderFree`). With rounding the order matters (C57_order_false, C58_order_false). Without features the activation of the last fit is used, so that the targets must be in its order (C67_targets_false).',
'C68':'Assumed: dir(rule) has the names of the attributes (`Listed`). False for rules which fit rejects: the second fit replaces by NaN what the first one computed before the rejection (C68_bad_false). Rulesets: fit in full; eval with features, for fitted rules (C68_set_eval_partial) or with keep_new_activations (C68_set_eval_keep_partial); false without features (C68_set_eval_false): the prediction made for the criterion changes the activation of the first rule, so that the next eval gives another criterion.',
'C69':'Exact arithmetic and a root with sqrt(a*a*t) = a*sqrt(t) (`Root`); both calls are supposed not to raise and to leave a good rule (thresholds may have a unit). False for predict of a ruleset without stacked activations when predictions cancel, or the first one is zero, in one of the units (C69_cancel_false, C69_zero_false).',
'C70':'Bounds are exact numbers. Thresholds on attributes which show the condition itself are excluded (`CondFree`): such a threshold compares bounds. For rulesets the texts of the conditions must tell the same rules apart in both units; RuleSet.fit and RuleSet.eval are covered rule by rule.',
'C71':'False for equally frequent classes, where the rule takes the first name (C71_tie_false), for a class called "nan" in the stacked vote (C71_nan_false), and for texts when the written frequencies have exponents (C20_text_false). The limits of C23, C24 and C42 apply to rulesets.',
'C72':'False when a rule covers no training point: fit keeps it with the prediction NaN, and the unstacked computation then loses the sum of the rules before it but not their weights, so that targets all equal to 10 give the prediction 5 on the training data itself (C72_nan_false). Also false for 256 rules active at a point without weights (C22_count_false).',
'C73':'False for columns counted from the end of an array: an index of -1 is accepted, and a column added at the end changes what the rule means (C73_negative_false).',
'C74':'For rulesets both runs are supposed to work: nothing is computed for a rejected rule, so that wrong targets can go unnoticed under the stricter thresholds (example in TighterProps).',
'C75':'False when a weighted sum is zero: a rule which predicts zero gives 0 alone and NaN after another rule which is not active at the point (C75_zero_false). False of stacked votes when fewer than two points are decided (C75_stacked_false). With stacked activations only the heaviest active rules vote (C75_weighted_votes_stacked_partial). Sums of exact numbers: with floats the order of the rules can change the last digits.',
'C76':'Thresholds on train_set_size, std or zscore may reject the rule in one fit only, hence the hypothesis that both leave it good. Numbers are exact: with floats the mean of repeated targets can differ in the last digits.',
'C77':'Objects which contain themselves, or nested deeper than the recursion limit of Python, are not modelled.',
'C78':'Prediction, deviation, sign, classes, success rate and rulesets: full (the rule is good after both fits, or force_if_not_good). Criterion of regression rules: for mse and mae; false for the default measure mse_norm, which divides by the error of the mean of all targets (C78_default_false). Exact arithmetic.',
'C79':'Full for columns which the data have; the intersection for bounds which are not NaN (see C13). The converse for arrays and columns given by indexes from 0. That `in` between the rules says so is C47, and false for rules with fewer points.',
'C80':'Full for building and for fit. False after an eval which drops a rule (`C80_eval_false`: the ruleset then covers nothing, see C28) and when the coverage of a rule was assigned (`C80_assigned_false`); the theorems therefore speak of computed coverages.',
'C81':'Full for the configuration of the package, with what git prints given. That the version identifies the checkout is false for tags with a plus sign (`C81_plus_false`). If git fails after its first commands an exception leaves the import (`C81_raises_false`). In an archive the tags are compared as texts, so that neither the newest nor the oldest version is taken (`C81_smallest_false`). The branch is found by git (`C81_branch`, `C81_detached`) but not part of the version.',
'C82':'Full for rulesets whose activation is there or which have none. After `del_activation`, for a ruleset without rules, and for a loaded one the two coverages differ and `hasattr` may raise (`C82_deleted_false`, `C82_empty_false`, `C82_loaded_false`).',
'C83':'Full for predictions which do not use stacked activations. With `STACKED_FIT` the loaded ruleset predicts differently (`C83_stacked_false`), and without features it raises ValueError, as activations are not saved (`C83_remembered`, `C83_remembered_false`).',
'C84':'For samples between xmins and xmaxs and not on thresholds, trees which do not return to the right of a feature, and leaves whose value is not 0. For the others it is false (`C84_threshold_false`, `C84_return_false`, `C84_zero_false`, `C84_zero_first_false`). Classes given as texts are missing.',
'C85':'The factor: full, including exceptions and the ruleset afterwards. Weight 0: full without stacked activations. Equal weights: full for classes without stacked activations, for at most 255 regression rules, and with stacked activations if some rule is active somewhere and no class is called "nan". False of 256 regression rules (`C85_equal_false`), of stacked activations without active rule (`C85_stacked_false`), and of a class called "nan" if the first rule is active nowhere (`C85_idle_nan_false`). Factors are exact rationals: that floats round differently is not modelled.',
'C86':'Full for the constructor. False of rules which are added with `+=` or `append` (`C86_added_false`): they keep their own number, so that one ruleset reads the same feature in two columns. The numbers are written into the rules given, so that rulesets made before change (`C86_shared_false`).',
'C87':'Full for conditions with features. An empty condition has length 0 but raises TypeError when it is iterated (`C87_empty_false`). Slices as places are not modelled.',
'C88':'True of integers, names and indexes. Of other numbers the digits after the point are lost (`C88_truncated_mins`, `C88_truncated_maxs`, witness `C88_fraction_false`); infinite bounds raise OverflowError (`C88_rejected`). What `ast.literal_eval` makes of a text is an argument of the model.',
'C89':'Full for indexes counted from the beginning. An index counted from the end gets a name which is no column (`C89_negative_false`). Conditions without features raise on DataFrames (`C11_no_feature_false`).',
'C90':'Full for calls which are refused at once, for predictions which do not write into stored arrays, and for the sizes and the criterion of the ruleset (`C90_figures`). Otherwise what is left is determined: a rule which cannot be fitted or evaluated leaves those before it fitted (`C90_fit_false`), `eval` may already have dropped rules (`C90_eval_false`), `sort` may already have sorted (`C90_sort_false`), plain means may have changed the first activation (`C90_predict_false`), and a rule added may stay (`C32_length_false`). `fit` and `eval` are those with `STACKED_FIT` off.',
'C91':'Full for regression rules with at least one feature, without weights, and with a weight for finite predictions. For classes only when the rule is active at some point and the class is a number: a rule active at no point makes the ruleset raise (`C91_idle_false`), and texts are cut and become `nan` in the predictions of the rule (`C91_text_false`). Stacked: plain means of regression rules (`C91_stacked`), rules without features included. The criterion of regression agrees too (`C91_criterion`).',
'C92':'Full for the flags, the condition, what belongs to the other set, and refused calls. False of the activation and the size of the train set: after targets which are refused, a fitted rule has the activation of the new points and the prediction of the old ones (`C92_fit_false`, `C92_eval_false`).',
'C93':'Full for rules and for rulesets which have rules, and, when not stacked, for the points of stored activations (`C93_stored`). A ruleset without rules gives no predictions (`C93_empty_false`). That Series of one element can be squeezed to a number is not modelled.',
}
