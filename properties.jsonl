{"id": "C01", "title": "Compression of an activation vector loses nothing", "statement": "Compressing a 0/1 activation vector into its list of change positions and decompressing it again gives back exactly the vector one started from, with the same length; two different vectors never have the same compressed form.", "quantifier": "every 0/1 vector of every length >= 1, in both compressed representations (text and numpy array)", "why_tests_cant": "The set of vectors is infinite; tests try a handful of vectors of length around 10 and never the one-point vector.", "anchors": ["ruleskit/activation.py: Activation._compress", "ruleskit/activation.py: Activation._decompress", "ruleskit/activation.py: Activation._init_with_str"]}
{"id": "C02", "title": "Integer form of an activation vector loses nothing", "statement": "Turning a 0/1 vector into a Python integer and back with the same length gives the same vector; an integer which does not fit in the declared length is refused with an error instead of giving a wrong vector.", "quantifier": "every 0/1 vector, every non negative integer and every declared length", "why_tests_cant": "Unbounded integers and lengths; the boundary (exactly as many bits as the length, leading zeros) cannot be enumerated.", "anchors": ["ruleskit/activation.py: Activation._raw_to_integer", "ruleskit/activation.py: Activation._integer_to_raw", "ruleskit/activation.py: Activation.__init__ (int branch)"]}
{"id": "C03", "title": "The storage format is invisible", "statement": "Whatever storage format the library picks for an Activation (compressed text, compressed array, bitarray, integer, raw, file), reading the vector back (raw, as_bitarray, as_integer, as_compressed) and reading its statistics (length, nones, ones, entropy, coverage) gives the same answers as for the vector it was built from.", "quantifier": "every 0/1 vector, every combination of the class-wide flags and constructor options, and every answer of sys.getsizeof / of the file system", "why_tests_cant": "The format is chosen at run time from memory sizes and disk success, which a test does not control; there are many flag combinations times infinitely many vectors.", "anchors": ["ruleskit/activation.py: Activation.__init__", "ruleskit/activation.py: Activation._init_with_raw", "ruleskit/activation.py: Activation._init_with_bitarray", "ruleskit/activation.py: Activation._init_with_integer", "ruleskit/activation.py: Activation.raw"]}
{"id": "C04", "title": "Entropy counts the changes and does not depend on the format", "statement": "The entropy of an activation is the number of places where the vector changes value plus two, whichever format the activation is stored in, and it lies between 2 and length + 1 (so relative entropy is meaningful).", "quantifier": "every non-empty 0/1 vector and every storage format", "why_tests_cant": "Infinitely many vectors; formats compute the number by different code paths.", "anchors": ["ruleskit/activation.py: Activation.entropy", "ruleskit/activation.py: Activation._compress", "ruleskit/activation.py: Activation.as_compressed_array"]}
{"id": "C05", "title": "Pointwise meaning of &, | and ^ on activations", "statement": "For two activations of the same length, a & b, a | b and a ^ b are the element-wise logical and, or, exclusive or of the two vectors, whatever the two storage formats; for different lengths a ValueError is raised and neither operand is changed.", "quantifier": "every pair of activations, every pair of storage formats", "why_tests_cant": "Pairs of formats times infinitely many vectors; each pair of formats is a different code path.", "anchors": ["ruleskit/activation.py: Activation.__and__", "ruleskit/activation.py: Activation.__or__", "ruleskit/activation.py: Activation.__xor__"]}
{"id": "C06", "title": "Combining many activations does not depend on available memory", "statement": "multi_logical_and / multi_logical_or of a non-empty list of equally long activations gives the element-wise and / or of the whole list, whatever amount of free memory the machine reports, unless a MemoryError is raised.", "quantifier": "every list of activations and every sequence of answers from the memory probe", "why_tests_cant": "The path taken (all at once or pair by pair) depends on free memory at run time.", "anchors": ["ruleskit/activation.py: Activation.multi_logical_and", "ruleskit/activation.py: Activation.multi_logical_or"]}
{"id": "C07", "title": "multi_logical_xor marks the points where the activations disagree", "statement": "multi_logical_xor of a list marks exactly the points activated by at least one but not all of the activations; for two activations it agrees with a ^ b.", "quantifier": "every non-empty list of equally long activations", "why_tests_cant": "Lists of any size and content.", "anchors": ["ruleskit/activation.py: Activation.multi_logical_xor"]}
{"id": "C08", "title": "+ and - on activations are union and difference", "statement": "a - b marks the points marked by a and not by b; a + b marks the points marked by a or by b.", "quantifier": "every pair of activations of the same length", "why_tests_cant": "Infinitely many pairs; the existing tests only look at a few vectors.", "anchors": ["ruleskit/activation.py: Activation.__add__", "ruleskit/activation.py: Activation.__sub__"]}
{"id": "C09", "title": "Containment of activations", "statement": "`b in a` holds exactly when every point activated by b is activated by a.", "quantifier": "every pair of activations of the same length", "why_tests_cant": "Needs all pairs of vectors; the two-sided behaviour only shows on specific pairs.", "anchors": ["ruleskit/activation.py: Activation.__contains__", "ruleskit/rule.py: Rule.__contains__"]}
{"id": "C10", "title": "Correlation between activations is a similarity", "statement": "get_correlation is between 0 and 1, symmetric, equals 1 exactly when both vectors are the same, equals 0 exactly when they are complementary, and 1 minus it satisfies the triangle inequality.", "quantifier": "all pairs and triples of activations of the same non-zero length", "why_tests_cant": "Universal over infinitely many triples.", "anchors": ["ruleskit/activation.py: Activation.get_correlation", "ruleskit/rule.py: Rule.get_correlation"]}
{"id": "C11", "title": "Condition evaluation is hyper-rectangle membership", "statement": "Evaluating a condition on a matrix marks row i exactly when, for each of its features, the value of the row in this feature's column is a finite number between the lower and the upper bound, both included; the result has one entry per row; an out-of-range column raises IndexError.", "quantifier": "every condition, every matrix (including NaN and infinities)", "why_tests_cant": "Infinitely many bounds and matrices; NaN/inf handling is spread over the arithmetic.", "anchors": ["ruleskit/condition.py: HyperrectangleCondition.evaluate"]}
{"id": "C12", "title": "Order of the features in a condition is irrelevant", "statement": "Building a condition from its features given in any order, or sorting it by index or by name, changes neither its evaluation nor its equality with the original; name, index and both bounds of each feature stay together.", "quantifier": "every list of features and every permutation of it", "why_tests_cant": "Factorially many permutations.", "anchors": ["ruleskit/condition.py: HyperrectangleCondition.sort", "ruleskit/condition.py: HyperrectangleCondition.__init__"]}
{"id": "C13", "title": "Intersection of conditions", "statement": "If c1 & c2 succeeds, evaluating it on any matrix gives the element-wise and of evaluating c1 and c2; it fails with IndexError exactly when the two conditions disagree on the name/index pairing of a feature; neither operand is changed.", "quantifier": "every pair of conditions with any overlap of features, every matrix", "why_tests_cant": "Pairs of conditions with arbitrary overlaps and infinitely many matrices.", "anchors": ["ruleskit/condition.py: HyperrectangleCondition.__and__", "ruleskit/rule.py: Rule.__and__"]}
{"id": "C14", "title": "A condition stays well formed under any sequence of updates", "statement": "After any sequence of assignments to bmins, bmaxs, features_names, features_indexes (some of them rejected with an error) the four lists have the same length, and the condition is treated as impossible exactly when some lower bound is above its upper bound.", "quantifier": "every history of setter calls, valid or not", "why_tests_cant": "Histories are unbounded; a defect needs a specific order of calls.", "anchors": ["ruleskit/condition.py: HyperrectangleCondition.bmins.setter", "ruleskit/condition.py: HyperrectangleCondition.bmaxs.setter", "ruleskit/condition.py: Condition.features_indexes.setter"]}
{"id": "C15", "title": "Equality of conditions", "statement": "Two conditions compare equal exactly when they constrain the same features (by name) with the same bounds; equal conditions select the same rows of every DataFrame.", "quantifier": "every pair of conditions", "why_tests_cant": "Equality is decided through hashes, so only a universal argument can exclude (or exhibit) a collision.", "anchors": ["ruleskit/condition.py: HyperrectangleCondition.__eq__", "ruleskit/condition.py: HyperrectangleCondition.to_hash", "ruleskit/condition.py: HyperrectangleCondition.__hash__"]}
{"id": "C16", "title": "Thresholds accept exactly the values inside the limits", "statement": "A threshold check of an attribute answers True exactly when the value satisfies every limit configured for this attribute (min, max, equal, different), with the documented default minimal coverage, and never modifies the configuration.", "quantifier": "every configuration, every attribute and every value", "why_tests_cant": "Configurations and values are unbounded.", "anchors": ["ruleskit/thresholds.py: Thresholds.__init__", "ruleskit/thresholds.py: Thresholds.__call__"]}
{"id": "C17", "title": "A rejected rule stays rejected", "statement": "Once a rule has failed a threshold it is never reported good again, whatever sequence of fit, eval and threshold checks follows; a rule is good exactly when no check so far has failed.", "quantifier": "every history of fit/eval/check calls with arbitrary data", "why_tests_cant": "Unbounded histories.", "anchors": ["ruleskit/rule.py: Rule.check_thresholds", "ruleskit/rule.py: Rule.fit", "ruleskit/rule.py: Rule.eval", "ruleskit/rule.py: Rule.good"]}
{"id": "C18", "title": "A rule predicts its value on activated points and nothing elsewhere", "statement": "The prediction vector of a fitted rule has one entry per point, equal to the rule's prediction on the activated points and to missing (NaN / 'nan') everywhere else.", "quantifier": "every activation vector and every prediction value, numeric or class name of any length", "why_tests_cant": "Universal over vectors and class names.", "anchors": ["ruleskit/rule.py: Rule.predict", "ruleskit/rule.py: Rule.calc_prediction_vector"]}
{"id": "C19", "title": "A regression rule predicts the conditional mean", "statement": "The prediction of a fitted regression rule is the mean of the non-missing targets of activated points, hence lies between their minimum and maximum, is missing exactly when there is none, and its sign label is '-' exactly when it is negative; the standard deviation is non negative and zero exactly for constant targets.", "quantifier": "every target vector (with missing values) and every activation vector", "why_tests_cant": "Universal over vectors.", "anchors": ["ruleskit/rule.py: RegressionRule", "ruleskit/utils/rfunctions.py: conditional_mean", "ruleskit/utils/rfunctions.py: conditional_std"]}
{"id": "C20", "title": "A classification rule predicts the most frequent class", "statement": "The class probabilities of a rule are the observed frequencies of each class among activated points (they are positive and sum to one), and the predicted class is one with the highest frequency, the smallest in class order on ties.", "quantifier": "every target vector over integer or text classes and every activation vector", "why_tests_cant": "Universal over vectors and class alphabets; ties and lexicographic comparison need chosen values.", "anchors": ["ruleskit/rule.py: ClassificationRule.prediction", "ruleskit/utils/rfunctions.py: class_probabilities"]}
{"id": "C21", "title": "Weighted regression prediction is the weighted mean of the active rules", "statement": "With weights, the prediction of a ruleset at a point is the weight-weighted mean of the predictions of the rules activated there, hence lies between the smallest and largest of them for non-negative weights; it is missing exactly where the total active weight is zero; the stacked and the unstacked computation agree and do not depend on rule order.", "quantifier": "every list of rules, weights and points", "why_tests_cant": "Universal over rule lists, weights and orders.", "anchors": ["ruleskit/utils/rfunctions.py: calc_ruleset_prediction_weighted_regressor_unstacked", "ruleskit/utils/rfunctions.py: calc_ruleset_prediction_weighted_regressor_stacked", "ruleskit/utils/rfunctions.py: init_weights_stacked"]}
{"id": "C22", "title": "Unweighted regression prediction is the plain mean of the active rules", "statement": "Without weights, the prediction of a ruleset at a point is the mean of the predictions of the rules activated there and is missing exactly when none is; the stacked and unstacked computation agree; computing it does not modify the rules.", "quantifier": "every list of rules of any size and every point", "why_tests_cant": "Needs specific coincidences (cancelling predictions, more than 255 rules on one point) that sample data does not have.", "anchors": ["ruleskit/utils/rfunctions.py: calc_ruleset_prediction_equally_weighted_regressor_unstacked", "ruleskit/utils/rfunctions.py: calc_ruleset_prediction_equally_weighted_regressor_stacked"]}
{"id": "C23", "title": "Weighted class vote", "statement": "With weights, a ruleset predicts at a point the class whose active rules have the largest total weight, and nothing when the largest total is shared or no rule is active; the stacked and unstacked computation agree.", "quantifier": "every list of rules, weights, classes and points", "why_tests_cant": "Universal; disagreement needs specific weight patterns.", "anchors": ["ruleskit/utils/rfunctions.py: calc_ruleset_prediction_weighted_classificator_unstacked", "ruleskit/utils/rfunctions.py: calc_ruleset_prediction_weighted_classificator_stacked"]}
{"id": "C24", "title": "Unweighted class vote", "statement": "Without weights, a ruleset predicts at a point the class predicted by most of the rules active there, and nothing when there is a tie or no active rule; the prediction of a point does not depend on the other points.", "quantifier": "every list of rules, classes and points", "why_tests_cant": "Universal; the failing configurations involve the number of points which have a decision.", "anchors": ["ruleskit/utils/rfunctions.py: calc_ruleset_prediction_equally_weighted_classificator_stacked", "ruleskit/utils/rfunctions.py: calc_ruleset_prediction_equally_weighted_classificator_unstacked"]}
{"id": "C25", "title": "The activation of a ruleset is the union of its rules' activations", "statement": "After any sequence of append / += / + / construction from a list, the activation of a ruleset which remembers it is the element-wise or of the activations of the rules it contains, its stacked activation has one column per rule in rule order, and its coverage is the fraction of points covered by at least one rule.", "quantifier": "every sequence of additions of any rules", "why_tests_cant": "Unbounded histories, incremental versus from-scratch computation.", "anchors": ["ruleskit/ruleset.py: RuleSet.__iadd__", "ruleskit/ruleset.py: RuleSet.append", "ruleskit/ruleset.py: RuleSet._update_activation", "ruleskit/ruleset.py: RuleSet.evaluate_self_activation", "ruleskit/ruleset.py: RuleSet.ruleset_coverage"]}
{"id": "C26", "title": "Adding rulesets merges them as sets", "statement": "r1 + r2 contains exactly the rules of r1 and of r2, each once (up to rule equality), and modifies neither operand; += appends the rules in order.", "quantifier": "all pairs of rulesets", "why_tests_cant": "Universal over rule lists with arbitrary duplicates.", "anchors": ["ruleskit/ruleset.py: RuleSet.__add__", "ruleskit/ruleset.py: RuleSet.__iadd__", "ruleskit/ruleset.py: RuleSet.check_duplicated_rules"]}
{"id": "C27", "title": "Sorting a ruleset only reorders it", "statement": "Sorting a ruleset keeps exactly the same rules (with multiplicity), orders them by number of features, then features, then bounds, gives the same result when repeated, does not depend on the initial order except for rules with identical keys, and keeps each stacked column attached to its rule.", "quantifier": "every list of rules and every initial order", "why_tests_cant": "Factorially many orders.", "anchors": ["ruleskit/ruleset.py: RuleSet.sort"]}
{"id": "C28", "title": "Fitting or evaluating a ruleset drops exactly the bad rules", "statement": "After fit or eval the ruleset contains exactly the rules which are still good, in their original order; its activation is the union of the remaining rules' activations.", "quantifier": "every list of rules and every pattern of rejected rules", "why_tests_cant": "Exponentially many drop patterns.", "anchors": ["ruleskit/ruleset.py: RuleSet.fit", "ruleskit/ruleset.py: RuleSet.eval"]}
{"id": "C29", "title": "A ruleset survives saving and loading", "statement": "Writing a ruleset as a table and reading it back gives rules with the same condition (names, indexes, bounds), prediction and statistics, in the same order, and the set-wide figures are written under their own labels.", "quantifier": "every ruleset, numeric or text predictions", "why_tests_cant": "Universal over contents; text predictions which look like numbers matter.", "anchors": ["ruleskit/ruleset.py: RuleSet.to_df", "ruleskit/ruleset.py: RuleSet.load", "ruleskit/ruleset.py: RuleSet.rule_to_series", "ruleskit/ruleset.py: RuleSet.series_to_rule"]}
{"id": "C30", "title": "Rules extracted from a decision tree describe the tree", "statement": "For a decision tree, the extraction gives two rules per internal node (or one per leaf); a sample inside [xmins, xmaxs] satisfies the rule of a leaf if it falls in this leaf, and only if it satisfies every comparison on the way to this leaf (up to equality with thresholds).", "quantifier": "every tree, every depth, every sample", "why_tests_cant": "Trees are unbounded; the failure needs the same feature to be split several times along a path.", "anchors": ["ruleskit/utils/rule_utils.py: extract_rules_from_tree"]}
{"id": "C31", "title": "Activation files are not leaked, shared or overwritten", "statement": "Along any sequence of creating, clearing, deleting and reading activations stored on disk, two live activations never share a file, an existing file is never overwritten, an activation read back is what was written, and deleting an activation removes its file and no other.", "quantifier": "every history of operations and every sequence of random file numbers", "why_tests_cant": "Random names and unbounded histories; a collision practically never happens in a test.", "anchors": ["ruleskit/activation.py: Activation._write", "ruleskit/activation.py: Activation._read", "ruleskit/activation.py: Activation.delete", "ruleskit/activation.py: Activation.clear", "ruleskit/activation.py: Activation.clean_files"]}
{"id": "C32", "title": "append keeps the caller's settings", "statement": "append of a rule with update_activation=False leaves the ruleset's own remember/stack settings as before, also when the append is refused with an error, and a refused append leaves the ruleset unchanged.", "quantifier": "every history of successful and refused appends", "why_tests_cant": "Exception paths in unbounded histories.", "anchors": ["ruleskit/ruleset.py: RuleSet.append", "ruleskit/ruleset.py: RuleSet.__iadd__"]}
{"id": "C33", "title": "Error measures are sane", "statement": "mse and mae of a prediction vector are non negative and zero exactly when predictions equal targets where both exist; success rate lies between 0 and 1 and equals 1 exactly when all decided predictions are right; the normalised versions divide by the error of the constant mean predictor.", "quantifier": "every prediction/target vector with missing values", "why_tests_cant": "Universal over vectors.", "anchors": ["ruleskit/utils/rfunctions.py: mse_function", "ruleskit/utils/rfunctions.py: mse_norm", "ruleskit/utils/rfunctions.py: mae_function", "ruleskit/utils/rfunctions.py: mae_norm", "ruleskit/utils/rfunctions.py: aae_function", "ruleskit/utils/rfunctions.py: success_rate"]}
{"id": "C34", "title": "Membership of a rule in a ruleset", "statement": "`rule in ruleset` holds exactly when the ruleset has a rule with the same feature names, bounds and prediction; hence it holds after appending the rule and is monotone under appending other rules.", "quantifier": "every ruleset and rule", "why_tests_cant": "Universal over rulesets and histories.", "anchors": ["ruleskit/ruleset.py: RuleSet.__contains__"]}
{"id": "C35", "title": "Feature bookkeeping of a ruleset", "statement": "The feature indexes of a ruleset are the increasing list without repetition of the indexes used by its rules after any sequence of additions, and the feature counter counts for each feature the number of rules using it.", "quantifier": "every sequence of additions", "why_tests_cant": "Unbounded histories.", "anchors": ["ruleskit/ruleset.py: RuleSet.set_features_indexes", "ruleskit/ruleset.py: RuleSet.get_features_count", "ruleskit/ruleset.py: RuleSet.__iadd__"]}
{"id": "C36", "title": "Using activations does not change class-wide settings", "statement": "Creating, reading, combining, clearing or deleting activations, whether the operation succeeds or raises, never changes the class-wide settings DTYPE, WILL_COMPARE and STORE_RAW; only assigning them does.", "quantifier": "every history of operations on activations, including operations on deleted activations", "why_tests_cant": "Some readers switch a class-wide setting temporarily; whether it is always switched back depends on every possible exception in every storage format and history.", "anchors": ["ruleskit/activation.py: Activation.as_bitarray", "ruleskit/activation.py: Activation.as_integer", "ruleskit/activation.py: Activation.delete"]}
{"id": "C37", "title": "Coverage is the fraction of activated points", "statement": "The coverage of a rule is the fraction of points activated by its current activation vector: it lies between 0 and 1, is 0 exactly when no point and 1 exactly when every point is activated, and after fit it is the fraction of rows satisfying the condition.", "quantifier": "every rule and history of calls", "why_tests_cant": "The coverage is cached in the rule; whether the cache is ever stale depends on the whole history of fit, eval, activation and prediction calls.", "anchors": ["ruleskit/rule.py: Rule.coverage", "ruleskit/rule.py: Rule.fit", "ruleskit/rule.py: Rule.eval", "ruleskit/rule.py: Rule.calc_activation"]}
{"id": "C38", "title": "The z-score of a rule follows its formula", "statement": "After fit, the z-score of a regression rule is the distance between its prediction and the mean of all non-missing targets, divided by sqrt(horizon / number of activated points) times the population standard deviation of all targets; it is missing when no point is activated.", "quantifier": "every target vector, activation and horizon", "why_tests_cant": "Universal over targets (including missing ones), activations and horizons.", "anchors": ["ruleskit/rule.py: RegressionRule.calc_zscore", "ruleskit/utils/rfunctions.py: calc_zscore_external"]}
{"id": "C39", "title": "Equality of rulesets", "statement": "Two rulesets compare equal exactly when each rule of one requires the same bounds of the same features as some rule of the other; order, repetitions, predictions and activations do not matter, and equality is reflexive, symmetric and transitive.", "quantifier": "every pair (triple) of rulesets", "why_tests_cant": "Universal over rulesets; the comparison goes through hashes, whose collisions a test does not meet.", "anchors": ["ruleskit/ruleset.py: RuleSet.__eq__", "ruleskit/rule.py: Rule.__hash__", "ruleskit/rule.py: Rule.__eq__"]}
{"id": "C40", "title": "Duplicated rules are refused", "statement": "With CHECK_DUPLICATED a ruleset never has two rules with the same features, bounds and prediction: making one with such rules raises ValueError, and making any other one gives what it would give without the check.", "quantifier": "every list of rules", "why_tests_cant": "Rules are compared as concatenated texts; whether two different rules can give one text is a question about all rules.", "anchors": ["ruleskit/ruleset.py: RuleSet.check_duplicated_rules", "ruleskit/ruleset.py: RuleSet.__init__", "ruleskit/ruleset.py: RuleSet.append"]}
{"id": "C41", "title": "Slices of rulesets", "statement": "ruleset[start:stop:step] is a ruleset with exactly the rules at the positions a Python list slice selects, in this order; ruleset[i] is the rule at this position, negative positions being counted from the end; out of range raises IndexError and a null step ValueError.", "quantifier": "every ruleset, start, stop and step", "why_tests_cant": "Universal over bounds and steps of either sign and lengths.", "anchors": ["ruleskit/ruleset.py: RuleSet.__getitem__"]}
{"id": "C42", "title": "Criterion and set sizes of a ruleset", "statement": "The criterion of a ruleset is the error measure between its predictions and the targets (for regression the mean squared error relative to the one of the mean target unless another measure is asked for, for classification the rate of right predictions among the activated points with a prediction), NaN without predictions; fit notes the number of targets as train set size, eval as test set size.", "quantifier": "every ruleset, target vector, features and weights", "why_tests_cant": "Universal over rulesets and targets, including missing values and undecided votes.", "anchors": ["ruleskit/ruleset.py: RuleSet.calc_criterion", "ruleskit/ruleset.py: RuleSet.eval", "ruleskit/ruleset.py: RuleSet.fit", "ruleskit/ruleset.py: RuleSet.calc_train_set_size", "ruleskit/ruleset.py: RuleSet.calc_test_set_size"]}
{"id": "C43", "title": "Stacked fit is only a matter of speed", "statement": "With STACKED_FIT, fit gives each rule the same activation, prediction, standard deviation, sign, z-score, train set size and verdict as without, keeps and returns the same rules, and leaves the ruleset with the same activation, stacked activations and settings.", "quantifier": "every ruleset, features (given or not), targets and thresholds", "why_tests_cant": "Equivalence of two implementations over all rulesets, activations, targets and thresholds, including degenerate ones.", "anchors": ["ruleskit/ruleset.py: RuleSet.fit", "ruleskit/ruleset.py: RuleSet.calc_predictions", "ruleskit/ruleset.py: RuleSet.calc_stds", "ruleskit/ruleset.py: RuleSet.calc_signs", "ruleskit/ruleset.py: RuleSet.calc_zscores", "ruleskit/utils/rfunctions.py: class_probabilities", "ruleskit/utils/rfunctions.py: conditional_mean", "ruleskit/utils/rfunctions.py: conditional_std", "ruleskit/utils/rfunctions.py: calc_zscore_external", "ruleskit/rule.py: Rule.fit"]}
{"id": "C44", "title": "Stacked eval is only a matter of speed", "statement": "With STACKED_FIT, eval gives each rule the same verdict and criterion as without, keeps and returns the same rules, and leaves the ruleset with the same criterion and test set size.", "quantifier": "every ruleset, features (given or not, kept or not), targets, weights and thresholds", "why_tests_cant": "Equivalence of two implementations over all rulesets, activations, targets and thresholds, including degenerate ones.", "anchors": ["ruleskit/ruleset.py: RuleSet.eval", "ruleskit/ruleset.py: RuleSet.calc_criterions", "ruleskit/rule.py: Rule.check_thresholds", "ruleskit/utils/rfunctions.py: success_rate", "ruleskit/utils/rfunctions.py: calc_regression_criterion", "ruleskit/rule.py: Rule.eval"]}
{"id": "C45", "title": "Intersections of conditions do not depend on order, grouping or repetition", "statement": "a & b is the same condition as b & a, (a & b) & c is the same as a & (b & c) (or both fail with IndexError), and c & c is equal to c and selects the same rows.", "quantifier": "all conditions however they were made and changed, both sort orders", "why_tests_cant": "Algebraic laws over all triples of conditions with any features, bounds and orders of features.", "anchors": ["ruleskit/condition.py: HyperrectangleCondition.__and__", "ruleskit/condition.py: HyperrectangleCondition.sort"]}
{"id": "C46", "title": "Intersection of rules", "statement": "r1 & r2 is a new rule, not fitted, whose condition selects the rows which both conditions select, whose activation marks the points which both activate, whose coverage is the fraction of them, and which when fitted predicts the mean of their targets. The order of the two rules does not matter.", "quantifier": "all pairs of rules, features, targets and thresholds", "why_tests_cant": "Agreement of condition, activation, coverage and prediction over all rules and data.", "anchors": ["ruleskit/rule.py: Rule.__and__", "ruleskit/rule.py: Rule.__init__", "ruleskit/activation.py: Activation.__and__", "ruleskit/condition.py: HyperrectangleCondition.__and__"]}
{"id": "C47", "title": "Containment of rules", "statement": "r2 in r1 is true exactly when both rules have an activation and all points activated by r2 are activated by r1; it changes no activation, and r1 & r2 is contained in r1 and in r2.", "quantifier": "all pairs of rules, storage formats and histories of the activations", "why_tests_cant": "Meaning of a test over all pairs of activations, in all combinations of storage formats.", "anchors": ["ruleskit/rule.py: Rule.__contains__", "ruleskit/activation.py: Activation.__contains__"]}
{"id": "C48", "title": "Correlation of rules", "statement": "The correlation of two rules is the fraction of the points where their activations agree times the product of the signs of their predictions; it is symmetric, between -1 and 1, 1 for a rule with itself, and activations of different lengths raise ValueError.", "quantifier": "all pairs of rules with activations of the same length, storage formats and histories", "why_tests_cant": "Arithmetic identity over all pairs of activations and predictions.", "anchors": ["ruleskit/rule.py: Rule.get_correlation", "ruleskit/activation.py: Activation.get_correlation"]}
{"id": "C49", "title": "Deleted activations of rules", "statement": "After del_activation the activation of the rule is not available and reads None, computed attributes remain, and other rules keep their activations.", "quantifier": "all rules, storage formats and histories of the activations", "why_tests_cant": "Absence of side effects on other rules and files, over all formats and histories.", "anchors": ["ruleskit/rule.py: Rule.del_activation", "ruleskit/rule.py: Rule.activation_available", "ruleskit/rule.py: Rule.activation", "ruleskit/rule.py: Rule.coverage", "ruleskit/activation.py: Activation.delete"]}
{"id": "C50", "title": "Attributes read and assigned through rules", "statement": "Attributes of the condition and of the activation can be read from the rule. Assigning a name makes it read the assigned value and no other name change; names which cannot be read and properties without setter cannot be assigned. Assigning an attribute of the condition on the rule sets it on the condition, as documented.", "quantifier": "all rules, classes of rules, names, values and sequences of assignments", "why_tests_cant": "Attribute lookup has several layers (properties, dictionary, class, __getattr__); tests try a few names on fresh rules and do not compare what is shown with what is used.", "anchors": ["ruleskit/rule.py: Rule.__getattr__", "ruleskit/rule.py: Rule.__setattr__"]}
{"id": "C51", "title": "Thresholds of classes and of single rules", "statement": "SET_THRESHOLDS on a class is in force for this class and those derived from it which have no setting of their own. check_thresholds checks against the thresholds of the rule: those set for it by set_thresholds, else those of its class. The property thresholds shows them.", "quantifier": "all class hierarchies, sequences of settings, rules and thresholds", "why_tests_cant": "The thresholds used depend on the order of settings, creations and checks; tests set thresholds once, on one class.", "anchors": ["ruleskit/rule.py: Rule.SET_THRESHOLDS", "ruleskit/rule.py: Rule.set_thresholds", "ruleskit/rule.py: Rule.check_thresholds", "ruleskit/rule.py: Rule.thresholds"]}
{"id": "C52", "title": "Activations of rulesets as objects", "statement": "Computing the activation of a ruleset gives a new object showing the points activated by one of its rules; appending a rule takes the union with its activation. Nothing done with the ruleset changes the activations of its rules or of others. Deleting the activations of the rules leaves the one of the ruleset and conversely, computed attributes remaining available, and rules can still be appended; stacked_activations_available tells whether there are stacked activations.", "quantifier": "all programs over a heap of activation objects in any storage format, all rulesets over it, sequences of calls and exceptions", "why_tests_cant": "Results may share objects with their inputs in some formats only, and damage shows in other rules long after; tests look at one ruleset with fresh activations.", "anchors": ["ruleskit/ruleset.py: RuleSet.compute_self_activation", "ruleskit/ruleset.py: RuleSet.append", "ruleskit/ruleset.py: RuleSet.del_activations", "ruleskit/ruleset.py: RuleSet.del_activation", "ruleskit/ruleset.py: RuleSet.del_stacked_activations", "ruleskit/ruleset.py: RuleSet.stacked_activations_available", "ruleskit/ruleset.py: RuleSet.ruleset_coverage"]}
{"id": "C53", "title": "Equal rules and rulesets have equal hashes", "statement": "Two rules, or two rulesets, which compare equal have the same hash, so that they can be looked up in sets and dictionaries. Order and repetition of rules, predictions and activations do not change the hash.", "quantifier": "all rulesets of reachable conditions, all hash functions of strings, floats, tuples and frozensets", "why_tests_cant": "Python requires it of all pairs of equal objects and does not check it; tests hash one or two objects, and hashes of strings change with each run.", "anchors": ["ruleskit/ruleset.py: RuleSet.__hash__", "ruleskit/ruleset.py: RuleSet.to_hash", "ruleskit/ruleset.py: RuleSet.__eq__", "ruleskit/rule.py: Rule.__hash__", "ruleskit/rule.py: Rule.__eq__"]}
{"id": "C54", "title": "Conditions do not share their lists", "statement": "Intersecting conditions changes neither of them, and changing one condition, by assigning or in place, changes no other: conditions behave as values. This holds for every program which does not keep the lists it gives to conditions; lists kept by the caller are shared in the cases stated.", "quantifier": "all programs of constructions, intersections, sortings, assignments and changes in place, of any length, with steps which raise; for `&` also all ways of sharing lists beforehand", "why_tests_cant": "Aliasing shows only when an object is changed later through another reference; tests look at results once.", "anchors": ["ruleskit/condition.py: HyperrectangleCondition.__init__", "ruleskit/condition.py: HyperrectangleCondition.__and__", "ruleskit/condition.py: HyperrectangleCondition.sort", "ruleskit/condition.py: HyperrectangleCondition.bmins", "ruleskit/condition.py: Condition.features_indexes", "ruleskit/condition.py: Condition.normalize_features_indexes"]}
{"id": "C55", "title": "A ruleset selects the points which one of its rules selects", "statement": "For features given as an array or a DataFrame, evaluate, evaluate_self_activation and calc_activation all mark exactly the points lying in the hyper-rectangle of at least one rule, whatever the order and the number of the rules; more rules select more points; after calc_activation every rule has its own points.", "quantifier": "all rulesets of conditions which a user can obtain, all arrays and DataFrames which have their columns (with NaN and infinite values), all ways in which the union is computed", "why_tests_cant": "Tests compare a few vectors; they do not cover the two ways of making the union, all orders of rules and all features.", "anchors": ["ruleskit/ruleset.py: RuleSet.evaluate", "ruleskit/ruleset.py: RuleSet.evaluate_self_activation", "ruleskit/ruleset.py: RuleSet.calc_activation", "ruleskit/rule.py: Rule.evaluate_activation", "ruleskit/activation.py: Activation.multi_logical_or"]}
{"id": "C56", "title": "Rounding does not change what counts decide", "statement": "The coverage of a rule, the success rate of a label and the class frequencies are quotients of counts which are rounded to floats. Nevertheless coverage is from 0 to 1, 0 for no point and 1 for all points; rules activating more of the same points have greater coverage, equally many have equal coverage; a minimal coverage given as the float of a/b accepts exactly the rules activating at least a/b of the points; the predicted class is the most frequent one, the smallest of several.", "quantifier": "all ways of rounding with relative error u which keep order and 1, all vectors and targets with 2nu <= 1 (2anu <= 1 for the limit a/b); floats have u = 2**-53", "why_tests_cant": "Rounding errors show up at particular fractions only; no test tries all counts and limits.", "anchors": ["ruleskit/activation.py: Activation.nones", "ruleskit/utils/rfunctions.py: success_rate", "ruleskit/utils/rfunctions.py: class_probabilities", "ruleskit/thresholds.py: Thresholds.__call__", "ruleskit/rule.py: ClassificationRule.prediction"]}
{"id": "C57", "title": "Predictions and errors of regression rules are accurate up to rounding", "statement": "The prediction of a regression rule is the mean of the activated targets up to 2nu of the mean of their absolute values, for one vector or stacked, whatever the order of summation; it has the sign of targets of one sign; it is the nearest float, independent of order and between the smallest and the greatest target for integer targets; the mean absolute and squared errors have relative errors of at most 2(n+1)u and 2(n+3)u and are zero exactly for perfect predictions; the standard deviation is not negative, and zero only for equal targets.", "quantifier": "all ways of rounding with relative error u which keep order and 1, all orders and groupings of additions, all targets with 2nu <= 1", "why_tests_cant": "Tests compare a few values up to a tolerance; they can not bound the error for all targets, lengths and orders of summation.", "anchors": ["ruleskit/utils/rfunctions.py: conditional_mean", "ruleskit/utils/rfunctions.py: conditional_std", "ruleskit/utils/rfunctions.py: mse_function", "ruleskit/utils/rfunctions.py: mae_function"]}
{"id": "C58", "title": "Predictions of rulesets survive rounding", "statement": "With floats, the weighted prediction of a ruleset of k regression rules is the weighted mean of the predictions of the active rules up to 11ku of the weighted mean of their absolute values, stacked or not, whatever the order of summation; relative error 11ku and the right sign where the active rules agree in sign; NaN only without weight, or unstacked when the mean is that close to zero. The weighted class vote gives the class with the greatest total weight whenever it leads by more than a fraction 2ku, never gives a class which is behind by more, and is exact for whole weights, in particular for equal votes.", "quantifier": "all ways of rounding with relative error u which keep order and 1, all orders and groupings of the stacked sums, all rulesets of k rules with 4ku <= 1, all activation vectors, float predictions and float weights which are not negative", "why_tests_cant": "Tests compare a few rulesets up to a tolerance; they can not bound the error for all weights, sizes and orders of rules.", "anchors": ["ruleskit/utils/rfunctions.py: calc_ruleset_prediction_weighted_regressor_unstacked", "ruleskit/utils/rfunctions.py: calc_ruleset_prediction_weighted_regressor_stacked", "ruleskit/utils/rfunctions.py: calc_ruleset_prediction_weighted_classificator_unstacked"]}
{"id": "C59", "title": "A ruleset announces the class of its rules", "statement": "Whatever has been done to a ruleset, also by calls which raised, if it has rules then rule_type can be read and is the class of all of them, and a rule of another class is refused with TypeError and changes nothing.", "quantifier": "all sequences of constructions, additions, appends, sorts, fits, evals (stacked or not), predictions, slices, loads and extractions from trees, raising or not", "why_tests_cant": "Tests run a few short sequences of calls which succeed; the claim is about every history, including exceptions in the middle.", "anchors": ["ruleskit/ruleset.py: RuleSet.__iadd__", "ruleskit/ruleset.py: RuleSet.rule_type", "ruleskit/ruleset.py: RuleSet.rules"]}
{"id": "C60", "title": "Rulesets do not share their stacked activations", "statement": "A call on a ruleset changes this ruleset only: the stacked activations of every other ruleset keep their columns, so that what is later computed from them (stacked fit, eval and predictions) does not depend on what has been done to other rulesets.", "quantifier": "all sequences of constructions, additions of rules and rulesets, appends and any other calls on any number of rulesets", "why_tests_cant": "Tests look at the ruleset they call, not at the other rulesets alive; whether two of them share a DataFrame shows only after a further call on one of them.", "anchors": ["ruleskit/ruleset.py: RuleSet._update_stacked_activation", "ruleskit/ruleset.py: RuleSet.__iadd__"]}
{"id": "C61", "title": "Rulesets share rules, and nothing else", "statement": "Slices of a ruleset, sums of rulesets and rulesets to which another one was added contain the same rule objects. A fit of one ruleset changes, in the other ones, exactly the rules which they have in common, and does to this ruleset what it would do were it the only one; a call on a rule changes this rule only; making a ruleset or adding to one changes no other ruleset. A user who fits a slice expects the original ruleset to stay consistent: its activation to be that of its rules, and its rules to be good ones.", "quantifier": "all rulesets, however they share rules, all data, and calls which raise as well", "why_tests_cant": "Tests look at the ruleset they call; which of the other rulesets alive see the change depends on the objects they share, for which there are unboundedly many patterns.", "anchors": ["ruleskit/ruleset.py: RuleSet.__getitem__", "ruleskit/ruleset.py: RuleSet.fit", "ruleskit/ruleset.py: RuleSet.__iadd__", "ruleskit/ruleset.py: RuleSet.__add__"]}
{"id": "C62", "title": "Texts of conditions, rules and rulesets tell what they are", "statement": "The text of a condition, under which its rule has its column of stacked activations and its weight, tells conditions apart: conditions with the same text have the same features and bounds, so that rules with different conditions have a column each; and equal conditions have the same text. The text of a rule tells its condition and its prediction. The text of a ruleset shows its rules in order, with a line of dots exactly where rules are left out.", "quantifier": "all conditions, all names of features and bounds, all rulesets and all values of NLINES", "why_tests_cant": "Texts are tested on a few conditions with simple names; that no two of all possible conditions have the same text is about all pairs of conditions.", "anchors": ["ruleskit/condition.py: HyperrectangleCondition.__str__", "ruleskit/ruleset.py: RuleSet.__str__", "ruleskit/ruleset.py: RuleSet._update_stacked_activation", "ruleskit/rule.py: Rule.__str__"]}
{"id": "C63", "title": "Flags and sizes of a rule tell how it was fitted and evaluated", "statement": "After fit a rule says that it is fitted and knows the number of targets it was fitted on; after eval it says that it is evaluated and knows the number of targets it was evaluated on; what it says comes from its last fit and eval. fit leaves alone what comes from an evaluation, and eval leaves alone what comes from the training set (prediction, standard deviation, sign, z-score, size, and the activation unless it is to be computed again), even when they raise.", "quantifier": "all rules of both kinds, all targets, features, thresholds and settings, and all outcomes, errors included", "why_tests_cant": "What is left alone is a claim about every call, including those which raise half way; tests look at a few figures after calls which succeed.", "anchors": ["ruleskit/rule.py: Rule.fit", "ruleskit/rule.py: Rule.eval", "ruleskit/rule.py: Rule.calc_train_set_size", "ruleskit/rule.py: Rule.calc_test_set_size"]}
{"id": "C64", "title": "Measuring an activation does not change it", "statement": "Reading a profiling figure of an activation (sizeof_* and time_*), with Activation.FORCE_STAT set or not, leaves every activation showing the same vector and stored in the same format, and leaves all files and class-wide settings as they were, whether the measure succeeds or raises.", "quantifier": "all histories of operations on activations, all 21 figures which can force work, all formats, all class-wide settings, file names drawn at random", "why_tests_cant": "A measure temporarily replaces the data of the object or writes a file under a random name; whether everything is put back in every format, history and outcome is beyond a few samples.", "anchors": ["ruleskit/activation.py: Activation.sizeof_path", "ruleskit/activation.py: Activation.time_read", "ruleskit/activation.py: Activation.time_raw_to_compressed", "ruleskit/activation.py: Activation.time_integer_to_bitarray", "ruleskit/activation.py: Activation._write"]}
{"id": "C65", "title": "The index of the targets does not matter", "statement": "With RuleSet.STACKED_FIT, RuleSet.fit and RuleSet.eval of targets given as a pandas Series do what they do with the numpy array of its values, whatever the index of the Series: the k-th target belongs to the k-th row of the features. The same rules are returned as dropped, every rule and the ruleset end up the same, and no trace of the index is left for later calls.", "quantifier": "all rulesets, all targets and indexes (any order, repeated labels, any integers), all sequences of calls of fit and eval mixing arrays and Series, all keyword arguments", "why_tests_cant": "Pandas aligns the activations and the targets by label in some of the computations and numpy goes by position in others; a test with the default index 0, 1, ... cannot tell the two apart, and what a call leaves behind shows only in particular sequences.", "anchors": ["ruleskit/ruleset.py: RuleSet.fit", "ruleskit/ruleset.py: RuleSet.eval", "ruleskit/ruleset.py: RuleSet.calc_stds", "ruleskit/ruleset.py: RuleSet.calc_predictions", "ruleskit/utils/rfunctions.py: conditional_std", "ruleskit/utils/rfunctions.py: class_probabilities"]}
{"id": "C66", "title": "The prediction at a point depends on this point only", "statement": "Two points with the same features get the same prediction from predict, whichever data sets they are in: predicting the rows of a table in batches, in another order, with other rows around them, or with the columns of the DataFrame in another order, gives each row the prediction it has in the whole table. This holds for Rule.predict and for RuleSet.predict, with or without weights.", "quantifier": "all rules and rulesets, all pairs of data sets (arrays or DataFrames of any size) and all pairs of points in them, all weights", "why_tests_cant": "A test compares some batches of some data; whether the other rows of a batch can have an influence depends on which rules happen to be active in it, on the weights and on the way the predictions are combined (tables of classes, dropped columns, modes).", "anchors": ["ruleskit/rule.py: Rule.predict", "ruleskit/ruleset.py: RuleSet.predict", "ruleskit/ruleset.py: RuleSet._calc_prediction_stacked", "ruleskit/ruleset.py: RuleSet._calc_prediction_unstacked", "ruleskit/utils/rfunctions.py: calc_ruleset_prediction_weighted_classificator_unstacked", "ruleskit/utils/rfunctions.py: calc_ruleset_prediction_equally_weighted_classificator_stacked"]}
{"id": "C67", "title": "The order of the points does not matter to fit and eval", "statement": "Calling fit or eval with the rows of the features and the targets reordered in the same way gives the same outcome (the same exception, if any) and the same rule: prediction or class probabilities, standard deviation, sign, z-score, criterion, sizes, flags, good and bad_because are equal, and the activation vector is reordered in that way. This also holds for any sequence of such calls, each with its own order, and for the rules of a ruleset.", "quantifier": "all rules, thresholds, data sets (arrays or DataFrames) with their targets, all permutations of the points, all keyword arguments, all sequences of calls", "why_tests_cant": "A test tries some permutations of some data; the figures are computed by different functions (conditional means, counters of classes sorted by frequency, medians, baselines), each of which could look at positions or break ties by the first occurrence.", "anchors": ["ruleskit/rule.py: Rule.fit", "ruleskit/rule.py: Rule.eval", "ruleskit/utils/rfunctions.py: conditional_mean", "ruleskit/utils/rfunctions.py: conditional_std", "ruleskit/utils/rfunctions.py: class_probabilities", "ruleskit/utils/rfunctions.py: calc_zscore_external", "ruleskit/utils/rfunctions.py: calc_regression_criterion", "ruleskit/utils/rfunctions.py: calc_classification_criterion"]}
{"id": "C68", "title": "Fitting or evaluating again changes nothing", "statement": "When fit leaves a good rule, calling it once more with the same arguments succeeds and changes nothing; the same for eval; and after a fit on a training set and an eval on a test set, repeating these calls in any order changes nothing. What fit computes on given data does not depend on what the rule was fitted on or evaluated on before. Fitting or evaluating a ruleset again drops no rule and changes nothing.", "quantifier": "all rules and rulesets, thresholds (also those which refer to other attributes), data and targets, keyword arguments, values of force_if_not_good, and all sequences of repeated calls", "why_tests_cant": "The second call meets a rule whose attributes are all set, and every threshold is checked again, at other moments than the first time; a test repeats some calls on some data.", "anchors": ["ruleskit/rule.py: Rule.fit", "ruleskit/rule.py: Rule.eval", "ruleskit/rule.py: Rule.check_thresholds", "ruleskit/ruleset.py: RuleSet.fit"]}
{"id": "C69", "title": "The unit of the target does not matter", "statement": "Fitting a regression rule on targets given in another unit (a*t+b with a>0, as from Celsius to Fahrenheit) gives the prediction in the other unit, the standard deviation times a, and the same z-score, activation and size. Evaluating it gives a times the criterion mae, a*a times mse, and the same mse_norm, mae_norm and aae. The predictions of a ruleset are converted in the same way, missing where they were missing.", "quantifier": "all rules, features, targets (also missing), all a>0 and b, criterion methods, horizons, weights (which may have another unit, too)", "why_tests_cant": "The claim relates two runs of the program for all conversions; a test would compare a few, and the cases where it fails need predictions which happen to cancel or to be zero after the conversion.", "anchors": ["ruleskit/rule.py: RegressionRule.calc_prediction", "ruleskit/rule.py: RegressionRule.calc_zscore", "ruleskit/utils/rfunctions.py: conditional_mean", "ruleskit/utils/rfunctions.py: conditional_std", "ruleskit/utils/rfunctions.py: calc_zscore_external", "ruleskit/utils/rfunctions.py: calc_regression_criterion", "ruleskit/ruleset.py: RuleSet.predict"]}
{"id": "C70", "title": "The scale of the features does not matter", "statement": "Convert each feature by a strictly increasing function (Celsius to Fahrenheit, cubes, ...), in the data and in the bounds of the conditions: the conditions select the same rows, the intersection of two conditions is the intersection of the originals with its bounds converted (or raises the same exception), and a rule fitted, evaluated or asked for predictions on the converted data gives the same activation, prediction, figures, criterion and bad reasons. A ruleset covers the same points and predicts the same.", "quantifier": "all conditions made by the constructor and by &, all arrays and DataFrames with missing and infinite values, all strictly increasing functions (one for each feature), all rules and targets, all weights given for corresponding rules, all thresholds but those on the condition itself; rulesets whose rules have corresponding texts in both units", "why_tests_cant": "The claim relates two runs for all monotone conversions and all data; a test compares a few linear ones, and would miss an evaluation that uses the width of an interval, a strict bound at one end, or a column chosen by the value it holds.", "anchors": ["ruleskit/condition.py: HyperrectangleCondition.evaluate", "ruleskit/condition.py: HyperrectangleCondition.__and__", "ruleskit/rule.py: Rule.fit", "ruleskit/rule.py: Rule.eval", "ruleskit/rule.py: Rule.predict", "ruleskit/ruleset.py: RuleSet.predict", "ruleskit/ruleset.py: RuleSet.evaluate_self_activation"]}
{"id": "C71", "title": "The names of the classes do not matter", "statement": "Give the classes of a classification problem other names (other numbers, other texts, or texts for numbers; different classes keep different names). A rule fitted on the renamed targets has the same class frequencies under the new names and predicts the same class, renamed; its criterion on renamed targets is the same. Rulesets whose rules predict the renamed classes predict the renamed classes, missing at the same points, and have the same criterion.", "quantifier": "all injective renamings of the classes, all targets, activations, rules and weights that are not negative", "why_tests_cant": "The claim relates two runs for all renamings, in particular those which change the order of the names or their type; a test checks one naming, usually 0/1 or two short words.", "anchors": ["ruleskit/rule.py: ClassificationRule.calc_prediction", "ruleskit/rule.py: ClassificationRule.calc_criterion", "ruleskit/utils/rfunctions.py: class_probabilities", "ruleskit/utils/rfunctions.py: success_rate", "ruleskit/ruleset.py: RuleSet.predict", "ruleskit/ruleset.py: RuleSet.calc_criterion"]}
{"id": "C72", "title": "Predictions stay among the training targets", "statement": "After fit(y, xs) on targets between two numbers lo and hi (missing targets allowed), every regression rule predicts a number between lo and hi or NaN, and whatever predict returns for any features, with or without weights that are not negative and with or without stacked activations, is between lo and hi at each point, or missing. A fitted classification rule or ruleset only predicts classes that were among the training targets, or nothing.", "quantifier": "all targets, rules, features given to fit and to predict, weights that are not negative, settings", "why_tests_cant": "A bound on every output for every model, training set and test set; a test compares a few predictions with expected values, and the rules of a test cover the training data.", "anchors": ["ruleskit/rule.py: RegressionRule.calc_prediction", "ruleskit/rule.py: ClassificationRule.calc_prediction", "ruleskit/ruleset.py: RuleSet.fit", "ruleskit/ruleset.py: RuleSet.predict", "ruleskit/utils/rfunctions.py: conditional_mean"]}
{"id": "C73", "title": "Features which no rule uses do not matter", "statement": "Let x and x' be two tables of features (arrays, DataFrames, or one of each) with as many rows and the same values in the columns used by the rules of a ruleset (by number in an array, by name in a DataFrame). Then fit, eval, predict and evaluate of each rule and of the ruleset, stacked or not, have the same outcome on x' as on x and leave the same rule or ruleset. In particular columns can be added at the end of an array, and added to, or moved in, a DataFrame.", "quantifier": "all tables of features, rulesets, targets, weights, settings", "why_tests_cant": "It compares two runs of the whole program for every change of the columns which are not used; tests have fixed tables whose columns are all used.", "anchors": ["ruleskit/condition.py: HyperrectangleCondition.evaluate", "ruleskit/rule.py: Rule.fit", "ruleskit/rule.py: Rule.eval", "ruleskit/rule.py: Rule.predict", "ruleskit/ruleset.py: RuleSet.fit", "ruleskit/ruleset.py: RuleSet.eval", "ruleskit/ruleset.py: RuleSet.predict", "ruleskit/ruleset.py: RuleSet.evaluate"]}
{"id": "C74", "title": "Stricter thresholds keep fewer rules and do not change those which stay", "statement": "Let Rule.THRESHOLDS be replaced by stricter thresholds: higher minima, lower maxima, limits on more attributes, or any thresholds instead of none. If a rule is good after fit (eval) under the stricter thresholds, fit (eval) works under the others too and leaves the same good rule, with the same prediction, figures, activation and flags. If fit (eval) of a ruleset works under both, the rules kept under the stricter thresholds are, in order, among those kept under the others, and are the same rules (for eval up to the stored activations).", "quantifier": "all thresholds, rules, rulesets, features, targets, settings", "why_tests_cant": "It compares two runs of the whole program for any pair of thresholds; tests have fixed thresholds and look at one run.", "anchors": ["ruleskit/rule.py: Rule.check_thresholds", "ruleskit/rule.py: Rule.fit", "ruleskit/rule.py: Rule.eval", "ruleskit/ruleset.py: RuleSet.fit", "ruleskit/ruleset.py: RuleSet.eval", "ruleskit/thresholds.py: Thresholds.__call__"]}
{"id": "C75", "title": "The prediction of a ruleset at a point depends on the rules active there only", "statement": "If at some point the same rules of two rulesets are active, in whatever order and whatever the other rules are, then both rulesets predict the same at this point: with the same weights or without, for regression and classification. In particular sorting a ruleset does not change its predictions.", "quantifier": "all rulesets, features, weights, points", "why_tests_cant": "It compares predictions of arbitrary pairs of rulesets at every point; the code adds vectors of all rules one after the other, so that the claim rests on the whole accumulation; tests predict with one ruleset in one order.", "anchors": ["ruleskit/ruleset.py: RuleSet.predict", "ruleskit/ruleset.py: RuleSet.calc_predictions", "ruleskit/ruleset.py: RuleSet.sort"]}
{"id": "C76", "title": "Repeating every point leaves the fitted rule as it is", "statement": "Let every point (features and target) of a data set occur k times, k > 0, in another one, in any order. Fitting a rule to either gives it the same coverage; if both fits leave it good, or with force_if_not_good, it gets the same prediction and sign (regression) or the same class frequencies and predicted class (classification). Mean squared and absolute error and the success rate do not change either. The standard deviation does change, by a known factor.", "quantifier": "all data sets, rules, numbers of repetitions, orders of the points", "why_tests_cant": "It compares two fits for any data set and any number of repetitions; the code divides in several places by numbers of points, and one wrong count would go unnoticed in a test with fixed data.", "anchors": ["ruleskit/rule.py: Rule.fit", "ruleskit/rule.py: RegressionRule.calc_prediction", "ruleskit/rule.py: ClassificationRule.calc_prediction", "ruleskit/utils/rfunctions.py: conditional_mean", "ruleskit/utils/rfunctions.py: class_probabilities", "ruleskit/utils/rfunctions.py: conditional_std", "ruleskit/utils/rfunctions.py: mse_function", "ruleskit/utils/rfunctions.py: success_rate"]}
{"id": "C77", "title": "Elements of nested lists in their order", "statement": "traverse(o) yields each element of nested lists, tuples and rulesets which is not nested further, once and from left to right; none of what it yields is of a class to be traversed; traversing the result again, grouped in whatever way, yields the same. The features names of a loaded ruleset are those of its rules.", "quantifier": "all nestings of lists, tuples and rulesets, all choices of the classes to be traversed", "why_tests_cant": "Nesting is unbounded; a test fixes one shape, and an order or an element lost at another depth would go unnoticed.", "anchors": ["ruleskit/ruleset.py: traverse", "ruleskit/ruleset.py: RuleSet.__iter__", "ruleskit/ruleset.py: RuleSet.load"]}
{"id": "C78", "title": "Only the points inside a rule decide what it predicts", "statement": "Two data sets, of whatever size and form, have the same targets at the points which the condition of a rule selects. Fitting the rule to either gives it the same prediction (the same frequencies of classes), standard deviation and sign, and evaluating it on either gives it the same criterion: points outside the rule, where it says nothing, do not matter. The same for the rules of a ruleset.", "quantifier": "all rules whose condition a user can make, all pairs of data sets (arrays, DataFrames, or one of each), all orders, missing targets included, regression and classification", "why_tests_cant": "A test fixes a few points; what leaks from outside (all-points statistics, masks, lengths) shows only when the points outside change.", "anchors": ["ruleskit/rule.py: Rule.fit", "ruleskit/rule.py: RegressionRule.calc_prediction", "ruleskit/rule.py: ClassificationRule.calc_prediction", "ruleskit/rule.py: RegressionRule.calc_std", "ruleskit/rule.py: RegressionRule.calc_criterion", "ruleskit/utils/rfunctions.py: conditional_mean"]}
{"id": "C79", "title": "A narrower rule covers fewer points", "statement": "If a condition has all the features of another one, with bounds inside, and possibly further features, then on every data set it selects only points which the other one selects; fitted on the same points its rule has at most the coverage of the other rule; intersecting both gives what the narrower one selects; and adding narrower rules to a ruleset does not change the points the ruleset selects. Conversely a condition which can be satisfied and selects no other points than another one, on all arrays, is narrower.", "quantifier": "all conditions a user can make, all arrays and DataFrames (missing and infinite values), infinite bounds, all rulesets", "why_tests_cant": "It compares arbitrary pairs of conditions on all data; a comparison with a wrong bound, column or strictness at one feature shows only for particular values.", "anchors": ["ruleskit/condition.py: HyperrectangleCondition.evaluate", "ruleskit/rule.py: Rule.coverage", "ruleskit/ruleset.py: RuleSet.evaluate", "ruleskit/condition.py: HyperrectangleCondition.__and__"]}
{"id": "C80", "title": "The coverage of a ruleset lies between those of its rules and their sum", "statement": "No rule of a ruleset covers a larger share of the points than the ruleset. The ruleset covers at most everything and at most the sum of the coverages of its rules, and exactly the sum if and only if no two of its rules have a point in common. A ruleset with more rules covers at least as much, and the union of two rulesets at most as much as both together.", "quantifier": "all rulesets built by any sequence of constructions, appends, additions, sorts and assignments; all rulesets after fit with any features", "why_tests_cant": "It relates two numbers which are computed from different stored vectors (of the ruleset and of each rule) after any sequence of operations; tests compare them for one list of rules.", "anchors": ["ruleskit/ruleset.py: RuleSet.ruleset_coverage", "ruleskit/rule.py: Rule.coverage", "ruleskit/ruleset.py: RuleSet.fit"]}
{"id": "C81", "title": "The version names the source", "statement": "`ruleskit.__version__` identifies what is installed. In a checkout it is the closest tag (without its v) if the tree is exactly the tagged one, and otherwise the tag with the number of commits since, the hash and whether there are changes; two checkouts with the same version agree in all this. In an archive it is the smallest of the version tags of the commit, in whatever order they are listed, never a tag which only extends another one (2.0rc1 and 2.0), and the version of a clean checkout of the same tag. Without either it is what follows `ruleskit-` in the name of one of the three directories above, else 0+unknown. The date is that of the commit.", "quantifier": "all tags, hashes and numbers of commits which git can print, all lists of names of a commit, all paths", "why_tests_cant": "The text is put together from the output of git by cutting at hyphens, which tags may contain too; tests run in one repository at one commit, and never in an archive.", "anchors": ["ruleskit/_version.py: get_versions", "ruleskit/_version.py: git_pieces_from_vcs", "ruleskit/_version.py: render_pep440", "ruleskit/_version.py: git_versions_from_keywords", "ruleskit/_version.py: versions_from_parentdir"]}
{"id": "C82", "title": "Attributes which a ruleset takes from its activation", "statement": "A ruleset answers to the names of its activation which it does not have itself: `ruleset.length`, `raw`, `ones`, `nones`, `coverage`, `entropy`, `rel_entropy`, `as_bitarray`, `as_integer`, `as_compressed_array` and `as_compressed_str` are those of the vector which its activation stands for, in whatever form it is stored, and asking (even twice, as `hasattr` does before) changes neither the ruleset nor any activation. `ruleset.coverage` is `ruleset.ruleset_coverage`. Without activation these names raise AttributeError, so that `hasattr` is False.", "quantifier": "all states of all activations reached by any history, all of these names", "why_tests_cant": "The attribute is first tried with `hasattr`, which runs the property and changes the stored form, then read; tests read one or two names of one ruleset.", "anchors": ["ruleskit/ruleset.py: RuleSet.__getattr__", "ruleskit/ruleset.py: RuleSet.ruleset_coverage", "ruleskit/activation.py: Activation.coverage"]}
{"id": "C83", "title": "A loaded ruleset predicts like the saved one", "statement": "After `ruleset.save(path)` and `load(path)` into a new ruleset, `predict(xs)` of the loaded ruleset is `predict(xs)` of the saved one for any features, without weights, with a Series of weights, or with weights taken from an attribute which is saved (prediction, coverage, criterion, and zscore and std for regression); the exceptions raised are the same too. So are `evaluate(xs)`, the predictions of every rule, and what `calc_criterion` computes on any points.", "quantifier": "all rulesets whose rules can be read back (C29), all features, all weights of these forms, all labels and measures", "why_tests_cant": "A test compares figures of a file it has just written; whether the loaded object votes like the first on features not in the file needs every rule, kind and weight.", "anchors": ["ruleskit/ruleset.py: RuleSet.load", "ruleskit/ruleset.py: RuleSet.save", "ruleskit/ruleset.py: RuleSet.predict", "ruleskit/ruleset.py: RuleSet.calc_criterion"]}
{"id": "C84", "title": "The ruleset of a decision tree predicts like the tree", "statement": "The ruleset extracted from the leaves of a decision tree (`extract_rules_from_tree(tree, ..., get_leaf=True)`) predicts, for every sample, what the tree predicts: the value of the leaf in which the sample falls for a regression tree, with or without positive weights, and the first class with the most points in this leaf for a classifier.", "quantifier": "all trees, all depths, all samples, all positive weights", "why_tests_cant": "It takes the extraction, the evaluation of every rule and the vote together, on trees of any shape; tests extract one small tree and look at the rules.", "anchors": ["ruleskit/utils/rule_utils.py: extract_rules_from_tree", "ruleskit/ruleset.py: RuleSet.predict"]}
{"id": "C85", "title": "Weights count by their ratios", "statement": "Multiplying all weights given to `predict`, `calc_criterion` or `eval` by the same positive number changes nothing; a rule whose weight is 0, NaN or not given is as if it were not in the ruleset; and giving every rule the same positive weight is like giving no weights.", "quantifier": "all rulesets, features, weights (also missing and negative ones) and positive factors", "why_tests_cant": "It relates pairs of calls for every factor and every ruleset; tests compare the predictions for one choice of weights with numbers written down.", "anchors": ["ruleskit/ruleset.py: RuleSet.predict", "ruleskit/ruleset.py: RuleSet.calc_criterion", "ruleskit/ruleset.py: RuleSet.eval"]}
{"id": "C86", "title": "Features are numbered by the table of all features", "statement": "When `RuleSet.all_features_indexes` is set, every rule of a ruleset which is made reads its features in the columns which the table gives them, and nothing else about the rules changes: on DataFrames they are active where they were. A table which lacks a feature of a rule makes the constructor raise KeyError; any other table is accepted where the rules are accepted without it.", "quantifier": "all tables, rules, arrays and DataFrames", "why_tests_cant": "It speaks of every table and every combination of features; no test sets the table.", "anchors": ["ruleskit/ruleset.py: RuleSet.set_features_indexes", "ruleskit/ruleset.py: RuleSet.__init__", "ruleskit/condition.py: HyperrectangleCondition.evaluate"]}
{"id": "C87", "title": "A condition can be read as the sequence of its features", "statement": "`c[k]` is the name, the index and the lower and upper bound of the k-th feature of a condition, negative places being counted from the end; other places raise IndexError; `len(c)` is the number of features and `for feature in c` goes through all of them in order and ends.", "quantifier": "all conditions which show their features, all places", "why_tests_cant": "Iteration relies on IndexError at exactly the right place for every number of features, and on four lists staying aligned; no test reads a condition by place.", "anchors": ["ruleskit/condition.py: HyperrectangleCondition.__getitem__", "ruleskit/condition.py: HyperrectangleCondition.__len__"]}
{"id": "C88", "title": "Bounds, names and indexes can be assigned as texts", "statement": "Assigning the text of a list to `bmins`, `bmaxs`, `features_names` or `features_indexes` of a condition (as when they come from a CSV file) does what assigning the list itself does; a text which cannot be used raises and leaves the condition as it was.", "quantifier": "all conditions, all texts of lists of numbers, names and indexes", "why_tests_cant": "The conversion acts on each number of a list of any length; whether a bound survives depends on its value, and no test assigns bounds as texts with fractions, negative or infinite numbers.", "anchors": ["ruleskit/condition.py: HyperrectangleCondition.bmins.setter", "ruleskit/condition.py: HyperrectangleCondition.bmaxs.setter", "ruleskit/condition.py: HyperrectangleCondition.features_names.setter", "ruleskit/condition.py: Condition.features_indexes.setter"]}
{"id": "C89", "title": "Names and indexes which are not given follow the columns", "statement": "A condition made without names calls its features X_0, X_1, ... after their indexes, never refuses distinct features for this reason, and evaluates a DataFrame with these columns like the array of the same numbers. A condition made without indexes numbers its features in the order of their names. In general an array and a DataFrame of the same numbers are evaluated alike if every feature has the name of its column.", "quantifier": "all lists of features, all arrays and DataFrames", "why_tests_cant": "The names are computed from the indexes, of any sign and size, and must stay distinct for all of them; agreement of arrays and DataFrames ranges over all data.", "anchors": ["ruleskit/condition.py: HyperrectangleCondition.__init__", "ruleskit/condition.py: HyperrectangleCondition.evaluate"]}
{"id": "C90", "title": "A ruleset after an operation which raised", "statement": "An operation of a ruleset which raises leaves the ruleset as it was: predictions, calls of fit and eval, sorting, and adding rules or rulesets.", "quantifier": "all rulesets, all arguments which make an operation raise, wherever in the operation the error appears", "why_tests_cant": "The error can appear at any rule and at any stage of the operation; the claim is about everything which the ruleset holds afterwards.", "anchors": ["ruleskit/ruleset.py: RuleSet.fit", "ruleskit/ruleset.py: RuleSet.eval", "ruleskit/ruleset.py: RuleSet.predict", "ruleskit/ruleset.py: RuleSet.sort", "ruleskit/ruleset.py: RuleSet.__iadd__"]}
{"id": "C91", "title": "A ruleset of one rule predicts like the rule", "statement": "A ruleset which has one rule predicts for every point what the rule predicts, with any finite weight other than 0 for the rule, and raises what the rule raises.", "quantifier": "all rules, all points given as arrays or DataFrames or remembered by the rule, all finite weights other than 0", "why_tests_cant": "The rule and the ruleset compute their predictions in two different ways; the claim is about all rules, points and weights.", "anchors": ["ruleskit/ruleset.py: RuleSet.predict", "ruleskit/rule.py: Rule.predict"]}
{"id": "C92", "title": "A rule after a fit or eval which raised", "statement": "A fit or eval of a rule which raises leaves the rule as it was: a rule is never counted as fitted or evaluated by a call which raised, a fit which raises keeps what comes from the test set, an eval which raises keeps what comes from the train set, and calls refused for their keywords or features change nothing.", "quantifier": "all rules of both classes, all targets, features, thresholds and keywords, wherever in the call the error appears", "why_tests_cant": "The error can appear in any of the computations or threshold checks; the claim is about everything which the rule holds afterwards.", "anchors": ["ruleskit/rule.py: Rule.fit", "ruleskit/rule.py: Rule.eval", "ruleskit/rule.py: Rule.calc_activation"]}
{"id": "C93", "title": "One prediction for every point", "statement": "When predict of a rule or of a ruleset goes through for given features, it gives exactly one prediction for every row of the features, with or without weights, stacked or not.", "quantifier": "all rules, all rulesets of both classes, all features as arrays or DataFrames, all weights", "why_tests_cant": "The sums, tables and DataFrames from which the predictions are made depend on which rules have weights and activations; the claim is about all of them.", "anchors": ["ruleskit/rule.py: Rule.predict", "ruleskit/ruleset.py: RuleSet.predict"]}
