"""Writes /verif/DESIGN.md from the text below, properties.jsonl, MANIFEST.json and the comments of the theorems."""
import glob
import json
import re

HEAD = r'''# Verification of ruleskit: design

`/repo` (Advestis/ruleskit, Python) is only read as text.  The semantics of the code is transcribed by hand into Lean 4
definitions under `lean/Verif/`, function by function, and properties are proved of the transcription.  `properties.jsonl` lists the
properties, `MANIFEST.json` maps each to its theorems, `seeded/LOG.jsonl` records the bugs seeded in scratch copies of the model to
test the theorems.  This file is written by `tools/mkdesign.py`; the texts of the last section are the comments of the theorems.

## Trusted base

* Lean's kernel (4.33.0), and Mathlib as far as definitions occurring in statements go (lists, rationals, permutations, sorting).
* Axioms: each theorem depends on at most `propext`, `Classical.choice` and `Quot.sound`.  There are no other axioms, no `sorry`, no
  `native_decide`, no `bv_decide`.  Concrete witnesses are evaluated by the kernel (`decide +kernel`), which adds nothing.
* The hand transcription.  Every definition of the model cites the lines it transcribes and says where it simplifies.
  As a check of the transcription, `RepoTests.lean` runs the model on the inputs of the repository's own unit tests and compares with the
  values which these tests expect: the four tests of fitting, evaluating and predicting with rulesets (40 cases), the thresholds (4 cases), the
  formats of activations and the values remembered by them (96 cases), conditions, rules, the functions of `rfunctions.py`, and the rules of a
  tree.  All agree.  Left out: profiling figures, `test_save_and_load`, `test_add`, `class_probabilities` and `success_rate` of DataFrames, rules of
  the class `Rule`, a list given as features.  These are tests by computation, no properties are claimed from them.
* The reading of the libraries the code relies on: Python 3, numpy, pandas, bitarray, the arrays of sklearn trees.  The points which
  matter are named in the comments of the definitions.  One of them concerns every DataFrame: `array &= Series` in `HyperrectangleCondition.evaluate` is read as giving a
  Series, as the unit tests of the code expect; with a pandas which leaves the array an array, `.values` raises `AttributeError` for every
  DataFrame, and the theorems on DataFrames say nothing.
* The small specifications `CondHeapSpec.lean`, `ConditionSpec.lean`, `FrameHeapSpec.lean`, `LocalSpec.lean`, `RangeSpec.lean`, `ColumnSpec.lean`, `TighterSpec.lean`, `ActiveSpec.lean`, `RepeatSpec.lean`, `TraverseSpec.lean`, `InsideSpec.lean`, `NarrowSpec.lean`, `SetCoverSpec.lean`, `VersionSpec.lean`, `GivenSpec.lean`, `SetAttrSpec.lean`, `LoadPredictSpec.lean`, `TreePredictSpec.lean`, `WeightRatioSpec.lean`, `FeatureTableSpec.lean`, `BoundTextSpec.lean`,
  `FailSpec.lean`, `OneRuleSpec.lean`, `RuleFailSpec.lean`, `RoundedVoteSpec.lean`, `RowOrderSpec.lean`, `RuleSetSpec.lean`, `RuleSpec.lean`, `SaveSpec.lean`, `ScaleSpec.lean`,
  `SetEvalSpec.lean`, `SetHeapSpec.lean`, `Spec.lean`, `StackedSpec.lean`, `TreeSpec.lean`, `UnitSpec.lean`, `VoteSpec.lean`,
  `History.lean` (the part headed specification) and the definitions at the head of some `*Props.lean` files, in which the
  theorems are stated.

## Conventions of the model

* An exception is a value.  Functions which change nothing are in `Except Err`; those which change an object are in
  `Py σ α = σ → Except Err α × σ`, whose state survives an exception, so that what a failing call leaves behind is visible.
* Floats are exact rationals with NaN and the two infinities (`Num`).  Rounding is modelled in `Rounded` and `RoundedVote` only (C56, C57, C58);
  overflow is not modelled; square roots are
  represented by squares or by a function of which only the sign behaviour is used.
* What the machine decides is universally quantified: sizes of objects, free memory, random numbers of file names, iteration order
  of sets, hash functions, texts of floats, rounding of `read_csv`.  Such parameters are fields of the structures `World`,
  `Env`, `SetEnv`, `RsEnv`, `Texts`; laws they satisfy are fields too, and each structure has a concrete instance
  (`Demo`, `RuleSetDemo`, `SaveDemo`, `TextDemo`).
* Suffix `_partial`: part of the property is proved, the comment says what is missing.  Suffix `_false`: the property, or the part
  named, is false of the code, proved with a concrete witness.

## What is modelled

| file of `/repo/ruleskit` | modelled | in |
|---|---|---|
| `activation.py` | encodings (`_compress`, `_decompress`, `_raw_to_integer`, `_integer_to_raw`, bitarrays, texts), constructor with all flags, readers, files with random names, `clear`, `delete`, copies, `&`, `\|`, `^`, `-`, `+`, `in`, `==`, `multi_logical_*`, `get_correlation`, `entropy`, `nones`, `rel_entropy`, what reading the profiling figures does | `Codec`, `Activation`, `Heap`, `Profile`, `History` |
| `condition.py` | constructors, setters, `sort`, `evaluate` on arrays and DataFrames, `&`, `==`, hash, `in`, conditions as objects which share lists | `Condition`, `CondHeap` |
| `thresholds.py` | reading of the file, `check`, functions under `arg` | `Thresholds` |
| `rule.py` | both classes: constructor, checks, `calc_*`, `fit`, `eval`, `predict`, prediction vector, coverage, `good`, `&`, `in`, `get_correlation`, deletion of activations, attribute access, thresholds of classes | `Rule`, `RulePredict`, `RuleOps`, `RuleHeap`, `RuleAttr`, `Settings` |
| `utils/rfunctions.py` | class frequencies, conditional mean and standard deviation, error measures, success rate, the same for DataFrames of activations, combination of predictions (stacked or not) | `RFunctions`, `StackedFit`, `Vote` |
| `ruleset.py` | construction, `+`, `+=`, `append`, `in`, `==`, slices, `rules` setter, sorting, duplicates, features, activation and stack, `fit`, `eval`, `predict`, `calc_criterion`, `to_df`, `save`, `load`, activations as objects, their deletion and attributes taken from them | `RuleSet`, `SetHeap`, `SetAttr`, `RuleSetOps`, `RuleSetFit`, `StackedFit`, `Save`, `PyText` |
| `utils/rfunctions.py`, rounded | conditional mean and standard deviation, mean absolute and squared error, success rate, class frequencies, coverage, with every operation rounded | `Rounded` |
| `utils/rfunctions.py`, rounded votes | weighted predictions of rulesets: regressors unstacked and stacked, classes unstacked, with every operation rounded | `RoundedVote` |
| `ruleset.py`, references | which DataFrame of stacked activations each of several rulesets refers to, and which calls change it in place | `FrameHeap` |
| `ruleset.py`, references | which rule objects several rulesets refer to; `fit` (rule by rule), calls on a rule, `+=`, constructions on them | `SharedRules` |
| `condition.py`, `rule.py`, `ruleset.py`, texts | `str` of conditions, rules and rulesets | `ShowText`, `ShowRule` |
| `_version.py` | `get_versions` with its three methods, style pep440; what git prints is given | `Version` |
| `ruleset.py`, `utils/rfunctions.py` | `fit`, `eval`, `calc_stds`, `calc_predictions`, `conditional_std`, `class_probabilities`, `calc_classification_criterion` for targets with an index | `TargetIndex` |
| `utils/rule_utils.py` | `extract_rules_from_tree` | `Tree` |

STACKED_PART

Not modelled: the values of attributes which only measure (`_time_*`, `_n_*`, `_sizeof_*`; what reading them does is modelled), logging, texts of activations for display, the other styles of `_version.py`, `TransparentPath` (remote
files), plotting, scheduling by joblib, `sklearn` itself, pickling, `COMPUTE_SUBATTRIBUTES`, the classes
`Rule` and `RuleSet` used with other daughter classes than the two of the library.

## Violations found

Each is proved by a theorem named in the last section unless marked (read): seen in the source, not modelled.

Activations
* One-point vectors kept compressed under `DTYPE = np.ndarray` are read back as two points (C01, C03).  Empty vectors raise (C03).
* The constructor accepts integers too big for their length when `WILL_COMPARE` is off (C02).
* `&`, `|`, `^` and `-` of two activations stored as integers raise; `a + b` is `a`; `in` answers whether one of the two is included
  in the other; `multi_logical_xor` of one activation is this activation (C05, C07, C08, C09).
* Lasy activations may never know their length (C03).  A random file name which is taken raises (C31).

Conditions
* `impossible` stays set after the bounds were repaired, so that equal conditions select different rows (C14, C15).
* Conditions without features: lengths are not checked by the setters; DataFrames raise `AttributeError` (C11, C14).
* A rejected assignment may have been done (C14).  An impossible condition does not notice missing columns (C11).
* NaN bounds break `&` (C13) and make it depend on the order (C45).  `hash(-1) == hash(-2)` makes different conditions equal, so that rulesets lose rules (C15, C26, C39).
* The lists given are kept with one feature or `sort=False`, and by the setters: conditions made from the same lists change
  together; bounds changed in place are not checked (C54).
* `RuleSet.evaluate` has no fallback when memory lacks, unlike `evaluate_self_activation`; on the empty ruleset one raises and the other
  gives an empty vector; `calc_activation` of no points keeps the activation of the points before (C55).
* With floats, the mean of equal targets can be greater than all of them and their standard deviation positive; the sign of a prediction can
  be lost and depends on the order of the points (C57).  Probabilities of classes need not sum to one (C56).
* With floats, the weighted prediction of a ruleset depends on the order of its rules, up to being NaN in one order and a number or a class
  in another; a ruleset of a single rule predicting 0.1 with weight 0.1 predicts 0.10000000000000002 (C58).
* Assigning `rules` does not set the class of the rules: a ruleset filled in this way cannot be fitted (`ValueError`) and predicts nothing;
  assigning rules of another class leaves the former class announced, after which the ruleset accepts rules of both classes (C59).
* `a += b` with `a` an empty ruleset makes both share the DataFrame of stacked activations: adding a rule to `a` adds a column to those of
  `b`, and a later stacked fit of `b` gives its rules figures of rules of `a` (C60).
* Slices share the rules of the ruleset: after a slice was fitted on other data the activation of the ruleset is not that of its rules, and
  rules which became bad, and were dropped in the slice only, stay (C61).
* A rule object which a ruleset holds twice is fitted twice: if the first fit makes it bad, the second one leaves it without figures,
  which a ruleset of two equal rule objects does not (C61, `C61_twice_false`).
* A feature can have a name which looks like the text of a condition: two different conditions have the same text then, and a ruleset with two
  such rules has one column of stacked activations only. Conditions without names have all the same text; equal conditions with features in
  other orders have different ones. A ruleset of exactly `2 * NLINES` rules is shown with dots for no rule (C62).
* A classification rule whose class is called `<prediction unset>` has the text of a rule which is not fitted (C62).
* `test_set_size` of a rule is never computed: the classes of rules replace `attributes_from_test_set` instead of extending it. `eval` of a bad
  rule says that the rule is fitted, and not that it is evaluated. A rule fitted again still says that it is evaluated, with the criterion of
  its former prediction; a fitted rule ignores other targets given to `fit` without features (C63).
* With `FORCE_STAT`, measuring a lasy activation which was not read yet leaves a file behind, and `delete` then removes the file of the user. A
  measure which raises half way leaves the activation in the format it was timing (C64).
* With `STACKED_FIT`, a `fit` or `eval` which raises leaves the index of its targets on the stacked activations; the next `fit` with an
  array is aligned by these labels and gets wrong deviations (C65). `calc_stds(y)` and, for classification rules, `calc_predictions(y)`
  called by the user align a Series by label, `calc_predictions(y)` of regression rules goes by position (C65).  When some labels do not
  match and a target is 0 or a text, they raise `TypeError`, as 0 is written "zero" and multiplied by a float (C65).
* The prediction of a point can depend on the other points of the call (C66): with a negative weight, a class which is not active in the
  batch is not in the table of votes, so that a point is decided in one batch and not in another; a batch without any active rule
  raises `ValueError`; with stacked activations, the class of the only decided point goes to the first one; when the first rule of a
  regression predicts 0, the call raises `TypeError` for the data sets where it is active and not for the others.
* `eval` without features takes the activation of the last `fit` and cannot see that the targets are in another order: the criterion
  is then another one, without exception (C67).
* The second `fit` on the same data of a rule which the first one rejected erases (NaN) what the first one had computed before the
  rejection, such as the prediction and the size of the training set (C68).  `eval(y)` of a ruleset without features, called twice, gives two criteria (C68_set_eval_false).
* Without stacked activations, the predictions of a regression ruleset depend on the zero of the unit of the target: moved by a constant, they
  become missing where they should be 0, or `predict` raises `TypeError` (C69).
* Among equally frequent classes a classification rule predicts the first in order, so that the class predicted depends on the names of the
  classes (C71).
* A regression rule which covers no training point is kept by `fit` with the prediction NaN, and falsifies the predictions of the ruleset at
  all points: with training targets all equal to 10, a ruleset predicts 5 for the training features (C72).
* Negative feature indexes are accepted and counted from the end of the array given, so that adding a column changes the rule (C73).
* A ruleset whose only active rule at a point predicts 0 predicts 0 if this is its only rule, and NaN if it comes after another rule which is not active there (C75).
* The default criterion of a regression rule (`mse_norm`) depends on the targets of points which the rule does not activate: the error at the activated points is divided by the error of the mean of all targets, so that a larger spread outside the rule improves its criterion (`C78_default_false`).
* After an `eval` which drops a rule the ruleset covers nothing although the rules left cover points, and a rule whose coverage was assigned may
  cover more than its ruleset (`C80_eval_false`, `C80_assigned_false`).
* Two checkouts may have the same version if a tag has a plus sign, the import of the package may fail with an exception of `get_versions` when git
  does not know the date or number of commits, and an archive takes the smallest tag as a text: 10.0 of v9.0 and v10.0 (`C81_plus_false`,
  `C81_raises_false`, `C81_smallest_false`).
* `ruleset.coverage` and `ruleset.ruleset_coverage` differ after `del_activation`, for a ruleset without rules and for a loaded one; `hasattr`
  of a ruleset may raise `TypeError` or `ZeroDivisionError` (`C82_deleted_false`, `C82_empty_false`, `C82_loaded_false`).
* A ruleset which was saved and loaded has no stacked activations: with `STACKED_FIT` set its weighted predictions can differ from those of
  the ruleset which was saved, which raises where no rule is active (`C83_stacked_false`).
* The ruleset of the leaves of a regression tree does not predict like the tree: a leaf with the value 0 is predicted NaN, or makes `predict`
  raise `TypeError` if it is the first one; trees which return to the right of a feature, and samples equal to a threshold, are predicted
  the mean of several leaves (`C84_zero_false`, `C84_zero_first_false`, `C84_return_false`, `C84_threshold_false`).
* Arrays of other numbers than 0 and 1 are accepted as activations and taken modulo 256 (C03).
* Equal weights are not like no weights: where no rule is active, stacked activations with weights raise `ValueError`, without weights the
  prediction is NaN (`C85_stacked_false`); for 256 rules the prediction without weights is infinite (`C85_equal_false`);
  a class called "nan" is predicted without weights but missing with equal weights if the first rule is active nowhere (`C85_idle_nan_false`).
* With an array holding other numbers than 0 and 1 (kept under `STORE_RAW`), `multi_logical_or` of this one activation returns 0 and 1 if there is
  enough memory and the array itself otherwise (`C06_other_numbers_false`).
* `all_features_indexes` is applied by the constructor only: a rule added later reads the same feature in another column than the rules
  before it (`C86_added_false`); and it is written into the rule objects, so that other rulesets with these rules change (`C86_shared_false`).
* A condition made with `empty=True` has length 0, but going through it raises `TypeError` (`C87_empty_false`).
* A condition made without names for the column -1 calls it `X_-1`, which is no column of a DataFrame (`C89_negative_false`).
* A `fit` which raises at one rule leaves the rules before it fitted (`C90_fit_false`); an `eval` which raises for its weights has already dropped the bad rules (`C90_eval_false`); a `sort` which raises has already sorted the rules (`C90_sort_false`); a `predict` which raises has already changed the activation of the first rule (`C90_predict_false`).
* A ruleset of one rule can predict otherwise than the rule: it raises when a classification rule is active at no point (`C91_idle_false`) or the rule has no features (`C91_featureless_false`), and where the class is a text it gives NaN and the whole text, the rule `nan` and the first 32 characters (`C91_text_false`).
* A `fit` of a rule which raises for its targets has already replaced the activation and the size of the train set: the rule still counts as fitted, with the prediction of the old points (`C92_fit_false`); `eval` likewise replaces the activation (`C92_eval_false`).
* A ruleset without rules predicts for no point, however many there are (`C93_empty_false`).
* Bounds given as texts are truncated by `int()` (`C88_fraction_false`), infinite ones raise `OverflowError` (`C88_rejected`); negative indexes count from the end (read).

Thresholds and rules
* NaN passes minima and maxima (C16).  Without a file there is no minimal coverage (C16).  A limit on a text, such as the predicted
  class, rejects every text (`equal`) or raises `TypeError` (`min`, `max`) (C16).
* Class names are cut at 32 characters, the class "nan" raises, and a DataFrame of one row gives a single value instead of a Series (C18).  Rules without features have an empty prediction vector (C18).
* Standard deviation of one activated point without target is 0, of several with one target NaN (C19).
* Most frequent class: frequencies are compared as texts (C20).
* `r2 in r1` answers whether one of the two is included in the other, and raises for deleted activations (C47).  `get_correlation`
  compares numbers of features instead of points, and is NaN or raises for predictions which are 0 or texts (C48).  `activation`
  raises after `del_activation` (C49).
* Attributes of the condition assigned on a rule are shown by the rule and not used (C50).  `set_thresholds` of a rule has no effect,
  and raises for `None`; `SET_THRESHOLDS` applies to existing rules (C51).  After `del_activation` a ruleset has no coverage and
  `append` raises after having added the rule; `stacked_activations_available` does not look at stacked activations and raises for
  rulesets without activation (C52).  Equal rulesets can have different hashes (C53).  `&` of rules without activation raises `TypeError` (C46).

Predictions of rulesets
* Unstacked: sums which are zero, first predictions which are 0, and more than 255 active rules give wrong means; stored activations
  change the first rule; nothing active raises (C21, C22, C23).  Stacked: other results than unstacked (C23), one decided point and a
  class called nan raise (C24).

Rulesets
* Activation of rulesets out of date without update, rules of the same condition text share a stacked column (C25).
* `+` changes indexes when `allIndexes` is not empty (C26); sorting compares texts, "10" before "2" (C27).
* `fit` drops good rules equal to bad ones; `eval` leaves zeros as activation (C28).
* `append` with `update_activation=False` of a rule of the wrong type loses settings (C32).  Predictions are compared as texts (C34).
* Feature counters after `fit` are out of date (C35).  An assigned coverage stays (C37).  `append` does not check duplicates (C40).
* Slices lose the stack, change indexes (C41).  The size of the test set is saved as that of the training set; NaN and infinite
  bounds and classes of two words are saved but not loaded (C29).
* With `STACKED_FIT`, `fit` keeps rules which only fail the last check of thresholds, returns dropped rules several times, gives NaN
  instead of 0 as standard deviation of one point, takes the class 'zero' for 0, raises for a classification rule without activated
  point, mixes up rules of the same condition text, fits fitted rules again, may not compute the activation of the ruleset, and leaves
  `stack_activation` set when it raises (C43).  `eval` keeps bad rules, takes the class 'zero' for 0, does not count missing targets,
  and evaluates rules without activation, where plain `eval` raises (C44).

Decision trees
* A feature compared to the left and then to the right gets the greatest value as upper bound again: samples of other leaves
  activate the rule (C30).  Without `get_leaf` predictions are those of the parents; a single leaf raises; names are needed with
  recent versions of sklearn (C30).

## Testing the theorems

`tools/mutate.py` copies the Lean files, makes one edit to a definition of the model, rebuilds, and writes down which theorems fail.
`seeded/LOG.jsonl` has one line for each.  When no theorem failed and the edit did break a claim, a theorem was tightened or added; it
is named in `theorems_tightened`.
'''

STACKED = '''`STACKED_FIT` is modelled for `predict`, `fit` and `eval`; C28 and C42 are about `STACKED_FIT = False`, the default.'''

MODEL = {
'C01': '`_compress`, `_decompress`, the text form. Induction over the vector.',
'C02': '`_raw_to_integer`, `_integer_to_raw`, bitarrays. Positional notation.',
'C03': 'The whole class with all storage formats, a heap of objects and a file store. Refinement: every history of operations is simulated by histories of plain vectors.',
'C04': '`entropy` on top of the same heap.',
'C05': '`__and__`, `__or__`, `__xor__` for every pair of formats.',
'C06': '`multi_logical_and/or` with memory reports as parameters.',
'C07': '`multi_logical_xor`.',
'C08': '`__add__`, `__sub__`.',
'C09': '`__contains__`.',
'C10': '`get_correlation`. Rational arithmetic, triangle inequality by counting disagreements.',
'C11': '`HyperrectangleCondition.evaluate` for arrays and DataFrames.',
'C12': 'Constructor, `sort`. Sorting of permuted lists gives the same list.',
'C13': '`__and__`. Intersection of intervals feature by feature.',
'C14': 'All setters, over arbitrary sequences of assignments. Invariant.',
'C15': '`__eq__`, `__hash__` with arbitrary hash functions of strings and tuples, and those of Python for numbers.',
'C16': '`Thresholds.__call__` and the reading of the file.',
'C17': '`check_thresholds`, `fit`, `eval`, over arbitrary sequences of calls with changing thresholds.',
'C18': '`predict` with the object it returns (array, Series, single value), `calc_prediction_vector`.',
'C19': '`RegressionRule.fit`, `conditional_mean`, `conditional_std`, `calc_sign`.',
'C20': '`ClassificationRule.fit`, `class_probabilities`, the choice of the class.',
'C21': '`calc_ruleset_prediction_weighted_regressor_*` and `RuleSet.predict`.',
'C22': '`calc_ruleset_prediction_equally_weighted_regressor_*` and `RuleSet.predict`.',
'C23': '`calc_ruleset_prediction_weighted_classificator_*` and `RuleSet.predict`.',
'C24': '`calc_ruleset_prediction_equally_weighted_classificator_*` and `RuleSet.predict`.',
'C25': 'Construction, `append`, `+=`, `+` with the activation and the stack. Invariant over sequences.',
'C26': '`__add__`, `__iadd__`.',
'C27': '`sort_rules` with the texts of lists, modelled down to `repr`.',
'C28': '`RuleSet.fit`, `RuleSet.eval` (not stacked).',
'C29': '`to_df`, `save`, `load` through a csv file, `repr` and `literal_eval` of lists.',
'C30': '`extract_rules_from_tree`. Induction over the tree.',
'C31': 'File store of activations with drawn names.',
'C32': 'Checks of rule types in construction, `append`, `+=`.',
'C33': 'Error measures, success rate, aggregations of `rfunctions.py`.',
'C34': '`RuleSet.__contains__`.',
'C35': '`features_names`, `features_indexes`, `get_features_count`.',
'C36': 'Class attributes of `Activation` as part of the state.',
'C37': '`coverage` of rules and rulesets.',
'C38': '`zscore`.',
'C39': '`RuleSet.__eq__` and hashes of rules.',
'C40': '`check_duplicated_rules`.',
'C41': '`RuleSet.__getitem__` with slices; `range` of Python.',
'C42': '`calc_criterion`, sizes of the sets.',
'C43': 'The branch `STACKED_FIT` of `fit`, with the column by column computations of `rfunctions.py`. Each step of the stacked loop is simulated by the step of the plain one.',
'C44': 'The branch `STACKED_FIT` of `eval`, with `success_rate` and `calc_regression_criterion` of a frame of columns. Each step of the stacked loop is simulated by the step of the plain one.',
'C45': '`__and__` and `sort` of conditions. The result is determined by the bounds of each feature name, which are combined by max and min.',
'C46': '`Rule.__and__` with the constructor; whether the combined activation can be stored is a parameter.',
'C47': '`Rule.__contains__` over the heap of activation objects.',
'C48': '`Rule.get_correlation` over the heap of activation objects.',
'C49': '`activation_available`, `activation`, `coverage`, `del_activation` of rules over the heap of activation objects.',
'C50': '`__getattr__`, `__setattr__` with the order in which Python searches attributes; values of properties by name.',
'C51': '`THRESHOLDS` as attribute of a hierarchy of classes, `SET_THRESHOLDS`, `set_thresholds`, `thresholds`, and `check_thresholds` and `fit` of rules which look it up.',
'C52': 'rulesets as lists of references to activation objects of the heap of C06, with `compute_self_activation`, `append`, `_update_activation`, `del_activations`, `del_activation`, `del_stacked_activations` and the properties which read them; predictions and thresholds of rules left out.',
'C53': '`to_hash` and `__hash__` of rules and rulesets with the abstract hash functions of C15.',
'C54': 'Conditions as objects with references to lists (`CondHeap`); computations on values are those of `Condition`. Programs on objects are compared with the same programs on values.',
'C55': "`RuleSet.evaluate` beside the models of rules and rulesets; the selected points are defined from the features of the conditions (`Selects`), not from the model's evaluation.",
'C56': 'coverage, `success_rate` and `class_probabilities` with every division rounded by an arbitrary `Machine`; `doubles` is proved to be one; the threshold is that of the model of C16.',
'C57': '`conditional_mean`, the square of `conditional_std`, `mae_function` and `mse_function` with every operation rounded and sums in any order and grouping (`AddsUp`); compared with the exact mean (`meanOf`) of the activated targets.',
'C58': 'The weighted votes, each rule given by its activation vector, prediction and weight, with every operation rounded by an arbitrary `Machine`; compared with exact weighted means and totals over the active rules.',
'C59': 'All calls of the model of rulesets, raising or not, as steps of a history (`SetHistory`); the setter of `rule_type` (`RuleType`).',
'C60': 'Rulesets with references to DataFrames in a heap (`FrameHeap`); calls compared with those of rulesets as values.',
'C61': 'Rulesets with references to rules in a heap (`SharedRules`), with `STACKED_FIT` off; calls compared with those of rulesets as values.',
'C62': '`str` of conditions with the texts of floats as a parameter which can be read back, `str` of rules, with the text of classes and frequencies as a parameter (`ShowRule`), and `str` of rulesets (`ShowText`, `ShowRule`).',
'C63': '`fit` and `eval` of the model of rules (`Rule`); a general lemma about calls which leave a part of the rule alone, whether they raise or not (`RuleFlagLemmas`).',
'C64': 'The figures as operations (`Profile`: `measureFile`, `measureTime`) of the histories of `History`; each leaves what an object remembers right (`ProfileLemmas.measure_rep`).',
'C65': "The stacked activations with their index (`TargetIndex`: `Framed`), pandas' alignment of rows (`joinRows`), `fitAt` and `evalAt`, which are compared with the model without indexes (`fitStacked`, `evalStacked`): `TargetIndexLemmas.fitAt_agrees`, `evalAt_agrees`.",
'C66': 'The two calls are followed side by side: `LocalLemmas` relates every intermediate vector, sum and column at the two points (`evaluate_same`, `weightedRegressor_same`, `equalRegressor_same`, `weightedRegressorStacked_same`); the votes follow from the characterisations C23 and C24. `SamePoint` and `Same` are in `LocalSpec`.',
'C67': '`RowOrderLemmas` shows that each figure depends on the pairs of an activation and a target up to their order, and that a condition is evaluated row by row; `RowOrderRun` follows two runs side by side. `SamePoints`, `Twins`, `Alike` and sequences of calls are in `RowOrderSpec`.',
'C68': '`AgainLemmas`: a rule which is good at the end has passed all thresholds in its final state, and every step of the same call leaves this state (`Still`). Rules are compared without `log`, which is not in the code.',
'C69': '`UnitSpec` has the conversion; `UnitLemmas` follows the mean, the variance, the median and the five criteria; `UnitSetLemmas` the weighted mean. The model of the rule is that of C16-C19, of the ruleset that of C21 and C22.',
'C70': '`ScaleSpec` has the conversion of numbers, features, arrays and DataFrames; `ScaleLemmas` follows the model of the condition (C01-C06), `ScaleRun` the methods of a rule with the condition replaced, `ScaleSetLemmas` the votes of a ruleset with its columns renamed.',
'C71': 'From the theorems on the model of class_probabilities (C20), the votes (C23, C24) and the success rate (C33, C42); `ClassNameLemmas` has the renaming of frequencies, votes and winners.',
'C72': 'Partial correctness of the model of predict: an invariant on what is cumulated at each point (a weighted sum of numbers between lo and hi, where a sum which is 0 can be NaN) through the loops of `Vote`, and the cells of the stacked computation; composed with the theorems on fit (`RangeLemmas`, `RangeClassLemmas`, `RangeSetLemmas`).',
'C73': 'Equality of runs: by C11 a condition gives the same vector on both tables; each function of the model looks at the features through the conditions and the number of rows only, and keeps the conditions of the rules (`ColumnLemmas`).',
'C74': 'Simulation (`Strict.Fine` in TighterLemmas): as long as the rule ends up good, each check under the stricter thresholds has said yes, hence also under the others; a rule which was rejected never becomes good again (`Rule.Keeps`). For rulesets with C28: a rule equal to a rejected rule is dropped too, and rejected rules under the weaker thresholds are rejected under the stricter.',
'C75': 'From C21-C24 (`predict` gives the weighted mean, the mean, the class which wins): the sums which these speak of are over the active rules, hence equal for permuted lists of active rules, and the mean and the class are determined by the sums. Sorting with C27.',
'C76': 'Conditions are evaluated row by row (as for C67), so that activation vector and targets are repeated together; then C19, C20, C33 and C37 say what the figures are, in terms of sums and counts, which are all multiplied by k (`RepeatLemmas`).',
'C77': 'Positions are lists of indexes, in lexicographic order; by induction on nested objects, the positions of the items one after the other, each preceded by its index, are those of the object (`positions_all`).',
'C78': 'What `extract` gives for the activation of a rule is the list of the targets inside (`extract_inside`, from C11); mean, deviation, classes and success rate are functions of it which do not depend on its order; errors outside are NaN and dropped (`errors_activated`).',
'C79': 'From C11, C13, C37 and C55: bounds inside give inclusion of hyper-rectangles; for the converse a row with one value inside each bound, missing elsewhere, is evaluated, and the value moved to the bounds.',
'C80': 'From C28: the activation of the ruleset is the union; the numbers of points are compared by counting. After fit, C37 and C55 say which points each rule marks.',
'C81': '`Version.lean` models the three methods and the rendering; the texts which git prints are described in `VersionSpec.lean`. Cutting at the last hyphens gives back the pieces because hashes and numbers have none; the number is read and printed again.',
'C82': '`SetAttr.lean` models `__getattr__` over the shared activations of C52; `hasattr` runs the property and lets exceptions other than AttributeError through. The two runs of the property each follow from C03.',
'C83': 'Composes the loading of C29 (`Save.lean`) with `predict`, `evaluate` and `calc_criterion` (`RuleSetFit.lean`, `Vote.lean`): rules with the same condition and prediction vote alike, whatever their stored activations, when features are given.',
'C84': 'Composes the extraction of C30 (`Tree.lean`) with the predictions of C21, C22 and C24: exactly one rule is active at each sample. The tree and what it predicts are specified apart (`TreeSpec.lean`, `TreePredictSpec.lean`).',
'C85': 'The four computations of predictions in `Vote.lean`, under `RuleSet.predict`, `calcCriterion` and `eval` of `RuleSetFit.lean`. Weights are compared by `WeightRatioSpec.lean`, which does not mention predictions.',
'C86': '`set_features_indexes` and the constructor in `RuleSet.lean`; the evaluation in `Condition.lean`; rule objects held by several rulesets in `SharedRules.lean`. The table is read by `FeatureTableSpec.lean` as a set of pairs.',
'C87': "`__getitem__` and `__len__` in `Condition.lean`; Python's iteration by places in `ConditionItems.lean`.",
'C88': 'Setters in `Condition.lean` (`Arg`, `Arg.bounds`).',
'C89': 'The constructor and `evaluate` in `Condition.lean`; the names `X_i` are compared with the texts of integers of Lean.',
'C90': '`RuleSetFit.lean`, `RuleSetOps.lean`, `RuleSet.lean`; exceptions are values and the state after them is part of the result.',
'C91': '`Rule.lean`, `Vote.lean`, `RuleSetFit.lean`; the rule by `Rule.predict`, the ruleset by the sums and tables of `rfunctions.py`.',
'C92': '`Rule.lean`; exceptions are values and the state after them is part of the result.',
'C93': '`Rule.lean`, `Vote.lean`, `RuleSetFit.lean`.',
}


def main():
    props = {}
    for line in open('/verif/properties.jsonl'):
        p = json.loads(line)
        props[p['id']] = p
    man = {c['property']: c for c in json.load(open('/verif/MANIFEST.json'))['claims']}
    docs = {}
    for f in sorted(glob.glob('/verif/lean/Verif/*.lean')):
        for m in re.finditer(r'/--((?:(?!-/).)*)-/\s*theorem (\S+)', open(f).read(), re.S):
            docs[m.group(2)] = ' '.join(m.group(1).split())
    out = [HEAD.replace('STACKED_PART', STACKED), '## Properties\n']
    for i, p in props.items():
        out.append(f"### {i}. {p['title']}\n\n{p['statement']}\n")
        if i not in man:
            out.append('Not expressed.\n')
            continue
        c = man[i]
        out.append(f"Modelled: {MODEL[i]}\n")
        out.append(f"Status: {c['status']}. {c['note']}\n")
        for t in c['theorems']:
            d = docs.get(t.split('.')[-1], '')
            out.append(f"* `{t}`: {d}" if d else f"* `{t}`")
        out.append('')
    open('/verif/DESIGN.md', 'w').write('\n'.join(out))


main()
