# Verification of ruleskit: design

`/repo` (Advestis/ruleskit, Python) is only read as text.  The semantics of the code is transcribed by hand into Lean 4
definitions under `lean/Verif/`, function by function, and properties are proved of the transcription.  `properties.jsonl` lists the
properties, `MANIFEST.json` maps each to its theorems, `seeded/LOG.jsonl` records the bugs seeded in scratch copies of the model to
test the theorems.  This file is written by `tools/mkdesign.py`; the texts of the last section are the comments of the theorems.

## Trusted base

* Lean's kernel (4.33.0), and Mathlib as far as definitions occurring in statements go (lists, rationals, permutations, sorting).
* Axioms: each theorem depends on at most `propext`, `Classical.choice` and `Quot.sound`.  There are no other axioms, no `sorry`, no
  `native_decide`, no `bv_decide`.  Concrete witnesses are evaluated by the kernel (`decide +kernel`), which adds nothing.
* The hand transcription.  Every definition of the model cites the lines it transcribes and says where it simplifies.
  As a check of the transcription, `RepoTests.lean` runs the model on the inputs of the repository's own unit tests and compares with the
  values which these tests expect: the four tests of fitting, evaluating and predicting with rulesets (40 cases), the thresholds (4 cases), the
  formats of activations and the values remembered by them (96 cases), conditions, rules, the functions of `rfunctions.py`, and the rules of a
  tree.  All agree.  Left out: profiling figures, `test_save_and_load`, `test_add`, `class_probabilities` and `success_rate` of DataFrames, rules of
  the class `Rule`, a list given as features.  These are tests by computation, no properties are claimed from them.
* The reading of the libraries the code relies on: Python 3, numpy, pandas, bitarray, the arrays of sklearn trees.  The points which
  matter are named in the comments of the definitions.  One of them concerns every DataFrame: `array &= Series` in `HyperrectangleCondition.evaluate` is read as giving a
  Series, as the unit tests of the code expect; with a pandas which leaves the array an array, `.values` raises `AttributeError` for every
  DataFrame, and the theorems on DataFrames say nothing.
* The small specifications `CondHeapSpec.lean`, `ConditionSpec.lean`, `FrameHeapSpec.lean`, `LocalSpec.lean`, `RangeSpec.lean`, `ColumnSpec.lean`, `TighterSpec.lean`, `ActiveSpec.lean`, `RepeatSpec.lean`, `TraverseSpec.lean`, `InsideSpec.lean`, `NarrowSpec.lean`, `SetCoverSpec.lean`, `VersionSpec.lean`, `GivenSpec.lean`, `SetAttrSpec.lean`, `LoadPredictSpec.lean`, `TreePredictSpec.lean`, `WeightRatioSpec.lean`, `FeatureTableSpec.lean`, `BoundTextSpec.lean`,
  `FailSpec.lean`, `OneRuleSpec.lean`, `RuleFailSpec.lean`, `RoundedVoteSpec.lean`, `RowOrderSpec.lean`, `RuleSetSpec.lean`, `RuleSpec.lean`, `SaveSpec.lean`, `ScaleSpec.lean`,
  `SetEvalSpec.lean`, `SetHeapSpec.lean`, `Spec.lean`, `StackedSpec.lean`, `TreeSpec.lean`, `UnitSpec.lean`, `VoteSpec.lean`,
  `History.lean` (the part headed specification) and the definitions at the head of some `*Props.lean` files, in which the
  theorems are stated.

## Conventions of the model

* An exception is a value.  Functions which change nothing are in `Except Err`; those which change an object are in
  `Py σ α = σ → Except Err α × σ`, whose state survives an exception, so that what a failing call leaves behind is visible.
* Floats are exact rationals with NaN and the two infinities (`Num`).  Rounding is modelled in `Rounded` and `RoundedVote` only (C56, C57, C58);
  overflow is not modelled; square roots are
  represented by squares or by a function of which only the sign behaviour is used.
* What the machine decides is universally quantified: sizes of objects, free memory, random numbers of file names, iteration order
  of sets, hash functions, texts of floats, rounding of `read_csv`.  Such parameters are fields of the structures `World`,
  `Env`, `SetEnv`, `RsEnv`, `Texts`; laws they satisfy are fields too, and each structure has a concrete instance
  (`Demo`, `RuleSetDemo`, `SaveDemo`, `TextDemo`).
* Suffix `_partial`: part of the property is proved, the comment says what is missing.  Suffix `_false`: the property, or the part
  named, is false of the code, proved with a concrete witness.

## What is modelled

| file of `/repo/ruleskit` | modelled | in |
|---|---|---|
| `activation.py` | encodings (`_compress`, `_decompress`, `_raw_to_integer`, `_integer_to_raw`, bitarrays, texts), constructor with all flags, readers, files with random names, `clear`, `delete`, copies, `&`, `\|`, `^`, `-`, `+`, `in`, `==`, `multi_logical_*`, `get_correlation`, `entropy`, `nones`, `rel_entropy`, what reading the profiling figures does | `Codec`, `Activation`, `Heap`, `Profile`, `History` |
| `condition.py` | constructors, setters, `sort`, `evaluate` on arrays and DataFrames, `&`, `==`, hash, `in`, conditions as objects which share lists | `Condition`, `CondHeap` |
| `thresholds.py` | reading of the file, `check`, functions under `arg` | `Thresholds` |
| `rule.py` | both classes: constructor, checks, `calc_*`, `fit`, `eval`, `predict`, prediction vector, coverage, `good`, `&`, `in`, `get_correlation`, deletion of activations, attribute access, thresholds of classes | `Rule`, `RulePredict`, `RuleOps`, `RuleHeap`, `RuleAttr`, `Settings` |
| `utils/rfunctions.py` | class frequencies, conditional mean and standard deviation, error measures, success rate, the same for DataFrames of activations, combination of predictions (stacked or not) | `RFunctions`, `StackedFit`, `Vote` |
| `ruleset.py` | construction, `+`, `+=`, `append`, `in`, `==`, slices, `rules` setter, sorting, duplicates, features, activation and stack, `fit`, `eval`, `predict`, `calc_criterion`, `to_df`, `save`, `load`, activations as objects, their deletion and attributes taken from them | `RuleSet`, `SetHeap`, `SetAttr`, `RuleSetOps`, `RuleSetFit`, `StackedFit`, `Save`, `PyText` |
| `utils/rfunctions.py`, rounded | conditional mean and standard deviation, mean absolute and squared error, success rate, class frequencies, coverage, with every operation rounded | `Rounded` |
| `utils/rfunctions.py`, rounded votes | weighted predictions of rulesets: regressors unstacked and stacked, classes unstacked, with every operation rounded | `RoundedVote` |
| `ruleset.py`, references | which DataFrame of stacked activations each of several rulesets refers to, and which calls change it in place | `FrameHeap` |
| `ruleset.py`, references | which rule objects several rulesets refer to; `fit` (rule by rule), calls on a rule, `+=`, constructions on them | `SharedRules` |
| `condition.py`, `rule.py`, `ruleset.py`, texts | `str` of conditions, rules and rulesets | `ShowText`, `ShowRule` |
| `_version.py` | `get_versions` with its three methods, style pep440; what git prints is given | `Version` |
| `ruleset.py`, `utils/rfunctions.py` | `fit`, `eval`, `calc_stds`, `calc_predictions`, `conditional_std`, `class_probabilities`, `calc_classification_criterion` for targets with an index | `TargetIndex` |
| `utils/rule_utils.py` | `extract_rules_from_tree` | `Tree` |

`STACKED_FIT` is modelled for `predict`, `fit` and `eval`; C28 and C42 are about `STACKED_FIT = False`, the default.

Not modelled: the values of attributes which only measure (`_time_*`, `_n_*`, `_sizeof_*`; what reading them does is modelled), logging, texts of activations for display, the other styles of `_version.py`, `TransparentPath` (remote
files), plotting, scheduling by joblib, `sklearn` itself, pickling, `COMPUTE_SUBATTRIBUTES`, the classes
`Rule` and `RuleSet` used with other daughter classes than the two of the library.

## Violations found

Each is proved by a theorem named in the last section unless marked (read): seen in the source, not modelled.

Activations
* One-point vectors kept compressed under `DTYPE = np.ndarray` are read back as two points (C01, C03).  Empty vectors raise (C03).
* The constructor accepts integers too big for their length when `WILL_COMPARE` is off (C02).
* `&`, `|`, `^` and `-` of two activations stored as integers raise; `a + b` is `a`; `in` answers whether one of the two is included
  in the other; `multi_logical_xor` of one activation is this activation (C05, C07, C08, C09).
* Lasy activations may never know their length (C03).  A random file name which is taken raises (C31).

Conditions
* `impossible` stays set after the bounds were repaired, so that equal conditions select different rows (C14, C15).
* Conditions without features: lengths are not checked by the setters; DataFrames raise `AttributeError` (C11, C14).
* A rejected assignment may have been done (C14).  An impossible condition does not notice missing columns (C11).
* NaN bounds break `&` (C13) and make it depend on the order (C45).  `hash(-1) == hash(-2)` makes different conditions equal, so that rulesets lose rules (C15, C26, C39).
* The lists given are kept with one feature or `sort=False`, and by the setters: conditions made from the same lists change
  together; bounds changed in place are not checked (C54).
* `RuleSet.evaluate` has no fallback when memory lacks, unlike `evaluate_self_activation`; on the empty ruleset one raises and the other
  gives an empty vector; `calc_activation` of no points keeps the activation of the points before (C55).
* With floats, the mean of equal targets can be greater than all of them and their standard deviation positive; the sign of a prediction can
  be lost and depends on the order of the points (C57).  Probabilities of classes need not sum to one (C56).
* With floats, the weighted prediction of a ruleset depends on the order of its rules, up to being NaN in one order and a number or a class
  in another; a ruleset of a single rule predicting 0.1 with weight 0.1 predicts 0.10000000000000002 (C58).
* Assigning `rules` does not set the class of the rules: a ruleset filled in this way cannot be fitted (`ValueError`) and predicts nothing;
  assigning rules of another class leaves the former class announced, after which the ruleset accepts rules of both classes (C59).
* `a += b` with `a` an empty ruleset makes both share the DataFrame of stacked activations: adding a rule to `a` adds a column to those of
  `b`, and a later stacked fit of `b` gives its rules figures of rules of `a` (C60).
* Slices share the rules of the ruleset: after a slice was fitted on other data the activation of the ruleset is not that of its rules, and
  rules which became bad, and were dropped in the slice only, stay (C61).
* A rule object which a ruleset holds twice is fitted twice: if the first fit makes it bad, the second one leaves it without figures,
  which a ruleset of two equal rule objects does not (C61, `C61_twice_false`).
* A feature can have a name which looks like the text of a condition: two different conditions have the same text then, and a ruleset with two
  such rules has one column of stacked activations only. Conditions without names have all the same text; equal conditions with features in
  other orders have different ones. A ruleset of exactly `2 * NLINES` rules is shown with dots for no rule (C62).
* A classification rule whose class is called `<prediction unset>` has the text of a rule which is not fitted (C62).
* `test_set_size` of a rule is never computed: the classes of rules replace `attributes_from_test_set` instead of extending it. `eval` of a bad
  rule says that the rule is fitted, and not that it is evaluated. A rule fitted again still says that it is evaluated, with the criterion of
  its former prediction; a fitted rule ignores other targets given to `fit` without features (C63).
* With `FORCE_STAT`, measuring a lasy activation which was not read yet leaves a file behind, and `delete` then removes the file of the user. A
  measure which raises half way leaves the activation in the format it was timing (C64).
* With `STACKED_FIT`, a `fit` or `eval` which raises leaves the index of its targets on the stacked activations; the next `fit` with an
  array is aligned by these labels and gets wrong deviations (C65). `calc_stds(y)` and, for classification rules, `calc_predictions(y)`
  called by the user align a Series by label, `calc_predictions(y)` of regression rules goes by position (C65).  When some labels do not
  match and a target is 0 or a text, they raise `TypeError`, as 0 is written "zero" and multiplied by a float (C65).
* The prediction of a point can depend on the other points of the call (C66): with a negative weight, a class which is not active in the
  batch is not in the table of votes, so that a point is decided in one batch and not in another; a batch without any active rule
  raises `ValueError`; with stacked activations, the class of the only decided point goes to the first one; when the first rule of a
  regression predicts 0, the call raises `TypeError` for the data sets where it is active and not for the others.
* `eval` without features takes the activation of the last `fit` and cannot see that the targets are in another order: the criterion
  is then another one, without exception (C67).
* The second `fit` on the same data of a rule which the first one rejected erases (NaN) what the first one had computed before the
  rejection, such as the prediction and the size of the training set (C68).  `eval(y)` of a ruleset without features, called twice, gives two criteria (C68_set_eval_false).
* Without stacked activations, the predictions of a regression ruleset depend on the zero of the unit of the target: moved by a constant, they
  become missing where they should be 0, or `predict` raises `TypeError` (C69).
* Among equally frequent classes a classification rule predicts the first in order, so that the class predicted depends on the names of the
  classes (C71).
* A regression rule which covers no training point is kept by `fit` with the prediction NaN, and falsifies the predictions of the ruleset at
  all points: with training targets all equal to 10, a ruleset predicts 5 for the training features (C72).
* Negative feature indexes are accepted and counted from the end of the array given, so that adding a column changes the rule (C73).
* A ruleset whose only active rule at a point predicts 0 predicts 0 if this is its only rule, and NaN if it comes after another rule which is not active there (C75).
* The default criterion of a regression rule (`mse_norm`) depends on the targets of points which the rule does not activate: the error at the activated points is divided by the error of the mean of all targets, so that a larger spread outside the rule improves its criterion (`C78_default_false`).
* After an `eval` which drops a rule the ruleset covers nothing although the rules left cover points, and a rule whose coverage was assigned may
  cover more than its ruleset (`C80_eval_false`, `C80_assigned_false`).
* Two checkouts may have the same version if a tag has a plus sign, the import of the package may fail with an exception of `get_versions` when git
  does not know the date or number of commits, and an archive takes the smallest tag as a text: 10.0 of v9.0 and v10.0 (`C81_plus_false`,
  `C81_raises_false`, `C81_smallest_false`).
* `ruleset.coverage` and `ruleset.ruleset_coverage` differ after `del_activation`, for a ruleset without rules and for a loaded one; `hasattr`
  of a ruleset may raise `TypeError` or `ZeroDivisionError` (`C82_deleted_false`, `C82_empty_false`, `C82_loaded_false`).
* A ruleset which was saved and loaded has no stacked activations: with `STACKED_FIT` set its weighted predictions can differ from those of
  the ruleset which was saved, which raises where no rule is active (`C83_stacked_false`).
* The ruleset of the leaves of a regression tree does not predict like the tree: a leaf with the value 0 is predicted NaN, or makes `predict`
  raise `TypeError` if it is the first one; trees which return to the right of a feature, and samples equal to a threshold, are predicted
  the mean of several leaves (`C84_zero_false`, `C84_zero_first_false`, `C84_return_false`, `C84_threshold_false`).
* Arrays of other numbers than 0 and 1 are accepted as activations and taken modulo 256 (C03).
* Equal weights are not like no weights: where no rule is active, stacked activations with weights raise `ValueError`, without weights the
  prediction is NaN (`C85_stacked_false`); for 256 rules the prediction without weights is infinite (`C85_equal_false`);
  a class called "nan" is predicted without weights but missing with equal weights if the first rule is active nowhere (`C85_idle_nan_false`).
* With an array holding other numbers than 0 and 1 (kept under `STORE_RAW`), `multi_logical_or` of this one activation returns 0 and 1 if there is
  enough memory and the array itself otherwise (`C06_other_numbers_false`).
* `all_features_indexes` is applied by the constructor only: a rule added later reads the same feature in another column than the rules
  before it (`C86_added_false`); and it is written into the rule objects, so that other rulesets with these rules change (`C86_shared_false`).
* A condition made with `empty=True` has length 0, but going through it raises `TypeError` (`C87_empty_false`).
* A condition made without names for the column -1 calls it `X_-1`, which is no column of a DataFrame (`C89_negative_false`).
* A `fit` which raises at one rule leaves the rules before it fitted (`C90_fit_false`); an `eval` which raises for its weights has already dropped the bad rules (`C90_eval_false`); a `sort` which raises has already sorted the rules (`C90_sort_false`); a `predict` which raises has already changed the activation of the first rule (`C90_predict_false`).
* A ruleset of one rule can predict otherwise than the rule: it raises when a classification rule is active at no point (`C91_idle_false`) or the rule has no features (`C91_featureless_false`), and where the class is a text it gives NaN and the whole text, the rule `nan` and the first 32 characters (`C91_text_false`).
* A `fit` of a rule which raises for its targets has already replaced the activation and the size of the train set: the rule still counts as fitted, with the prediction of the old points (`C92_fit_false`); `eval` likewise replaces the activation (`C92_eval_false`).
* A ruleset without rules predicts for no point, however many there are (`C93_empty_false`).
* Bounds given as texts are truncated by `int()` (`C88_fraction_false`), infinite ones raise `OverflowError` (`C88_rejected`); negative indexes count from the end (read).

Thresholds and rules
* NaN passes minima and maxima (C16).  Without a file there is no minimal coverage (C16).  A limit on a text, such as the predicted
  class, rejects every text (`equal`) or raises `TypeError` (`min`, `max`) (C16).
* Class names are cut at 32 characters, the class "nan" raises, and a DataFrame of one row gives a single value instead of a Series (C18).  Rules without features have an empty prediction vector (C18).
* Standard deviation of one activated point without target is 0, of several with one target NaN (C19).
* Most frequent class: frequencies are compared as texts (C20).
* `r2 in r1` answers whether one of the two is included in the other, and raises for deleted activations (C47).  `get_correlation`
  compares numbers of features instead of points, and is NaN or raises for predictions which are 0 or texts (C48).  `activation`
  raises after `del_activation` (C49).
* Attributes of the condition assigned on a rule are shown by the rule and not used (C50).  `set_thresholds` of a rule has no effect,
  and raises for `None`; `SET_THRESHOLDS` applies to existing rules (C51).  After `del_activation` a ruleset has no coverage and
  `append` raises after having added the rule; `stacked_activations_available` does not look at stacked activations and raises for
  rulesets without activation (C52).  Equal rulesets can have different hashes (C53).  `&` of rules without activation raises `TypeError` (C46).

Predictions of rulesets
* Unstacked: sums which are zero, first predictions which are 0, and more than 255 active rules give wrong means; stored activations
  change the first rule; nothing active raises (C21, C22, C23).  Stacked: other results than unstacked (C23), one decided point and a
  class called nan raise (C24).

Rulesets
* Activation of rulesets out of date without update, rules of the same condition text share a stacked column (C25).
* `+` changes indexes when `allIndexes` is not empty (C26); sorting compares texts, "10" before "2" (C27).
* `fit` drops good rules equal to bad ones; `eval` leaves zeros as activation (C28).
* `append` with `update_activation=False` of a rule of the wrong type loses settings (C32).  Predictions are compared as texts (C34).
* Feature counters after `fit` are out of date (C35).  An assigned coverage stays (C37).  `append` does not check duplicates (C40).
* Slices lose the stack, change indexes (C41).  The size of the test set is saved as that of the training set; NaN and infinite
  bounds and classes of two words are saved but not loaded (C29).
* With `STACKED_FIT`, `fit` keeps rules which only fail the last check of thresholds, returns dropped rules several times, gives NaN
  instead of 0 as standard deviation of one point, takes the class 'zero' for 0, raises for a classification rule without activated
  point, mixes up rules of the same condition text, fits fitted rules again, may not compute the activation of the ruleset, and leaves
  `stack_activation` set when it raises (C43).  `eval` keeps bad rules, takes the class 'zero' for 0, does not count missing targets,
  and evaluates rules without activation, where plain `eval` raises (C44).

Decision trees
* A feature compared to the left and then to the right gets the greatest value as upper bound again: samples of other leaves
  activate the rule (C30).  Without `get_leaf` predictions are those of the parents; a single leaf raises; names are needed with
  recent versions of sklearn (C30).

## Testing the theorems

`tools/mutate.py` copies the Lean files, makes one edit to a definition of the model, rebuilds, and writes down which theorems fail.
`seeded/LOG.jsonl` has one line for each.  When no theorem failed and the edit did break a claim, a theorem was tightened or added; it
is named in `theorems_tightened`.

## Properties

### C01. Compression of an activation vector loses nothing

Compressing a 0/1 activation vector into its list of change positions and decompressing it again gives back exactly the vector one started from, with the same length; two different vectors never have the same compressed form.

Modelled: `_compress`, `_decompress`, the text form. Induction over the vector.

Status: partial. Full round trip for the text form. For the array form the round trip holds from two points on; C01_array_roundtrip_false shows a one-point vector comes back wrong.

* `Verif.CodecProps.C01_text_roundtrip`: **C01 (text form).** Compressing any non-empty 0/1 vector to text and decompressing the text gives the vector back.
* `Verif.CodecProps.C01_no_points`: **C01 (no point at all).** The vector without points compresses to the empty array whichever form is asked for, and both empty values, the array and the text, decompress to the vector without points.
* `Verif.CodecProps.C01_array_roundtrip_partial`: **C01 (array form), partial.** The same for the array form, for vectors of at least two points. The full statement would cover every non-empty vector; it is false for one-point vectors, see `C01_array_one_point_wrong`.
* `Verif.CodecProps.C01_array_one_point_wrong`: **C01 (array form), violation.** A one-point vector in array form decompresses to a *two-point* vector: its compressed form `[value, 1]` is mistaken for a raw vector.
* `Verif.CodecProps.C01_array_roundtrip_false`: **C01, negation of the full array statement.**
* `Verif.CodecProps.C01_format`: **C01 (documented format).** The array form is: the first value, the increasing positions of the changes of value, the length; the text form is its rendering (see `C01_text_form`).
* `Verif.CodecProps.C01_text_form`: **C01 (text is the array).** Reading the text form as a tuple of integers gives the array form.
* `Verif.CodecProps.C01_injective`: **C01 (no two vectors share a compressed form)**, in either representation.
* `Verif.CodecProps.C01_text_readable`: **C01 (every well-formed compressed text is readable).** A text listing a first value 0 or 1, strictly increasing positions strictly inside the vector, and a length `n ≥ 1`, is accepted; the vector read has length `n`, and compressing it gives the same text again.
* `Verif.CodecProps.C01_lone_number`: **C01 (a lone number).** A text which is one number is no compressed vector: reading it raises `TypeError`.

### C02. Integer form of an activation vector loses nothing

Turning a 0/1 vector into a Python integer and back with the same length gives the same vector; an integer which does not fit in the declared length is refused with an error instead of giving a wrong vector.

Modelled: `_raw_to_integer`, `_integer_to_raw`, bitarrays. Positional notation.

Status: partial. Conversions proved both ways, including refusal of integers too big for the length in _integer_to_raw. The constructor accepts too big integers when WILL_COMPARE is off (C02_constructor_false).

* `Verif.ActivationProps.C02_constructor_false`: **C02, violation.** "An integer which does not fit in the declared length is refused" is false of the constructor when `WILL_COMPARE` is off: 4 (three bits) declared of length 1 is accepted, and the activation has three points.
* `Verif.ActivationProps.C02_constructor_wrong_vector`: What is accepted then: the activation of length 3.
* `Verif.CodecProps.C02_integer_value`: **C02 (meaning).** The integer form of a non-empty vector is the number it writes in base two.
* `Verif.CodecProps.C02_integer_roundtrip`: **C02 (round trip).** Vector to integer and back, with the length of the vector.
* `Verif.CodecProps.C02_integer_read`: **C02 (reading an integer).** For a positive declared length an integer is read exactly when it fits, and then gives the only vector of this length which writes it; otherwise the reading raises `ValueError`.
* `Verif.CodecProps.C02_integer_injective`: Distinct vectors of the same length write distinct numbers.
* `Verif.CodecProps.C02_bitarray`: **C02 (bitarrays).** Going through a bitarray loses nothing either, and the integer of a bitarray is the one of the raw vector.

### C03. The storage format is invisible

Whatever storage format the library picks for an Activation (compressed text, compressed array, bitarray, integer, raw, file), reading the vector back (raw, as_bitarray, as_integer, as_compressed) and reading its statistics (length, nones, ones, entropy, coverage) gives the same answers as for the vector it was built from.

Modelled: The whole class with all storage formats, a heap of objects and a file store. Refinement: every history of operations is simulated by histories of plain vectors.

Status: partial. Proved over all histories of operations for non-empty vectors (two points or more under DTYPE=np.ndarray) and lasy=False; the three excluded cases are violations, proved as C03_*_false.

* `Verif.ActivationProps.C03_storage_invisible_partial`: **C03, partial.** In every state reached by any history, whatever the storage formats the library chose, every live object shows exactly the vector it stands for. Left out of `Reach` (and false, see below): one-point vectors under `DTYPE = np.ndarray`, empty vectors, `lasy=True`.
* `Verif.ActivationProps.C03_creation_partial`: **C03 (creation), partial.** Creating an activation from any description of a vector succeeds and it shows the vector, for every choice of flags and every machine answer, unless the file name drawn is taken (in which case the code raises, see `C31_collision_raises`).
* `Verif.ActivationProps.C03_no_interference`: **C03 (no interference).** An operation other than `clear` or `delete` of the object itself, successful or not, does not change what an object shows.
* `Verif.ActivationProps.C03_clear`: **C03 (clear).** `clear` makes an object show as many zeros.
* `Verif.ActivationProps.C03_copy`: **C03 (copy).** A copy shows the same vector (or the file name drawn is taken).
* `Verif.ActivationProps.C03_one_point_false`: **C03, violation (one point).** With `DTYPE = np.ndarray` the one-point vector `[1]`, when kept compressed, is read back as a two-point vector.
* `Verif.ActivationProps.C03_empty_false`: **C03, violation (no point).** An empty vector cannot be turned into an activation (unless `STORE_RAW`).
* `Verif.ActivationProps.C03_lasy_false`: **C03, violation (lasy).** A lasy activation read first through `as_bitarray` never knows its length: here `nones` then fails although the file is fine.
* `Verif.ActivationProps.C03_empty_bits_false`: **C03, violation (no point, bitarrays).** The empty bitarray is no activation when activations are kept as integers: `int("", 2)` raises `ValueError`.
* `Verif.ActivationProps.C03_bytes_false`: **C03 is false for arrays of other numbers than 0 and 1.** They are accepted, and taken modulo 256: of 256, 1, 0 what is read is 0, 1, 0, whether raw arrays are stored or not, and of 257, 1, 0 it is 1, 1, 0.

### C04. Entropy counts the changes and does not depend on the format

The entropy of an activation is the number of places where the vector changes value plus two, whichever format the activation is stored in, and it lies between 2 and length + 1 (so relative entropy is meaningful).

Modelled: `entropy` on top of the same heap.

Status: proved. Over all histories; one-point vectors under DTYPE=np.ndarray by a separate theorem about construction.

* `Verif.ActivationProps.C04_entropy`: **C04.** The entropy of an activation is the number of places where the vector changes value plus two, in every storage format; it lies between 2 and length + 1.
* `Verif.ActivationProps.C04_entropy_one_point`: **C04 (one point, any format).** The excluded case of `Fits`: right after construction from a one-point vector, the entropy is 2 in every format and with every setting.

### C05. Pointwise meaning of &, | and ^ on activations

For two activations of the same length, a & b, a | b and a ^ b are the element-wise logical and, or, exclusive or of the two vectors, whatever the two storage formats; for different lengths a ValueError is raised and neither operand is changed.

Modelled: `__and__`, `__or__`, `__xor__` for every pair of formats.

Status: partial. Right whenever it returns; two activations stored as integers always raise (violation); a taken file name raises.

* `Verif.ActivationProps.C05_pointwise_partial`: **C05, partial.** `a & b`, `a | b`, `a ^ b` give a new activation showing the element-wise result, for every pair of storage formats but two integers (see `C05_integers_false`), provided the file name drawn is free when both operands are on disk.
* `Verif.ActivationProps.C05_never_wrong`: **C05 (never a wrong answer).** Whenever an operator returns, the result is right, and all other objects still show their vectors; this includes integers.
* `Verif.ActivationProps.C05_length_mismatch`: **C05 (different lengths).** Operands of different lengths raise `ValueError` and nothing at all changes.
* `Verif.ActivationProps.C05_integers_raise`: **C05, violation (exact).** On two activations stored as integers, every operator raises `ValueError`.
* `Verif.ActivationProps.C05_integers_false`: **C05, negation of the full statement**: `&` of two equally long activations does not always work.

### C06. Combining many activations does not depend on available memory

multi_logical_and / multi_logical_or of a non-empty list of equally long activations gives the element-wise and / or of the whole list, whatever amount of free memory the machine reports, unless a MemoryError is raised.

Modelled: `multi_logical_and/or` with memory reports as parameters.

Status: partial. All memory reports; one-point vectors under DTYPE=np.ndarray and empty lists are outside the hypotheses of the activation version, not of the array version. An array with other numbers than 0 and 1 given as activation makes the result depend on the free memory (`C06_other_numbers_false`).

* `Verif.ActivationProps.C06_multi_partial`: **C06, partial.** `multi_logical_and` of a non-empty list of equally long activations gives an activation showing the points marked by all, `multi_logical_or` those marked by some, for every report of free memory, unless `MemoryError` is raised or (all operands being on disk) the file name drawn is taken. Missing: one-point vectors under `DTYPE = np.ndarray`, whose result is stored wrongly (`C03_one_point_false`).
* `Verif.ActivationProps.C06_multi_asarray`: **C06 (as array).** With `asarray=True` the array returned is right in every case but `MemoryError`, also for one-point vectors and taken file names.
* `Verif.ActivationProps.C06_memory_error`: **C06 (MemoryError only for lack of memory).** It is raised only when less than twice the size of one vector is free, or numpy fails to allocate two vectors.
* `Verif.BinaryProps.C06_binary`: **C06 (0 and 1).** When memory is not short, the array which `multi_logical_and` or `multi_logical_or` returns holds 0 and 1 only, whatever numbers the given activations hold: every number but 0 counts as 1.
* `Verif.BinaryProps.C06_other_numbers_false`: **C06, violation (other numbers).** When memory is short, one activation which holds another number than 0 and 1 is returned as it is: the array depends on the free memory.

### C07. multi_logical_xor marks the points where the activations disagree

multi_logical_xor of a list marks exactly the points activated by at least one but not all of the activations; for two activations it agrees with a ^ b.

Modelled: `multi_logical_xor`.

Status: partial. At least two operands; for a single operand the claim is false (C07_single_false).

* `Verif.ActivationProps.C07_multi_xor_partial`: **C07, partial.** `multi_logical_xor` of at least two equally long activations marks exactly the points marked by some and not by all; unless `MemoryError` is raised or all operands are on disk (where a taken file name makes it fail). Missing: lists of one activation, for which it is false (`C07_single_false`).
* `Verif.ActivationProps.C07_multi_xor_asarray`: **C07 (as array)**: the same for `asarray=True`, without any condition on files.
* `Verif.ActivationProps.C07_two`: **C07 (two operands).** For two activations it is the element-wise exclusive or, as `a ^ b`.
* `Verif.ActivationProps.C07_single_false`: **C07, violation.** For a list of one activation the result is the activation itself (no point is marked by some but not all): the statement for all non-empty lists is false.

### C08. + and - on activations are union and difference

a - b marks the points marked by a and not by b; a + b marks the points marked by a or by b.

Modelled: `__add__`, `__sub__`.

Status: partial. Difference: right whenever it returns, always returns unless the left operand is an integer or in a file. Sum: false, a + b is a.

* `Verif.ActivationProps.C08_difference_partial`: **C08 (difference), partial.** `a - b` marks the points marked by `a` and not by `b`, when `a` is neither stored as an integer (see `C08_integers_false`) nor in a file (where a taken file name makes it fail).
* `Verif.ActivationProps.C08_difference_never_wrong`: **C08 (difference, never a wrong answer).** Whenever `a - b` returns, in any formats, it is right.
* `Verif.ActivationProps.C08_integers_false`: **C08, violation (difference of integers).**
* `Verif.ActivationProps.C08_sum_is_left`: **C08, violation (sum, exact).** `a + b` does not compute anything: it returns `a` itself.
* `Verif.ActivationProps.C08_sum_false`: **C08, negation of "a + b marks the points marked by a or by b".**

### C09. Containment of activations

`b in a` holds exactly when every point activated by b is activated by a.

Modelled: `__contains__`.

Status: partial. Exact meaning proved (one of the two is included in the other), which makes the claim false (C09_contains_false); right when the container marks at least as many points.

* `Verif.ActivationProps.C09_contains_exact`: **C09 (exact meaning).** Whenever `b in a` returns, it is true exactly when one of the two activations is included in the other.
* `Verif.ActivationProps.C09_contains_partial`: **C09, partial.** `b in a` is right when `a` marks at least as many points as `b`.
* `Verif.ActivationProps.C09_contains_answers_partial`: **C09 (it answers), partial.** `b in a` returns an answer unless both are stored as integers, or both in files and the file name drawn is taken; and then leaves all vectors as they were.
* `Verif.ActivationProps.C09_contains_false`: **C09, violation.** `[1,1,1] in [1,1,0]` is true.

### C10. Correlation between activations is a similarity

get_correlation is between 0 and 1, symmetric, equals 1 exactly when both vectors are the same, equals 0 exactly when they are complementary, and 1 minus it satisfies the triangle inequality.

Modelled: `get_correlation`. Rational arithmetic, triangle inequality by counting disagreements.

Status: proved. Over all histories.

* `Verif.ActivationProps.C10_value`: **C10 (value).** `get_correlation` of two equally long activations is the fraction of the points where they agree; it always answers.
* `Verif.ActivationProps.C10_similarity`: **C10 (similarity).** Between 0 and 1, symmetric, 1 exactly for the same vector, 0 exactly for complementary vectors.
* `Verif.ActivationProps.C10_triangle`: **C10 (triangle inequality)** for `1 - correlation`.
* `Verif.ActivationProps.C10_length_mismatch`: **C10 (different lengths)** raise `ValueError`.

### C11. Condition evaluation is hyper-rectangle membership

Evaluating a condition on a matrix marks row i exactly when, for each of its features, the value of the row in this feature's column is a finite number between the lower and the upper bound, both included; the result has one entry per row; an out-of-range column raises IndexError.

Modelled: `HyperrectangleCondition.evaluate` for arrays and DataFrames.

Status: partial. Exact for arrays and DataFrames, all reachable conditions. Missing columns: IndexError for possible conditions; an impossible condition gives zeros instead (violation). A condition without features raises on DataFrames (violation).

* `Verif.ConditionProps.C11_evaluate`: **C11.** Evaluating a condition on an array which has all its columns gives one entry per row, 1 exactly for the rows whose values of the features are all finite and within the bounds.
* `Verif.ConditionProps.C11_evaluate_named`: **C11 (DataFrame).** The same for a DataFrame, where features are found by name.
* `Verif.ConditionProps.C11_out_of_range_partial`: **C11 (out of range), partial.** A column which the array does not have raises `IndexError`. Missing: this is false of impossible conditions (`C11_out_of_range_false`).
* `Verif.ConditionProps.C11_missing_column_partial`: **C11 (missing name), partial.** A feature which is not a column of the DataFrame raises `IndexError`, except for impossible conditions.
* `Verif.ConditionProps.C11_out_of_range_false`: **C11 (out of range) is false** of an impossible condition: asking for column 7 of an array with one column does not raise `IndexError`.
* `Verif.ConditionProps.C11_no_feature_false`: **C11 (no feature) is false for DataFrames**: a condition on no feature is met by every row of an array, and raises `AttributeError` on a DataFrame.
* `Verif.ConditionProps.C11_given`: **C11 (bounds given as other objects).** Bounds given as integers, floats or booleans make the condition, or the exception, which the numbers make that they are equal to.

### C12. Order of the features in a condition is irrelevant

Building a condition from its features given in any order, or sorting it by index or by name, changes neither its evaluation nor its equality with the original; name, index and both bounds of each feature stay together.

Modelled: Constructor, `sort`. Sorting of permuted lists gives the same list.

Status: proved. Constructor arguments in any order give the same condition or the same exception; evaluation, equality and sort.

* `Verif.ConditionProps.C12_order_of_arguments`: **C12 (constructor).** Giving the features (whatever the Python objects given) to the constructor in another order gives the very same condition, or the same exception.
* `Verif.ConditionProps.C12_order_default_names`: **C12 (default names).** The same when names are left out.
* `Verif.ConditionProps.C12_order_irrelevant`: **C12 (evaluation and equality).** Two conditions on the same features, in whatever order, select the same rows (or raise the same exception) on every array and every DataFrame, and compare equal.
* `Verif.ConditionProps.C12_sort`: **C12 (sort).** Sorting puts the features in increasing order of index (or name) and keeps name, index and both bounds of each feature together; evaluation and equality do not change.

### C13. Intersection of conditions

If c1 & c2 succeeds, evaluating it on any matrix gives the element-wise and of evaluating c1 and c2; it fails with IndexError exactly when the two conditions disagree on the name/index pairing of a feature; neither operand is changed.

Modelled: `__and__`. Intersection of intervals feature by feature.

Status: partial. Evaluation of the intersection proved for bounds which are not NaN (false with NaN bounds). IndexError exactly on disagreement. Operands unchanged: conditions are values in this model.

* `Verif.ConditionProps.C13_evaluate_partial`: **C13, partial.** If `c1 & c2` succeeds then on every array and DataFrame both operands can be evaluated on, it can be too, and gives the element-wise and (product of 0 and 1). Missing: bounds which are NaN, for which the claim is false (`C13_nan_false`).
* `Verif.ConditionProps.C13_index_error`: **C13 (when it fails).** `c1 & c2` raises `IndexError` exactly when the operands disagree on which column a feature is, and there is no other failure.
* `Verif.ConditionProps.C13_nan_false`: **C13 is false with NaN bounds**: `max(0, nan)` is 0 in Python, so that the intersection selects a row which the second operand does not select.

### C14. A condition stays well formed under any sequence of updates

After any sequence of assignments to bmins, bmaxs, features_names, features_indexes (some of them rejected with an error) the four lists have the same length, and the condition is treated as impossible exactly when some lower bound is above its upper bound.

Modelled: All setters, over arbitrary sequences of assignments. Invariant.

Status: partial. Same lengths, distinct names and indexes, over all sequences of assignments, for conditions with features; conditions made empty are filled in any order of assignments (C14_filled); the impossible flag is exactly 'was impossible at some time', which makes the claim false after a repair.

* `Verif.ConditionProps.C14_well_formed_partial`: **C14, partial.** After any sequence of assignments (some of them rejected) to a condition built with at least one feature, the four lists still have the same number of entries, names are distinct and so are indexes; the condition is flagged impossible exactly when at some moment of this history a lower bound was above its upper bound. Missing: the claim wants "exactly when it is so now", and conditions without features; both are false of the code.
* `Verif.ConditionProps.C14_impossible_false`: **C14 is false (repaired bounds)**: once a lower bound has been above the upper bound, the condition stays impossible after the bounds have been put right, and selects nothing.
* `Verif.ConditionProps.C14_no_feature_false`: **C14 is false (no feature)**: the lengths of the lists of a condition without features are not checked.
* `Verif.ConditionProps.C14_rejected_false`: **C14 is false (rejected assignment)**: assigning the lower bounds of an empty condition raises `TypeError` but is done nevertheless.
* `Verif.ConditionProps.C14_filled`: **C14 (filling an empty condition).** Assigning names, indexes and both bounds of distinct features to a condition made with `empty=True`, in any order and any number of times, although the first assignment of bounds raises: the condition shows these features, has their number as its length, and is impossible exactly when a lower bound is above its upper bound.

### C15. Equality of conditions

Two conditions compare equal exactly when they constrain the same features (by name) with the same bounds; equal conditions select the same rows of every DataFrame.

Modelled: `__eq__`, `__hash__` with arbitrary hash functions of strings and tuples, and those of Python for numbers.

Status: partial. Equality holds for equal requirements, whatever the hash functions; conversely up to hash collisions, which do happen (hash(-1) == hash(-2)).

* `Verif.ConditionProps.C15_equal`: **C15 (equality holds).** Two conditions which require the same of the same features compare equal, whatever the hash functions.
* `Verif.ConditionProps.C15_only_if_partial`: **C15 (only then), partial.** If two conditions compare equal and their hashes do not collide, they require the same of the same features. Missing: collisions exist, so that the claim is false without this hypothesis (`C15_collision_false`).
* `Verif.ConditionProps.C15_same_rows`: **C15 (same rows).** Conditions which require the same of the same features select the same rows of every DataFrame.
* `Verif.ConditionProps.C15_collision_false`: **C15 is false**: whatever the hash functions of strings, tuples and sets, `X_0 in [-1, 0]` and `X_0 in [-2, 0]` compare equal, because `hash(-1) == hash(-2)`; they do not select the same rows.
* `Verif.ConditionProps.C15_repaired_false`: **C15 is false (impossible)**: a condition made impossible and repaired is equal to a fresh one, and does not select the same rows.

### C16. Thresholds accept exactly the values inside the limits

A threshold check of an attribute answers True exactly when the value satisfies every limit configured for this attribute (min, max, equal, different), with the documented default minimal coverage, and never modifies the configuration.

Modelled: `Thresholds.__call__` and the reading of the file.

Status: partial. Exact answer for numeric values and limits which are not NaN; unlisted and absent attributes pass; a limit naming an attribute that is missing raises; configuration unchanged; default coverage. Values which are NaN or texts: exact answer, which is not the documented one (C16_nan_false, C16_text: texts can only be rejected or raise). Limits which are NaN: exact answer (C16_nan_limit).

* `Verif.ThresholdProps.C16_unlisted`: **C16 (unlisted).** An attribute without limits is accepted.
* `Verif.ThresholdProps.C16_absent`: **C16 (absent).** An attribute which is `None`, or a method, is accepted.
* `Verif.ThresholdProps.C16_accepts_partial`: **C16, partial.** The value of an attribute (changed by the function named under "arg", if any) is accepted exactly when it satisfies all limits of this attribute, and the limits are not modified. Missing: NaN, for which this is false (`C16_nan_false`).
* `Verif.ThresholdProps.C16_bad_limit`: **C16 (other limits).** When a limit is neither a number nor the name of an attribute whose value is a number, no answer is given: the check raises an exception.
* `Verif.ThresholdProps.C16_unknown_arg`: **C16 (unknown function).** When what is written under "arg" is not one of the six function names, a number for instance, no answer is given: the check raises `ValueError`.
* `Verif.ThresholdProps.C16_text`: **C16 (texts).** An attribute whose value is a text, such as the class a rule predicts, can not be limited in a useful way: with a minimum or a maximum the check raises `TypeError`; with `equal` every text is rejected, since limits are numbers; otherwise every text is accepted.
* `Verif.ThresholdProps.C16_nan`: **C16 (NaN).** A value which is NaN is accepted unless there is a limit `equal`: no minimum and no maximum rejects it.
* `Verif.ThresholdProps.C16_nan_limit`: **C16 (limits which are NaN).** A minimum or a maximum which is NaN, for instance because it is the standard deviation of a rule with one activated point, accepts every number; so does `different`; `equal` accepts none. The other limits count as ever.
* `Verif.ThresholdProps.C16_unchanged`: **C16 (configuration).** Checking never modifies the limits, also when it raises.
* `Verif.ThresholdProps.C16_default_coverage`: **C16 (default).** When a file is found, coverage always has a minimum: the one of the file, else 0.05; everything else is as in the file. When no file is found there are no limits.
* `Verif.ThresholdProps.C16_nan_false`: **C16 is false of NaN**: a rule whose coverage is NaN passes the minimum of coverage.

### C17. A rejected rule stays rejected

Once a rule has failed a threshold it is never reported good again, whatever sequence of fit, eval and threshold checks follows; a rule is good exactly when no check so far has failed.

Modelled: `check_thresholds`, `fit`, `eval`, over arbitrary sequences of calls with changing thresholds.

Status: proved. Over all histories of calls, thresholds free to change between calls; the record of answers is a ghost field written where checks are made (C17_check). A rule good after fit or eval is within all limits.

* `Verif.RuleProps.C17_stays_rejected`: **C17 (stays rejected).** A rule which is not good is not good after any history of calls, under any thresholds.
* `Verif.RuleProps.C17_good_iff`: **C17 (good exactly when no check failed).** A rule made by the constructor is good, after any history of calls, exactly when all threshold checks made so far answered True, and it has a `bad_because` exactly when it is not good.
* `Verif.RuleProps.C17_check`: What the log of `C17_good_iff` is: a threshold check adds its answer to the log and nothing else, and the rule is good afterwards exactly when it was good before and the answer is True.
* `Verif.RuleProps.C17_good_within_limits`: **C17 (within limits).** A rule which is good after `fit` or `eval` is within all the limits: asking again about any attribute gives True.
* `Verif.RuleProps.C17_eval_rejected`: **C17 (rejected rules are not evaluated).** `eval` without `force_if_not_good` of a rule which is not good computes nothing: the criterion becomes NaN.

### C18. A rule predicts its value on activated points and nothing elsewhere

The prediction vector of a fitted rule has one entry per point, equal to the rule's prediction on the activated points and to missing (NaN / 'nan') everywhere else.

Modelled: `predict` with the object it returns (array, Series, single value), `calc_prediction_vector`.

Status: partial. Numbers: exact, stored activation and new arrays. Class names: up to 32 characters and not 'nan' (both false otherwise); calc_prediction_vector is wrong for rules without features. DataFrames: a Series with the index of the DataFrame, but a single value for one row (violation). Conditions without features are excluded for DataFrames.

* `Verif.RulePredictProps.C18_frame_partial`: **C18 (DataFrames, partial).** On a DataFrame which does not have exactly one row, `predict` returns a Series with the index of the DataFrame: the prediction where the row satisfies the condition; elsewhere NaN, or the text "nan" for a class which is a text. Missing: one row (`C18_one_row_false`), long names and the name "nan" of classes, conditions without features.
* `Verif.RulePredictProps.C18_one_row`: **C18 (one row).** On a DataFrame of one row `predict` returns a single value: the prediction if the row satisfies the condition, NaN or "nan" otherwise.
* `Verif.RulePredictProps.C18_one_row_false`: **C18 is false of DataFrames of one row**: no Series is returned.
* `Verif.RulePredictProps.C18_array`: **C18 (arrays).** On an array, and without data, `predict` returns an array.
* `Verif.RuleProps.C18_predict_number`: **C18 (numbers).** A rule whose prediction is the number `x`, with the activation vector `u`, predicts `x` on the activated points and NaN elsewhere.
* `Verif.RuleProps.C18_predict_class_partial`: **C18 (classes).** The same for a class name which has at most 32 characters and is not "nan": "nan" elsewhere. Missing: longer names and the name "nan", for which it is false (`C18_long_name_false`, `C18_nan_name_false`).
* `Verif.RuleProps.C18_predict_array`: **C18 (new data).** On an array, a rule whose prediction is the number `x` predicts `x` for the rows which satisfy its condition and NaN for the others.
* `Verif.RuleProps.C18_predict_array_class_partial`: **C18 (new data, classes).**
* `Verif.RuleProps.C18_vector_partial`: **C18 (prediction vector).** The prediction vector of a rule which has features: its prediction on activated points, NaN elsewhere, for numbers and for class names of any length. Missing: rules without features (`C18_no_feature_false`).
* `Verif.RuleProps.C18_unfitted`: **C18 (not fitted).** A rule without prediction predicts NaN everywhere; a rule without activation vector refuses to predict without data.
* `Verif.RuleProps.C18_long_name_false`: **C18 is false for long class names**: only 32 characters are left.
* `Verif.RuleProps.C18_nan_name_false`: **C18 is false for the class name "nan"**: `predict` raises.
* `Verif.RuleProps.C18_no_feature_false`: **C18 is false for the prediction vector of a rule without features**: it is empty, whatever the number of points.

### C19. A regression rule predicts the conditional mean

The prediction of a fitted regression rule is the mean of the non-missing targets of activated points, hence lies between their minimum and maximum, is missing exactly when there is none, and its sign label is '-' exactly when it is negative; the standard deviation is non negative and zero exactly for constant targets.

Modelled: `RegressionRule.fit`, `conditional_mean`, `conditional_std`, `calc_sign`.

Status: partial. After any successful fit of a rule still good or with force_if_not_good, exact arithmetic, square root by its sign behaviour. Prediction, bounds, sign: exact. Standard deviation false for one activated point without target, and for several with only one target.

* `Verif.RuleStatProps.C19_prediction`: **C19 (prediction and sign).** After a `fit` which does not raise, of a rule which is still good (or with `force_if_not_good`), working with the activation vector `u`: with `l` the targets of activated points which are not missing, the prediction is the mean of `l`, it lies between the least and the greatest of `l`, and the sign is '-' exactly when it is negative; it is NaN when there is none, and then the sign is '+'.
* `Verif.RuleStatProps.C19_std_partial`: **C19 (standard deviation).** After such a `fit`, when at least two activated points have a target, or there is only one activated point: the standard deviation is a number, not negative, and zero exactly when these targets are all equal. Missing: the other cases, `C19_std_no_target_false` and `C19_std_one_target_false`.
* `Verif.RuleStatProps.C19_std_no_target_false`: **C19 (standard deviation) is false for one activated point without target**: nothing is known, and the standard deviation is 0 instead of missing.
* `Verif.RuleStatProps.C19_std_one_target_false`: **C19 (standard deviation) is false for several activated points only one of which has a target**: the standard deviation is NaN, although a single target is constant (and a single activated point with a target gives 0).

### C20. A classification rule predicts the most frequent class

The class probabilities of a rule are the observed frequencies of each class among activated points (they are positive and sum to one), and the predicted class is one with the highest frequency, the smallest in class order on ties.

Modelled: `ClassificationRule.fit`, `class_probabilities`, the choice of the class.

Status: partial. Frequencies exact. Most frequent class, smallest on ties: for numbers; for texts when the texts of frequencies are ordered as numbers, false otherwise (20000 points).

* `Verif.RuleStatProps.C20_frequencies`: **C20 (frequencies).** After a `fit` which does not raise, of a rule which is still good (or with `force_if_not_good`), working with the activation vector `u`, with classes which are all numbers or all texts: the probabilities are the classes of the activated points in increasing order, each once, with its frequency; frequencies are positive and sum to one.
* `Verif.RuleStatProps.C20_number`: **C20 (predicted class, numbers).** When classes are numbers, the predicted class is one of the activated points, no other is more frequent, and all smaller ones are less frequent.
* `Verif.RuleStatProps.C20_text_partial`: **C20 (predicted class, texts).** The same when classes are texts, provided that the texts of the possible frequencies `1/n`, ..., `n/n`, `n` activated points, are ordered as these numbers. Missing: other cases, for which it is false (`C20_text_false`).
* `Verif.RuleStatProps.C20_no_point`: **C20 (no activated point).** Without any activated point, `fit` of a good rule raises `IndexError`.
* `Verif.RuleStatProps.C20_text_false`: **C20 (predicted class) is false when classes are texts**: probabilities are then compared as texts, and "5e-05" comes after "0.99995". A class with one point out of 20000 is predicted.

### C21. Weighted regression prediction is the weighted mean of the active rules

With weights, the prediction of a ruleset at a point is the weight-weighted mean of the predictions of the rules activated there, hence lies between the smallest and largest of them for non-negative weights; it is missing exactly where the total active weight is zero; the stacked and the unstacked computation agree and do not depend on rule order.

Modelled: `calc_ruleset_prediction_weighted_regressor_*` and `RuleSet.predict`.

Status: partial. Exact arithmetic. Stacked: full for rules with different condition texts, some rule with a weight active somewhere (raises otherwise). Unstacked: when no weighted sum is zero and the first rule with a weight does not predict 0; false otherwise (missing or TypeError), and false for rules predicting NaN. Agreement and order under these conditions.

* `Verif.RuleSetProps.C21_predict_partial`: **C21 (`predict`).** For a ruleset of regression rules, `predict(xs, weights)` gives at each point the weighted mean of the predictions of the rules active there for the features given (for the remembered activations if none are given), and leaves the ruleset unchanged. Weights: a Series, or the name of an attribute. Missing: as for `C21_unstacked_partial`.
* `Verif.RuleSetProps.C21_predict_stacked_partial`: **C21 (`predict` with stacked activations).** The same when `STACKED_FIT` is set and activations are stacked; without features, the stacked activations are supposed to be those of the rules (C25).
* `Verif.VoteProps.C21_unstacked_partial`: **C21 (unstacked).** The prediction of a ruleset at a point is the mean of the predictions of the rules active there, weighted by weights which are not negative; it lies between two of them, and is missing exactly where the active rules have no weight. The rules are unchanged. Missing: it is assumed that only one rule has a weight, or that the first one which has a weight does not predict 0 and no weighted sum is 0 where there is an active weight (`C21_cancel_false`, `C21_zero_false`); that some rule has a weight (`C21_no_weight_false`); and that predictions are numbers (`C21_nan_false`).
* `Verif.VoteProps.C21_stacked_partial`: **C21 (stacked).** The same for the stacked computation, without condition on the predictions. Missing: two rules with the same condition text are counted once, and when no rule with a weight is active at any point the stacked computation raises (`C21_stacked_none_false`).
* `Verif.VoteProps.C21_stack`: The stacked activations computed from features are one column per rule.
* `Verif.VoteProps.C21_agree_partial`: **C21 (both computations agree)**, under the conditions of both.
* `Verif.VoteProps.C21_order_partial`: **C21 (order).** When no rule with a weight predicts 0, the prediction does not depend on the order of the rules. Missing: rules which predict 0, `C21_order_false`.
* `Verif.VoteProps.C21_attribute_partial`: **C21, C23 (weights named by an attribute).** With `weights="criterion"` (or another attribute) each rule gets the value of this attribute as its weight, and the rules which have none, or NaN, have no weight; so the theorems on weights given by rule name apply. Missing: two rules with the same condition text get the weight of the last one.
* `Verif.VoteProps.C21_cancel_false`: **C21 is false of the unstacked computation when predictions cancel:** two rules active at the same point, predicting 1 and -1 with the weight 1; the mean is 0 but the prediction is missing, while the stacked computation gives 0.
* `Verif.VoteProps.C21_zero_false`: **C21 is false when the first rule predicts 0:** with a second rule, the unstacked computation raises `TypeError`, for any rules, weights and points.
* `Verif.VoteProps.C21_order_false`: **C21: the order matters** when a rule predicts 0: in one order the prediction is 1/2, in the other it raises.
* `Verif.VoteProps.C21_no_weight_false`: **C21: without any weight the prediction is not missing but raises** `ValueError`, for any rules.
* `Verif.VoteProps.C21_stacked_none_false`: **C21: the stacked computation raises** when no rule with a weight is active at any point, where the other one gives missing predictions.
* `Verif.VoteProps.C21_nan_false`: **C21: a rule which predicts NaN** counts as a rule predicting 0 in the unstacked computation: next to a rule which predicts 2 the prediction is 1; the stacked computation ignores it.

### C22. Unweighted regression prediction is the plain mean of the active rules

Without weights, the prediction of a ruleset at a point is the mean of the predictions of the rules activated there and is missing exactly when none is; the stacked and unstacked computation agree; computing it does not modify the rules.

Modelled: `calc_ruleset_prediction_equally_weighted_regressor_*` and `RuleSet.predict`.

Status: partial. Stacked: for rules with different condition texts. Unstacked: when no sum is zero, the first prediction is not 0, and at most 255 rules are active at a point; false otherwise. Computing from stored activations changes the first rule (violation).

* `Verif.RuleSetProps.C22_predict_partial`: **C22 (`predict`).** Without weights, the plain mean. Missing: as for `C22_unstacked_partial`.
* `Verif.RuleSetProps.C22_predict_stacked_partial`: **C22 (`predict` with stacked activations).**
* `Verif.UnfittedProps.C22_unfitted_stacked`: **C22 (stacked activations, rules without prediction).** A regression rule whose prediction is `None` takes no part: the prediction at each point is the mean of those active rules which have a prediction, missing if there is none.
* `Verif.VoteProps.C22_unstacked_partial`: **C22 (unstacked).** Without weights, the prediction at a point is the mean of the predictions of the rules active there, missing if there is none; and the rules are unchanged. Missing: it is assumed that there is only one rule, or that the first one does not predict 0 and no sum is 0 where a rule is active (`C22_cancel_false`, `C22_zero_false`); that at most 255 rules are active at a point (`C22_count_false`); and, for the rules to be unchanged, that features are given, or that the first activation is not stored as an array, or that there is only one rule (`C22_changes_false`).
* `Verif.VoteProps.C22_stacked`: **C22 (stacked).** In the stacked computation this holds without these conditions, for rules whose condition texts differ.
* `Verif.VoteProps.C22_mean_unique`: The mean determines the value, so that both computations agree when both are means.
* `Verif.VoteProps.C22_cancel_false`: **C22 is false of the unstacked computation when predictions cancel.**
* `Verif.VoteProps.C22_zero_false`: **C22: the unstacked computation raises `TypeError`** when the first of several rules predicts 0 and is active.
* `Verif.VoteProps.C22_count_false`: **C22: 256 rules active at the same point**, all predicting 1: the prediction is infinite, because the number of active rules is counted in one byte.
* `Verif.VoteProps.C22_changes_false`: **C22: computing a prediction from stored activations changes the first rule:** its activation becomes the number of active rules.

### C23. Weighted class vote

With weights, a ruleset predicts at a point the class whose active rules have the largest total weight, and nothing when the largest total is shared or no rule is active; the stacked and unstacked computation agree.

Modelled: `calc_ruleset_prediction_weighted_classificator_*` and `RuleSet.predict`.

Status: partial. Unstacked: exact for weights which are not negative; raises when nothing is active anywhere. Stacked: exactly the vote of the heaviest active rules, which differs (C23_agree_false).

* `Verif.RuleSetProps.C23_predict_partial`: **C23 (`predict`).** For a ruleset of classification rules, `predict(xs, weights)` gives at each point the class with the greatest total weight, missing if there is none. Missing: as for `C23_unstacked_partial`; with stacked activations see `C23_predict_stacked_partial` and `C23_agree_false`.
* `Verif.RuleSetProps.C23_predict_stacked_partial`: **C23 (`predict` with stacked activations).** With stacked activations it gives the class which most of the heaviest active rules predict, when at least two points are decided. Missing: as for `C23_stacked_partial`.
* `Verif.VoteProps.C23_unstacked_partial`: **C23 (unstacked).** With weights which are not negative, the prediction at a point is the class with the greatest total weight of active rules, and missing if there is no such class (a shared greatest total, or no active rule with a weight). Missing: when no rule with a weight is active at any point, it raises (`C23_none_false`).
* `Verif.VoteProps.C23_stacked_partial`: **C23 (stacked).** The stacked computation is the unweighted vote of the active rules with the greatest individual weight, when at least two points are decided. Missing: the total weights do not matter (`C23_agree_false`); one or no decided point (`C24_stacked_one_false`, `C24_stacked_none_false`); classes of both types; a class called "nan"; rules with the same condition text.
* `Verif.VoteProps.C23_agree_false`: **C23: the stacked and the unstacked computation disagree.** One rule of class A with the weight 3 against two rules of class B with the weight 2 each: the unstacked computation gives B, the stacked one gives A.
* `Verif.VoteProps.C23_none_false`: **C23: when no rule is active at any point, the prediction is not missing but raises.**

### C24. Unweighted class vote

Without weights, a ruleset predicts at a point the class predicted by most of the rules active there, and nothing when there is a tie or no active rule; the prediction of a point does not depend on the other points.

Modelled: `calc_ruleset_prediction_equally_weighted_classificator_*` and `RuleSet.predict`.

Status: partial. Unstacked: exact; raises when nothing is active anywhere. Stacked: when at least two points are decided; false with one or none (proved for all rules), and for a class called nan.

* `Verif.RuleSetProps.C24_predict_partial`: **C24 (`predict`).** Without weights, the class which most active rules predict. Missing: as for `C24_unstacked_partial`.
* `Verif.RuleSetProps.C24_predict_stacked_partial`: **C24 (`predict` with stacked activations)**, when at least two points are decided. Missing: as for `C24_stacked_partial`.
* `Verif.VoteProps.C24_unstacked_partial`: **C24 (unstacked).** Without weights, the prediction at a point is the class predicted by most active rules, missing in case of a tie or without active rule. Missing: when no rule is active at any point, it raises (`C24_none_false`).
* `Verif.VoteProps.C24_stacked_partial`: **C24 (stacked).** The same for the stacked computation, when at least two points are decided. Missing: one or no decided point (`C24_stacked_one_false`, `C24_stacked_none_false`); classes of both types; a class called "nan" (`C24_nan_false`); rules with the same condition text.
* `Verif.VoteProps.C24_stacked_one_false`: **C24 is false of the stacked computation when exactly one point is decided:** for any rules, the class goes to the first point.
* `Verif.VoteProps.C24_stacked_none_false`: **C24 is false of the stacked computation when no point is decided:** for any rules, the first entry is a table.
* `Verif.VoteProps.C24_none_false`: **C24: when no rule is active at any point, the unstacked computation raises.**
* `Verif.VoteProps.C24_nan_false`: **C24: a class called "nan" is taken for missing** by the stacked computation.

### C25. The activation of a ruleset is the union of its rules' activations

After any sequence of append / += / + / construction from a list, the activation of a ruleset which remembers it is the element-wise or of the activations of the rules it contains, its stacked activation has one column per rule in rule order, and its coverage is the fraction of points covered by at least one rule.

Modelled: Construction, `append`, `+=`, `+` with the activation and the stack. Invariant over sequences.

Status: partial. Over all sequences of construction, append, += and + of rulesets which update activations, rules with activations of n points. Coverage by C37. False without update, for rules without activation, for stacked columns of rules with the same condition text, and for mixed stack settings.

* `Verif.RuleSetProps.C25_union_partial`: **C25 (activation).** After any sequence of constructions, appends, additions, sorts and assignments of `rules`, with rules which all have an activation of the same points, the activation of the ruleset is 1 exactly at the points which at least one of its rules activates, and its coverage is the fraction of these points. Missing: rules without activation, `compute_activation=False` and `append(update_activation=False)`, for which this is false (`C25_no_update_false`, `C25_no_compute_false`, `C25_no_activation_false`).
* `Verif.RuleSetProps.C25_empty`: A ruleset without rules has no activation and no coverage.
* `Verif.RuleSetProps.C25_stacked_partial`: **C25 (stacked activations).** If no two rules have the same condition text, a ruleset with `stack_activation=True` has after any such sequence one column for each rule, in the order of the rules, with the activation of this rule. Missing: two rules with the same text share a column (`C25_same_text_false`); adding a ruleset which does not stack (`C25_mixed_stack_false`).
* `Verif.RuleSetProps.C25_no_update_false`: **C25 is false with `append(rule, update_activation=False)`:** the activation stays the one of the other rules.
* `Verif.RuleSetProps.C25_no_compute_false`: **C25 is false after `compute_activation=False`:** the next addition computes the activation of the new rule only.
* `Verif.RuleSetProps.C25_no_activation_false`: **C25 is false with a rule which has no activation:** the same two rules give no activation in a constructor and the activation of the first one in a sequence of additions.
* `Verif.RuleSetProps.C25_same_text_false`: **C25 is false for two rules with the same condition text:** the second one takes the column of the first one.
* `Verif.RuleSetProps.C25_mixed_stack_false`: **C25 is false when a ruleset which does not stack is added to one which does:** its rules have no column.

### C26. Adding rulesets merges them as sets

r1 + r2 contains exactly the rules of r1 and of r2, each once (up to rule equality), and modifies neither operand; += appends the rules in order.

Modelled: `__add__`, `__iadd__`.

Status: partial. Rules of the sum up to rule equality, order of +=, refusals. Rule equality is equality of hashes of conditions, so collisions lose rules (C26_collision_false); allIndexes not empty changes indexes (C26_indexes_false). Operands unchanged: rulesets are values in this model.

* `Verif.RuleSetProps.C26_add_partial`: **C26 (`+`).** The rules of `r1 + r2` are rules of `r1` or `r2`; each rule of `r1` or `r2` is equal to one of them; no two of them require the same of the same features. Missing: "equal" is equality of hashes, so that different rules can be merged (`C26_collision_false`); with `all_features_indexes` the conditions of the rules are changed (`C26_indexes_false`).
* `Verif.RuleSetProps.C26_add_stack`: The settings of `r1 + r2`: it stacks activations when both do.
* `Verif.RuleSetProps.C26_iadd`: **C26 (`+=`).** `r1 += r2` appends the rules of `r2` in order.
* `Verif.RuleSetProps.C26_append`: **C26 (`+= rule`, `append`).** The rule is added at the end.
* `Verif.RuleSetProps.C26_add_rule`: **C26 (`+ rule`).** The rules are those of the ruleset and the new one.
* `Verif.RuleSetProps.C26_types`: **C26 (types).** Rules of different types are refused.
* `Verif.RuleSetProps.C26_collision_false`: **C26 is false:** `X_0 in [-1, 9]` and `X_0 in [-2, 9]` have the same hash, and only one of them is in the sum.
* `Verif.RuleSetProps.C26_indexes_false`: **C26 is false with `all_features_indexes`:** the conditions of the rules of the sum have other indexes. (The rules are the same objects as in the operands, so that the operands are changed.)

### C27. Sorting a ruleset only reorders it

Sorting a ruleset keeps exactly the same rules (with multiplicity), orders them by number of features, then features, then bounds, gives the same result when repeated, does not depend on the initial order except for rules with identical keys, and keeps each stacked column attached to its rule.

Modelled: `sort_rules` with the texts of lists, modelled down to `repr`.

Status: partial. The texts of lists which Python writes can be told apart (C27_texts). Same rules and columns: full. Order, repetition, independence of initial order: for rules with names, bounds not NaN and texts of lists which can be told apart; order is that of texts of names and indexes (C27_index_order_false, C27_name_order_false: '10' before '2'). False with NaN bounds; raises for rules without features. By a criterion which is a number or a text: full and stable; false for NaN; values which cannot be compared raise and change nothing (C27_criterion_mixed).

* `Verif.RuleSetProps.C27_same_rules`: **C27 (same rules).** Sorting, with or without criterion, whether it raises or not, keeps exactly the rules; only the order of the rules and the stacked activations can change.
* `Verif.RuleSetProps.C27_order_partial`: **C27 (order).** After `sort()` the rules are ordered by number of features, then by the text of their features (in reverse if asked), then by their bounds in lexicographic order. Missing: "features" are compared as texts, so that indexes and names can be in an unexpected order (`C27_index_order_false`, `C27_name_order_false`); NaN bounds (`C27_nan_false`).
* `Verif.RuleSetProps.C27_again_partial`: **C27 (success and repetition).** `sort()` of rules with features and bounds which are not NaN does not raise, and sorting again changes nothing. With stacked activations: when they are the columns of the rules. Missing: `sort()` with rules without features raises (`C27_no_feature_false`), with stacking and nothing stacked too (`C27_no_stack_false`).
* `Verif.RuleSetProps.C27_initial_order_partial`: **C27 (initial order).** Two rulesets with the same rules in different orders have the same rules in the same order after `sort()`, if no two different rules have the same features and bounds.
* `Verif.RuleSetProps.C27_columns`: **C27 (columns).** In a ruleset made by any sequence of operations, with rules of different condition texts, the columns of the stacked activations after a sort are those of the rules, in the new order.
* `Verif.RuleSetProps.C27_criterion_partial`: **C27 (criterion).** `sort(criterion)` by an attribute which is a number for all rules orders them by this number, from the smallest to the greatest, or the other way round in reverse; rules with the same number stay in their order. Missing: attributes which are NaN (`C27_criterion_nan_false`).
* `Verif.RuleSetProps.C27_good`: **C27 (good and bad rules).** `sort("good")` puts the rules which have been marked as bad before the others, in reverse after them, and keeps the order of the bad ones and that of the good ones.
* `Verif.RuleSetProps.C27_criterion_text`: **C27 (criterion which is a text).** `sort(criterion)` by an attribute which is a text for all rules (such as `sign`) orders them by this text, or the other way round in reverse; rules with the same text stay in their order.
* `Verif.RuleSetProps.C27_criterion_mixed`: **C27 (criterion which cannot be compared).** With several rules, when the attribute is not a number for all of them and not a text for all of them (such as the criterion of rules some of which have not been evaluated), `sort(criterion)` raises `TypeError` and leaves the ruleset as it is.
* `Verif.RuleSetProps.C27_index_order_false`: **C27 is false for indexes as numbers:** a rule on column 10 comes before a rule on column 2.
* `Verif.RuleSetProps.C27_name_order_false`: **C27 is false for names in alphabetical order:** `"a b"` comes before `"a"`, since the text of the list goes on with a quote.
* `Verif.RuleSetProps.C27_nan_false`: **C27 is false with a NaN bound:** the result depends on the initial order.
* `Verif.RuleSetProps.C27_no_feature_false`: **C27 is false for rules without features:** `sort` raises `KeyError`.
* `Verif.RuleSetProps.C27_no_stack_false`: **C27 is false when activations are to be stacked and none are yet:** `sort` raises `TypeError`, after the rules have been reordered.
* `Verif.RuleSetProps.C27_criterion_nan_false`: **C27 is false with a criterion which is NaN for a rule:** nothing is moved, though 1 comes after 2.
* `Verif.TextProps.C27_texts`: **C27, C34.** The texts of lists of names (whatever signs, quotes, commas they contain), of indexes and of bounds which Python writes can be told apart: what follows cannot be taken for a part of them.

### C28. Fitting or evaluating a ruleset drops exactly the bad rules

After fit or eval the ruleset contains exactly the rules which are still good, in their original order; its activation is the union of the remaining rules' activations.

Modelled: `RuleSet.fit`, `RuleSet.eval` (not stacked).

Status: partial. Exact set of rules kept by fit and eval: good and not equal to a bad one; the good ones when no two rules are equal. Activation after fit: full. Activation after eval: when new activations are kept or nothing is dropped; zeros otherwise (violation). False for equal rules, for rules already fitted, after everything was dropped.

* `Verif.RuleSetProps.C28_fit`: **C28 (rules after `fit`).** After a `fit` which does something, the rules of the ruleset are, in order, those which are good after having been fitted and are not equal to a bad one; the rules returned are the bad ones.
* `Verif.RuleSetProps.C28_fit_partial`: **C28 (rules after `fit`, no equal rules).** If no two rules of the ruleset are equal, exactly the good rules are kept. Missing: good rules equal to a bad one are dropped too (`C28_equal_false`); a ruleset whose rules are all fitted already keeps its bad rules (`C28_fitted_false`).
* `Verif.RuleSetProps.C28_fit_activation`: **C28 (activation after `fit`).** After a `fit` with features, or which drops a rule, the activation of the ruleset is the union of those of the rules which are left, and the stacked activations are their activations; after a `fit` without features which drops nothing, the activation is the one it had.
* `Verif.RuleSetProps.C28_equal_false`: **C28 is false for equal rules:** a bad rule makes `fit` drop a good rule with the same condition.
* `Verif.RuleSetProps.C28_fitted_false`: **C28 is false when all rules are fitted and no features are given:** bad rules stay.
* `Verif.RuleSetProps.C28_clear_false`: **C28 is false after all rules have been dropped once:** the activation of the ruleset has length 0 and, where it cannot be cleared, a `fit` which drops a rule raises and leaves the ruleset without rules.
* `Verif.RuleSetProps.C28_eval`: **C28 (rules after `eval`).** After `eval` with features which are not empty or without features, the rules are, in order, those which are good after having been evaluated and are not equal to a bad one, and the rules returned are the bad ones; the prediction made for the criterion can change activations of rules (`C22_changes_false`). `eval` also keeps the new activations if some rule was not fitted.
* `Verif.RuleSetProps.C28_eval_partial`: **C28 (rules after `eval`, no equal rules).** If no two rules of the ruleset are equal, exactly the good rules are kept.
* `Verif.RuleSetProps.C28_eval_activation_partial`: **C28 (activation after `eval`).** After an `eval` with features which keeps the new activations, the activation of the ruleset is the union of those of the rules which are left (as they were before the prediction for the criterion). Otherwise, when nothing is dropped, it is the one it had. Missing: when a rule is dropped otherwise, it is zero everywhere (`C28_eval_zeros_false`).
* `Verif.RuleSetProps.C28_eval_zeros_false`: **C28 is false for the activation after `eval`:** when a rule is dropped and new activations are not kept, the activation of the ruleset is zero everywhere, though the rule left is active on the train set.

### C29. A ruleset survives saving and loading

Writing a ruleset as a table and reading it back gives rules with the same condition (names, indexes, bounds), prediction and statistics, in the same order, and the set-wide figures are written under their own labels.

Modelled: `to_df`, `save`, `load` through a csv file, `repr` and `literal_eval` of lists.

Status: partial. Rules come back in order with class, condition, prediction and figures, for conditions made by the sorting constructor with finite bounds, figures which are numbers or NaN, classes which are not taken for something else, and a read_csv which does not round. Texts of lists as Python writes them, with all escapes, are modelled and proved to be read back. False: size of the test set, coverage and criterion of the ruleset (come back as texts), NaN and infinite bounds (load raises), classes of two words (load raises), classes which look like numbers or missing values, unsorted conditions.

* `Verif.SaveProps.C29_spoilt`: **C29 (spoilt cells).** A line of a saved file with something after one of its four lists is not read as if the list stood alone: loading it raises.
* `Verif.SaveProps.C29_rules_partial`: C29. A ruleset which is saved and loaded has the same rules in the same order: same class, condition, prediction, coverage, criterion and for regression rules z-score and standard deviation. It also has the same type of rules, the names of features of the rules and the same size of the train set, which the rules get too (`None` becomes NaN). Missing: rules which are not `Loadable` (see the theorems below); the size of the test set, the coverage and the criterion of the ruleset (see below); `read_csv` must not round the numbers of columns of numbers.
* `Verif.SaveProps.C29_empty`: C29. An empty ruleset is saved as an empty table and loaded as a ruleset without rules, provided the empty activation can be stored.
* `Verif.SaveProps.C29_test_size_false`: C29 is false: the size of the test set is replaced by the size of the train set.
* `Verif.SaveProps.C29_figures_false`: C29 is false: the coverage and the criterion of the ruleset come back as texts.
* `Verif.SaveProps.C29_bounds_false`: C29 is false: a ruleset with an infinite bound or a bound which is NaN is saved, but loading it raises `ValueError`.
* `Verif.SaveProps.C29_class_false`: C29 is false: a ruleset with a class of two words is saved, but loading it raises `SyntaxError`.
* `Verif.SaveProps.C29_class_value_false`: C29 is false: the class "1" comes back as the number 1 and the class "NA" as NaN; the class "setosa" comes back.
* `Verif.SaveProps.C29_unsorted_false`: C29 is false: a condition which was made with `sort=False` comes back sorted.
* `Verif.SaveProps.C29_figures`: **C29 (coverage and criterion of the ruleset).** They do not come back as numbers: where the ruleset had none, the loaded one has NaN, whatever the ruleset it was loaded into had; where it had a number, the loaded one has the text of the number.

### C30. Rules extracted from a decision tree describe the tree

For a decision tree, the extraction gives two rules per internal node (or one per leaf); a sample inside [xmins, xmaxs] satisfies the rule of a leaf if it falls in this leaf, and only if it satisfies every comparison on the way to this leaf (up to equality with thresholds).

Modelled: `extract_rules_from_tree`. Induction over the tree.

Status: partial. For arrays which hold a tree, sortable settings, different names and bounds which are not NaN. Number, order, features and predictions of the rules, and that samples falling in a leaf activate its rule: full. Only-if: for comparisons which are not followed by a right turn on the same feature; false otherwise (C30_return_false, line 178 restores the maximum). False: a tree of one leaf raises, names are needed with recent sklearn, without get_leaf the predictions are those of the parents. sklearn itself, recursion beyond the limit of Python and the overflow of numbers are not modelled.

* `Verif.TreeProps.C30_rules`: **C30 (rules).** The extraction gives one rule for each leaf with `get_leaf`, and otherwise two for each internal node, in the order in which the tree is written from left to right, parents first. Each rule talks about the features compared on the way, by their names, and predicts the value of the leaf; without `get_leaf`, of the node above (`C30_value_false`).
* `Verif.TreeProps.C30_covers`: **C30 (covers).** A sample between `xmins` and `xmaxs` which satisfies the comparisons on the way to a node activates the rule of this node.
* `Verif.TreeProps.C30_only_partial`: **C30 (only), partial.** A sample which activates the rule of a node satisfies, up to equality with the threshold, every comparison on the way to this node, except those which asked for a feature to be at most a threshold when the same feature was later asked to be greater than another one. Missing: these comparisons, of which it is false (`C30_return_false`).
* `Verif.TreeProps.C30_within`: **C30 (within).** When the thresholds on the way to a node are between `xmins` and `xmaxs`, a sample which activates the rule of this node has each of the features of the rule between its minimum and its maximum.
* `Verif.TreeProps.C30_prediction`: **C30 (prediction).** With `get_leaf`, a sample between `xmins` and `xmaxs` activates the rule of the leaf in which it falls, which predicts the value of this leaf.
* `Verif.TreeProps.C30_unique_partial`: **C30 (one rule), partial.** With `get_leaf`, when no feature is asked to be at most a threshold and below this to be greater than another one, a sample none of whose features is equal to a threshold activates no other rule than the one of its leaf. Missing: other trees, for which it is false (`C30_return_false`), and samples on thresholds (`C30_threshold_false`).
* `Verif.TreeProps.C30_return_false`: **C30 (only) is false** when the same feature is split to the left and then to the right: the rule of the leaf of `someTree` where `3 < a ≤ 5` and `b ≤ 0` has the bounds 3 and 10 for `a`; a sample with `a = 7` activates it.
* `Verif.TreeProps.C30_threshold_false`: **C30 (thresholds).** A sample equal to a threshold activates the rules on both sides, although it falls on the left only.
* `Verif.TreeProps.C30_value_false`: **C30 (values) is false** without `get_leaf`: the two rules of a node predict the value of this node, and not those of the nodes to which they lead.
* `Verif.TreeProps.C30_root_false`: **C30 (single leaf) is false**: a tree which is one leaf has one leaf, but asking for the rules of the leaves raises `AttributeError`.
* `Verif.TreeProps.C30_names_false`: **C30 (names) is false**: without names of features and with a version of sklearn which does not have `n_features_`, the extraction raises `AttributeError` for every tree.

### C31. Activation files are not leaked, shared or overwritten

Along any sequence of creating, clearing, deleting and reading activations stored on disk, two live activations never share a file, an existing file is never overwritten, an activation read back is what was written, and deleting an activation removes its file and no other.

Modelled: File store of activations with drawn names.

Status: partial. No sharing, no overwriting, delete: over all histories with lasy=False. No leak: without clear and -, which leak (violations). lasy and double delete violate it.

* `Verif.ActivationProps.C31_no_sharing`: **C31 (no sharing).** Two live activations never share a file.
* `Verif.ActivationProps.C31_no_overwrite`: **C31 (no overwriting).** No operation, successful or not, changes or removes an existing file, except `delete` of the activation stored in it.
* `Verif.ActivationProps.C31_delete`: **C31 (delete).** Deleting an activation removes its own file and no other.
* `Verif.ActivationProps.C31_user_files`: **C31 (other files).** Files which are not activation files are never touched, along any history.
* `Verif.ActivationProps.C31_no_leak_partial`: **C31 (nothing leaks), partial.** Along histories without `clear` and without `-`, starting without activation files, every activation file belongs to a live activation.
* `Verif.ActivationProps.C31_clear_leaks_false`: **C31, violation (clear leaks).** After `clear` of an activation stored in a file, the file exists and belongs to nobody.
* `Verif.ActivationProps.C31_sub_leaks_false`: **C31, violation (`-` leaks).** `a - b` of two activations on disk leaves the file of its intermediate result behind: it belongs to no live object.
* `Verif.ActivationProps.C31_collision_raises`: **C31 (taken names), violation of the documented fallback.** When the file name drawn is taken, creation raises; the vector is never kept in memory instead, and nothing on disk changes.
* `Verif.ActivationProps.C31_lasy_overwrites_false`: **C31, violation (lasy).** Reading a lasy activation writes a second file without looking whether its name is taken: here it destroys the file of another live activation.
* `Verif.ActivationProps.C31_double_delete_false`: **C31, violation (double delete).** Deleting twice is not harmless: the second `delete` removes the file of whichever activation reused the name.
* `Verif.ActivationProps.C31_clean_files`: **C31 (clean_files).** Removes every activation file and no other.

### C32. append keeps the caller's settings

append of a rule with update_activation=False leaves the ruleset's own remember/stack settings as before, also when the append is refused with an error, and a refused append leaves the ruleset unchanged.

Modelled: Checks of rule types in construction, `append`, `+=`.

Status: partial. Accepted: full. Refused with different types: nothing changes for +=; append with update_activation=False loses the settings (C32_settings_false).

* `Verif.RuleSetProps.C32_accepted`: **C32 (accepted).** An accepted `append`, with or without update of the activation, leaves `stack_activation` as it was and the ruleset remembers activations; without update the activation and the stacked activations are unchanged.
* `Verif.RuleSetProps.C32_refused_partial`: **C32 (refused), partial.** A rule of another type is refused, and with `update_activation=True` the ruleset is unchanged. Missing: with `update_activation=False` the settings are lost (`C32_settings_false`); rules refused for other reasons stay in the ruleset (`C32_length_false`).
* `Verif.RuleSetProps.C32_refused_set`: Also a refused ruleset leaves everything unchanged.
* `Verif.RuleSetProps.C32_settings_false`: **C32 is false:** after a refused `append(rule, update_activation=False)` the ruleset does not stack activations any more and does not remember its activation.
* `Verif.RuleSetProps.C32_stale_false`: Afterwards rules are added without updating the activation.
* `Verif.RuleSetProps.C32_length_false`: **C32 is false:** a rule with an activation of another length is refused, and stays in the ruleset.

### C33. Error measures are sane

mse and mae of a prediction vector are non negative and zero exactly when predictions equal targets where both exist; success rate lies between 0 and 1 and equals 1 exactly when all decided predictions are right; the normalised versions divide by the error of the constant mean predictor.

Modelled: Error measures, success rate, aggregations of `rfunctions.py`.

Status: partial. Exact arithmetic, targets as arrays. mse, mae, success rates, criterion of an evaluated rule; mse_norm and aae for targets all present, median exact, no constant prediction is better than the baseline; infinite predictions; mae_norm is false (divides by zero).

* `Verif.FigureProps.C33_mse_norm_baseline`: **C33 (mse_norm, baseline).** For targets which are not all the same, a constant prediction never has an `mse_norm` below 1, and only the mean target has 1.
* `Verif.FigureProps.C33_aae_baseline`: **C33 (aae, baseline).** For targets which are not all the same, a constant prediction never has an `aae` below 1, and the median target has 1.
* `Verif.FigureProps.C33_infinite`: **C33 (infinite predictions).** One infinite prediction makes the four measures infinite, whatever the other predictions (missing or infinite ones among them); there is no NaN and no negative measure.
* `Verif.FigureProps.C33_median`: **C33 (median).** The median which `aae` uses is the middle one of the sorted targets, or the mean of the two in the middle.
* `Verif.MeasureProps.C33_mse`: **C33 (mse).** The mean squared error is a number, not negative, and zero exactly when predictions and targets are equal wherever both exist; it is NaN exactly when they never do; different lengths raise `ValueError`.
* `Verif.MeasureProps.C33_mae`: **C33 (mae).** The same for the mean absolute error.
* `Verif.MeasureProps.C33_mse_norm_partial`: **C33 (mse_norm).** With targets which are all present, `mse_norm` divides the mean squared error by the one of the constant prediction of the mean target. Missing: targets with missing values, for which `mse_norm` is NaN (`C33_mse_norm_missing`).
* `Verif.MeasureProps.C33_mse_norm_missing`: **C33 (mse_norm, missing targets).**
* `Verif.MeasureProps.C33_aae_partial`: **C33 (aae).** With targets which are all present, `aae` divides the mean absolute error by the one of the constant prediction of their median. Missing: targets with missing values, for which `aae` is NaN (`C33_aae_missing`).
* `Verif.MeasureProps.C33_aae_missing`: **C33 (aae, missing targets).** With a missing target, `aae` is NaN.
* `Verif.MeasureProps.C33_mae_norm_infinite`: **C33 (mae_norm).** What it is: `mae_norm` divides by the mean of `mean(y) - y`, which is zero, so that the result is infinite unless the error is zero or missing.
* `Verif.MeasureProps.C33_mae_norm_false`: **C33 (mae_norm) is false**: it does not divide by the error of the constant prediction of the mean target.
* `Verif.MeasureProps.C33_success_rate`: **C33 (success rate of a rule).** The success rate of a label is a number between 0 and 1, and 1 exactly when all targets are this label; NaN without targets.
* `Verif.MeasureProps.C33_success_rate_vector`: **C33 (success rate of a prediction vector).** Over the points which have a prediction, the success rate is between 0 and 1, and 1 exactly when all of them are right; NaN when no point has a prediction.
* `Verif.MeasureProps.C33_rule_mse`: **C33 (criterion of a regression rule).** After an `eval` with `criterion_method="mse"` which does not raise, of a rule with features which is still good (or with `force_if_not_good`): the criterion is the mean over the activated points which have a target of the squared distance between the target and the prediction of the rule; NaN when there is none.
* `Verif.MeasureProps.C33_rule_success`: **C33 (criterion of a classification rule).** After an `eval` which does not raise: the criterion is the frequency of the predicted class among the activated points.

### C34. Membership of a rule in a ruleset

`rule in ruleset` holds exactly when the ruleset has a rule with the same feature names, bounds and prediction; hence it holds after appending the rule and is monotone under appending other rules.

Modelled: `RuleSet.__contains__`.

Status: partial. With the texts of Python and numbers as predictions: exact (C34_numbers_partial). For texts of lists which can be told apart: same features (names if the ruleset has names, indexes otherwise), bounds and text of prediction; different predictions can have the same text (C34_prediction_false).

* `Verif.RuleSetProps.C34_contains_partial`: **C34.** `rule in ruleset` is true exactly when the ruleset has a rule with the same features (names if the ruleset has names, indexes otherwise), bounds and text of prediction. Missing: the text of the prediction is not the prediction (`C34_prediction_false`); the number 1 and the number 1.0, which have different texts, are the same number in this model.
* `Verif.RuleSetProps.C34_monotone`: A rule is in a ruleset to which it has been added, and stays in it when other rules are added, as long as the ruleset goes on having names or goes on having none.
* `Verif.RuleSetProps.C34_member`: A rule which is in the list of rules is in the ruleset.
* `Verif.RuleSetProps.C34_prediction_false`: **C34 is false for a class called `1` and the number 1**, and whenever two predictions have the same text.
* `Verif.TextProps.C34_numbers_partial`: **C34.** With the texts of Python, `rule in ruleset` is true for a rule without prediction or with a number as prediction exactly when the ruleset has a rule with the same features (names if the ruleset has names, indexes otherwise), the same bounds and the same prediction. Missing: classes (`C34_prediction_false`).

### C35. Feature bookkeeping of a ruleset

The feature indexes of a ruleset are the increasing list without repetition of the indexes used by its rules after any sequence of additions, and the feature counter counts for each feature the number of rules using it.

Modelled: `features_names`, `features_indexes`, `get_features_count`.

Status: partial. Over all sequences of additions; the counter of a ruleset with names. False: order of the indexes is that of a Python set (C35_order_false), counter without names raises, and after fit drops rules (C35_fit_false).

* `Verif.RuleSetProps.C35_fit_false`: **C35 is false after `fit`:** the features of the rules which were dropped stay.
* `Verif.RuleSetProps.C35_features_partial`: **C35 (indexes and names).** After any sequence of constructions, appends, additions, sorts and assignments of `rules`, the feature indexes of a ruleset are those of its rules, each once, and so are the names. Missing: they are not in increasing order (`C35_order_false`); `all_features_indexes` is empty; after `fit` or `eval` dropped rules, the features of these rules remain.
* `Verif.RuleSetProps.C35_counter`: **C35 (counter).** `get_features_count` gives each feature name used by a rule once, with the number of rules which use it, the most used first.
* `Verif.RuleSetProps.C35_counter_false`: **C35 (counter) is false without feature names:** the names are read, but the ruleset which has none raises.
* `Verif.RuleSetProps.C35_order_false`: **C35 is false (order):** with the rules on columns 1 and 8 the indexes are `[8, 1]`.

### C36. Using activations does not change class-wide settings

Creating, reading, combining, clearing or deleting activations, whether the operation succeeds or raises, never changes the class-wide settings DTYPE, WILL_COMPARE and STORE_RAW; only assigning them does.

Modelled: Class attributes of `Activation` as part of the state.

Status: partial. Over all histories on live objects; false for deleted ones.

* `Verif.ActivationProps.C36_settings_partial`: **C36, partial.** No operation on live activations, successful or not, changes the class-wide settings. False for deleted ones, see `C36_settings_false`.
* `Verif.ActivationProps.C36_assigned`: **C36 (assigned).** A setting which the user assigns is in force from then on; the other settings, the files and the activations stay.
* `Verif.ActivationProps.C36_settings_false`: **C36, violation.** `as_integer` on a deleted compressed activation raises and leaves `WILL_COMPARE` switched on for the whole program.
* `Verif.ActivationProps.C36_settings_off_false`: **C36, violation.** `as_bitarray` on a deleted compressed activation raises and leaves `WILL_COMPARE` switched off for the whole program.

### C37. Coverage is the fraction of activated points

The coverage of a rule is the fraction of points activated by its current activation vector: it lies between 0 and 1, is 0 exactly when no point and 1 exactly when every point is activated, and after fit it is the fraction of rows satisfying the condition.

Modelled: `coverage` of rules and rulesets.

Status: partial. Over all histories in which no coverage is assigned; an assigned coverage stays (C37_assigned_false).

* `Verif.FigureProps.C37_coverage_partial`: **C37 (coverage).** For a rule made by the constructor, after any history of calls in which no coverage is assigned, the coverage is the fraction of activated points; it lies between 0 and 1, is 0 exactly when no point is activated and 1 exactly when all are. Missing: histories with an assignment, see `C37_assigned_false`.
* `Verif.FigureProps.C37_fit`: **C37 (activation after fit).** `fit` with features gives the rule the vector of its condition on these features, so that the coverage is the fraction of rows which satisfy the condition.
* `Verif.FigureProps.C37_assigned_false`: **C37 is false after an assignment:** the assigned coverage stays, also when it is not a fraction.

### C38. The z-score of a rule follows its formula

After fit, the z-score of a regression rule is the distance between its prediction and the mean of all non-missing targets, divided by sqrt(horizon / number of activated points) times the population standard deviation of all targets; it is missing when no point is activated.

Modelled: `zscore`.

Status: proved. Exact arithmetic, the square root as a parameter.

* `Verif.FigureProps.C38_zscore`: **C38 (z-score).** After a `fit` which does not raise, of a rule which is still good (or with `force_if_not_good`), working with the activation vector `u`: the z-score is the distance of the prediction to the mean of all targets, divided by the square root of horizon over number of activated points and by the standard deviation of all targets; it is NaN when no point is activated. `a` and `b` are the values of numpy's square root.

### C39. Equality of rulesets

Two rulesets compare equal exactly when each rule of one requires the same bounds of the same features as some rule of the other; order, repetitions, predictions and activations do not matter, and equality is reflexive, symmetric and transitive.

Modelled: `RuleSet.__eq__` and hashes of rules.

Status: partial. If: full, for conditions made by the constructors and updates. Only if: up to collisions of the hashes of names and bounds, which do happen (C39_collision_false: -1 and -2). Equivalence: full; a rule whose hash raises makes the comparison raise.

* `Verif.RuleSetProps.C39_equal`: **C39 (equal).** If each rule of a ruleset requires the same of the same features as some rule of the other, and conversely, the rulesets are equal: order, repetitions, predictions and activations do not matter.
* `Verif.RuleSetProps.C39_only_if_partial`: **C39 (only then), partial.** If two rulesets are equal, and the hashes of what their rules require do not collide, each rule of one requires the same of the same features as some rule of the other. Missing: hashes can collide (`C39_collision_false`).
* `Verif.RuleSetProps.C39_equivalence`: **C39 (an equivalence).** Where comparisons succeed, a ruleset is equal to itself, the sides of `==` can be exchanged, and rulesets equal to the same one are equal.
* `Verif.RuleSetProps.C39_collision_false`: **C39 is false of hashes which collide:** -1 and -2 have the same hash, so that different rulesets are equal.

### C40. Duplicated rules are refused

With CHECK_DUPLICATED a ruleset never has two rules with the same features, bounds and prediction: making one with such rules raises ValueError, and making any other one gives what it would give without the check.

Modelled: `check_duplicated_rules`.

Status: partial. Made from rules: exact, for texts of lists which can be told apart (as Python writes them, C27_texts) and predictions compared as texts. append and += of a ruleset do not check again (C40_added_false).

* `Verif.RuleSetProps.C40_accepted`: **C40 (accepted).** With `CHECK_DUPLICATED`, a ruleset which has been made has no two rules with the same features, bounds and text of prediction.
* `Verif.RuleSetProps.C40_exactly`: **C40 (exactly).** Let a list of rules whose predictions can be read make a ruleset when `CHECK_DUPLICATED` is off. When it is on, the same ruleset is made if no two of its rules have the same features, bounds and text of prediction, and `ValueError` is raised otherwise.
* `Verif.RuleSetProps.C40_added_false`: **C40 is false of rules which are added later:** `append` and `+=` do not look for duplicates.

### C41. Slices of rulesets

ruleset[start:stop:step] is a ruleset with exactly the rules at the positions a Python list slice selects, in this order; ruleset[i] is the rule at this position, negative positions being counted from the end; out of range raises IndexError and a null step ValueError.

Modelled: `RuleSet.__getitem__` with slices; `range` of Python.

Status: partial. Exact positions and order for any start, stop and step, when allIndexes is empty; otherwise the indexes of the rules change (C41_indexes_false). The result never has a stack; its activation is that of the rules selected when all rules have one (C41_activation_partial).

* `Verif.RuleSetProps.C41_slice_partial`: **C41 (slices), partial.** `ruleset[start:stop:step]` has the rules at the positions selected, in increasing order if the step is positive and in decreasing order if it is negative; it does not stack activations. Missing: with `all_features_indexes` the conditions are changed (`C41_indexes_false`).
* `Verif.RuleSetProps.C41_activation_partial`: **C41 (activation of a slice), partial.** When the rules of the ruleset all have an activation of the same points, a slice with at least one rule has an activation, 1 exactly at the points which one of the rules selected activates, and the coverage of the slice is the fraction of these points: that of the ruleset it was taken from does not matter. Missing: rules without activation (`C25_no_activation_false`).
* `Verif.RuleSetProps.C41_step`: A slice with a null step raises `ValueError`.
* `Verif.RuleSetProps.C41_item`: **C41 (one rule).** `ruleset[i]` is the rule at this position, counted from the end if it is negative; out of range it raises `IndexError`.
* `Verif.RuleSetProps.C41_indexes_false`: **C41 is false with `all_features_indexes`:** slicing changes the indexes of the conditions. (The rules are the same objects as those of the ruleset, which is changed.)

### C42. Criterion and set sizes of a ruleset

The criterion of a ruleset is the error measure between its predictions and the targets (for regression the mean squared error relative to the one of the mean target unless another measure is asked for, for classification the rate of right predictions among the activated points with a prediction), NaN without predictions; fit notes the number of targets as train set size, eval as test set size.

Modelled: `calc_criterion`, sizes of the sets.

Status: proved. Regression: mean squared error and the default measure in all cases; classification: success rate among the activated points; nothing predicted: NaN; sizes noted by fit and eval. Relative to the predictions, described by C21 to C24.

* `Verif.RuleSetProps.C42_mse`: **C42 (mse).** For a ruleset of regression rules whose predictions are `p` (missing where no rule votes), the criterion computed with `criterion_method="mse"` is the mean of the squared differences with the targets, where both are present. Nothing changes besides the criterion and what `predict` changes (see C22).
* `Verif.RuleSetProps.C42_measure`: **C42 (other measures).** With `criterion_method="mae"`, the mean of the absolute differences; with `"mae_norm"` and `"aae"`, what these measures (C33) give for the predictions and the targets; with another name, `ValueError`.
* `Verif.RuleSetProps.C42_default`: **C42 (default).** Without `criterion_method`, with targets which are all present and not all the same, the criterion is that mean divided by the one of the constant prediction of the mean target. With constant targets it is infinite, or NaN if they are predicted exactly; with a missing target, or if nothing is predicted where there is a target, it is NaN.
* `Verif.RuleSetProps.C42_no_prediction`: **C42 (no prediction).** When `predict` gives nothing, the criterion is NaN.
* `Verif.RuleSetProps.C42_success`: **C42 (success rate).** For a ruleset of classification rules whose predictions are `p` (NaN where the vote is not decided), the criterion is the number of activated points with the right prediction, divided by the number of activated points with a prediction.
* `Verif.RuleSetProps.C42_train_size`: **C42 (set sizes).** A `fit` which is not skipped notes the number of targets as train set size, an `eval` notes it as test set size.
* `Verif.RuleSetProps.C42_eval`: **C42 (`eval`).** An `eval` which is not skipped notes the number of targets as test set size, and the criterion is the one `calc_criterion` computes for the rules which are left: on the features given, or on the activations remembered when the new ones are kept.

### C43. Stacked fit is only a matter of speed

With STACKED_FIT, fit gives each rule the same activation, prediction, standard deviation, sign, z-score, train set size and verdict as without, keeps and returns the same rules, and leaves the ruleset with the same activation, stacked activations and settings.

Modelled: The branch `STACKED_FIT` of `fit`, with the column by column computations of `rfunctions.py`. Each step of the stacked loop is simulated by the step of the plain one.

Status: partial. When both fits go through, for rules with different conditions and condition texts: every rule gets the same activation, verdict and figures; the same ruleset when no bad rule is kept. Numbers: rules with one activated point differ (standard deviation). Classes: numbers, or texts other than '' and 'zero'. False: bad rules kept, repeated rules in the returned list, same texts, IndexError for rules without activated point, TypeError when the most frequent classes are a number and a text, rules fitted again, activation not computed, stack_activation left True. Stacked activations which are not to be kept are removed, unless the fit raises.

* `Verif.RuleSetProps.C43_removed`: **C43 (stacked activations).** A stacked fit which goes through leaves no stacked activations in a ruleset which had none and does not keep them.
* `Verif.RuleSetProps.C43_left_false`: **C43 is false after a fit which raises:** the stacked activations stay, and if it is their computation which raises, so does the wish to keep them.
* `Verif.RuleSetProps.C43_rules_partial`: **C43 (rules).** With `STACKED_FIT`, each rule of the ruleset is fitted as without: it gets the same activation, it is good or bad for the same reason, and if it is good its prediction, deviation, sign, z-score and train set size are the same. All good rules are kept, all rules returned are bad, and each rule is kept or returned. Missing: bad rules may be kept (`C43_bad_kept_false`), and what `CanAgree` leaves out: rules with one activated point (`C43_one_point_false`), classes 'zero' and '' (`C43_class_false`), conditions with the same text (`C43_texts_false`), rules which are fitted already (`C43_refit_false`). It is assumed that both fits go through (`C43_raises_false`).
* `Verif.RuleSetProps.C43_same_partial`: **C43 (ruleset).** If no bad rule is kept by the stacked fit, the rulesets are the same after both fits: the same rules in the same order, the same rules returned (`C43_repeated_false`: not the same list), the same train set size, the same stacked activations if the ruleset has them, and the same activation if features are given or some rule is dropped (otherwise: `C43_activation_false`).
* `Verif.RuleSetProps.C43_one_point_false`: **C43 is false for a rule with one activated point:** its deviation is 0 without `STACKED_FIT` and NaN with it.
* `Verif.RuleSetProps.C43_bad_kept_false`: **C43 is false for thresholds on what is not computed by `fit`:** rules which have an activation of too low a coverage are dropped without `STACKED_FIT`; with it they are seen as bad but are kept and not returned.
* `Verif.RuleSetProps.C43_repeated_false`: **C43 is false for the list which is returned:** a rule which is bad from the start is in it once for each attribute.
* `Verif.RuleSetProps.C43_texts_false`: **C43 is false for conditions with the same text:** the first rule gets the figures of the second one, then `IndexError` is raised.
* `Verif.RuleSetProps.C43_class_false`: **C43 is false for the class 'zero':** with `STACKED_FIT` it becomes the number 0.
* `Verif.RuleSetProps.C43_raises_false`: **C43 is false for classification rules without activated point:** without `STACKED_FIT` they are dropped for their coverage, with it `fit` raises `IndexError`, and no rule is fitted.
* `Verif.RuleSetProps.C43_refit_false`: **C43 is false for rules which are fitted already, when no features are given:** without `STACKED_FIT` they stay as they are, with it they are fitted on the new targets.
* `Verif.RuleSetProps.C43_activation_false`: **C43 is false for the activation of the ruleset, when no features are given and nothing is dropped:** without `STACKED_FIT` it is computed if it was not yet, with it it is not, and there is no coverage.
* `Verif.RuleSetProps.C43_setting_false`: **C43 is false for the settings of the ruleset when `fit` raises:** with `STACKED_FIT` the ruleset is left with `stack_activation = True`.
* `Verif.RuleSetProps.C43_mixed_false`: **C43 is false for classes of two sorts:** a rule whose most frequent classes are a number and a text is fitted without `STACKED_FIT`; with it `fit` raises `TypeError`, as they cannot be sorted. When one of them is more frequent, it is fitted.

### C44. Stacked eval is only a matter of speed

With STACKED_FIT, eval gives each rule the same verdict and criterion as without, keeps and returns the same rules, and leaves the ruleset with the same criterion and test set size.

Modelled: The branch `STACKED_FIT` of `eval`, with `success_rate` and `calc_regression_criterion` of a frame of columns. Each step of the stacked loop is simulated by the step of the plain one.

Status: partial. When both evals go through, for rules with different conditions and condition texts: every rule gets the same verdict, reason, criterion and activation; good rules are kept, only bad ones returned, none twice; the same rules when no bad rule is kept, and then, without stacked activations, the same activations and criterion of the ruleset. With them, they are those of the rules afterwards. Classes: numbers other than NaN, or texts other than '' and 'zero'; regression rules with features. False: bad rules kept, class 'zero', missing targets, rules without features, same texts, rules without activation, activations after the criterion of the ruleset.

* `Verif.RuleSetProps.C44_ruleset_partial`: **C44 (ruleset without stacked activations).** Let a ruleset not keep stacked activations, and be evaluated either with features or with the right activation. If no bad rule is kept by the stacked eval, then after both evals the rulesets have the same rules, down to their activations, the same criterion, and the same size of the test set; neither has stacked activations. If the new activations are kept, or the activation was right before, their activations are the same too. Missing: rulesets which keep stacked activations, for which `C44_same_partial` compares rules only (`C44_activation_false`); what `CanEval` leaves out; both evals are assumed to go through.
* `Verif.RuleSetProps.C44_stacked`: **C44 (stacked activations).** After a stacked eval which goes through, the stacked activations of a ruleset which keeps them are those of its rules, if they were before, or rules have been dropped, or the new activations are kept, or there were none and the rules have been evaluated on their own activations. (Otherwise the rules have been evaluated on features which are not kept: the stacked activations stay as they were.)
* `Verif.RuleSetProps.C44_stale_false`: **C44 is false for activations which are not those of the rules:** without features the stacked eval computes the activation of the ruleset again, the plain one does not.
* `Verif.RuleSetProps.C44_rules_partial`: **C44 (rules).** With `STACKED_FIT`, each rule of the ruleset is evaluated as without: it is good or bad for the same reason, and if it is good its criterion, activation, prediction and marks are the same. All good rules are kept, all rules returned are bad, each rule is kept or returned, and none is returned twice. (The criterion of the ruleset is computed afterwards, which may change activations: `C44_activation_false`.) Missing: bad rules may be kept (`C44_bad_kept_false`), and what `CanEval` leaves out: classes 'zero', '' and NaN (`C44_class_false`, `C44_missing_false`), regression rules without features (`C44_empty_false`), conditions with the same text (`C44_texts_false`). It is assumed that both evals go through (`C44_raises_false`).
* `Verif.RuleSetProps.C44_same_partial`: **C44 (ruleset).** If no bad rule is kept by the stacked eval, then after both evals the rulesets have the same rules in the same order, with the same criterions, predictions and marks, the same rules have been returned in the same order, and the sizes of the test set are the same. Missing: the activations of the rules (`C44_activation_false`), the activation and the criterion of the ruleset; see `C44_ruleset_partial`.
* `Verif.RuleSetProps.C44_bad_kept_false`: **C44 is false for thresholds on what is not computed by `eval`:** rules whose activation is too rare are dropped without `STACKED_FIT`; with it they are seen as bad but are kept and not returned, and the criterion of the ruleset is another one.
* `Verif.RuleSetProps.C44_class_false`: **C44 is false for the class 'zero':** a rule which predicts it and is always right has the success rate 1 without `STACKED_FIT` and 0 with it.
* `Verif.RuleSetProps.C44_missing_false`: **C44 is false for missing targets:** without `STACKED_FIT` they count as wrong predictions, with it they do not count.
* `Verif.RuleSetProps.C44_empty_false`: **C44 is false for regression rules without features:** without `STACKED_FIT` the criterion of the rule raises `ValueError`, with it the rule gets one (and the criterion of the ruleset raises).
* `Verif.RuleSetProps.C44_texts_false`: **C44 is false for conditions with the same text:** the rules get the figures of one of them, then `IndexError` is raised.
* `Verif.RuleSetProps.C44_raises_false`: **C44 is false for fitted rules without activation, as rules read from a file:** without `STACKED_FIT` `eval` on new features raises `ValueError`, with it the rules are evaluated.
* `Verif.RuleSetProps.C44_activation_false`: **C44 is false for the activations of the rules:** without `STACKED_FIT` the criterion of the ruleset writes the number of activated rules into the activation of the first rule; with it, and with stacked activations, it does not.
* `Verif.RuleSetProps.C44_cleared_false`: **C44 is false for the activation of the ruleset, when new features are not kept:** without `STACKED_FIT` and with rules dropped it is cleared (C28), with it nothing is dropped.

### C45. Intersections of conditions do not depend on order, grouping or repetition

a & b is the same condition as b & a, (a & b) & c is the same as a & (b & c) (or both fail with IndexError), and c & c is equal to c and selects the same rows.

Modelled: `__and__` and `sort` of conditions. The result is determined by the bounds of each feature name, which are combined by max and min.

Status: partial. For conditions however made and changed. Order and grouping: literally the same result, exceptions included, for bounds other than NaN; false for NaN (C45_nan_false). Repetition: full.

* `Verif.MeetProps.C45_commutative_partial`: **C45 (order), partial.** `a & b` and `b & a` are the same condition, or both raise `IndexError`. Missing: bounds which are NaN (`C45_nan_false`).
* `Verif.MeetProps.C45_associative_partial`: **C45 (grouping), partial.** `(a & b) & c` and `a & (b & c)` are the same condition, or both raise `IndexError`. Missing: bounds which are NaN (`C45_nan_false`).
* `Verif.MeetProps.C45_idempotent`: **C45 (repetition).** `c & c` succeeds and has exactly the features and bounds of `c`, so it is equal to `c` and selects the same rows.
* `Verif.MeetProps.C45_nan_false`: **C45 is false with NaN bounds**: the order and the grouping decide which lower bound is left.

### C46. Intersection of rules

r1 & r2 is a new rule, not fitted, whose condition selects the rows which both conditions select, whose activation marks the points which both activate, whose coverage is the fraction of them, and which when fitted predicts the mean of their targets. The order of the two rules does not matter.

Modelled: `Rule.__and__` with the constructor; whether the combined activation can be stored is a parameter.

Status: partial. Activation, coverage, verdict, absence of figures, prediction after fit, exceptions: full, for whatever can or cannot be stored (parameter `fits`). Agreement of condition and activation and order of the operands: bounds other than NaN. False: rules without activation cannot be combined though their conditions can.

* `Verif.MeetProps.C46_activation`: **C46 (activation).** The activation of `r1 & r2` marks exactly the points which both rules activate.
* `Verif.MeetProps.C46_evaluate_partial`: **C46 (condition and activation fit together), partial.** The condition of `r1 & r2` selects exactly the rows which both conditions select, on every array and DataFrame; in particular, if both activations are those of the features `xs`, the activation of `r1 & r2` is what evaluating it on `xs` gives. Missing: bounds which are NaN (see C13).
* `Verif.MeetProps.C46_new`: **C46 (a new rule).** `r1 & r2` has no prediction nor any other figure, is not fitted, and is good exactly when its coverage is within the limits; what the operands predicted and whether they were good does not count.
* `Verif.MeetProps.C46_coverage`: **C46 (coverage).** The coverage of `r1 & r2` is the fraction of points which both activate; it is at most the fraction which each of them activates.
* `Verif.MeetProps.C46_fit`: **C46 (fit).** Fitting `r1 & r2`, without giving features, predicts the mean of the targets of the points which both rules activate.
* `Verif.MeetProps.C46_fails`: **C46 (when it fails).** `r1 & r2` raises `IndexError` when the conditions disagree on the column of a feature, otherwise `TypeError` when the first rule has no activation, `AttributeError` when only the second has none, and `ValueError` when the activations have different lengths. If none of this is the case and the result can be stored, only the check of the coverage can raise.
* `Verif.MeetProps.C46_commutative_partial`: **C46 (order and grouping), partial.** For rules which have an activation, and as far as results can be stored: `r1 & r2` is the same as `r2 & r1`, when both rules are of the same class. Missing: bounds which are NaN (`C45_nan_false`).
* `Verif.MeetProps.C46_unfitted_false`: **C46, rules without activation.** The conditions of two rules can be combined before anything is fitted, the rules cannot: `&` raises `TypeError`.

### C47. Containment of rules

r2 in r1 is true exactly when both rules have an activation and all points activated by r2 are activated by r1; it changes no activation, and r1 & r2 is contained in r1 and in r2.

Modelled: `Rule.__contains__` over the heap of activation objects.

Status: partial. Exact meaning proved: one of the two activations is included in the other. As documented when r1 activates at least as many points; false otherwise (C47_contains_false). Raises for two activations kept as integers and for deleted ones (C47_answers_false).

* `Verif.RuleHeapProps.C47_missing`: **C47 (missing activation).** `r2 in r1` is false, and nothing changes, when `r1` has no activation or `r1` has one which is alive and `r2` has none.
* `Verif.RuleHeapProps.C47_exact`: **C47 (exact meaning).** Whenever `r2 in r1` returns, for rules with activations of the same length, it is true exactly when one of the two activations is included in the other, whichever.
* `Verif.RuleHeapProps.C47_contains_partial`: **C47, partial.** `r2 in r1` is true exactly when all points activated by `r2` are activated by `r1`, when `r1` activates at least as many points. Missing: otherwise it is false (`C47_contains_false`).
* `Verif.RuleHeapProps.C47_answers_partial`: **C47 (it answers), partial.** For live activations of the same length `r2 in r1` returns an answer, and leaves every activation as it was. Missing: both activations kept as integers, and a taken file name.
* `Verif.RuleHeapProps.C47_meet`: **C47 (intersections).** `r1 & r2` is contained in `r1` and in `r2`, whenever `in` answers; a rule is contained in itself.
* `Verif.RuleHeapProps.C47_contains_false`: **C47 is false**: a rule is said to contain a rule which activates more points.
* `Verif.RuleHeapProps.C47_answers_false`: **C47 is false of activations kept as integers**, where `in` raises `ValueError`, **and of deleted ones**, where it raises `TypeError` instead of being false.

### C48. Correlation of rules

The correlation of two rules is the fraction of the points where their activations agree times the product of the signs of their predictions; it is symmetric, between -1 and 1, 1 for a rule with itself, and activations of different lengths raise ValueError.

Modelled: `Rule.get_correlation` over the heap of activation objects.

Status: partial. For rules with the same number of features and predictions which are numbers other than 0. False: different numbers of features raise, since len(rule) is compared; prediction 0 gives NaN or ZeroDivisionError; text classes raise.

* `Verif.RuleHeapProps.C48_value_partial`: **C48 (value), partial.** The correlation of two rules with activations of the same length, and predictions which are numbers other than 0, is the fraction of the points where the activations agree times the product of the signs; activations are left as they are. Missing: rules with different numbers of features (`C48_features_false`) and a prediction which is 0 (`C48_zero_false`).
* `Verif.RuleHeapProps.C48_similarity_partial`: **C48 (a correlation), partial.** It is between -1 and 1 and symmetric; it is 1 exactly for rules with the same activation and the same sign, -1 exactly for rules with the same activation and opposite signs. Missing: as for `C48_value_partial`.
* `Verif.RuleHeapProps.C48_lengths`: **C48 (different lengths).** Rules whose activations have different lengths raise `ValueError`.
* `Verif.RuleHeapProps.C48_features_false`: **C48 is false of rules with different numbers of features**: the lengths which are compared are those of the conditions.
* `Verif.RuleHeapProps.C48_zero_false`: **C48 is false when a prediction is 0**: the correlation is NaN, or `ZeroDivisionError` is raised when the prediction is a number of Python; **and of classes which are texts**, where `TypeError` is raised.

### C49. Deleted activations of rules

After del_activation the activation of the rule is not available and reads None, computed attributes remain, and other rules keep their activations.

Modelled: `activation_available`, `activation`, `coverage`, `del_activation` of rules over the heap of activation objects.

Status: partial. Availability, figures read before, coverage of the rule, other rules: full. False: `activation` raises after deletion instead of being None (unless the vector was stored as it is).

* `Verif.RuleHeapProps.C49_deleted`: **C49 (deletion).** A rule with a live activation has it available and reads its vector; `del_activation` goes through, and then the activation is not available.
* `Verif.RuleHeapProps.C49_figures`: **C49 (computed figures remain).** The number of activated points, the coverage and the entropies which were read before `del_activation` can be read again after it, with the same answer, and the length is the same.
* `Verif.RuleHeapProps.C49_coverage`: **C49 (coverage of the rule).** A coverage which was read before `del_activation` is the coverage after it.
* `Verif.RuleHeapProps.C49_others`: **C49 (other rules).** Rules with other activations keep theirs, and `del_activation` of a rule without activation does nothing.
* `Verif.RuleHeapProps.C49_activation_raises`: **C49, what `activation` does after deletion.** It raises, unless the vector was stored as it is: it is not `None`, as documented for activations which are not available.
* `Verif.RuleHeapProps.C49_activation_false`: **C49 is false of `activation`**, which is documented to be `None` when it is not available.

### C50. Attributes read and assigned through rules

Attributes of the condition and of the activation can be read from the rule. Assigning a name makes it read the assigned value and no other name change; names which cannot be read and properties without setter cannot be assigned. Assigning an attribute of the condition on the rule sets it on the condition, as documented.

Modelled: `__getattr__`, `__setattr__` with the order in which Python searches attributes; values of properties by name.

Status: partial. Reading, assigned names and the other names, which names are assignable: full. False: an assignment never reaches the condition, it only hides it.

* `Verif.RuleAttrProps.C50_read`: **C50 (reading).** The attributes of the condition can be read from the rule, as long as they have not been assigned on the rule and the rule class and the activation have none of this name; so can those of the activation, which come first.
* `Verif.RuleAttrProps.C50_write`: **C50 (what was assigned is read).** After an assignment which goes through, the name reads the value; every other name reads as before.
* `Verif.RuleAttrProps.C50_assignable`: **C50 (which names can be assigned).** Exactly the names which can be read, except properties without setter; other assignments raise `AttributeError`.
* `Verif.RuleAttrProps.C50_condition_untouched`: **C50, what assignments do not do.** No sequence of assignments to a rule changes its condition or its activation: every evaluation of the condition and every comparison with it is as before.
* `Verif.RuleAttrProps.C50_assign_false`: **C50 is false of assignments**: assigning an attribute of the condition on the rule, which is documented to set it on the condition, hides it: the rule shows the new bounds, and selects rows by the old ones.

### C51. Thresholds of classes and of single rules

SET_THRESHOLDS on a class is in force for this class and those derived from it which have no setting of their own. check_thresholds checks against the thresholds of the rule: those set for it by set_thresholds, else those of its class. The property thresholds shows them.

Modelled: `THRESHOLDS` as attribute of a hierarchy of classes, `SET_THRESHOLDS`, `set_thresholds`, `thresholds`, and `check_thresholds` and `fit` of rules which look it up.

Status: partial. Settings of classes: full. Checks against the thresholds of the class at that moment. False: `set_thresholds` has no effect on checks, `set_thresholds(None)` raises or does nothing, settings for "future rules" apply to existing ones, which do not show them.

* `Verif.SettingsProps.C51_in_force`: **C51 (thresholds of a class).** After any sequence of `SET_THRESHOLDS`, starting from classes of which only `Rule` (here `root`) has the attribute, `None`: the last setting on the class itself is in force; without one, the last setting on the nearest class it is derived from which had one; without any, none.
* `Verif.SettingsProps.C51_checks_partial`: **C51 (what is checked), partial.** `check_thresholds()` checks the rule against the thresholds in force for its class at that moment, whenever the rule was created: without thresholds nothing changes; a rule which passes them all is left as it is; one which does not becomes bad because of the first it fails. Missing: thresholds of the rule itself play no role (`C51_own_false`).
* `Verif.SettingsProps.C51_shown`: **C51 (what is shown).** `rule.thresholds` are those in force when the rule was created, or those set for the rule since; no check or fit and no setting of a class changes them.
* `Verif.SettingsProps.C51_own_false`: **C51 is false of thresholds set for one rule**: whatever they are, fitting and checking the rule does the same as without them; a rule of coverage 3/4 for which at least 9/10 was set stays good.
* `Verif.SettingsProps.C51_remove_false`: **C51 is false of removing the thresholds of one rule**: `set_thresholds(None)` raises for a rule without thresholds, and changes nothing for others: the rule is still checked, and still shows its thresholds.
* `Verif.SettingsProps.C51_future_false`: **C51 is false of "future rules"**: thresholds set for the class after a rule was created make this rule bad, though it shows none.

### C52. Activations of rulesets as objects

Computing the activation of a ruleset gives a new object showing the points activated by one of its rules; appending a rule takes the union with its activation. Nothing done with the ruleset changes the activations of its rules or of others. Deleting the activations of the rules leaves the one of the ruleset and conversely, computed attributes remaining available, and rules can still be appended; stacked_activations_available tells whether there are stacked activations.

Modelled: rulesets as lists of references to activation objects of the heap of C06, with `compute_self_activation`, `append`, `_update_activation`, `del_activations`, `del_activation`, `del_stacked_activations` and the properties which read them; predictions and thresholds of rules left out.

Status: partial. Separation, the union, appending, clearing, both deletions: full, for rulesets whose rules have available activations of one length. That the activation can be computed needs enough memory. False: the coverage of the ruleset is lost by del_activation, append raises after it, stacked_activations_available raises without activation and otherwise does not look at stacked activations.

* `Verif.SetHeapProps.C52_separate`: **C52 (rules are left alone).** Whatever a program does with a ruleset - compute its activation, append rules, clear its activation, in any order, whether or not the calls raise - every other activation of the program, in particular those of its rules, shows the same vector afterwards, and is not the one of the ruleset.
* `Verif.SetHeapProps.C52_union`: **C52 (computed activation).** When `compute_self_activation` goes through, the activation of the ruleset is an object which was not there before, showing the points activated by one of the rules.
* `Verif.SetHeapProps.C52_computes_partial`: **C52 (the activation can be computed), partial.** With enough memory, and unless a file name drawn at random is taken, `compute_self_activation` goes through. Missing: without enough memory two activations stored as integers raise, see `C05_integers_raise`.
* `Verif.SetHeapProps.C52_unavailable`: **C52 (unavailable activations).** If the activation of one rule is not available, `compute_self_activation` leaves the ruleset without activation, and changes no object.
* `Verif.SetHeapProps.C52_append`: **C52 (appended rules).** When `append` goes through, the activation of the ruleset is a new object: it shows the vector of the rule if the ruleset had no activation, and the union with it otherwise.
* `Verif.SetHeapProps.C52_clear`: **C52 (cleared activation).** Clearing the activation of the ruleset goes through and sets it to zeros.
* `Verif.SetHeapProps.C52_live`: **C52 (what a ruleset with a live activation shows).**
* `Verif.SetHeapProps.C52_deleted`: **C52 (deleting the activations of the rules).** `del_activations` goes through; afterwards no rule has its activation available; the activation of the ruleset and all others which do not belong to a rule show the same vectors.
* `Verif.SetHeapProps.C52_own_deleted`: **C52 (deleting the activation of the ruleset).** `del_activation` goes through; afterwards the activation of the ruleset is not available, and every other activation, in particular of its rules, shows the same vector.
* `Verif.SetHeapProps.C52_coverage_false`: **C52 is false of computed attributes**: `del_activation` is documented to leave computed attributes available; the coverage of a ruleset, read before, is `None` after it. The rules keep theirs (`C49_coverage`).
* `Verif.SetHeapProps.C52_coverage_deleted`: **C52, coverage after deletion (exact).** It is the coverage which was loaded from a file, if any.
* `Verif.SetHeapProps.C52_append_false`: **C52 is false of appending after deletion**: `append` raises, though the rule has been added, since the ruleset still has an activation object, without data.
* `Verif.SetHeapProps.C52_stacked_false`: **C52 is false of `stacked_activations_available`**: it raises for a ruleset without activation, and answers `True` for one with an activation, whether or not there are stacked activations.

### C53. Equal rules and rulesets have equal hashes

Two rules, or two rulesets, which compare equal have the same hash, so that they can be looked up in sets and dictionaries. Order and repetition of rules, predictions and activations do not change the hash.

Modelled: `to_hash` and `__hash__` of rules and rulesets with the abstract hash functions of C15.

Status: partial. Same requirements give equal hashes: full. Equality implies equal hashes unless hashes of requirements collide; false with the collision of -1 and -2, which the code takes for equality.

* `Verif.RuleSetProps.C53_rules`: **C53 (rules).** Rules which require the same of the same features are equal and have the same hash, whatever the hash functions and their predictions and activations.
* `Verif.RuleSetProps.C53_rulesets`: **C53 (rulesets).** If each rule of a ruleset requires the same as some rule of the other, and conversely, the rulesets are equal and have the same hash: order, repetitions, predictions and activations do not matter.
* `Verif.RuleSetProps.C53_contract_partial`: **C53 (equal rulesets have equal hashes), partial.** This holds unless the hashes of what the rules require collide. Missing: they can, see `C53_contract_false`.
* `Verif.RuleSetProps.C53_rule_contract_partial`: **C53 (equal rules have equal hashes), partial.** Likewise.
* `Verif.RuleSetProps.C53_contract_false`: **C53 is false**: a ruleset of two rules which are equal by collision of -1 and -2 is equal to the ruleset of one of them; its hash is made of one element more, whatever the hash functions, and differs for instance for the ones of `someRs`.
* `Verif.RuleSetProps.C53_flattened`: **C53 (what the hash looks at).** The hash of a ruleset depends only on the requirements found in its rules, not on which rule makes them.

### C54. Conditions do not share their lists

Intersecting conditions changes neither of them, and changing one condition, by assigning or in place, changes no other: conditions behave as values. This holds for every program which does not keep the lists it gives to conditions; lists kept by the caller are shared in the cases stated.

Modelled: Conditions as objects with references to lists (`CondHeap`); computations on values are those of `Condition`. Programs on objects are compared with the same programs on values.

Status: partial. Programs with lists written where they are used: full. `&`: full, whatever is shared. Lists given to the constructor are copied only by sorting several features; false for one feature or sort=False, and for assigned lists.

* `Verif.CondHeap.C54_program`: **C54 (programs).** A program which makes conditions, intersects them, sorts them, assigns their attributes and changes the lists of their attributes in place, without keeping these lists in variables, sees conditions which are values: the conditions at the end, and whether the next step raises, are those of the program on values, in which no two conditions share anything. Every program; every step may raise.
* `Verif.CondHeap.C54_others`: **C54 (nothing else changes).** A step of such a program changes at most the condition it is about; all others are as before, including the operands of `&`.
* `Verif.CondHeap.C54_meet`: **C54 (`&` whatever is shared).** Also when the conditions share lists with each other or with the caller: `a & b` is what it is of the values, whether or not it raises every list and every condition that existed is unchanged, and none of the lists of the result existed before.
* `Verif.CondHeap.C54_given_partial`: **C54 (the lists given, partial).** A condition on several features made with sorting keeps none of the lists given: later changes of these lists do not show. Missing: one feature, or `sort=False` (`C54_given_false`).
* `Verif.CondHeap.C54_given_false`: **C54 (the lists given) is false.** With one feature, or with `sort=False`, the condition keeps the four lists given: two conditions made from the same lists change together (`a.bmins[0] = 3` and so on change `b`).
* `Verif.CondHeap.C54_assigned_false`: **C54 (assigned lists) is false.** After `b.bmins = a.bmins` the two conditions share the list: `a.bmins[0] = 3` changes `b`, though `a` and `b` were made from lists of their own.
* `Verif.CondHeap.C54_put`: **C54 (bounds changed in place are not checked).** `c.bmins[k] = v` changes this bound and nothing else: unlike after `c.bmins = […]`, a lower bound above its upper bound does not make the condition impossible.

### C55. A ruleset selects the points which one of its rules selects

For features given as an array or a DataFrame, evaluate, evaluate_self_activation and calc_activation all mark exactly the points lying in the hyper-rectangle of at least one rule, whatever the order and the number of the rules; more rules select more points; after calc_activation every rule has its own points.

Modelled: `RuleSet.evaluate` beside the models of rules and rulesets; the selected points are defined from the features of the conditions (`Selects`), not from the model's evaluation.

Status: partial. Full for calls which do not raise on at least one point. evaluate raises when memory lacks although evaluate_self_activation does not; the three differ on the empty ruleset and on no points.

* `Verif.SetEvalProps.C55_evaluate`: **C55 (evaluate).** `evaluate(xs)` gives 1 exactly at the points which are in the hyper-rectangle of at least one rule, one entry for each point, in their order: for arrays and DataFrames, NaN and infinite values, any number of rules.
* `Verif.SetEvalProps.C55_raises`: **C55 (no exception).** When there is memory, only the empty ruleset raises.
* `Verif.SetEvalProps.C55_order`: **C55 (order and repetition).** Two rulesets with the same rules, in any order and any number of times, give the same.
* `Verif.SetEvalProps.C55_more`: **C55 (more rules).** More rules, more points: a point which a ruleset selects is selected by every ruleset which contains its rules.
* `Verif.SetEvalProps.C55_self`: **C55 (evaluate_self_activation).** `evaluate_self_activation(xs)` gives the same points.
* `Verif.SetEvalProps.C55_calc`: **C55 (calc_activation).** After `calc_activation(xs)` the activation of the ruleset is the one `evaluate` gives, that of each rule marks the points in its own hyper-rectangle, and the conditions are the same, in the same order. With `stack_activation` and different condition texts, the stacked activations have these vectors, in this order.
* `Verif.SetEvalProps.C55_memory_false`: **C55 is false when memory lacks:** `evaluate_self_activation(xs)` makes the union by pairs, `evaluate(xs)` raises.
* `Verif.SetEvalProps.C55_empty_false`: **C55 is false for the empty ruleset:** `evaluate_self_activation(xs)` gives a vector of no point, `evaluate(xs)` and `calc_activation(xs)` raise.
* `Verif.SetEvalProps.C55_no_points_false`: **C55 is false of no points:** `evaluate` gives a vector without entries, `calc_activation` leaves the activation of the points before.

### C56. Rounding does not change what counts decide

The coverage of a rule, the success rate of a label and the class frequencies are quotients of counts which are rounded to floats. Nevertheless coverage is from 0 to 1, 0 for no point and 1 for all points; rules activating more of the same points have greater coverage, equally many have equal coverage; a minimal coverage given as the float of a/b accepts exactly the rules activating at least a/b of the points; the predicted class is the most frequent one, the smallest of several.

Modelled: coverage, `success_rate` and `class_probabilities` with every division rounded by an arbitrary `Machine`; `doubles` is proved to be one; the threshold is that of the model of C16.

Status: partial. Full for classes which are numbers (texts are compared as texts, see C15). Probabilities sum to one only up to one rounding: false exactly. Overflow and underflow are not modelled.

* `Verif.RoundedProps.C56_coverage`: **C56 (coverage).** The coverage of a rule is a number from 0 to 1 in spite of rounding; it is 0 exactly when no point is activated, and 1 exactly when all are.
* `Verif.RoundedProps.C56_order`: **C56 (order of coverages).** Of two rules over the same points, the one which activates more points has the greater coverage, and rules which activate equally many points have equal coverages.
* `Verif.RoundedProps.C56_threshold`: **C56 (minimal coverage).** Let the minimal coverage be the float written for the fraction `a / b`. A rule passes exactly when it activates at least this fraction of the points: rounding the limit and rounding the coverage do not matter, even at equality.
* `Verif.RoundedProps.C56_success`: **C56 (success rate).** The success rate of a label is from 0 to 1, 0 exactly when no target is this class, 1 exactly when all are; the label of more targets has the greater rate.
* `Verif.RoundedProps.C56_class`: **C56 (predicted class).** With classes which are numbers, the class of a rule is a most frequent one of its activated points, and the smallest of them, in spite of rounding.
* `Verif.RoundedProps.C56_sum_partial`: **C56 (probabilities).** The probabilities of the classes sum to one up to the relative error of one rounding.
* `Verif.RoundedProps.C56_sum_false`: **C56 is false of sums**: the probabilities of three equally frequent classes, as floats, do not sum to one.

### C57. Predictions and errors of regression rules are accurate up to rounding

The prediction of a regression rule is the mean of the activated targets up to 2nu of the mean of their absolute values, for one vector or stacked, whatever the order of summation; it has the sign of targets of one sign; it is the nearest float, independent of order and between the smallest and the greatest target for integer targets; the mean absolute and squared errors have relative errors of at most 2(n+1)u and 2(n+3)u and are zero exactly for perfect predictions; the standard deviation is not negative, and zero only for equal targets.

Modelled: `conditional_mean`, the square of `conditional_std`, `mae_function` and `mse_function` with every operation rounded and sums in any order and grouping (`AddsUp`); compared with the exact mean (`meanOf`) of the activated targets.

Status: partial. Error bounds are full. False of floats: the sign of the mean for targets of both signs, independence of the order, the mean lying between the targets, standard deviation zero for equal targets (witnesses); true of integers. The bound for the standard deviation concerns its square, and targets without missing values. Overflow and underflow are not modelled.

* `Verif.RoundedProps.C57_mean`: **C57 (prediction).** The prediction of a regression rule is the mean of the targets of its activated points up to a relative error of `2 n u` of the mean of their absolute values, in whatever order numpy adds them up.
* `Verif.RoundedProps.C57_column`: **C57 (stacked predictions).** The prediction computed for a column of a DataFrame is the same mean up to a relative error of `2 n u`, with the number `n` of activated points, missing ones included.
* `Verif.RoundedProps.C57_sign_partial`: **C57 (sign, partial).** When no activated target is negative, the prediction is not negative, and it is zero only when all of them are zero; likewise when none is positive. Missing: targets of both signs, for which the sign of the mean can get lost (`C57_sign_false`).
* `Verif.RoundedProps.C57_sign_false`: **C57 is false of signs**: the mean of these three targets is negative, and the prediction is zero.
* `Verif.RoundedProps.C57_order_false`: **C57 is false of orders**: the same targets in another order give another prediction.
* `Verif.RoundedProps.C57_order_partial`: **C57 (orders, partial).** Points in another order change the prediction by at most `4 n u` of the mean of the absolute values, even if the machine adds in another way. Missing: that the prediction does not change, which is false (`C57_order_false`).
* `Verif.RoundedProps.C57_integers`: **C57 (integers).** Targets which are integers are added up without error as long as the sum of their absolute values is a number up to which the machine has all integers (`2 ^ 53` for floats): the prediction is the float nearest to the mean, does not depend on the order, and is neither smaller than all targets nor greater than all targets.
* `Verif.RoundedProps.C57_between_false`: **C57 is false of bounds**: the mean of three times the same float is greater than this float.
* `Verif.RoundedProps.C57_std_partial`: **C57 (standard deviation, partial).** The variance is not negative, and when it is zero all activated targets are equal. Missing: that it is zero when they are, which is false (`C57_std_false`) but for integers.
* `Verif.RoundedProps.C57_std_error`: **C57 (error of the variance).** The square of the standard deviation is the sum of the squared distances to the mean, divided by the number of points minus one, up to an error of `60 n u a²` when no target exceeds `a` in absolute value.
* `Verif.RoundedProps.C57_std_false`: **C57 is false of standard deviations**: three times the same target have a variance which is not zero.
* `Verif.RoundedProps.C57_mae`: **C57 (mean absolute error).** The mean absolute error has a relative error of at most `2 (n + 1) u`, and is zero exactly when all predictions equal their targets.
* `Verif.RoundedProps.C57_mse`: **C57 (mean squared error).** The mean squared error has a relative error of at most `2 (n + 3) u`, and is zero exactly when all predictions equal their targets.

### C58. Predictions of rulesets survive rounding

With floats, the weighted prediction of a ruleset of k regression rules is the weighted mean of the predictions of the active rules up to 11ku of the weighted mean of their absolute values, stacked or not, whatever the order of summation; relative error 11ku and the right sign where the active rules agree in sign; NaN only without weight, or unstacked when the mean is that close to zero. The weighted class vote gives the class with the greatest total weight whenever it leads by more than a fraction 2ku, never gives a class which is behind by more, and is exact for whole weights, in particular for equal votes.

Modelled: The weighted votes, each rule given by its activation vector, prediction and weight, with every operation rounded by an arbitrary `Machine`; compared with exact weighted means and totals over the active rules.

Status: partial. Error bounds are full, but unstacked the first rule with a weight must not predict 0 (see C21). False of floats: independence of the order of the rules (a number or NaN, a class or NaN), and that a ruleset of one rule predicts what the rule predicts (witnesses). Rules have different names. Overflow and underflow are not modelled.

* `Verif.RoundedVoteProps.C58_weighted_partial`: **C58 (regression, partial).** At a point where some active rule has a weight, the weighted prediction of a ruleset is the weighted mean of the predictions of the active rules up to `11 k u` of the weighted mean of their absolute values, where `k` is the number of rules; it can only be NaN if the weighted mean is that close to zero. Elsewhere it is NaN. Missing: a first rule with a weight which predicts zero, for which the claim is false (`C21`).
* `Verif.RoundedVoteProps.C58_sign`: **C58 (predictions of one sign).** Where the active rules with a weight all predict positive numbers, the prediction is a positive number, with a relative error of at most `11 k u`; likewise for negative ones.
* `Verif.RoundedVoteProps.C58_stacked`: **C58 (stacked).** The prediction computed from the stacked DataFrames obeys the same bound, in whatever order pandas adds them up, also when rules predict zero, and is a number wherever some active rule has a weight.
* `Verif.RoundedVoteProps.C58_order_partial`: **C58 (orders and stacking, partial).** The prediction for the same rules in another order, or computed in the other way, differs by at most `22 k u` of the weighted mean of the absolute values, where it is not NaN. Missing: that the prediction does not change, which is false (`C58_order_false`).
* `Verif.RoundedVoteProps.C58_order_false`: **C58 is false of orders**: three rules, weighted 1, predict NaN in one order and -1/3 in another.
* `Verif.RoundedVoteProps.C58_single_false`: **C58 is false of a single rule**: a ruleset of one rule predicting 0.1, weighted 0.1, predicts more than 0.1.
* `Verif.RoundedVoteProps.C58_class_partial`: **C58 (classes, partial).** With `e = 2 k u` for `k` rules: a class whose total weight, less a fraction `e` of it, exceeds the total of every other class plus a fraction `e` is predicted; and no class whose total falls behind that of another by more than this is ever predicted. Missing: totals closer than that, for which the claim is false (`C58_class_false`).
* `Verif.RoundedVoteProps.C58_class_integers`: **C58 (whole weights).** When the weights are integers whose sum is a number up to which all integers are floats — for instance when all weights are 1 — the vote is exact: the class with the greatest total is predicted, and NaN if there is none.
* `Verif.RoundedVoteProps.C58_class_false`: **C58 is false of close totals**: at the first point class "a" has the greatest total, and is predicted; with the same rules in another order, the ruleset predicts NaN there.

### C59. A ruleset announces the class of its rules

Whatever has been done to a ruleset, also by calls which raised, if it has rules then rule_type can be read and is the class of all of them, and a rule of another class is refused with TypeError and changes nothing.

Modelled: All calls of the model of rulesets, raising or not, as steps of a history (`SetHistory`); the setter of `rule_type` (`RuleType`).

Status: partial. Holds for all histories in which rules are assigned (`rs.rules = ...`) only if they are of the announced class. False for other assignments: the setter does not set the class (C59_assign_false, C59_assign_first_false); when the class is assigned too, the ruleset is the one which the constructor makes (C59_typed, C59_typed_predict).

* `Verif.RuleTypeProps.C59_typed`: **C59 (rules and class assigned).** `s = RuleSet(stack_activation=b); s.rules = rules; s.rule_type = type(rules[0])` gives the same ruleset as `RuleSet(rules, stack_activation=b)`.
* `Verif.RuleTypeProps.C59_typed_predict`: **C59 (rules and class assigned to a ruleset which had others).** It announces the class of its rules, and predicts what a new ruleset with these rules predicts, or raises the same exception.
* `Verif.RuleTypeProps.C59_type_refused`: **C59 (another class).** A class which is no class of rules is refused, and the ruleset is unchanged.
* `Verif.SetHistoryProps.C59_class_partial`: **C59 (partial).** After any number of calls, whether they raise or not, a ruleset with rules announces a class (so that reading `rule_type` does not raise), and all its rules are of this class. Missing: assignments to `rules` of rules of another class, or to the `rules` of a ruleset which does not announce a class yet (`C59_assign_false`, `C59_assign_first_false`).
* `Verif.SetHistoryProps.C59_refused_partial`: **C59 (refused).** Such a ruleset refuses a rule of another class: `+=` raises `TypeError` and nothing changes.
* `Verif.SetHistoryProps.C59_assign_false`: **C59 is false when rules of another class are assigned:** the ruleset goes on announcing the class of the former rules; then it accepts a rule of this class, so that it holds rules of two classes, and it refuses rules of the class of the assigned ones.
* `Verif.SetHistoryProps.C59_assign_first_false`: **C59 is false when the first rules are assigned:** the ruleset has rules and announces no class; `fit` and `eval` raise `ValueError`, and `predict` gives nothing, though all rules have predictions.
* `Verif.SetHistoryProps.C59_assigned`: **C59 (assignment).** Assigning rules stores these rules in this order, up to the indexes of their features, and leaves the announced class.
* `Verif.SetHistoryProps.C59_assign_error`: **C59 (failed assignment).** When an assignment to `rules` raises, the ruleset is unchanged.

### C60. Rulesets do not share their stacked activations

A call on a ruleset changes this ruleset only: the stacked activations of every other ruleset keep their columns, so that what is later computed from them (stacked fit, eval and predictions) does not depend on what has been done to other rulesets.

Modelled: Rulesets with references to DataFrames in a heap (`FrameHeap`); calls compared with those of rulesets as values.

Status: partial. Full for histories in which no ruleset with stacked activations is added (`+=`) to one which stacks activations and has none. False then: both share one DataFrame, a rule added to one adds a column to the other (C60_join_false), and a later stacked fit gives a rule the prediction of a rule of another ruleset (C60_fit_false).

* `Verif.FrameHeapProps.C60_values_partial`: **C60 (partial).** A call on a ruleset changes this ruleset, in the way of the model of rulesets as values, and no other one, its stacked activations included. Missing: histories in which a ruleset which has no stacked activations yet gets `+=` of a ruleset which has some (`C60_join_false`).
* `Verif.FrameHeapProps.C60_rest`: **C60 (always).** Whatever has happened, a call which is not about a ruleset leaves all of it but its stacked activations.
* `Verif.FrameHeapProps.C60_join_false`: **C60 is false when a ruleset is added to one without stacked activations:** adding a rule to the latter then adds a column to the stacked activations of the former.
* `Verif.FrameHeapProps.C60_fit_false`: **C60 is false for what is computed from stacked activations:** after this, a rule is added to the second ruleset, which is fitted with stacked activations. The new rule, which is activated on the last point only, predicts the mean over the points of the rule which was added to the first ruleset.

### C61. Rulesets share rules, and nothing else

Slices of a ruleset, sums of rulesets and rulesets to which another one was added contain the same rule objects. A fit of one ruleset changes, in the other ones, exactly the rules which they have in common, and does to this ruleset what it would do were it the only one; a call on a rule changes this rule only; making a ruleset or adding to one changes no other ruleset. A user who fits a slice expects the original ruleset to stay consistent: its activation to be that of its rules, and its rules to be good ones.

Modelled: Rulesets with references to rules in a heap (`SharedRules`), with `STACKED_FIT` off; calls compared with those of rulesets as values.

Status: partial. The frame statements are full (C61_disjoint, C61_shared, C61_rule, C61_add, C61_make with `all_features_indexes` empty); that a fit acts as on values is shown for rulesets which have no rule object twice. The consistency of the original ruleset is false: after a slice was fitted on other data its activation is not that of its rules (C61_slice_false), and a rule which became bad and was dropped in the slice stays in the original (C61_bad_false).

* `Verif.SharedRulesProps.C61_fit_partial`: **C61 (fit, partial).** `fit` of a ruleset whose rules are objects, which other rulesets can have as well, does to this ruleset what `fit` does to a ruleset as a value, also when it raises. Missing: rulesets which have a rule object twice, for which it is false (`C61_twice_false`).
* `Verif.SharedRulesProps.C61_disjoint`: **C61 (rulesets without a common rule).** `fit` of a ruleset, raising or not, changes nothing of a ruleset which has none of its rules.
* `Verif.SharedRulesProps.C61_shared`: **C61 (rulesets with common rules).** After a `fit` of a ruleset which did something, with `l` the list of its rules after having been fitted: every other ruleset shows the rules which it has in common with the first one as they are in `l`, also those which the first one has dropped, and all the rest of it is unchanged.
* `Verif.SharedRulesProps.C61_rule`: **C61 (calls on a rule).** A call on a rule object, raising or not, shows in the rulesets which have it, where nothing but this rule is changed.
* `Verif.SharedRulesProps.C61_add`: **C61 (adding).** `+=` of a rule or of a ruleset, raising or not, does to the ruleset what it does to a ruleset as a value, and changes no other ruleset, whatever rules they have in common.
* `Verif.SharedRulesProps.C61_make`: **C61 (making rulesets).** Making a ruleset of given rules, as slices and `+` do, raising or not, changes none of the rulesets which exist, if the setting `all_features_indexes` is empty; the new ruleset is the one which is made of rules as values.
* `Verif.SharedRulesProps.C61_slice_false`: **C61 is false for the activation of a ruleset:** a ruleset is fitted on four rows; then a slice of it is fitted on three rows. The ruleset still has its activation of four points, while one of its rules has three: the activation is not that of its rules any more.
* `Verif.SharedRulesProps.C61_bad_false`: **C61 is false for the dropping of bad rules:** a slice of a fitted ruleset is fitted on other data, where its rule is bad and dropped. The ruleset keeps this rule, which is bad now, and a `fit` without features does not drop it.
* `Verif.SharedRulesProps.C61_twice_false`: **C61 is false of a rule object which a ruleset has twice**: after `s += rule` with a rule of `s`, `fit` works on this object twice. If the first time makes it bad, the second one erases its prediction and the size of its training set, which two equal rules would have kept.

### C62. Texts of conditions, rules and rulesets tell what they are

The text of a condition, under which its rule has its column of stacked activations and its weight, tells conditions apart: conditions with the same text have the same features and bounds, so that rules with different conditions have a column each; and equal conditions have the same text. The text of a rule tells its condition and its prediction. The text of a ruleset shows its rules in order, with a line of dots exactly where rules are left out.

Modelled: `str` of conditions with the texts of floats as a parameter which can be read back, `str` of rules, with the text of classes and frequencies as a parameter (`ShowRule`), and `str` of rulesets (`ShowText`, `ShowRule`).

Status: partial. Telling apart: full for names which do not contain ' in ['; false otherwise (C62_names_false: two rules, one column) and for conditions without names (C62_nameless_false). Same texts: for features in the order of names; false for equal conditions in other orders (C62_order_false). Lines of a ruleset: full, except that with exactly 2 * NLINES rules the dots stand for nothing (C62_dots_false). Integers and floats as bounds have different texts in Python (not modelled).

* `Verif.ShowTextProps.C62_rule_partial`: **C62 (rules).** Two regression rules on features none of whose names contains `" in ["`, fitted or not, which have the same text have the same names and the same bounds, in the same order, and the same prediction. Missing: classes given as texts (`C62_class_false`), other names (`C62_names_false`).
* `Verif.ShowTextProps.C62_set`: **C62 (rules of a ruleset).** If the rules of a ruleset have texts, and if no name of a feature and no class has a line break, the ruleset has a text whose lines are the texts of its rules, in their order; from `2 * NLINES` rules on, those of the first and of the last `NLINES` ones with a line `...` between them.
* `Verif.ShowTextProps.C62_class_false`: **C62 is false for the text of a class:** a rule whose class is called `<prediction unset>` has the text of a rule without prediction, and a rule whose class is called `1/1` that of a rule which predicts the number.
* `Verif.ShowTextProps.C62_apart_partial`: **C62 (telling apart, partial).** Two conditions on features none of whose names contains `" in ["` which have the same text have the same names and the same bounds, in the same order. Missing: other names (`C62_names_false`).
* `Verif.ShowTextProps.C62_columns_partial`: **C62 (columns, partial).** In a ruleset whose rules have conditions on features, none of whose names contains `" in ["`, and of which no two have the same names and bounds in the same order, the stacked activations have one column for each rule, with its activation, after any sequence of calls which build the ruleset. Missing: other names (`C62_names_false`); rules with the same conditions share a column.
* `Verif.ShowTextProps.C62_names_false`: **C62 is false for names which look like texts of conditions:** a rule on one feature of the name `a in [0/1, 1/1] AND b` and a rule on the two features `a` and `b` have the same text; the ruleset of these two rules has one column only, with the activation of the second one.
* `Verif.ShowTextProps.C62_same_partial`: **C62 (same text, partial).** Two conditions which require the same of the same features, both with their features in the order of the names, have the same text. Missing: other orders (`C62_order_false`).
* `Verif.ShowTextProps.C62_order_false`: **C62 is false for the order of features:** two conditions which are equal, made with `sort=False`, have different texts.
* `Verif.ShowTextProps.C62_nameless_false`: **C62 is false for conditions without names:** conditions which were made empty, and to which indexes and bounds were assigned, evaluate arrays, but have all the same text.
* `Verif.ShowTextProps.C62_lines`: **C62 (text of a ruleset).** If no text of a rule has a line break, the lines of the text of a ruleset are those of its rules, in order; from `2 * NLINES` rules on, those of the first and of the last `NLINES` ones with a line `...` between them. No rule is shown twice.
* `Verif.ShowTextProps.C62_dots_false`: **C62 is false with `NLINES = 2` and four rules:** all rules are shown, but the text says that some are left out.

### C63. Flags and sizes of a rule tell how it was fitted and evaluated

After fit a rule says that it is fitted and knows the number of targets it was fitted on; after eval it says that it is evaluated and knows the number of targets it was evaluated on; what it says comes from its last fit and eval. fit leaves alone what comes from an evaluation, and eval leaves alone what comes from the training set (prediction, standard deviation, sign, z-score, size, and the activation unless it is to be computed again), even when they raise.

Modelled: `fit` and `eval` of the model of rules (`Rule`); a general lemma about calls which leave a part of the rule alone, whether they raise or not (`RuleFlagLemmas`).

Status: partial. fit and what is left alone: full. eval: the flag for good rules only (C63_eval_partial); eval of a bad rule says that the rule is fitted instead of evaluated (C63_bad_false, C63_eval_bad). The size of the test set is never computed (C63_size, C63_size_false). A rule fitted again keeps the criterion of its former prediction (C63_stale_false), and a fitted rule ignores new targets given without features (C63_again_false). Rules read from a file: C63_load.

* `Verif.LoadFlagProps.C63_load`: **C63 (rules which were read).** After `load` every rule is good, has no activation and no sign, says that it is fitted exactly if it has a prediction, and never says that it was evaluated — whatever its criterion and the thresholds are.
* `Verif.RuleFlagProps.C63_fit`: **C63 (fit).** A `fit` which has something to do and does not raise leaves a rule which says that it is fitted, and which knows the number of targets when it is still good (or with `force_if_not_good`).
* `Verif.RuleFlagProps.C63_fit_bad`: **C63 (fit of a bad rule).** A `fit` without `force_if_not_good` of a rule which is bad already, when it does not raise, leaves NaN for all the figures of the training set.
* `Verif.RuleFlagProps.C63_fit_leaves`: **C63 (fit leaves alone).** `fit` changes neither the condition nor what comes from an evaluation, whether it raises or not.
* `Verif.RuleFlagProps.C63_eval_leaves`: **C63 (eval leaves alone).** `eval` changes neither the condition nor what comes from the training set (prediction, standard deviation, sign, z-score and size), whether it raises or not; and not the activation either, unless it has to be computed again.
* `Verif.RuleFlagProps.C63_eval_partial`: **C63 (eval).** An `eval` with points to work on which does not raise, of a good rule (or with `force_if_not_good`), leaves a rule which says that it is evaluated. Missing: bad rules (`C63_bad_false`), and the size of the test set (`C63_size_false`).
* `Verif.RuleFlagProps.C63_eval_bad`: **C63 (eval of a bad rule).** An `eval` without `force_if_not_good` of a bad rule only makes its criterion NaN, and says that the rule is fitted.
* `Verif.RuleFlagProps.C63_size`: **C63 (size of the test set).** `eval` never computes it, whether it raises or not.
* `Verif.RuleFlagProps.C63_size_partial`: **C63 (asking for the size of the test set).** After `eval` and then `calc_test_set_size`, the attribute `test_set_size` is the number of targets, every other attribute is what `eval` left, and a later `fit` or `eval`, on whatever data, leaves this size. Missing: `eval` alone does not set it (`C63_size_false`).
* `Verif.RuleFlagProps.C63_size_false`: **C63 is false for the size of the test set**: a rule evaluated on four targets, which says that it is evaluated, has no size of the test set.
* `Verif.RuleFlagProps.C63_bad_false`: **C63 is false for bad rules**: `eval` of a bad rule which has never been fitted says that it is fitted, and does not say that it is evaluated.
* `Verif.RuleFlagProps.C63_stale_false`: **C63 is false for rules fitted again**: the rule still says that it is evaluated, with the criterion of its former prediction.
* `Verif.RuleFlagProps.C63_again_false`: **C63 is false for a rule fitted on other targets without features**: nothing is computed, and nothing is said.

### C64. Measuring an activation does not change it

Reading a profiling figure of an activation (sizeof_* and time_*), with Activation.FORCE_STAT set or not, leaves every activation showing the same vector and stored in the same format, and leaves all files and class-wide settings as they were, whether the measure succeeds or raises.

Modelled: The figures as operations (`Profile`: `measureFile`, `measureTime`) of the histories of `History`; each leaves what an object remembers right (`ProfileLemmas.measure_rep`).

Status: partial. Over all histories with lasy=False and vectors with points; measures are operations of the histories, so C03-C10, C31, C36 hold with measures in between. It raises only on a taken file name. False for lasy activations not read yet (a file is left behind, delete removes the file of the user) and for activations without points (a measure which raises leaves another format).

* `Verif.ActivationProps.C64_shows_partial`: **C64 (vectors), partial.** Reading any profiling figure of a live activation, whether it raises or not, leaves every live activation showing the vector it stood for. Left out of `Reach` (and false, see below): `lasy=True`.
* `Verif.ActivationProps.C64_storage_partial`: **C64 (storage), partial.** It leaves every object stored as it was, with the same options, and no object is added or removed; all that can change is what the measured object remembers.
* `Verif.ActivationProps.C64_files_partial`: **C64 (files and settings), partial.** It leaves all files and all class-wide settings as they were, whether it raises or not: the file it writes is gone afterwards, and no other file is touched.
* `Verif.ActivationProps.C64_raises_partial`: **C64 (when it raises), partial.** It raises only when a file must be written (`sizeof_path`, `sizeof_file`, `time_write`, `time_read`), the figure is missing, measuring is forced, and the name drawn for the file is taken.
* `Verif.ActivationProps.C64_idle`: **C64 (not asked for).** When the figure is known or `FORCE_STAT` is off, reading it does nothing at all.
* `Verif.ActivationProps.C64_lasy_false`: **C64, violation (lasy).** Measuring a lasy activation which was not read yet loads it into a file of its own, then forgets this file: it stays behind, and deleting the activation then removes the file the user gave instead of that copy, which is what `delete` removes when the activation was read without being measured.
* `Verif.ActivationProps.C64_halfway_false`: **C64, violation (no point).** A measure which raises half way leaves the activation in the format it was timing: an activation without points made from a bitarray is then stored as a raw array.

### C65. The index of the targets does not matter

With RuleSet.STACKED_FIT, RuleSet.fit and RuleSet.eval of targets given as a pandas Series do what they do with the numpy array of its values, whatever the index of the Series: the k-th target belongs to the k-th row of the features. The same rules are returned as dropped, every rule and the ruleset end up the same, and no trace of the index is left for later calls.

Modelled: The stacked activations with their index (`TargetIndex`: `Framed`), pandas' alignment of rows (`joinRows`), `fitAt` and `evalAt`, which are compared with the model without indexes (`fitStacked`, `evalStacked`): `TargetIndexLemmas.fitAt_agrees`, `evalAt_agrees`.

Status: partial. fit and eval of a Series, and sequences of calls none of which raises. False after a call which raised: the index of its targets stays on the stacked activations and a later fit with an array gets wrong deviations. False for calc_stds and calc_predictions called by the user, which for classes and deviations go by label (C65_by_label says exactly how) and for means by position, and raise TypeError when the labels do not match and a target is 0 or a text (C65_labels_raise).

* `Verif.RuleSetProps.C65_series`: **C65 (Series).** With `STACKED_FIT`, `fit` and `eval` of targets given as a Series do the same as with the array of its values, whatever its index (repeated labels, another order), and whatever calls came before: the same rules are returned, the ruleset is the same afterwards, the same exception is raised, but for a Series of a wrong length where `fit` raises `ValueError` instead of `IndexError`.
* `Verif.RuleSetProps.C65_sequence_partial`: **C65 (sequences), partial.** After any sequence of calls of `fit` and `eval` which do not raise, with arrays and Series of any index, the ruleset is the one, and the rules returned are the ones, which the same calls with the values of the targets as arrays give. Missing: calls which raise (`C65_raised_false`).
* `Verif.RuleSetProps.C65_methods_partial`: **C65 (methods called by the user), partial.** `ruleset.calc_predictions(y)` and `ruleset.calc_stds(y)` of a Series with the index 0, 1, … are those of the array of its values. Missing: another index (`C65_by_label`, `C65_methods_false`).
* `Verif.RuleSetProps.C65_by_label`: **C65 (by label).** What they do with the labels 0, 1, … in another order, for stacked activations with a `pd.RangeIndex`: `calc_stds` and, for classification rules, `calc_predictions` take for row `i` the target whose label is `i`; `calc_predictions` of regression rules takes the target at place `i`.
* `Verif.RuleSetProps.C65_methods_false`: **C65 is false for methods called by the user.** The third rule activates the first two points, whose targets are 1 and 2: its variance is 1/2. For the labels 2, 0, 1 the targets of rows 0 and 1 are 2 and 4, of variance 2, whereas the mean still is that of 1 and 2. When all three targets have the label 0, row 0 takes them all, and the variance is that of 1, 2 and 4.
* `Verif.RuleSetProps.C65_raised_false`: **C65 is false after a call which raised.** `fit` is called by mistake with a text among the targets, which raises `TypeError`; the index of these targets stays on the stacked activations, and the next `fit`, with an array, gets a wrong deviation. The targets of the two points of the third rule are 1 and 1, of deviation 0.
* `Verif.RuleSetProps.C65_classes_raise`: **C65 (classes).** Classes have no deviation: `calc_stds` of a ruleset of classification rules raises `TypeError`, whatever the targets, their index and the stacked activations are.
* `Verif.RuleSetProps.C65_labels_raise`: **C65 (labels which do not match).** When the rows of the stacked activations and of the targets do not have the same labels, but have one in common, whose target is 0 or a text, `calc_stds` of regression rules and `calc_predictions` of classification rules raise `TypeError`: 0 is written "zero" before it is multiplied by the activation, which pandas has made a float to write NaN.

### C66. The prediction at a point depends on this point only

Two points with the same features get the same prediction from predict, whichever data sets they are in: predicting the rows of a table in batches, in another order, with other rows around them, or with the columns of the DataFrame in another order, gives each row the prediction it has in the whole table. This holds for Rule.predict and for RuleSet.predict, with or without weights.

Modelled: The two calls are followed side by side: `LocalLemmas` relates every intermediate vector, sum and column at the two points (`evaluate_same`, `weightedRegressor_same`, `equalRegressor_same`, `weightedRegressorStacked_same`); the votes follow from the characterisations C23 and C24. `SamePoint` and `Same` are in `LocalSpec`.

Status: partial. Full for Rule.predict. For rulesets: regression in all four variants whenever both calls return; classification without stacked activations when the weights are not negative and some rule with a weight is active in each data set; with stacked activations and no weights when two points are decided in each data set. False otherwise: with a negative weight a point is undecided in the whole table and decided alone; a batch without active rule raises; with stacked activations the class of the only decided point goes to the first point of the batch.

* `Verif.LocalProps.C66_rule`: **C66 (one rule).** A rule predicts the same at two points with the same features, whichever data sets they are in and whatever the other points are.
* `Verif.LocalProps.C66_regression_partial`: **C66 (means of rules).** So does a ruleset of regression rules, with weights or without, with stacked activations or without. Missing: a data set may raise where the other does not (`C66_zero_false`).
* `Verif.LocalProps.C66_weighted_classes_partial`: **C66 (votes with weights).** So does a ruleset of classification rules whose weights are not negative, if in each data set a rule with a weight is active at some point. Missing: negative weights (`C66_negative_false`), stacked activations (`C66_stacked_false`), data sets without active rule (`C66_raises_false`).
* `Verif.LocalProps.C66_classes_partial`: **C66 (votes without weights).** Missing: stacked activations of which fewer than two points are decided (`C66_stacked_false`), data sets without active rule (`C66_raises_false`).
* `Verif.LocalProps.C66_stacked_classes_partial`: **C66 (votes with stacked activations)**, when two points are decided in each data set.
* `Verif.LocalProps.C66_negative_false`: **C66 is false of votes with negative weights:** the same point is undecided in the whole data set, where another rule is active elsewhere, and has a class when it is alone.
* `Verif.LocalProps.C66_raises_false`: **C66 is false of calls which raise:** a point where no rule is active has no prediction in the whole data set; alone, it makes `predict` raise.
* `Verif.LocalProps.C66_zero_false`: **C66 is false of means which raise:** when the first rule predicts zero, a point where it is active makes `predict` raise for the whole data set; a batch without this point has predictions.
* `Verif.LocalProps.C66_stacked_false`: **C66 is false of votes with stacked activations:** the class of the second point goes to the first one when no other point is decided.

### C67. The order of the points does not matter to fit and eval

Calling fit or eval with the rows of the features and the targets reordered in the same way gives the same outcome (the same exception, if any) and the same rule: prediction or class probabilities, standard deviation, sign, z-score, criterion, sizes, flags, good and bad_because are equal, and the activation vector is reordered in that way. This also holds for any sequence of such calls, each with its own order, and for the rules of a ruleset.

Modelled: `RowOrderLemmas` shows that each figure depends on the pairs of an activation and a target up to their order, and that a condition is evaluated row by row; `RowOrderRun` follows two runs side by side. `SamePoints`, `Twins`, `Alike` and sequences of calls are in `RowOrderSpec`.

Status: partial. In exact arithmetic, for calls with features: fit and eval of a rule, and sequences of them; fit and eval of a ruleset when they go through in both orders (C67_set_partial, C67_set_eval_partial), with the same criterion of the ruleset for regression rules; when there is room for the activations, fit of a ruleset raises the same exception for both orders or goes through for both (C67_set_raises); criterion: C67_criterion, C67_set_eval_same_partial. Assumed: making an activation and attributes which are not modelled do not depend on the order (`OrderFree`). With rounding the order matters (C57_order_false, C58_order_false). Without features the activation of the last fit is used, so that the targets must be in its order (C67_targets_false).

* `Verif.RowOrderProps.C67_criterion_classes_partial`: **C67 (criterion of a ruleset of classification rules), partial.** Without weights and without stacked activations, `calc_criterion` on the same points in another order gives the same criterion, if it goes through in both orders and some rule is active somewhere. Missing: where no rule is active `predict` raises (`C66_raises_false`); with stacked activations the order can matter (`C66_stacked_false`).
* `Verif.RowOrderProps.C67_criterion_weighted_classes_partial`: **C67 (criterion of a ruleset of classification rules, weights), partial.** The same with weights which are not negative, if some rule of non-zero weight is active somewhere. Missing: as above; negative weights, see `C66_negative_false`.
* `Verif.RowOrderProps.C67_criterion`: **C67 (criterion of a ruleset).** For rulesets of regression rules, `calc_criterion` on the same points in another order gives the same criterion, with weights or without, with stacked activations or without, for any measure, if it goes through in both orders.
* `Verif.RowOrderProps.C67_set_eval_same_partial`: **C67 (ruleset, `eval` without new activations).** If the new activations are not kept and all rules are fitted, `eval` of a ruleset on the same points in another order drops the very same rules, and gives the same criterion if they are regression rules. Missing: that `eval` raises for both orders or for none; the criterion for classification rules, see `C67_criterion_classes_partial`, which can depend on the order with stacked activations (`C66_stacked_false`).
* `Verif.RowOrderProps.C67_fit`: **C67**, `fit`: the outcome is the same, with the same exception if there is one, and the rules are the same but for the order of their activation vectors: prediction or probabilities of the classes, deviation, z-score, sign, sizes, flags and reasons are equal.
* `Verif.RowOrderProps.C67_eval`: **C67**, `eval`: the same for the criterion, with or without `recompute_activation`.
* `Verif.RowOrderProps.C67_sequence`: **C67**: any sequence of calls of `fit` and `eval`, each with its own data in its own order, raising or not, has the same outcomes and gives the same rule but for the order of its activation vector.
* `Verif.RowOrderProps.C67_targets_false`: **C67**: without features, `eval` takes the activation of the last `fit`, and the order of the targets matters: targets in another order than the one of `fit` give another criterion, and no exception.
* `Verif.RowOrderProps.C67_set_raises`: **C67 (ruleset, exceptions).** When there is room for every activation, `fit` of a ruleset on the same points in another order raises the same exception, or goes through for both orders.
* `Verif.RowOrderProps.C67_set_partial`: **C67 (ruleset).** `fit` of a ruleset on the same points in another order drops the same rules and keeps the same rules, up to the order of their activation vectors; the ruleset has the same names, indexes, size and coverage, and its activation and stacked activations are reordered. Missing: that `fit` raises for both orders or for none, which depends on whether there is room for the union of the activations; see `C67_set_raises` for the case in which there is.
* `Verif.RowOrderProps.C67_set_eval_partial`: **C67 (ruleset, `eval`).** `eval` of a ruleset on the same points in another order, with or without `keep_new_activations`, drops the same rules and keeps the same rules, up to their activation vectors: criteria, flags and reasons are equal. Missing: the criterion of the ruleset (see `C67_criterion`), and that `eval` raises for both orders or for none.

### C68. Fitting or evaluating again changes nothing

When fit leaves a good rule, calling it once more with the same arguments succeeds and changes nothing; the same for eval; and after a fit on a training set and an eval on a test set, repeating these calls in any order changes nothing. What fit computes on given data does not depend on what the rule was fitted on or evaluated on before. Fitting or evaluating a ruleset again drops no rule and changes nothing.

Modelled: `AgainLemmas`: a rule which is good at the end has passed all thresholds in its final state, and every step of the same call leaves this state (`Still`). Rules are compared without `log`, which is not in the code.

Status: partial. Assumed: dir(rule) has the names of the attributes (`Listed`). False for rules which fit rejects: the second fit replaces by NaN what the first one computed before the rejection (C68_bad_false). Rulesets: fit in full; eval with features, for fitted rules (C68_set_eval_partial) or with keep_new_activations (C68_set_eval_keep_partial); false without features (C68_set_eval_false): the prediction made for the criterion changes the activation of the first rule, so that the next eval gives another criterion.

* `Verif.AgainSetProps.C68_set_eval_partial`: **C68 (eval of rulesets), partial.** When `eval(y, xs)` of a ruleset whose rules are fitted goes through, the same `eval` once more goes through, drops nothing and changes nothing: rules, activation, stacked activations, criterion and sizes stay. Missing: rules which are not fitted; with `keep_new_activations=True` see `C68_set_eval_keep_partial`; without features it is false (`C68_set_eval_false`).
* `Verif.AgainSetProps.C68_set_eval_keep_partial`: **C68 (eval of rulesets which keeps the new activations), partial.** When `eval(y, xs, keep_new_activations=True)` of a ruleset goes through, the same `eval` once more goes through, drops nothing and changes nothing, whether its rules were fitted or not. (`storedRaw` tells whether an activation is stored as an array; it does not look at the record of checks, which is not in the code.) Missing: `keep_new_activations=False` with rules which are not fitted.
* `Verif.AgainSetProps.C68_set_eval_false`: **C68 is false of evaluations of rulesets without features**: `eval(y)` twice on the activations of the training set gives two criteria, of the ruleset and of its first rule, since the prediction for the first criterion has changed the activation of this rule (see `C22_changes_false`).
* `Verif.AgainProps.C68_fit_partial`: **C68 (fit, partial).** When `fit` leaves a good rule, the same `fit` once more (also with the other `force_if_not_good`) succeeds and changes nothing. Missing: rules which became bad, where it is false (`C68_bad_false`).
* `Verif.AgainProps.C68_bad_false`: **C68, violation.** The second `fit` of a rule which its first `fit` rejected raises nothing and erases the prediction which the first one had computed.
* `Verif.AgainProps.C68_eval`: **C68 (eval).** When `eval` leaves a good rule, the same `eval` once more (also with the other `force_if_not_good`) succeeds and changes nothing.
* `Verif.AgainProps.C68_repeated`: **C68 (fit and eval).** When a rule is good after `fit` on the training set and `eval` on a test set (which keeps the activation), repeating these two calls in any order, any number of times, succeeds and changes nothing.
* `Verif.AgainProps.C68_fresh`: **C68 (fit afresh).** What `fit` computes does not depend on what was fitted or evaluated before: two rules with the same condition which both go through (good, or with `force_if_not_good`) get the same activation, coverage, prediction and figures.
* `Verif.AgainSetProps.C68_set_empty`: **C68 (fit of rulesets, no rule left).** When `fit` of a ruleset goes through and leaves no rule, every `fit` afterwards goes through and changes nothing.
* `Verif.AgainSetProps.C68_set`: **C68 (fit of rulesets).** When `fit(y, xs)` of a ruleset goes through, the same `fit` once more goes through, drops nothing and changes nothing: rules, activation, stacked activations, features and sizes stay. Without features see `C68_set_none`.
* `Verif.AgainSetProps.C68_set_none`: **C68 (fit of rulesets without features).** When `fit(y)` of a ruleset goes through, `fit` without features once more does nothing at all, whatever the targets.

### C69. The unit of the target does not matter

Fitting a regression rule on targets given in another unit (a*t+b with a>0, as from Celsius to Fahrenheit) gives the prediction in the other unit, the standard deviation times a, and the same z-score, activation and size. Evaluating it gives a times the criterion mae, a*a times mse, and the same mse_norm, mae_norm and aae. The predictions of a ruleset are converted in the same way, missing where they were missing.

Modelled: `UnitSpec` has the conversion; `UnitLemmas` follows the mean, the variance, the median and the five criteria; `UnitSetLemmas` the weighted mean. The model of the rule is that of C16-C19, of the ruleset that of C21 and C22.

Status: partial. Exact arithmetic and a root with sqrt(a*a*t) = a*sqrt(t) (`Root`); both calls are supposed not to raise and to leave a good rule (thresholds may have a unit). False for predict of a ruleset without stacked activations when predictions cancel, or the first one is zero, in one of the units (C69_cancel_false, C69_zero_false).

* `Verif.Units.C69_fit`: **C69 (fit).** A regression rule is fitted twice, with the targets and with the targets in another unit (`a * t + b`, `0 < a`). Then the prediction is the first one in the other unit (missing if it was missing), the standard deviation is multiplied by `a`, and the z-score, the activation and the number of points are the same; the sign is the same if the zero of the unit is (`b = 0`).
* `Verif.Units.C69_eval`: **C69 (eval).** Two regression rules with the same activation, one of which predicts in the other unit; they are evaluated with the same targets, each in its unit. Then the criterion `mse` is multiplied by `a²`, `mae` by `a`, and the relative criteria `mse_norm` (the default), `mae_norm` and `aae` are the same.
* `Verif.Units.C69_cycle`: **C69 (fit and eval).** The whole cycle: fitted on some points and evaluated on others, in either unit, the criterion is the same up to its unit.
* `Verif.Units.C69_predict_partial`: **C69 (`predict`, partial).** Two rulesets with the same rules, in the two units (and with weights which agree up to a positive factor): the predictions of the second are those of the first in the other unit, missing where they are missing. Missing: predictions which cancel, and a first rule which predicts 0, in either unit, where it is false (`C69_cancel_false`, `C69_zero_false`).
* `Verif.Units.C69_predict_stacked`: **C69 (`predict` with stacked activations).** The same without exceptions.
* `Verif.Units.C69_mean_stacked`: **C69 (`predict` without weights, with stacked activations).**
* `Verif.Units.C69_cancel_false`: **C69, violation.** Two rules predict 1 and 3 at a point, so the ruleset predicts 2. With the targets moved by -2 they predict -1 and 1, and the prediction is missing instead of 0; with weights and without.
* `Verif.Units.C69_zero_false`: **C69, violation.** With the targets moved by -1 the first rule predicts 0, and `predict` raises `TypeError`.

### C70. The scale of the features does not matter

Convert each feature by a strictly increasing function (Celsius to Fahrenheit, cubes, ...), in the data and in the bounds of the conditions: the conditions select the same rows, the intersection of two conditions is the intersection of the originals with its bounds converted (or raises the same exception), and a rule fitted, evaluated or asked for predictions on the converted data gives the same activation, prediction, figures, criterion and bad reasons. A ruleset covers the same points and predicts the same.

Modelled: `ScaleSpec` has the conversion of numbers, features, arrays and DataFrames; `ScaleLemmas` follows the model of the condition (C01-C06), `ScaleRun` the methods of a rule with the condition replaced, `ScaleSetLemmas` the votes of a ruleset with its columns renamed.

Status: proved. Bounds are exact numbers. Thresholds on attributes which show the condition itself are excluded (`CondFree`): such a threshold compares bounds. For rulesets the texts of the conditions must tell the same rules apart in both units; RuleSet.fit and RuleSet.eval are covered rule by rule.

* `Verif.Scales.C70_evaluate`: **C70 (evaluate).** A condition with its bounds in other units of the features, on data in these other units, selects the same rows as the condition on the data — or raises the same exception. The change of unit can be any strictly increasing function, another one for each feature.
* `Verif.Scales.C70_impossible`: **C70 (condition).** The two conditions are impossible, or not, together.
* `Verif.Scales.C70_and`: **C70 (&).** The intersection of the conditions in other units is the intersection, in these units: both raise `IndexError`, or both are conditions which show the same features, up to the unit.
* `Verif.Scales.C70_fit`: **C70 (fit).** Fitting the rule with its condition in other units, on data in these units, gives the same outcome and the same rule — activation, prediction, figures, good or not and why — but for the condition.
* `Verif.Scales.C70_eval`: **C70 (eval).** The same for `eval`: the criterion, in particular, does not depend on the units of the features.
* `Verif.Scales.C70_predict`: **C70 (predict).** The predictions of a rule do not depend on the units of the features.
* `Verif.Scales.C70_predict_set`: **C70 (ruleset).** A ruleset and the ruleset with the conditions of its rules in other units give the same predictions — or raise the same exception — each on the features in its units: without weights, with the same weights for corresponding rules, and with the same attribute of the rules as weights; with stacked activations or without. The texts of the conditions must tell the rules apart in both units (two conditions with the same text share a column and a weight).
* `Verif.Scales.C70_activation_set`: **C70 (activation of a ruleset).** The points covered by a ruleset do not depend on the units of the features.

### C71. The names of the classes do not matter

Give the classes of a classification problem other names (other numbers, other texts, or texts for numbers; different classes keep different names). A rule fitted on the renamed targets has the same class frequencies under the new names and predicts the same class, renamed; its criterion on renamed targets is the same. Rulesets whose rules predict the renamed classes predict the renamed classes, missing at the same points, and have the same criterion.

Modelled: From the theorems on the model of class_probabilities (C20), the votes (C23, C24) and the success rate (C33, C42); `ClassNameLemmas` has the renaming of frequencies, votes and winners.

Status: partial. False for equally frequent classes, where the rule takes the first name (C71_tie_false), for a class called "nan" in the stacked vote (C71_nan_false), and for texts when the written frequencies have exponents (C20_text_false). The limits of C23, C24 and C42 apply to rulesets.

* `Verif.ClassNames.C71_frequencies`: **C71 (frequencies).** Fitting a classification rule on the same targets under new names — numbers or texts — gives the same frequencies under the new names.
* `Verif.ClassNames.C71_fit_partial`: **C71 (prediction).** When one class is more frequent than all others, the rule predicts it, under its new name with the new names. Missing: with several most frequent classes it predicts the first in alphabetical or numerical order, which depends on the names (`C71_tie_false`); texts in the place of numbers when frequencies are below 1/10000 (`C20_text_false`).
* `Verif.ClassNames.C71_tie_false`: **C71 (prediction) is false for equally frequent classes**: two points of the classes 1 and 2 give 1; called 3 and 2 they give 2, the other class.
* `Verif.ClassNames.C71_eval`: **C71 (criterion).** A rule with the prediction `p`, evaluated on some targets, has the same criterion as a rule with the prediction `f p` on these targets under their new names.
* `Verif.ClassNames.C71_predict_partial`: **C71 (weighted vote).** Two rulesets whose rules correspond, but for the names of the classes, predict the same classes under the new names, nothing where the first predicts nothing. Missing: as for `C23_predict_partial`, a rule with a weight must be active somewhere.
* `Verif.ClassNames.C71_predict_equal_partial`: **C71 (vote).** The same without weights. Missing: as for `C24_predict_partial`, a rule must be active somewhere.
* `Verif.ClassNames.C71_predict_stacked_partial`: **C71 (vote with stacked activations).** The same with stacked activations, when at least two points are decided. Missing: as for `C24_predict_stacked_partial`; in particular no class may be called "nan" (`C71_nan_false`).
* `Verif.ClassNames.C71_criterion_set`: **C71 (criterion of a ruleset).** The criterion of a ruleset whose predictions are `p` on the targets `y` is that of a ruleset whose predictions are these under the new names, on the targets under the new names.
* `Verif.ClassNames.C71_nan_false`: **C71 is false of the vote with stacked activations when a class is called "nan"**: the classes "x" and "a" give "x" everywhere; with "nan" for "x", the votes for it are not counted.

### C72. Predictions stay among the training targets

After fit(y, xs) on targets between two numbers lo and hi (missing targets allowed), every regression rule predicts a number between lo and hi or NaN, and whatever predict returns for any features, with or without weights that are not negative and with or without stacked activations, is between lo and hi at each point, or missing. A fitted classification rule or ruleset only predicts classes that were among the training targets, or nothing.

Modelled: Partial correctness of the model of predict: an invariant on what is cumulated at each point (a weighted sum of numbers between lo and hi, where a sum which is 0 can be NaN) through the loops of `Vote`, and the cells of the stacked computation; composed with the theorems on fit (`RangeLemmas`, `RangeClassLemmas`, `RangeSetLemmas`).

Status: partial. False when a rule covers no training point: fit keeps it with the prediction NaN, and the unstacked computation then loses the sum of the rules before it but not their weights, so that targets all equal to 10 give the prediction 5 on the training data itself (C72_nan_false). Also false for 256 rules active at a point without weights (C22_count_false).

* `Verif.RuleSetProps.C72_rule`: **C72 (rule).** If all training targets are between `lo` and `hi`, or missing, the prediction of a fitted regression rule is between `lo` and `hi`, or missing.
* `Verif.RuleSetProps.C72_rule_class`: **C72 (class of a rule).** The class which a fitted classification rule predicts is one of the training targets.
* `Verif.RuleSetProps.C72_predict_partial`: **C72 (predict).** If every rule of a regression ruleset predicts a number between `lo` and `hi`, whatever `predict` returns is between `lo` and `hi` at each point, or missing: for given or remembered activations, with or without stacked activations, with or without weights which are not negative. Missing: a rule which predicts NaN breaks the claim (`C72_nan_false`), and so do 256 rules active at a point (`C22_count_false`), so that fewer rules are assumed when there are no weights and no stacked activations.
* `Verif.RuleSetProps.C72_predict_class`: **C72 (classes).** Each point is predicted to be of a class which one of the rules predicts, or missing; for given or remembered activations, with or without stacked activations, with any weights. With stacked activations there can also be an empty DataFrame (`C24_stacked_none_false`).
* `Verif.RuleSetProps.C72_fit_predict_partial`: **C72 (fit and predict).** After `fit(y, xs)` of a regression ruleset on targets between `lo` and `hi` (or missing), whatever `predict` returns for any features is between `lo` and `hi` at each point, or missing. Missing: as for `C72_predict_partial`; in particular it is assumed that every rule kept by `fit` predicts a number.
* `Verif.RuleSetProps.C72_fit_predict_class`: **C72 (fit and predict, classes).** After `fit(y, xs)` of a classification ruleset, whatever `predict` returns for any features is at each point one of the training classes, or missing (or, with stacked activations, an empty DataFrame).
* `Verif.RuleSetProps.C72_nan_false`: **C72: a rule which covers no training point.** All targets are 10, and the second of three rules is active nowhere in the training data: its prediction is NaN, and `fit` keeps it. For the very features of the training data, the ruleset then predicts 5 where the other rules, which predict 10, are both active; and nothing where only the first is.

### C73. Features which no rule uses do not matter

Let x and x' be two tables of features (arrays, DataFrames, or one of each) with as many rows and the same values in the columns used by the rules of a ruleset (by number in an array, by name in a DataFrame). Then fit, eval, predict and evaluate of each rule and of the ruleset, stacked or not, have the same outcome on x' as on x and leave the same rule or ruleset. In particular columns can be added at the end of an array, and added to, or moved in, a DataFrame.

Modelled: Equality of runs: by C11 a condition gives the same vector on both tables; each function of the model looks at the features through the conditions and the number of rows only, and keeps the conditions of the rules (`ColumnLemmas`).

Status: partial. False for columns counted from the end of an array: an index of -1 is accepted, and a column added at the end changes what the rule means (C73_negative_false).

* `Verif.ColumnProps.C73_evaluate`: C73, conditions: a condition is true at the same points for two tables of features which have the same values in the columns it uses, in an array (by number) or in a DataFrame (by name), whatever the other columns.
* `Verif.ColumnProps.C73_widened`: C73, arrays: the columns of an array being counted from the beginning, columns added at the end do not matter.
* `Verif.ColumnProps.C73_more`: C73, DataFrames: the order of the columns of a DataFrame and columns with other names do not matter.
* `Verif.ColumnProps.C73_negative_false`: C73 is false for conditions about columns counted from the end of an array: with one more column, column -1 is another one.
* `Verif.ColumnProps.C73_rule`: C73, rules: `fit`, `eval` and `predict` have the same outcome and leave the same rule.
* `Verif.ColumnProps.C73_predict`: C73, rulesets: `predict` gives the same and leaves the same ruleset.
* `Verif.ColumnProps.C73_set_evaluate`: C73, rulesets: the activation on new features is the same.
* `Verif.ColumnProps.C73_fit`: C73, rulesets: `fit` has the same outcome (an exception, or the rules dropped) and leaves the same ruleset.
* `Verif.ColumnProps.C73_eval`: C73, rulesets: `eval` has the same outcome and leaves the same ruleset.

### C74. Stricter thresholds keep fewer rules and do not change those which stay

Let Rule.THRESHOLDS be replaced by stricter thresholds: higher minima, lower maxima, limits on more attributes, or any thresholds instead of none. If a rule is good after fit (eval) under the stricter thresholds, fit (eval) works under the others too and leaves the same good rule, with the same prediction, figures, activation and flags. If fit (eval) of a ruleset works under both, the rules kept under the stricter thresholds are, in order, among those kept under the others, and are the same rules (for eval up to the stored activations).

Modelled: Simulation (`Strict.Fine` in TighterLemmas): as long as the rule ends up good, each check under the stricter thresholds has said yes, hence also under the others; a rule which was rejected never becomes good again (`Rule.Keeps`). For rulesets with C28: a rule equal to a rejected rule is dropped too, and rejected rules under the weaker thresholds are rejected under the stricter.

Status: proved. For rulesets both runs are supposed to work: nothing is computed for a rejected rule, so that wrong targets can go unnoticed under the stricter thresholds (example in TighterProps).

* `Verif.Strict.C74_rule_fit`: **C74 (`Rule.fit`).** If a rule is good after `fit` under thresholds which are stricter than others (higher minima, lower maxima, limits on more attributes; no thresholds at all are the weakest), then `fit` under the other thresholds works too and leaves the same rule.
* `Verif.Strict.C74_rule_eval`: **C74 (`Rule.eval`).** The same for `eval`.
* `Verif.Strict.C74_fit`: **C74 (`RuleSet.fit`).** If `fit` of a ruleset works under some thresholds and under stricter ones, the rules kept under the stricter ones are, in order, among those kept under the others, and they are the same rules with the same predictions and figures.
* `Verif.Strict.C74_eval`: **C74 (`RuleSet.eval`).** The same for `eval`, up to the stored activations (the prediction made for the criterion can change them, `C22_changes_false`).

### C75. The prediction of a ruleset at a point depends on the rules active there only

If at some point the same rules of two rulesets are active, in whatever order and whatever the other rules are, then both rulesets predict the same at this point: with the same weights or without, for regression and classification. In particular sorting a ruleset does not change its predictions.

Modelled: From C21-C24 (`predict` gives the weighted mean, the mean, the class which wins): the sums which these speak of are over the active rules, hence equal for permuted lists of active rules, and the mean and the class are determined by the sums. Sorting with C27.

Status: partial. False when a weighted sum is zero: a rule which predicts zero gives 0 alone and NaN after another rule which is not active at the point (C75_zero_false). False of stacked votes when fewer than two points are decided (C75_stacked_false). With stacked activations only the heaviest active rules vote (C75_weighted_votes_stacked_partial). Sums of exact numbers: with floats the order of the rules can change the last digits.

* `Verif.ActiveProps.C75_weighted_means_partial`: **C75 (weighted means).** Two rulesets of regression rules which have the same active rules at a point, in whatever order and whatever their other rules, predict the same there with the same weights. Missing: sums which are zero (`C75_zero_false`).
* `Verif.ActiveProps.C75_means_partial`: **C75 (plain means).** So do they without weights. Missing: sums which are zero (`C75_zero_false`), and what C22 says of more than 255 active rules.
* `Verif.ActiveProps.C75_weighted_votes_partial`: **C75 (votes with weights).** So do rulesets of classification rules, with weights. Missing: weights which are negative, and rulesets without an active rule which has a weight, which raise (`C23_none_false`); for stacked activations see `C75_weighted_votes_stacked_partial`.
* `Verif.ActiveProps.C75_weighted_votes_stacked_partial`: **C75 (votes with weights and stacked activations).** So do they with stacked activations, where only the heaviest rules count. Missing: fewer than two decided points (`C75_stacked_false`).
* `Verif.ActiveProps.C75_votes_partial`: **C75 (votes without weights).** Missing: stacked activations with fewer than two decided points (`C75_stacked_false`).
* `Verif.ActiveProps.C75_sort_votes`: **C75 (sorting).** Sorting a ruleset of classification rules whose activations are not stacked, with or without criterion, whether it raises or not, does not change what the ruleset predicts.
* `Verif.ActiveProps.C75_sort_weighted_votes`: **C75 (sorting, weighted votes).**
* `Verif.ActiveProps.C75_sort_means_partial`: **C75 (sorting, means).** The same for regression rules. Missing: rules which predict zero or sums which are zero (`C75_zero_false`).
* `Verif.ActiveProps.C75_zero_false`: **C75 is false of sums which are zero:** a rule predicts zero at the only point where it is active; with another rule before it, which is active elsewhere only, the prediction there is missing.
* `Verif.ActiveProps.C75_stacked_false`: **C75 is false of votes with stacked activations:** the class of the second point goes to the first one when no other point is decided; with one more rule, active at the last point only, it stays where it is.

### C76. Repeating every point leaves the fitted rule as it is

Let every point (features and target) of a data set occur k times, k > 0, in another one, in any order. Fitting a rule to either gives it the same coverage; if both fits leave it good, or with force_if_not_good, it gets the same prediction and sign (regression) or the same class frequencies and predicted class (classification). Mean squared and absolute error and the success rate do not change either. The standard deviation does change, by a known factor.

Modelled: Conditions are evaluated row by row (as for C67), so that activation vector and targets are repeated together; then C19, C20, C33 and C37 say what the figures are, in terms of sums and counts, which are all multiplied by k (`RepeatLemmas`).

Status: proved. Thresholds on train_set_size, std or zscore may reject the rule in one fit only, hence the hypothesis that both leave it good. Numbers are exact: with floats the mean of repeated targets can differ in the last digits.

* `Verif.RepeatProps.C76_coverage`: **C76 (coverage).** Fitting a rule to data in which every point occurs `k` times, in whatever order, gives it the same coverage as fitting it to the data where every point occurs once.
* `Verif.RepeatProps.C76_regression`: **C76 (regression).** It also predicts the same, with the same sign.
* `Verif.RepeatProps.C76_classes`: **C76 (classes).** A classification rule gets the same frequencies of classes, hence predicts the same class.
* `Verif.RepeatProps.C76_std`: **C76 (standard deviation).** The standard deviation changes, since the sum of squares is divided by the number of points minus one: of `n` targets, each occurring `k` times, it is the root of the variance multiplied by `k (n - 1) / (k n - 1)`.
* `Verif.RepeatProps.C76_errors`: **C76 (errors).** Mean squared and mean absolute errors, and the success rate, of predictions and targets which all occur `k` times
* `Verif.RepeatProps.C76_success_rate`: **C76 (success rate).**

### C77. Elements of nested lists in their order

traverse(o) yields each element of nested lists, tuples and rulesets which is not nested further, once and from left to right; none of what it yields is of a class to be traversed; traversing the result again, grouped in whatever way, yields the same. The features names of a loaded ruleset are those of its rules.

Modelled: Positions are lists of indexes, in lexicographic order; by induction on nested objects, the positions of the items one after the other, each preceded by its index, are those of the object (`positions_all`).

Status: proved. Objects which contain themselves, or nested deeper than the recursion limit of Python, are not modelled.

* `Verif.TraverseProps.C77_positions`: **C77 (order).** `traverse` yields what is found at the positions of the elements which are not nested further: all of them, each once, from left to right.
* `Verif.TraverseProps.C77_elements`: **C77 (elements).** Nothing which it yields is of one of the classes to be traversed.
* `Verif.TraverseProps.C77_again`: **C77 (again).** Traversing the list of what it yields, or any list or tuple with the same elements grouped otherwise, yields the same.
* `Verif.TraverseProps.C77_names`: **C77 (names).** After `load`, the ruleset has the names of the features of its rules: this is what `traverse` yields, the names of one rule after the other.
* `Verif.TraverseProps.C77_load`: The names which the model of `load` keeps are those which `traverse` yields.

### C78. Only the points inside a rule decide what it predicts

Two data sets, of whatever size and form, have the same targets at the points which the condition of a rule selects. Fitting the rule to either gives it the same prediction (the same frequencies of classes), standard deviation and sign, and evaluating it on either gives it the same criterion: points outside the rule, where it says nothing, do not matter. The same for the rules of a ruleset.

Modelled: What `extract` gives for the activation of a rule is the list of the targets inside (`extract_inside`, from C11); mean, deviation, classes and success rate are functions of it which do not depend on its order; errors outside are NaN and dropped (`errors_activated`).

Status: partial. Prediction, deviation, sign, classes, success rate and rulesets: full (the rule is good after both fits, or force_if_not_good). Criterion of regression rules: for mse and mae; false for the default measure mse_norm, which divides by the error of the mean of all targets (C78_default_false). Exact arithmetic.

* `Verif.InsideProps.C78_regression`: **C78 (regression).** A rule is fitted to two data sets which have the same targets at the points inside the hyper-rectangle of the rule. If both fits go through and the rule is good after both (or with `force_if_not_good`), it gets the same prediction, sign and standard deviation. The points outside, their targets and their number, do not matter.
* `Verif.InsideProps.C78_classes`: **C78 (classes).** The same for a classification rule: it gets the same frequencies of classes and predicts the same class.
* `Verif.InsideProps.C78_criterion_partial`: **C78 (criterion, regression).** A rule which predicts a number is evaluated, with the mean squared error or the mean absolute error as measure, on two data sets which have the same targets inside the rule: it gets the same criterion. Missing: the other measures, among them the default one, divide by an error of all points (`C78_default_false`).
* `Verif.InsideProps.C78_success`: **C78 (criterion, classes).** The success rate of a classification rule
* `Verif.InsideProps.C78_default_false`: **C78 is false of the default criterion of regression rules**: the mean squared error of the points inside is divided by the one of the mean of all targets, so that a larger target at a point outside, where the rule says nothing, improves the criterion of the rule.
* `Verif.InsideProps.C78_set`: **C78 (rulesets).** A ruleset whose rules have different conditions is fitted to two data sets which have the same targets inside each of its rules. A rule kept by both fits has the same prediction after both; the same standard deviation and sign for regression.

### C79. A narrower rule covers fewer points

If a condition has all the features of another one, with bounds inside, and possibly further features, then on every data set it selects only points which the other one selects; fitted on the same points its rule has at most the coverage of the other rule; intersecting both gives what the narrower one selects; and adding narrower rules to a ruleset does not change the points the ruleset selects. Conversely a condition which can be satisfied and selects no other points than another one, on all arrays, is narrower.

Modelled: From C11, C13, C37 and C55: bounds inside give inclusion of hyper-rectangles; for the converse a row with one value inside each bound, missing elsewhere, is evaluated, and the value moved to the bounds.

Status: proved. Full for columns which the data have; the intersection for bounds which are not NaN (see C13). The converse for arrays and columns given by indexes from 0. That `in` between the rules says so is C47, and false for rules with fewer points.

* `Verif.NarrowProps.C79_points`: **C79 (points).** The condition of `r` has all features of the condition of `s`, with bounds inside those of `s`, and possibly other features. Every point activated by `r` is activated by `s`: for arrays, DataFrames, missing and infinite values, infinite bounds and conditions which nothing satisfies.
* `Verif.NarrowProps.C79_coverage`: **C79 (coverage).** After fitting both rules on the same points, each with its own targets and settings, the coverage of the narrower rule is at most the one of the wider rule.
* `Verif.NarrowProps.C79_union`: **C79 (rulesets).** Adding rules narrower than rules which a ruleset has does not change the points it selects.
* `Verif.NarrowProps.C79_meet`: **C79 (intersection).** The intersection of a condition with a wider one selects what the condition selects.
* `Verif.NarrowProps.C79_exact`: **C79 (converse).** Two conditions on different columns of arrays with `n` columns, the first of which can be satisfied: on all these arrays the first one selects no other points than the second one exactly when it has all its features, with bounds inside.

### C80. The coverage of a ruleset lies between those of its rules and their sum

No rule of a ruleset covers a larger share of the points than the ruleset. The ruleset covers at most everything and at most the sum of the coverages of its rules, and exactly the sum if and only if no two of its rules have a point in common. A ruleset with more rules covers at least as much, and the union of two rulesets at most as much as both together.

Modelled: From C28: the activation of the ruleset is the union; the numbers of points are compared by counting. After fit, C37 and C55 say which points each rule marks.

Status: partial. Full for building and for fit. False after an eval which drops a rule (`C80_eval_false`: the ruleset then covers nothing, see C28) and when the coverage of a rule was assigned (`C80_assigned_false`); the theorems therefore speak of computed coverages.

* `Verif.SetCoverProps.C80_built`: **C80 (building).** After any sequence of constructions, appends, additions, sorts and assignments of `rules`, with rules which all have an activation of the same points and whose coverages nobody assigned.
* `Verif.SetCoverProps.C80_fit`: **C80 (fit).** After `fit` with features, for the rules which are left. The points which a rule marks are those in its hyper-rectangle.
* `Verif.SetCoverProps.C80_eval_false`: **C80 is false after `eval` which drops a rule:** the ruleset covers nothing (see `C28_eval_zeros_false`), its rules do.
* `Verif.SetCoverProps.C80_assigned_false`: **C80 is false when a coverage was assigned:** the rule says what was assigned, the ruleset what the activations say.
* `Verif.SetCoverProps.C80_more`: **C80 (more rules).** A ruleset with more rules covers at least as much; and a ruleset whose rules are those of two others covers at most as much as both of them together.

### C81. The version names the source

`ruleskit.__version__` identifies what is installed. In a checkout it is the closest tag (without its v) if the tree is exactly the tagged one, and otherwise the tag with the number of commits since, the hash and whether there are changes; two checkouts with the same version agree in all this. In an archive it is the smallest of the version tags of the commit, in whatever order they are listed, never a tag which only extends another one (2.0rc1 and 2.0), and the version of a clean checkout of the same tag. Without either it is what follows `ruleskit-` in the name of one of the three directories above, else 0+unknown. The date is that of the commit.

Modelled: `Version.lean` models the three methods and the rendering; the texts which git prints are described in `VersionSpec.lean`. Cutting at the last hyphens gives back the pieces because hashes and numbers have none; the number is read and printed again.

Status: partial. Full for the configuration of the package, with what git prints given. That the version identifies the checkout is false for tags with a plus sign (`C81_plus_false`). If git fails after its first commands an exception leaves the import (`C81_raises_false`). In an archive the tags are compared as texts, so that neither the newest nor the oldest version is taken (`C81_smallest_false`). The branch is found by git (`C81_branch`, `C81_detached`) but not part of the version.

* `Verif.VersionProps.C81_branch`: **C81 (branch).** On a branch, the pieces found by git name this branch.
* `Verif.VersionProps.C81_detached`: **C81 (detached).** Without a branch, the pieces found by git name the branch `master` if it contains the commit, otherwise the first branch which does, otherwise none.
* `Verif.VersionProps.C81_checkout`: **C81 (checkout).** In a checkout whose closest tag is `v…`, the version is the rest of the tag if the tree is exactly the tagged one, and otherwise this with the number of commits since, the hash and whether there are changes. The revision is the commit.
* `Verif.VersionProps.C81_identifies_partial`: **C81 (identifies).** Two checkouts with the same version have the same tag, and they are both exactly the tagged tree, or have the same number of commits since, the same hash and both changes or both none. Missing: tags with a `+` (`C81_plus_false`).
* `Verif.VersionProps.C81_plus_false`: **C81 is false for tags with a `+`:** the tag `v1.0+3.gabc` and three commits after the tag `v1.0` have the same version.
* `Verif.VersionProps.C81_date`: **C81 (date).** The date of the version is that of the commit, in the form of ISO 8601, also if lines of a signature come first.
* `Verif.VersionProps.C81_untagged`: **C81 (no tag).** Without a tag, the version says so, with the number of all commits, the first seven characters of the hash and whether there are changes.
* `Verif.VersionProps.C81_raises_false`: **The import may fail:** if git knows the commit but not its date, `get_versions` raises an exception.
* `Verif.VersionProps.C81_unpacked`: **C81 (neither).** Without archive and git, the version is what follows `ruleskit-` in the name of the nearest of the three directories above the package with such a name, and `0+unknown` otherwise. There is no exception.
* `Verif.VersionProps.C81_archive`: **C81 (archive).** In an archive, the version is the smallest of the version tags of the commit (in the order of texts), and `0+unknown` if there is none; the revision is the commit.
* `Verif.VersionProps.C81_archive_order`: **C81 (order of the names).** The order and the number of times in which the names are listed do not matter.
* `Verif.VersionProps.C81_release`: **C81 (release).** A tag which is another one with something appended, as `v2.0rc1` and `v2.0`, is not taken.
* `Verif.VersionProps.C81_agree`: **C81 (archive and checkout).** If the commit has one version tag, an archive of it has the version of a checkout of the tag without changes.
* `Verif.VersionProps.C81_smallest_false`: **Not the latest version:** of the tags `v9.0` and `v10.0` of one commit the archive takes the second one, of `v1.9` and `v1.10` too. It is the smallest text, neither the largest nor the smallest number.

### C82. Attributes which a ruleset takes from its activation

A ruleset answers to the names of its activation which it does not have itself: `ruleset.length`, `raw`, `ones`, `nones`, `coverage`, `entropy`, `rel_entropy`, `as_bitarray`, `as_integer`, `as_compressed_array` and `as_compressed_str` are those of the vector which its activation stands for, in whatever form it is stored, and asking (even twice, as `hasattr` does before) changes neither the ruleset nor any activation. `ruleset.coverage` is `ruleset.ruleset_coverage`. Without activation these names raise AttributeError, so that `hasattr` is False.

Modelled: `SetAttr.lean` models `__getattr__` over the shared activations of C52; `hasattr` runs the property and lets exceptions other than AttributeError through. The two runs of the property each follow from C03.

Status: partial. Full for rulesets whose activation is there or which have none. After `del_activation`, for a ruleset without rules, and for a loaded one the two coverages differ and `hasattr` may raise (`C82_deleted_false`, `C82_empty_false`, `C82_loaded_false`).

* `Verif.SetHeapProps.C82_read`: **C82.** `ruleset.length`, `.raw`, `.ones`, `.nones`, `.coverage`, `.entropy`, `.rel_entropy` and the encodings, which a ruleset takes from its activation, are those of the vector which the activation stands for; reading them changes neither the ruleset nor what any activation of the program stands for.
* `Verif.SetHeapProps.C82_coverage`: **C82 (coverage).** While the activation of a ruleset is there, `ruleset.coverage` is `ruleset.ruleset_coverage`.
* `Verif.SetHeapProps.C82_none`: **C82 (no activation).** Without activation all these names raise `AttributeError`.
* `Verif.SetHeapProps.C82_empty_false`: **C82 is false of a ruleset without rules**: its activation is the empty vector; `ruleset.coverage`, and so `hasattr(ruleset, "coverage")`, raises `ZeroDivisionError`, while `ruleset.ruleset_coverage` is `None` and `ruleset.length` is 0.
* `Verif.SetHeapProps.C82_deleted_false`: **C82 is false after `del_activation`**: `ruleset.coverage` still answers while `ruleset.ruleset_coverage` is `None`; `ruleset.length` is the number of points, and `ruleset.raw` raises `TypeError`, so that `hasattr(ruleset, "raw")` raises as well.
* `Verif.SetHeapProps.C82_loaded_false`: **C82 is false of a loaded ruleset**: its coverage was read from the file, and `ruleset.ruleset_coverage` is that; `ruleset.coverage` raises `AttributeError`.
* `Verif.SetHeapProps.C82_deleted_encodings`: **C82 (no encoding after `del_activation`).** Once `del_activation` has deleted an activation which is not in a file, the compressed forms of the ruleset raise `AttributeError`, and nothing changes.
* `Verif.SetHeapProps.C82_activation_none`: **C82 (`ruleset.activation`).** Without activation, or with the one of no points which a ruleset without rules has, `ruleset.activation` is `None`.

### C83. A loaded ruleset predicts like the saved one

After `ruleset.save(path)` and `load(path)` into a new ruleset, `predict(xs)` of the loaded ruleset is `predict(xs)` of the saved one for any features, without weights, with a Series of weights, or with weights taken from an attribute which is saved (prediction, coverage, criterion, and zscore and std for regression); the exceptions raised are the same too. So are `evaluate(xs)`, the predictions of every rule, and what `calc_criterion` computes on any points.

Modelled: Composes the loading of C29 (`Save.lean`) with `predict`, `evaluate` and `calc_criterion` (`RuleSetFit.lean`, `Vote.lean`): rules with the same condition and prediction vote alike, whatever their stored activations, when features are given.

Status: partial. Full for predictions which do not use stacked activations. With `STACKED_FIT` the loaded ruleset predicts differently (`C83_stacked_false`), and without features it raises ValueError, as activations are not saved (`C83_remembered`, `C83_remembered_false`).

* `Verif.SaveProps.C83_rules`: **C83 (rules).** Every rule which is loaded predicts on any features what the rule which was saved predicts.
* `Verif.SaveProps.C83_predict_partial`: **C83 (ruleset), partial.** On any features the ruleset which is loaded predicts what the one which was saved predicts, or raises the same exception: without weights, with weights by name of rule or with an attribute which is saved. Missing: rulesets with stacked activations under `STACKED_FIT`, for which it is false (`C83_stacked_false`), and predictions for the remembered activations, which are not saved (`C83_remembered_false`).
* `Verif.SaveProps.C83_evaluate`: **C83 (points).** On any features the ruleset which is loaded selects the points which the one which was saved selects.
* `Verif.SaveProps.C83_criterion_partial`: **C83 (criterion), partial.** On any points and for any measure `calc_criterion` gives the ruleset which is loaded the criterion which it gives the one which was saved, or raises the same. Missing: as for `C83_predict_partial`.
* `Verif.SaveProps.C83_stacked_false`: **C83 is false of predictions from stacked activations.** With `STACKED_FIT` set, the two rules with weights 1 raise `ValueError` on features where none is active; the ruleset which is loaded has no stacked activations and predicts NaN.
* `Verif.SaveProps.C83_remembered`: **C83 (remembered activations).** They are not saved: without features every ruleset which is loaded raises `ValueError`.
* `Verif.SaveProps.C83_remembered_false`: **C83 is false of remembered activations**: the two rules, once fitted, predict for the points they were fitted on without being given features; the ruleset which is loaded raises `ValueError`.

### C84. The ruleset of a decision tree predicts like the tree

The ruleset extracted from the leaves of a decision tree (`extract_rules_from_tree(tree, ..., get_leaf=True)`) predicts, for every sample, what the tree predicts: the value of the leaf in which the sample falls for a regression tree, with or without positive weights, and the first class with the most points in this leaf for a classifier.

Modelled: Composes the extraction of C30 (`Tree.lean`) with the predictions of C21, C22 and C24: exactly one rule is active at each sample. The tree and what it predicts are specified apart (`TreeSpec.lean`, `TreePredictSpec.lean`).

Status: partial. For samples between xmins and xmaxs and not on thresholds, trees which do not return to the right of a feature, and leaves whose value is not 0. For the others it is false (`C84_threshold_false`, `C84_return_false`, `C84_zero_false`, `C84_zero_first_false`). Classes given as texts are missing.

* `Verif.TreeProps.C84_regression_partial`: **C84 (regression), partial.** The ruleset of the leaves of a regression tree predicts for each sample the value of the leaf in which the sample falls. Missing: leaves with the value 0 (`C84_zero_false`, `C84_zero_first_false`), trees which return to a feature (`C84_return_false`) and samples on thresholds (`C84_threshold_false`), for which it is false; features out of bounds, given in a DataFrame, or which cannot be stored.
* `Verif.TreeProps.C84_weighted_partial`: **C84 (regression, weights), partial.** The same with any positive weights, as one rule only is active at each sample. Missing: as for `C84_regression_partial`.
* `Verif.TreeProps.C84_classes_partial`: **C84 (classes), partial.** The ruleset of the leaves of a tree for classes predicts for each sample the class which has the most points in the leaf in which the sample falls. Missing: as for `C84_regression_partial`, except leaves with the value 0; classes which are texts (the model does not distinguish the list of the tree from the array of `fit`, in which the numbers are texts when the classes are).
* `Verif.TreeProps.C84_zero_false`: **C84 is false of a leaf with the value 0**: its samples are predicted NaN.
* `Verif.TreeProps.C84_zero_first_false`: **C84 is false of a first leaf with the value 0**: predicting raises `TypeError`.
* `Verif.TreeProps.C84_threshold_false`: **C84 is false of samples equal to a threshold**: the prediction is the mean of the two leaves.
* `Verif.TreeProps.C84_return_false`: **C84 is false of trees which return to a feature**: for `a = 7` and `b = 2` the tree `someTree` says 40, its rules 35.

### C85. Weights count by their ratios

Multiplying all weights given to `predict`, `calc_criterion` or `eval` by the same positive number changes nothing; a rule whose weight is 0, NaN or not given is as if it were not in the ruleset; and giving every rule the same positive weight is like giving no weights.

Modelled: The four computations of predictions in `Vote.lean`, under `RuleSet.predict`, `calcCriterion` and `eval` of `RuleSetFit.lean`. Weights are compared by `WeightRatioSpec.lean`, which does not mention predictions.

Status: partial. The factor: full, including exceptions and the ruleset afterwards. Weight 0: full without stacked activations. Equal weights: full for classes without stacked activations, for at most 255 regression rules, and with stacked activations if some rule is active somewhere and no class is called "nan". False of 256 regression rules (`C85_equal_false`), of stacked activations without active rule (`C85_stacked_false`), and of a class called "nan" if the first rule is active nowhere (`C85_idle_nan_false`). Factors are exact rationals: that floats round differently is not modelled.

* `Verif.IdleColumnProps.C85_equal_stacked_idle_partial`: **C85 (equal weights, stacked activations, idle rules), partial.** With stacked activations under `STACKED_FIT`, rules of either kind which all have the same positive weight predict what they predict without weights, or raise the same exception, even if some of them, not all, are active at no point. Missing: a class called "nan", for which it is false if the first rule is active at no point (`C85_idle_nan_false`); if all rules are active at no point it is false (`C85_stacked_false`).
* `Verif.IdleColumnProps.C85_idle_nan_false`: **C85, violation (a class called "nan").** When the first rule is active at no point, the class "nan" is predicted without weights, but missing with equal weights, which leave out the column of the first rule.
* `Verif.WeightRatioProps.C85_scale`: **C85 (a factor, predict).** Multiplying every weight by the same positive number changes nothing: the same predictions or the same exception, and the same ruleset afterwards, with or without features, stacked activations, missing weights and negative ones.
* `Verif.WeightRatioProps.C85_scale_criterion`: **C85 (a factor, calc_criterion).** Nor does it change the criterion of the ruleset.
* `Verif.WeightRatioProps.C85_scale_eval`: **C85 (a factor, eval).** Nor does it change what `eval` returns, or the ruleset which it leaves.
* `Verif.WeightRatioProps.C85_factor_false`: **C85 needs a positive factor.** With factor 0 there are no weights left, and `predict` raises.
* `Verif.WeightRatioProps.C85_zero`: **C85 (weight 0).** Without stacked activations, a ruleset predicts what it predicts without its rules whose weight is 0, NaN or not in the Series, or raises the same exception.
* `Verif.WeightRatioProps.C85_none`: **C85 (no weight).** If every rule has weight 0, NaN or none, `predict` raises `ValueError` and leaves the ruleset as it is.
* `Verif.WeightRatioProps.C85_equal_classes`: **C85 (equal weights, classes).** Without stacked activations, classification rules which all have the same positive weight predict what they predict without weights, or raise the same exception.
* `Verif.WeightRatioProps.C85_equal_numbers_partial`: **C85 (equal weights, numbers), partial.** Without stacked activations, at most 255 regression rules which all have the same positive weight predict what they predict without weights, or raise the same exception; remembered activations are made of 0 and 1. Missing: more rules, for which it is false (`C85_equal_false`).
* `Verif.WeightRatioProps.C85_equal_false`: **C85 is false of 256 regression rules.** Each predicts 2 at the only point, with weight 1 as well; without weights the number of rules, a byte, is 0 and the prediction infinite.
* `Verif.WeightRatioProps.C85_equal_stacked_partial`: **C85 (equal weights, stacked activations), partial.** With stacked activations under `STACKED_FIT`, rules of either kind which all have the same positive weight predict what they predict without weights, or raise the same exception. Missing: rules which are active at no point, for which see `C85_equal_stacked_idle_partial`; if all are, it is false (`C85_stacked_false`).
* `Verif.WeightRatioProps.C85_zero_stacked_partial`: **C85 (weight 0, stacked activations), partial.** With stacked activations under `STACKED_FIT`, a ruleset predicts what it predicts without its rules whose weight is 0, NaN or not in the Series, or raises the same exception. Missing: rules with the same condition text, which share a column (`C25_same_text_false`), and classes of which some are numbers and some are texts.
* `Verif.WeightRatioProps.C85_stacked_false`: **C85 is false of stacked activations where no rule is active.** With equal weights `predict` raises `ValueError`, without weights it predicts NaN.

### C86. Features are numbered by the table of all features

When `RuleSet.all_features_indexes` is set, every rule of a ruleset which is made reads its features in the columns which the table gives them, and nothing else about the rules changes: on DataFrames they are active where they were. A table which lacks a feature of a rule makes the constructor raise KeyError; any other table is accepted where the rules are accepted without it.

Modelled: `set_features_indexes` and the constructor in `RuleSet.lean`; the evaluation in `Condition.lean`; rule objects held by several rulesets in `SharedRules.lean`. The table is read by `FeatureTableSpec.lean` as a set of pairs.

Status: partial. Full for the constructor. False of rules which are added with `+=` or `append` (`C86_added_false`): they keep their own number, so that one ruleset reads the same feature in two columns. The numbers are written into the rules given, so that rulesets made before change (`C86_shared_false`).

* `Verif.FeatureTableProps.C86_make`: **C86 (numbers).** If the class attribute `all_features_indexes` is not empty, each rule of a ruleset which is made has for each of its features the number of the table, and is otherwise as given; the indexes of the ruleset are the numbers of its features.
* `Verif.FeatureTableProps.C86_columns`: **C86 (columns).** A rule with the numbers of the table is active on the rows of an array whose values, in the columns which the table gives to its features, are finite and within its bounds.
* `Verif.FeatureTableProps.C86_frames`: **C86 (DataFrames).** On DataFrames, where features are found by name, the rules are active where they were before.
* `Verif.FeatureTableProps.C86_unknown`: **C86 (unknown features).** A ruleset which can be made without table cannot be made with a table which lacks a feature of one of its rules: `KeyError`.
* `Verif.FeatureTableProps.C86_known`: **C86 (known features).** It can be made with every table which has all features of its rules, and is the same but for the numbers. A ruleset whose rules have no features at all is only compared without `CHECK_DUPLICATED`.
* `Verif.FeatureTableProps.C86_added_false`: **C86 is false of rules which are added.** `ruleset += rule` and `ruleset.append(rule)` do not look at the table: the rule added reads column 0 and the rule before it, on the same feature, column 7; and the ruleset says that it reads both.
* `Verif.FeatureTableProps.C86_shared_false`: **C86: rulesets made before change.** A ruleset was made before the table was set. A slice of it, made after, gives the rule which both share its number in the table: the first ruleset then has two numbers for the same feature, and predicts otherwise.

### C87. A condition can be read as the sequence of its features

`c[k]` is the name, the index and the lower and upper bound of the k-th feature of a condition, negative places being counted from the end; other places raise IndexError; `len(c)` is the number of features and `for feature in c` goes through all of them in order and ends.

Modelled: `__getitem__` and `__len__` in `Condition.lean`; Python's iteration by places in `ConditionItems.lean`.

Status: partial. Full for conditions with features. An empty condition has length 0 but raises TypeError when it is iterated (`C87_empty_false`). Slices as places are not modelled.

* `Verif.ConditionItemsProps.C87_item`: **C87 (from the beginning).** `c[k]` is the name, the index and the two bounds of the feature at place `k`.
* `Verif.ConditionItemsProps.C87_last`: **C87 (from the end).** `c[-1]` is the last feature, `c[-2]` the one before.
* `Verif.ConditionItemsProps.C87_outside`: **C87 (outside).** Other places raise `IndexError`.
* `Verif.ConditionItemsProps.C87_iterate`: **C87 (iteration).** `for feature in c` goes through the features in their order and ends.
* `Verif.ConditionItemsProps.C87_len`: **C87 (length).** `len(c)` is the number of features.
* `Verif.ConditionItemsProps.C87_empty_false`: **C87 is false of empty conditions.** A condition made with `empty=True` has length 0 but is not an empty sequence: going through it raises `TypeError`.

### C88. Bounds, names and indexes can be assigned as texts

Assigning the text of a list to `bmins`, `bmaxs`, `features_names` or `features_indexes` of a condition (as when they come from a CSV file) does what assigning the list itself does; a text which cannot be used raises and leaves the condition as it was.

Modelled: Setters in `Condition.lean` (`Arg`, `Arg.bounds`).

Status: partial. True of integers, names and indexes. Of other numbers the digits after the point are lost (`C88_truncated_mins`, `C88_truncated_maxs`, witness `C88_fraction_false`); infinite bounds raise OverflowError (`C88_rejected`). What `ast.literal_eval` makes of a text is an argument of the model.

* `Verif.BoundTextProps.C88_mins_partial`: **C88, partial (lower bounds).** Assigning a text which is a list of integers to `bmins` does what assigning the list does. Missing: other numbers, of which the digits after the point are lost (`C88_truncated_mins`, `C88_fraction_false`).
* `Verif.BoundTextProps.C88_maxs_partial`: **C88, partial (upper bounds).** The same for `bmaxs`. Missing: other numbers than integers.
* `Verif.BoundTextProps.C88_truncated_mins`: **C88 (what the lower bounds are).** A text of as many finite numbers as there are features is accepted; the lower bounds are then these numbers without their digits after the point, the rest is as before, and the condition is impossible if it was so or if a lower bound is above its upper bound now.
* `Verif.BoundTextProps.C88_truncated_maxs`: **C88 (what the upper bounds are).** A text of as many finite numbers as there are features is accepted; the upper bounds are then these numbers without their digits after the point, the rest is as before, and the condition is impossible if it was so or if a lower bound is above its upper bound now.
* `Verif.BoundTextProps.C88_rejected`: **C88 (rejected texts).** A text which is no literal raises the exception of `ast.literal_eval`, one with an infinite number `OverflowError`, one with NaN `ValueError`, one with another number of values than there are features `IndexError`; the condition is as before.
* `Verif.BoundTextProps.C88_names_indexes`: **C88 (names and indexes).** A text of names or of indexes does what the list does.
* `Verif.BoundTextProps.C88_fraction_false`: **C88 is false (fractions)**: assigned as texts the bounds 0.5 and 2.5 are other bounds than as lists: 0.2 is in, 2.4 is out.

### C89. Names and indexes which are not given follow the columns

A condition made without names calls its features X_0, X_1, ... after their indexes, never refuses distinct features for this reason, and evaluates a DataFrame with these columns like the array of the same numbers. A condition made without indexes numbers its features in the order of their names. In general an array and a DataFrame of the same numbers are evaluated alike if every feature has the name of its column.

Modelled: The constructor and `evaluate` in `Condition.lean`; the names `X_i` are compared with the texts of integers of Lean.

Status: partial. Full for indexes counted from the beginning. An index counted from the end gets a name which is no column (`C89_negative_false`). Conditions without features raise on DataFrames (`C11_no_feature_false`).

* `Verif.DefaultNamesProps.C89_unnamed`: **C89 (names).** A condition given the indexes and bounds of distinct features without their names is made; its features are called `X_` followed by their index.
* `Verif.DefaultNamesProps.C89_unindexed`: **C89 (indexes).** A condition given the names of features without their indexes is the one which numbers them in the order in which they are given.
* `Verif.DefaultNamesProps.C89_agree`: **C89 (arrays and DataFrames).** A condition on at least one feature evaluates an array like the DataFrame of the same numbers, if every feature has the name of its column.
* `Verif.DefaultNamesProps.C89_unnamed_agree`: **C89 (arrays and DataFrames without names).** A condition made without names evaluates a DataFrame with the columns `X_0`, `X_1`, ... like the array of the same numbers, if its indexes are places of columns counted from the beginning.
* `Verif.DefaultNamesProps.C89_negative_false`: **C89 is false (negative indexes)**: a condition made without names for the last column evaluates an array, but not the DataFrame of the same numbers with the columns `X_0`, `X_1`.

### C90. A ruleset after an operation which raised

An operation of a ruleset which raises leaves the ruleset as it was: predictions, calls of fit and eval, sorting, and adding rules or rulesets.

Modelled: `RuleSetFit.lean`, `RuleSetOps.lean`, `RuleSet.lean`; exceptions are values and the state after them is part of the result.

Status: partial. Full for calls which are refused at once, for predictions which do not write into stored arrays, and for the sizes and the criterion of the ruleset (`C90_figures`). Otherwise what is left is determined: a rule which cannot be fitted or evaluated leaves those before it fitted (`C90_fit_false`), `eval` may already have dropped rules (`C90_eval_false`), `sort` may already have sorted (`C90_sort_false`), plain means may have changed the first activation (`C90_predict_false`), and a rule added may stay (`C32_length_false`). `fit` and `eval` are those with `STACKED_FIT` off.

* `Verif.FailProps.C90_predict_partial`: **C90 (predictions), partial.** `predict` leaves the ruleset as it was, whether it gives predictions or raises, when it does not write into the stored activation of the first rule. Missing: plain means of regression rules without features, whose activations are stored as arrays (`C90_predict_false`).
* `Verif.FailProps.C90_predict_false`: **C90 is false of plain means without features:** the third activation has another length, `predict` raises `ValueError` and has changed the activation of the first rule.
* `Verif.FailProps.C90_refused`: **C90 (refused calls).** A call of `fit` or `eval` which is refused at once leaves the ruleset as it was: without type of the rules, with `method` among the keywords, or, for `eval`, without features when some rule is not fitted.
* `Verif.FailProps.C90_fit_partial`: **C90 (a rule which cannot be fitted), partial.** When fitting one of the rules raises, `fit` of the ruleset raises the same; the rules before it are fitted, those after it and everything else of the ruleset are as they were, and no rule is dropped. Missing: the rules before it stay fitted (`C90_fit_false`).
* `Verif.FailProps.C90_eval_partial`: **C90 (a rule which cannot be evaluated), partial.** The same of `eval`; also the criterion and the size of the test set are as they were. Missing: the rules before it stay evaluated; errors of the criterion are found after rules have been dropped (`C90_eval_false`).
* `Verif.FailProps.C90_fit_false`: **C90 is false of `fit`:** the second rule asks for a column which the features do not have, `fit` raises `IndexError`, the first rule is fitted and the others are not.
* `Verif.FailProps.C90_eval_false`: **C90 is false of `eval`:** with weights which are all zero `eval` raises `ValueError` when it computes the criterion, and the bad rule is already gone.
* `Verif.FailProps.C90_sort_partial`: **C90 (sorting), partial.** When `sort` raises and the ruleset does not stack activations, the ruleset is as it was. Missing: with stacked activations the rules are already sorted (`C90_sort_false`).
* `Verif.FailProps.C90_sort`: **C90 (sorting).** Whatever `sort` raises, no rule is lost and none is added, and only the order of the rules can be another one.
* `Verif.FailProps.C90_sort_false`: **C90 is false of `sort`** of a ruleset which stacks activations and has none: it raises `TypeError` and the rules are in another order.
* `Verif.FailProps.C90_add_partial`: **C90 (adding a rule), partial.** When `+= rule` raises, the ruleset is as it was, or the rule is its last rule; the other rules and the settings are as they were. Missing: the rule may stay (`C32_length_false`).
* `Verif.FailProps.C90_add_set_partial`: **C90 (adding a ruleset), partial.** The same of `+= ruleset`, whose rules are then the last ones. Missing: they may stay.
* `Verif.FailProps.C90_figures`: **C90 (figures).** When `fit` or `eval` raises, wherever the error appears, the sizes of the train and test sets and the criterion of the ruleset are as they were; the same of `calc_criterion`.

### C91. A ruleset of one rule predicts like the rule

A ruleset which has one rule predicts for every point what the rule predicts, with any finite weight other than 0 for the rule, and raises what the rule raises.

Modelled: `Rule.lean`, `Vote.lean`, `RuleSetFit.lean`; the rule by `Rule.predict`, the ruleset by the sums and tables of `rfunctions.py`.

Status: partial. Full for regression rules with at least one feature, without weights, and with a weight for finite predictions. For classes only when the rule is active at some point and the class is a number: a rule active at no point makes the ruleset raise (`C91_idle_false`), and texts are cut and become `nan` in the predictions of the rule (`C91_text_false`). Stacked: plain means of regression rules (`C91_stacked`), rules without features included. The criterion of regression agrees too (`C91_criterion`).

* `Verif.OneRuleProps.C91_criterion`: **C91 (criterion).** The criterion computed for a ruleset of one regression rule, whose predictions are those of the rule, is the one computed for the rule with its activation.
* `Verif.OneRuleProps.C91_regression`: **C91 (plain means).** Not stacked and without weights, a ruleset of one regression rule with at least one feature predicts what the rule predicts, and raises what the rule raises.
* `Verif.OneRuleProps.C91_weighted`: **C91 (weighted means).** With a finite weight other than 0 for the rule, which predicts a finite number or nothing, the ruleset predicts what the rule predicts.
* `Verif.OneRuleProps.C91_classes_partial`: **C91 (votes), partial.** A ruleset of one classification rule, whose class is a number, predicts what the rule predicts, without weights or with a finite weight other than 0, when the rule predicts its class for some point. Missing: rules active at no point (`C91_idle_false`) and texts (`C91_text_partial`, `C91_text_false`).
* `Verif.OneRuleProps.C91_text_partial`: **C91 (votes for a text), partial.** When the class is a text, the ruleset predicts the whole text where the rule predicts its first 32 characters, and NaN where the rule predicts the text `nan`. Missing: the same predictions (`C91_text_false`), and rules active at no point.
* `Verif.OneRuleProps.C91_text_false`: **C91 is false of texts:** the rule predicts the text `nan` for a point it does not cover, the ruleset NaN; of a class of 34 characters the rule predicts the first 32.
* `Verif.OneRuleProps.C91_idle_false`: **C91 is false of classification rules active at no point:** the rule predicts NaN everywhere, the ruleset raises.
* `Verif.OneRuleProps.C91_featureless_false`: **C91 is false of rules without features:** the rule predicts, the ruleset raises.
* `Verif.OneRuleProps.C91_stacked`: **C91 (stacked means).** When predictions are stacked, a ruleset of one regression rule predicts, for features or with the column which holds the activation of the rule, what the rule predicts, and raises what the rule raises; the rule may have no features.

### C92. A rule after a fit or eval which raised

A fit or eval of a rule which raises leaves the rule as it was: a rule is never counted as fitted or evaluated by a call which raised, a fit which raises keeps what comes from the test set, an eval which raises keeps what comes from the train set, and calls refused for their keywords or features change nothing.

Modelled: `Rule.lean`; exceptions are values and the state after them is part of the result.

Status: partial. Full for the flags, the condition, what belongs to the other set, and refused calls. False of the activation and the size of the train set: after targets which are refused, a fitted rule has the activation of the new points and the prediction of the old ones (`C92_fit_false`, `C92_eval_false`).

* `Verif.RuleFailProps.C92_fit_partial`: **C92 (fit), partial.** A `fit` of a rule which raises leaves the condition, the flags, the criterion and the size of the test set as they were. Missing: the activation, the size of the train set and the figures computed before the error (`C92_fit_false`).
* `Verif.RuleFailProps.C92_eval_partial`: **C92 (eval), partial.** An `eval` of a rule which raises leaves the condition, the flags, the prediction and everything else from the train set as they were. Missing: the activation and the criterion (`C92_eval_false`).
* `Verif.RuleFailProps.C92_refused`: **C92 (refused calls).** With `method` among the keywords, `fit` and `eval` raise and leave the rule as it was; so do they when the activation cannot be computed from the features, and an `eval` of a rule without activation which does not compute one.
* `Verif.RuleFailProps.C92_fit_false`: **C92 is false of fit:** the targets are refused, and the rule, which still counts as fitted, has the activation and the number of the new points and the prediction of the old ones.
* `Verif.RuleFailProps.C92_eval_false`: **C92 is false of eval:** the targets are refused, and the rule has the activation of the new points.

### C93. One prediction for every point

When predict of a rule or of a ruleset goes through for given features, it gives exactly one prediction for every row of the features, with or without weights, stacked or not.

Modelled: `Rule.lean`, `Vote.lean`, `RuleSetFit.lean`.

Status: partial. Full for rules and for rulesets which have rules, and, when not stacked, for the points of stored activations (`C93_stored`). A ruleset without rules gives no predictions (`C93_empty_false`). That Series of one element can be squeezed to a number is not modelled.

* `Verif.EachPointProps.C93_rule`: **C93 (rules).** A rule predicts once for every row of the features.
* `Verif.EachPointProps.C93_ruleset_partial`: **C93 (rulesets), partial.** A ruleset which has rules predicts once for every row of the features, with or without weights, stacked or not. Missing: rulesets without rules (`C93_empty_false`).
* `Verif.EachPointProps.C93_stored`: **C93 (rulesets, stored activations).** Without features a ruleset which has rules, and whose predictions are not stacked, predicts once for every point of the activations which the rules have, when these have one length.
* `Verif.EachPointProps.C93_empty_false`: **C93 is false of rulesets without rules:** they predict for no point.
