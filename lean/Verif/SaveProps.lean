import Verif.SaveDemo

/-!
# Properties of saving and loading
-/

namespace Verif.SaveProps

open Verif Save RuleSetProps

/-- C29.  A ruleset which is saved and loaded has the same rules in the same order: same class, condition, prediction, coverage,
criterion and for regression rules z-score and standard deviation.  It also has the same type of rules, the names of features of
the rules and the same size of the train set, which the rules get too (`None` becomes NaN).

Missing: rules which are not `Loadable` (see the theorems below); the size of the test set, the coverage and the criterion of the
ruleset (see below); `read_csv` must not round the numbers of columns of numbers. -/
theorem C29_rules_partial {W : Texts} {R : RsEnv} {by_ : String} {s s0 : RuleSet} {t : Table} (hr : ∀ x, W.csvRound x = x)
    (hk : ∀ m ∈ s.rules, s.ruleType = some m.kind) (hs : ∀ m ∈ s.rules, Loadable W R by_ m) (hsize : IsSize s.trainSize)
    (h : toTable W R s = .ok (some t)) :
    ∃ s', load W R by_ (some t) s0 = (.ok (), s') ∧ List.Forall₂ (SameSaved R) s.rules s'.rules ∧ s'.ruleType = s.ruleType ∧
      s'.names.Perm (s.rules.flatMap fun m => m.rule.cond.names.getD []).dedup ∧
      s'.trainSize = (if s.trainSize = .none then .num .nan else s.trainSize) ∧
      ∀ m ∈ s'.rules, m.rule.trainSize = s'.trainSize := by
  obtain ⟨s', h1, h2, h3, -, -, -, -, h4, -, h5, h6⟩ := load_back (s0 := s0) hr hk hs hsize h
  refine ⟨s', h1, h2, h4, h5, ?_, fun m hm => by rw [(h6 m hm).1, h3]⟩
  rw [h3]
  unfold sizeRead
  cases s.trainSize <;> simp

/-- The table of the two rules -/
def twoTable : Table where
  kind := .regression
  lines := [⟨"['a']", "[0]", "[0/1]", "[9/1]", ["1/1", "1/3", "None", "None", "None"]⟩,
    ⟨"['a']", "[0]", "[1/1]", "[9/1]", ["1/1", "1/3", "None", "None", "None"]⟩]
  coverage := "2/3"
  criterion := ""
  trainSize := ""
  testSize := ""

theorem twoRules_table : toTable someTexts someRs twoRules = .ok (some twoTable) := by decide +kernel

theorem coverage_third (lo : Rat) {v : List Nat} (h : v = [1, 0, 0] ∨ v = [0, 0, 1]) (hlo : lo = 0 ∨ lo = 1) (E : Env) :
    (member lo v).rule.getattr E "coverage" = .ok (.num (.fin (1 / 3))) := by
  unfold Rule.getattr
  rw [if_pos rfl]
  rcases h with rfl | rfl <;> rcases hlo with rfl | rfl <;> decide +kernel

theorem member_loadable (lo : Rat) {v : List Nat} (h : v = [1, 0, 0] ∨ v = [0, 0, 1]) (hlo : lo = 0 ∨ lo = 1) :
    Loadable someTexts someRs "index" (member lo v) where
  made := ⟨some [.int 0], some [.float (.fin lo)], some [.float (.fin 9)], some [.str "a"], by
    rcases h with rfl | rfl <;> rcases hlo with rfl | rfl <;> decide +kernel⟩
  finite := by
    rintro l (e | e) x hx <;> cases e <;> rw [List.mem_singleton.1 hx] <;> exact ⟨_, rfl⟩
  prediction := by
    intro o e
    cases e
    exact Or.inl (Or.inl ⟨1, rfl⟩)
  figures := by
    intro a ha v' e
    rcases List.mem_cons.1 ha with rfl | ha
    · rw [coverage_third lo h hlo] at e
      cases e
      exact Or.inl ⟨_, rfl⟩
    · rw [List.mem_singleton.1 ha] at e
      cases e
      exact Or.inr (Or.inr ⟨rfl, by decide⟩)
  more := by
    intro _ a ha v' e
    rcases List.mem_cons.1 ha with rfl | ha
    · cases e
      exact Or.inr (Or.inr ⟨rfl, by decide⟩)
    · rw [List.mem_singleton.1 ha] at e
      cases e
      exact Or.inr (Or.inr ⟨rfl, by decide⟩)

theorem twoRules_loadable : ∀ m ∈ twoRules.rules, Loadable someTexts someRs "index" m := by
  intro m hm
  have hm : m ∈ [member 0 [1, 0, 0], member 1 [0, 0, 1]] := hm
  rcases List.mem_cons.1 hm with rfl | hm
  · exact member_loadable 0 (Or.inl rfl) (Or.inl rfl)
  · rw [List.mem_singleton.1 hm]
    exact member_loadable 1 (Or.inr rfl) (Or.inr rfl)

theorem twoRules_kind : ∀ m ∈ twoRules.rules, twoRules.ruleType = some m.kind := by
  intro m hm
  have hm : m ∈ [member 0 [1, 0, 0], member 1 [0, 0, 1]] := hm
  rcases List.mem_cons.1 hm with rfl | hm
  · rfl
  · rw [List.mem_singleton.1 hm]
    rfl

example : ∃ s', load someTexts someRs "index" (some twoTable) (RuleSet.blank false) = (.ok (), s') ∧
    List.Forall₂ (SameSaved someRs) twoRules.rules s'.rules :=
  let ⟨s', h1, h2, _⟩ := C29_rules_partial (fun _ => rfl) twoRules_kind twoRules_loadable (Or.inl rfl) twoRules_table
  ⟨s', h1, h2⟩

/-- C29.  An empty ruleset is saved as an empty table and loaded as a ruleset without rules, provided the empty activation can
be stored. -/
theorem C29_empty {W : Texts} {R : RsEnv} {s : RuleSet} (by_ : String) (h : s.rules = []) (hst : R.env.store [] = .ok ())
    (s0 : RuleSet) : toTable W R s = .ok none ∧ ∃ s', load W R by_ none s0 = (.ok (), s') ∧ s'.rules = [] := by
  constructor
  · unfold toTable
    rw [h]
    rfl
  · have hself : ∀ s1 : RuleSet, s1.rules = [] → RuleSet.computeSelf R none s1 = (.ok (), { s1 with act := some [] }) := by
      intro s1 h1
      have e : RuleSet.evaluateSelf R none s1.rules = .ok (some []) := by
        rw [h1]
        unfold RuleSet.evaluateSelf
        simp only [List.length_nil, if_true, hst]
        rfl
      unfold RuleSet.computeSelf
      rw [Py.bind_ok (Py.get_run s1), Py.bind_ok (a := some []) (s' := s1) (by rw [Py.ofExcept_run, e]), Py.modify_run]
    have hstack : ∀ s1 : RuleSet, s1.rules = [] → ∃ s2, RuleSet.stackIf (RuleSet.computeStacked R none) s1 = (.ok (), s2) ∧
        s2.rules = [] := by
      intro s1 h1
      unfold RuleSet.stackIf
      rw [Py.bind_ok (Py.get_run s1)]
      split
      · have e : RuleSet.evaluateStacked R none s1.rules = .ok (some []) := by rw [h1]; rfl
        unfold RuleSet.computeStacked
        rw [Py.bind_ok (Py.get_run s1), Py.bind_ok (a := some []) (s' := s1) (by rw [Py.ofExcept_run, e]), Py.modify_run]
        exact ⟨_, rfl, h1⟩
      · exact ⟨_, rfl, h1⟩
    show ∃ s', setLoaded R [] s0 = (.ok (), s') ∧ s'.rules = []
    unfold setLoaded
    rw [Py.bind_ok (Py.modify_run _ _), Py.bind_ok (hself _ rfl)]
    obtain ⟨s2, e2, h2⟩ := hstack { s0 with rules := [], act := some [] } rfl
    refine ⟨{ s2 with names := R.strings (s2.rules.flatMap fun m => m.rule.cond.names.getD []) }, ?_, h2⟩
    exact Py.bind_ok e2

example : toTable someTexts someRs (RuleSet.blank false) = .ok none ∧
    ∃ s', load someTexts someRs "index" none twoRules = (.ok (), s') ∧ s'.rules = [] := C29_empty "index" rfl rfl twoRules

/-- The two rules with sizes -/
def sizedRules : RuleSet := { twoRules with trainSize := .num (.fin 3), testSize := .num (.fin 1) }

/-- The two rules with a criterion -/
def ratedRules : RuleSet := { twoRules with criterion := .num (.fin (1 / 4)) }

/-- C29 is false: the size of the test set is replaced by the size of the train set. -/
theorem C29_test_size_false : ∃ (s : RuleSet) (t : Table) (s' : RuleSet), (∀ m ∈ s.rules, Loadable someTexts someRs "index" m) ∧
    toTable someTexts someRs s = .ok (some t) ∧ load someTexts someRs "index" (some t) (RuleSet.blank false) = (.ok (), s') ∧
    s.trainSize = .num (.fin 3) ∧ s.testSize = .num (.fin 1) ∧ s'.testSize = .num (.fin 3) := by
  have ht : toTable someTexts someRs sizedRules =
      .ok (some { twoTable with trainSize := "3", testSize := "3" }) := by decide +kernel
  obtain ⟨s', h1, -, -, h2, -⟩ := load_back (s := sizedRules) (by_ := "index") (s0 := RuleSet.blank false) (fun _ => rfl) twoRules_kind twoRules_loadable
    (Or.inr (Or.inr ⟨3, rfl⟩)) ht
  exact ⟨sizedRules, _, s', twoRules_loadable, ht, h1, rfl, rfl, h2⟩

/-- C29 is false: the coverage and the criterion of the ruleset come back as texts. -/
theorem C29_figures_false : ∃ (s : RuleSet) (t : Table) (s' : RuleSet), (∀ m ∈ s.rules, Loadable someTexts someRs "index" m) ∧
    toTable someTexts someRs s = .ok (some t) ∧ load someTexts someRs "index" (some t) (RuleSet.blank false) = (.ok (), s') ∧
    s.rulesetCoverage = .num (.fin (2 / 3)) ∧ s'.rulesetCoverage = .str "2/3" ∧
    s.criterion = .num (.fin (1 / 4)) ∧ s'.criterion = .str "1/4" := by
  have ht : toTable someTexts someRs ratedRules =
      .ok (some { twoTable with criterion := "1/4" }) := by decide +kernel
  obtain ⟨s', h1, -, -, -, h2, h3, h4, -⟩ := load_back (s := ratedRules) (by_ := "index") (s0 := RuleSet.blank false) (fun _ => rfl) twoRules_kind
    twoRules_loadable (Or.inl rfl) ht
  refine ⟨ratedRules, _, s', twoRules_loadable, ht, h1, by decide +kernel, ?_, rfl, ?_⟩
  · unfold RuleSet.rulesetCoverage RuleSet.available
    rw [h4]
    simp only
    rw [h2]
    decide +kernel
  · rw [h3]
    decide +kernel

/-- A ruleset with one rule -/
def oneRule (m : Member) : RuleSet := { RuleSet.blank false with rules := [m], ruleType := some m.kind, names := ["a"] }

/-- A regression rule with these bounds -/
def bounded (lo hi : Num) : Member :=
  ⟨.regression, { Rule.blank { indexes := some [0], bmins := some [lo], bmaxs := some [hi], names := some ["a"], impossible := false }
    none with prediction := .label (.num (.fin 1)) }⟩

/-- C29 is false: a ruleset with an infinite bound or a bound which is NaN is saved, but loading it raises `ValueError`. -/
theorem C29_bounds_false : ∀ hi ∈ [Num.inf, Num.nan], ∃ (t : Table),
    Made "index" (bounded (.fin 0) hi).rule.cond ∧
    toTable someTexts someRs (oneRule (bounded (.fin 0) hi)) = .ok (some t) ∧
    (load someTexts someRs "index" (some t) (RuleSet.blank false)).1 = .error .valueError := by
  intro hi h
  rcases List.mem_cons.1 h with rfl | h
  · exact ⟨{ kind := .regression, lines := [⟨"['a']", "[0]", "[0/1]", "[inf]", ["1/1", "None", "None", "None", "None"]⟩],
             coverage := "", criterion := "", trainSize := "", testSize := "" },
      ⟨some [.int 0], some [.float (.fin 0)], some [.float .inf], some [.str "a"], by decide +kernel⟩,
      by decide +kernel, by decide +kernel⟩
  · rw [List.mem_singleton.1 h]
    exact ⟨{ kind := .regression, lines := [⟨"['a']", "[0]", "[0/1]", "[nan]", ["1/1", "None", "None", "None", "None"]⟩],
             coverage := "", criterion := "", trainSize := "", testSize := "" },
      ⟨some [.int 0], some [.float (.fin 0)], some [.float .nan], some [.str "a"], by decide +kernel⟩,
      by decide +kernel, by decide +kernel⟩

/-- A classification rule which predicts this class -/
def classifier (t : String) : Member :=
  ⟨.classification, { Rule.blank { indexes := some [0], bmins := some [.fin 0], bmaxs := some [.fin 9], names := some ["a"],
                                   impossible := false } none with prediction := .label (.text t) }⟩

/-- The table of such a rule -/
def classTable (t : String) : Table :=
  { kind := .classification, lines := [⟨"['a']", "[0]", "[0/1]", "[9/1]", [t, "None", "None"]⟩],
    coverage := "", criterion := "", trainSize := "", testSize := "" }

/-- C29 is false: a ruleset with a class of two words is saved, but loading it raises `SyntaxError`. -/
theorem C29_class_false : toTable someTexts someRs (oneRule (classifier "Iris setosa")) = .ok (some (classTable "Iris setosa")) ∧
    (load someTexts someRs "index" (some (classTable "Iris setosa")) (RuleSet.blank false)).1 = .error .syntaxError := by
  decide +kernel

/-- C29 is false: the class "1" comes back as the number 1 and the class "NA" as NaN; the class "setosa" comes back. -/
theorem C29_class_value_false :
    ∀ p ∈ [("1", Label.num (.fin 1)), ("NA", .num .nan), ("setosa", .text "setosa")],
      toTable someTexts someRs (oneRule (classifier p.1)) = .ok (some (classTable p.1)) ∧
      (load someTexts someRs "index" (some (classTable p.1)) (RuleSet.blank false)).1 = .ok () ∧
      (load someTexts someRs "index" (some (classTable p.1)) (RuleSet.blank false)).2.rules.map
        (fun m => m.rule.getPrediction (someRs.ofKind m.kind)) = [.ok (some p.2)] := by
  decide +kernel

/-- C29 is false: a condition which was made with `sort=False` comes back sorted. -/
theorem C29_unsorted_false : ∃ (c : Cond) (t : Table),
    Cond.init "index" (some [.int 1, .int 0]) (some [.int 2, .int 3]) (some [.int 4, .int 5]) none false false = .ok c ∧
    toTable someTexts someRs (oneRule ⟨.regression, Rule.blank c none⟩) = .ok (some t) ∧
    (load someTexts someRs "index" (some t) (RuleSet.blank false)).1 = .ok () ∧
    c.indexes = some [1, 0] ∧
    (load someTexts someRs "index" (some t) (RuleSet.blank false)).2.rules.map (fun m => m.rule.cond.indexes) = [some [0, 1]] :=
  ⟨{ indexes := some [1, 0], bmins := some [.fin 2, .fin 3], bmaxs := some [.fin 4, .fin 5], names := some ["X_1", "X_0"],
     impossible := false },
   { kind := .regression,
     lines := [⟨"['X_1', 'X_0']", "[1, 0]", "[2/1, 3/1]", "[4/1, 5/1]", ["None", "None", "None", "None", "None"]⟩],
     coverage := "", criterion := "", trainSize := "", testSize := "" },
   by decide +kernel, by decide +kernel, by decide +kernel, by decide +kernel, by decide +kernel⟩

end Verif.SaveProps
