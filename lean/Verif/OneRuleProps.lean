import Verif.OneRuleLemmas
import Verif.ActiveProps

/-!
# C91: a ruleset of one rule predicts like the rule
-/

namespace Verif.OneRuleProps

open Verif Vote Spec RuleSet RuleSetProps OneRule

variable {R : RsEnv}

/-! ## Regression -/

/-- **C91 (plain means).** Not stacked and without weights, a ruleset of one regression rule with at least one feature predicts what the rule predicts,
and raises what the rule raises. -/
theorem C91_regression {xs : Option Xs} {s : RuleSet} {m : Member} (h : HasOne s m) (hk : m.kind = .regression)
    (hs : R.stackedFit = false ∨ s.stacked = none) (hx : OnPoints xs m.rule) (hl : m.rule.length ≠ 0) (ht : NoText (R.ofKind .regression) m.rule) :
    (RuleSet.predict R xs none s).1 = (Rule.predict (R.ofKind .regression) m.rule xs).map fun l => l.map Cell.label := by
  rw [predict_unstacked h hs, hk]
  have hpy : (Vote.predictUnstacked (voteEnv R .regression) none xs [m.rule]).1 =
      ((equalRegressor (voteEnv R .regression) xs [m.rule]).1).map fun l => l.map Label.num := by
    have : Vote.predictUnstacked (voteEnv R .regression) none xs [m.rule] =
        (equalRegressor (voteEnv R .regression) xs >>= fun l => pure (l.map Label.num)) [m.rule] := rfl
    rw [this, Py.bind_run]
    cases equalRegressor (voteEnv R .regression) xs [m.rule] with
    | mk a b => cases a <;> rfl
  simp only [weightsOf, hpy]
  have hE : (voteEnv R .regression).env = R.ofKind .regression := rfl
  rcases activation_cases (E := R.ofKind .regression) hx with ⟨e, _, h1, h2⟩ | ⟨h1, h2⟩ | ⟨v, h1, h2, h3, h4, h5⟩
  · have : (equalRegressor (voteEnv R .regression) xs [m.rule]).1 = .error e := by
      have hstep : equalStep (voteEnv R .regression) xs 0 m.rule none [m.rule] = (.error e, [m.rule]) := by
        unfold equalStep
        refine Py.bind_err ?_
        rw [Py.ofExcept_run, hE, h1]
      unfold equalRegressor
      rw [Py.bind_ok (Py.get_run _), if_neg (by simp)]
      unfold equalLoop
      rw [Py.bind_err (Py.bind_err hstep)]
    rw [this, h2]
    rfl
  · have : (equalRegressor (voteEnv R .regression) xs [m.rule]).1 = .error .valueError := by
      have hstep : equalStep (voteEnv R .regression) xs 0 m.rule none [m.rule] = (.ok none, [m.rule]) := by
        unfold equalStep
        rw [hE, h1, Py.bind_ok (Py.ofExcept_run _ _)]
        rfl
      unfold equalRegressor
      rw [Py.bind_ok (Py.get_run _), if_neg (by simp)]
      unfold equalLoop
      have : (equalStep (voteEnv R .regression) xs 0 m.rule none >>= fun acc => equalLoop (voteEnv R .regression) xs (0 + 1) [] acc) [m.rule] =
          (.ok none, [m.rule]) := by
        rw [Py.bind_ok hstep]
        rfl
      rw [Py.bind_ok this]
      rfl
    rw [this, h2]
    rfl
  · rw [means_one (S := voteEnv R .regression) h1 h2 h3 hl ht, predict_on h4 h5, hE]
    cases hp : m.rule.getPrediction (R.ofKind .regression) with
    | error e => rfl
    | ok o =>
      match o with
      | none => simp [Except.map]
      | some (.text t) => exact absurd hp (ht t)
      | some (.num x) => simp [Except.map, Function.comp_def]

/-- A ruleset of one rule -/
def alone (k : Kind) (l : Label) : RuleSet := setWith k [VoteProps.voter 0 [1, 1, 0] l]

example : HasOne (alone .regression (.num (.fin 2))) ⟨.regression, VoteProps.voter 0 [1, 1, 0] (.num (.fin 2))⟩ ∧
    OnPoints (some (.arr ⟨1, [[.fin 3], [.fin 12]]⟩)) (VoteProps.voter 0 [1, 1, 0] (.num (.fin 2))) ∧
    (RuleSet.predict someRs none none (alone .regression (.num (.fin 2)))).1 = .ok [.label (.num (.fin 2)), .label (.num (.fin 2)), .label (.num .nan)] := by
  refine ⟨⟨rfl, rfl⟩, ⟨?_, by simp⟩, by decide +kernel⟩
  intro x hx
  cases Option.some.inj hx
  decide

/-- **C91 (weighted means).** With a finite weight other than 0 for the rule, which predicts a finite number or nothing, the ruleset predicts what the
rule predicts. -/
theorem C91_weighted {xs : Option Xs} {s : RuleSet} {m : Member} {w : Weights} {c : Rat} {o : Option Label} (h : HasOne s m) (hk : m.kind = .regression)
    (hs : R.stackedFit = false ∨ s.stacked = none) (hx : OnPoints xs m.rule) (hl : m.rule.length ≠ 0)
    (hw : w (R.condStr m.rule.cond) = some (.fin c)) (hc : c ≠ 0)
    (hp : m.rule.getPrediction (R.ofKind .regression) = .ok o) (ho : o = none ∨ ∃ q, o = some (.num (.fin q))) :
    (RuleSet.predict R xs (some (.series w)) s).1 = (Rule.predict (R.ofKind .regression) m.rule xs).map fun l => l.map Cell.label := by
  rw [predict_unstacked h hs, hk]
  have hpy : (Vote.predictUnstacked (voteEnv R .regression) (some w) xs [m.rule]).1 =
      (weightedRegressor (voteEnv R .regression) [m.rule] w xs).map fun l => l.map Label.num := by
    have : Vote.predictUnstacked (voteEnv R .regression) (some w) xs [m.rule] =
        (Py.ofExcept (weightedRegressor (voteEnv R .regression) [m.rule] w xs) >>= fun l => pure (l.map Label.num)) [m.rule] := rfl
    rw [this, Py.bind_run]
    cases weightedRegressor (voteEnv R .regression) [m.rule] w xs <;> rfl
  simp only [weightsOf, weightsFrom, Except.map, hpy]
  have hE : (voteEnv R .regression).env = R.ofKind .regression := rfl
  have hw' : ∃ x, weightOf w ((voteEnv R .regression).condStr m.rule.cond) = some x := by
    have hbeq : (Num.fin c).beq (.fin 0) = false := by
      rcases lt_or_gt_of_ne hc with h | h
      · simp [Num.beq, Num.le, not_le.2 h]
      · simp [Num.beq, Num.le, not_le.2 h]
    have : w ((voteEnv R .regression).condStr m.rule.cond) = some (.fin c) := hw
    exact ⟨.fin c, by simp [weightOf, this, hbeq, Num.isNaN]⟩
  obtain ⟨x, hw'⟩ := hw'
  rcases activation_cases (E := R.ofKind .regression) hx with ⟨e, _, h1, h2⟩ | ⟨h1, h2⟩ | ⟨v, h1, h2, h3, h4, h5⟩
  · have : weightedRegressor (voteEnv R .regression) [m.rule] w xs = .error e := by
      unfold weightedRegressor
      rw [if_neg (by simp)]
      simp only [List.foldlM_cons, weightedStep, hw', hE, h1, bind, Except.bind]
    rw [this, h2]
  · have : weightedRegressor (voteEnv R .regression) [m.rule] w xs = .error .valueError := by
      unfold weightedRegressor
      rw [if_neg (by simp)]
      simp only [List.foldlM_cons, List.foldlM_nil, weightedStep, hw', hE, h1, bind, Except.bind, pure, Except.pure]
    rw [this, h2]
  · rw [weighted_one (S := voteEnv R .regression) h1 h2 h3 hl hw hc hp ho, predict_on h4 h5, hp]
    rcases ho with rfl | ⟨q, rfl⟩ <;> simp [Function.comp_def]

example : VoteProps.someWeights 3 1 0 (someRs.condStr (VoteProps.voter 0 [1, 1, 0] (.num (.fin 2))).cond) = some (.fin 3) ∧
    (VoteProps.voter 0 [1, 1, 0] (.num (.fin 2))).getPrediction (someRs.ofKind .regression) = .ok (some (.num (.fin 2))) ∧
    (RuleSet.predict someRs none (some (.series (VoteProps.someWeights 3 1 0))) (alone .regression (.num (.fin 2)))).1 =
      .ok [.label (.num (.fin 2)), .label (.num (.fin 2)), .label (.num .nan)] :=
  ⟨by decide +kernel, by decide +kernel, by decide +kernel⟩

/-! ## Classes -/

/-- The weights with which the votes of one rule are the rule's: none at all, or a finite weight other than 0 -/
theorem votes_of {xs : Option Xs} {s : RuleSet} {m : Member} {w : Option Weights} {v : List Nat} (h : HasOne s m) (hk : m.kind = .classification)
    (hs : R.stackedFit = false ∨ s.stacked = none) (hw : ∀ w', w = some w' → ∃ c : Rat, c ≠ 0 ∧ w' (R.condStr m.rule.cond) = some (.fin c))
    (h1 : activationOf (R.ofKind .classification) xs m.rule = .ok (some v)) (h3 : ∀ a ∈ v, a ≤ 1) (h6 : 1 ∈ v) {l : Label}
    (hp : m.rule.getPrediction (R.ofKind .classification) = .ok (some l)) :
    (RuleSet.predict R xs (w.map .series) s).1 = .ok (v.map fun a : Nat => .label (if a = 1 then l else .num .nan)) := by
  rw [predict_unstacked h hs, hk]
  cases w with
  | none =>
    have : (Vote.predictUnstacked (voteEnv R .classification) none xs [m.rule]).1 = equalClassifier (voteEnv R .classification) [m.rule] xs := rfl
    simp only [weightsOf, Option.map_none, this]
    unfold equalClassifier
    rw [votes_one (S := voteEnv R .classification) (c := 1) (by simp) (by simp) h1 h3 h6]
    have hE : (voteEnv R .classification).env = R.ofKind .classification := rfl
    simp [hE, hp, Except.map, Function.comp_def]
  | some w =>
    obtain ⟨c, hc, hw⟩ := hw w rfl
    have : (Vote.predictUnstacked (voteEnv R .classification) (some w) xs [m.rule]).1 = weightedClassifier (voteEnv R .classification) [m.rule] w xs := rfl
    simp only [weightsOf, Option.map_some, weightsFrom, Except.map, this]
    rw [votes_one (S := voteEnv R .classification) hw hc h1 h3 h6]
    have hE : (voteEnv R .classification).env = R.ofKind .classification := rfl
    simp [hE, hp, Function.comp_def]

/-- **C91 (votes), partial.** A ruleset of one classification rule, whose class is a number, predicts what the rule predicts, without weights or with a
finite weight other than 0, when the rule predicts its class for some point.
Missing: rules active at no point (`C91_idle_false`) and texts (`C91_text_partial`, `C91_text_false`). -/
theorem C91_classes_partial {xs : Option Xs} {s : RuleSet} {m : Member} {w : Option Weights} {l : List Label} (h : HasOne s m)
    (hk : m.kind = .classification) (hs : R.stackedFit = false ∨ s.stacked = none) (hx : OnPoints xs m.rule)
    (hw : ∀ w', w = some w' → ∃ c : Rat, c ≠ 0 ∧ w' (R.condStr m.rule.cond) = some (.fin c))
    (ht : NoText (R.ofKind .classification) m.rule)
    (hp : Rule.predict (R.ofKind .classification) m.rule xs = .ok l) (ha : ∃ c ∈ l, c.isNaN = false) :
    (RuleSet.predict R xs (w.map .series) s).1 = .ok (l.map Cell.label) := by
  rcases activation_cases (E := R.ofKind .classification) hx with ⟨e, _, h1, h2⟩ | ⟨h1, h2⟩ | ⟨v, h1, h2, h3, h4, h5⟩
  · rw [h2] at hp
    cases hp
  · rw [h2] at hp
    cases hp
  · rw [predict_on h4 h5] at hp
    cases hg : m.rule.getPrediction (R.ofKind .classification) with
    | error e =>
      rw [hg] at hp
      cases hp
    | ok o =>
      rw [hg] at hp
      match o with
      | none =>
        cases hp
        obtain ⟨c, hc, hn⟩ := ha
        obtain ⟨_, _, rfl⟩ := List.mem_map.1 hc
        cases hn
      | some (.text t) => exact absurd hg (ht t)
      | some (.num x) =>
        cases hp
        obtain ⟨c, hc, hn⟩ := ha
        obtain ⟨a, hav, rfl⟩ := List.mem_map.1 hc
        have h6 : 1 ∈ v := by
          by_cases h1 : a = 1
          · rwa [h1] at hav
          · rw [if_neg h1] at hn
            cases hn
        rw [votes_of h hk hs hw h1 h3 h6 hg, List.map_map]
        congr 1
        refine List.map_congr_left fun a _ => ?_
        by_cases h1 : a = 1 <;> simp [h1]

example : (Rule.predict (someRs.ofKind .classification) (VoteProps.voter 0 [1, 1, 0] (.num (.fin 2))) none) =
      .ok [.num (.fin 2), .num (.fin 2), .num .nan] ∧
    (RuleSet.predict someRs none none (alone .classification (.num (.fin 2)))).1 = .ok [.label (.num (.fin 2)), .label (.num (.fin 2)), .label (.num .nan)] ∧
    (RuleSet.predict someRs none (some (.series (VoteProps.someWeights (-1) 0 0))) (alone .classification (.num (.fin 2)))).1 =
      .ok [.label (.num (.fin 2)), .label (.num (.fin 2)), .label (.num .nan)] :=
  ⟨by decide +kernel, by decide +kernel, by decide +kernel⟩

/-- **C91 (votes for a text), partial.** When the class is a text, the ruleset predicts the whole text where the rule predicts its first 32 characters,
and NaN where the rule predicts the text `nan`.
Missing: the same predictions (`C91_text_false`), and rules active at no point. -/
theorem C91_text_partial {xs : Option Xs} {s : RuleSet} {m : Member} {w : Option Weights} {l : List Label} {t : String} (h : HasOne s m)
    (hk : m.kind = .classification) (hs : R.stackedFit = false ∨ s.stacked = none) (hx : OnPoints xs m.rule)
    (hw : ∀ w', w = some w' → ∃ c : Rat, c ≠ 0 ∧ w' (R.condStr m.rule.cond) = some (.fin c))
    (ht : m.rule.getPrediction (R.ofKind .classification) = .ok (some (.text t))) (hn : Rule.truncate t ≠ "nan")
    (hp : Rule.predict (R.ofKind .classification) m.rule xs = .ok l) (ha : ∃ c ∈ l, c ≠ .text "nan") :
    (RuleSet.predict R xs (w.map .series) s).1 = .ok (l.map fun c => .label (if c = .text "nan" then .num .nan else .text t)) ∧
      ∀ c ∈ l, c = .text "nan" ∨ c = .text (Rule.truncate t) := by
  rcases activation_cases (E := R.ofKind .classification) hx with ⟨e, _, h1, h2⟩ | ⟨h1, h2⟩ | ⟨v, h1, h2, h3, h4, h5⟩
  · rw [h2] at hp
    cases hp
  · rw [h2] at hp
    cases hp
  · rw [predict_on h4 h5, ht] at hp
    by_cases htn : t = "nan"
    · simp only [if_pos htn] at hp
      cases hp
    · simp only [if_neg htn] at hp
      cases hp
      obtain ⟨c, hc, hcn⟩ := ha
      obtain ⟨a, hav, rfl⟩ := List.mem_map.1 hc
      have h6 : 1 ∈ v := by
        by_cases h1 : a = 1
        · rwa [h1] at hav
        · rw [if_neg h1] at hcn
          exact absurd rfl hcn
      refine ⟨?_, ?_⟩
      · rw [votes_of h hk hs hw h1 h3 h6 ht, List.map_map]
        congr 1
        refine List.map_congr_left fun a _ => ?_
        by_cases h1 : a = 1 <;> simp [h1, hn]
      · intro c hc
        obtain ⟨a, _, rfl⟩ := List.mem_map.1 hc
        by_cases h1 : a = 1 <;> simp [h1]

example : Rule.truncate "yes" ≠ "nan" ∧ Rule.predict (someRs.ofKind .classification) (VoteProps.voter 0 [1, 1, 0] (.text "yes")) none =
    .ok [.text "yes", .text "yes", .text "nan"] := ⟨by decide +kernel, by decide +kernel⟩

/-- **C91 is false of texts:** the rule predicts the text `nan` for a point it does not cover, the ruleset NaN; of a class of 34 characters the rule
predicts the first 32. -/
theorem C91_text_false :
    Rule.predict (someRs.ofKind .classification) (VoteProps.voter 0 [1, 1, 0] (.text "yes")) none = .ok [.text "yes", .text "yes", .text "nan"] ∧
    (RuleSet.predict someRs none none (alone .classification (.text "yes"))).1 = .ok [.label (.text "yes"), .label (.text "yes"), .label (.num .nan)] ∧
    Rule.predict (someRs.ofKind .classification) (VoteProps.voter 0 [1, 1, 1] (.text "abcdefghijklmnopqrstuvwxyz01234567")) none =
      .ok [.text "abcdefghijklmnopqrstuvwxyz012345", .text "abcdefghijklmnopqrstuvwxyz012345", .text "abcdefghijklmnopqrstuvwxyz012345"] ∧
    (RuleSet.predict someRs none none (setWith .classification [VoteProps.voter 0 [1, 1, 1] (.text "abcdefghijklmnopqrstuvwxyz01234567")])).1 =
      .ok [.label (.text "abcdefghijklmnopqrstuvwxyz01234567"), .label (.text "abcdefghijklmnopqrstuvwxyz01234567"),
        .label (.text "abcdefghijklmnopqrstuvwxyz01234567")] :=
  ⟨by decide +kernel, by decide +kernel, by decide +kernel, by decide +kernel⟩

/-- **C91 is false of classification rules active at no point:** the rule predicts NaN everywhere, the ruleset raises. -/
theorem C91_idle_false :
    Rule.predict (someRs.ofKind .classification) (VoteProps.voter 0 [0, 0, 0] (.num (.fin 2))) none = .ok [.num .nan, .num .nan, .num .nan] ∧
    (RuleSet.predict someRs none none (setWith .classification [VoteProps.voter 0 [0, 0, 0] (.num (.fin 2))])).1 = .error .valueError ∧
    (RuleSet.predict someRs none none (setWith .regression [VoteProps.voter 0 [0, 0, 0] (.num (.fin 2))])).1 =
      .ok [.label (.num .nan), .label (.num .nan), .label (.num .nan)] :=
  ⟨by decide +kernel, by decide +kernel, by decide +kernel⟩

/-- A rule without features -/
def featureless : Rule :=
  { Rule.blank { indexes := some [], bmins := some [], bmaxs := some [], names := some [], impossible := false } (some [1, 1, 0]) with
    prediction := .label (.num (.fin 2)) }

/-- **C91 is false of rules without features:** the rule predicts, the ruleset raises. -/
theorem C91_featureless_false :
    Rule.predict (someRs.ofKind .regression) featureless none = .ok [.num (.fin 2), .num (.fin 2), .num .nan] ∧
    (RuleSet.predict someRs none none (setWith .regression [featureless])).1 = .error .valueError :=
  ⟨by decide +kernel, by decide +kernel⟩

end Verif.OneRuleProps
