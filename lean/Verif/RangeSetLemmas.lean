import Verif.RangeClassLemmas
import Verif.FitProps
import Verif.PredictProps

/-!
# Lemmas about the range of the predictions of rulesets
-/

namespace Verif.RuleSetProps

open Verif Spec Vote RuleSet Range

variable {lo hi : Rat}

/-- What a ruleset remembers for `predict` without features: activation vectors, and stacked ones under the names of its rules -/
def Remembers (R : RsEnv) (s : RuleSet) : Prop :=
  (∀ r ∈ rulesOf s, ∀ v, r.act = some v → ZeroOne v) ∧
    ∀ c, s.stacked = some c → ∀ p ∈ c, ZeroOne p.2 ∧ ∃ r ∈ rulesOf s, p.1 = R.condStr r.cond

/-- Weights, if given, are numbers which are not negative, or missing. -/
def NotNegative (S : SetEnv) (rules : List Rule) (w : Option WeightsArg) : Prop :=
  ∀ w', w = some w' → ∃ wt, WeightsGiven S rules wt w' ∧ ∀ r ∈ rules, 0 ≤ wt r

theorem stackFor_range {R : RsEnv} {s : RuleSet} {xs : Option Xs} {c c' : Columns Nat} (hc : s.stacked = some c)
    (hm : xs = none → Remembers R s) (h : stackFor R xs s c = .ok c') :
    ∀ p ∈ c', ZeroOne p.2 ∧ ∃ r ∈ rulesOf s, p.1 = R.condStr r.cond := by
  cases xs with
  | none => cases h; exact (hm rfl).2 c hc
  | some x =>
    simp only [stackFor] at h
    cases he : evaluateStacked R (some x) s.rules with
    | error e => rw [he] at h; cases h
    | ok o =>
      rw [he] at h
      cases h
      simp only [evaluateStacked] at he
      split at he
      · cases he; simp
      · simp only [bind, Except.bind] at he
        split at he; · cases he
        next oa ha =>
          cases oa with
          | none => cases he; simp
          | some acts =>
            simp only at he
            cases hf : frameOf (namedColumns R s.rules acts) with
            | error e => rw [hf] at he; cases he
            | ok f =>
              rw [hf] at he
              cases he
              simp only [Option.getD_some]
              intro p hp
              have hp' : p ∈ namedColumns R s.rules acts := by
                refine dictOf_mem ?_
                unfold frameOf at hf
                split at hf
                · cases hf; simp at hp
                · next hd =>
                  split at hf
                  · cases hf; rw [hd]; exact hp
                  · cases hf
              unfold namedColumns at hp'
              rw [← List.map_uncurry_zip_eq_zipWith] at hp'
              obtain ⟨⟨m, a⟩, hma, rfl⟩ := List.mem_map.1 hp'
              have hz := List.of_mem_zip hma
              refine ⟨?_, m.rule, List.mem_map.2 ⟨m, hz.1, rfl⟩, rfl⟩
              simp only [activations] at ha
              cases hq : s.rules.mapM (fun m : Member => m.rule.evaluateActivation (R.ofKind m.kind) x) with
              | error e => rw [hq] at ha; cases ha
              | ok l =>
                rw [hq] at ha
                cases ha
                obtain ⟨m', -, h'⟩ := mapM_ok_mem hq hz.2
                exact zeroOne_evaluateActivation h'

/-- `predict` goes one of these ways. -/
theorem predict_ways {R : RsEnv} {s s' : RuleSet} {xs : Option Xs} {w : Option WeightsArg} {k : Kind} {l : List Cell}
    (hk : s.ruleType = some k) (h : predict R xs w s = (.ok l, s')) :
    l = [] ∨ (∃ c c' w', R.stackedFit = true ∧ s.stacked = some c ∧ stackFor R xs s c = .ok c' ∧ weightsOf R k s.rules w = .ok w' ∧
        Vote.predictStacked (voteEnv R k) (rulesOf s) c' w' = .ok l) ∨
      ∃ w' l', weightsOf R k s.rules w = .ok w' ∧ (Vote.predictUnstacked (voteEnv R k) w' xs (rulesOf s)).1 = .ok l' ∧
        l = l'.map .label := by
  have un : ∀ {s'}, RuleSet.predictUnstacked R k xs w s = (.ok l, s') → ∃ w' l', weightsOf R k s.rules w = .ok w' ∧
      (Vote.predictUnstacked (voteEnv R k) w' xs (rulesOf s)).1 = .ok l' ∧ l = l'.map .label := by
    intro s' h
    simp only [RuleSet.predictUnstacked] at h
    obtain ⟨_, s1, h1, h⟩ := Py.bind_eq_ok h
    simp only [Py.get_run, Prod.mk.injEq, Except.ok.injEq] at h1
    obtain ⟨rfl, rfl⟩ := h1
    obtain ⟨w', s1, h1, h⟩ := Py.bind_eq_ok h
    simp only [Py.ofExcept_run, Prod.mk.injEq] at h1
    obtain ⟨hw, rfl⟩ := h1
    obtain ⟨_, s1, h1, h⟩ := Py.bind_eq_ok h
    obtain ⟨l', s2, h2, h⟩ := Py.bind_eq_ok h
    simp only [Py.ofExcept_run, Prod.mk.injEq] at h2
    simp only [Py.pure_run, Prod.mk.injEq, Except.ok.injEq] at h
    exact ⟨w', l', hw, h2.1, h.1.symm⟩
  simp only [RuleSet.predict] at h
  obtain ⟨_, s1, h1, h⟩ := Py.bind_eq_ok h
  simp only [Py.get_run, Prod.mk.injEq, Except.ok.injEq] at h1
  obtain ⟨rfl, rfl⟩ := h1
  by_cases h0 : s.rules.length = 0
  · rw [if_pos h0] at h; cases h; exact .inl rfl
  · rw [if_neg h0, hk] at h
    simp only at h
    cases hf : R.stackedFit with
    | false => rw [hf] at h; exact .inr (.inr (un h))
    | true =>
      rw [hf] at h
      cases hs : s.stacked with
      | none => rw [hs] at h; exact .inr (.inr (un h))
      | some c =>
        rw [hs] at h
        simp only at h
        obtain ⟨c', s1, h1, h⟩ := Py.bind_eq_ok h
        simp only [Py.ofExcept_run, Prod.mk.injEq] at h1
        obtain ⟨hc, rfl⟩ := h1
        obtain ⟨w', s1, h1, h⟩ := Py.bind_eq_ok h
        simp only [Py.ofExcept_run, Prod.mk.injEq] at h1
        obtain ⟨hw, rfl⟩ := h1
        simp only [Py.ofExcept_run, Prod.mk.injEq] at h
        exact .inr (.inl ⟨c, c', w', rfl, rfl, hc, hw, h.1⟩)

/-- The weights which `predict` works with -/
theorem notNegative_weights {R : RsEnv} {k : Kind} {s : RuleSet} {w : Option WeightsArg} {w' : Option Weights}
    (hw : NotNegative (voteEnv R k) (rulesOf s) w) (h : weightsOf R k s.rules w = .ok w') :
    w' = none ∨ ∃ w1 wt, w' = some w1 ∧ WeightsAre (voteEnv R k) w1 (rulesOf s) wt ∧ ∀ r ∈ rulesOf s, 0 ≤ wt r := by
  cases w with
  | none => cases h; exact .inl rfl
  | some a =>
    obtain ⟨wt, h1, h2⟩ := hw a rfl
    obtain ⟨w1, h3, h4⟩ := weightsOf_given h1
    rw [h] at h3
    cases h3
    exact .inr ⟨w1, wt, rfl, h4, h2⟩

theorem conditionalMean_range {v : List Nat} {y : List (Option Rat)} (hy : ∀ q, some q ∈ y → lo ≤ q ∧ q ≤ hi) {m : Num}
    (h : RFun.conditionalMean v (y.map Num.ofOption) = .ok m) : MissingOrBetween lo hi m := by
  simp only [RFun.conditionalMean, bind, Except.bind] at h
  split at h; · cases h
  next yc he =>
    have : ∀ x ∈ yc, MissingOrBetween lo hi x := by
      intro x hx
      obtain ⟨o, ho, rfl⟩ := List.mem_map.1 (extract_mem he x hx)
      cases o with
      | none => exact .inl rfl
      | some q => exact .inr ⟨q, rfl, hy q ho⟩
    obtain ⟨qs, h1, h2⟩ := dropna_between this
    rw [h1] at h
    by_cases hq : qs = []
    · subst hq; cases h; exact .inl rfl
    · have : ¬ (qs.map Num.fin).length = 0 := by simpa using hq
      rw [if_neg this] at h
      cases h
      exact .inr (mean_between hq h2)

theorem classUnstacked {S : SetEnv} {w : Option Weights} {xs : Option Xs} {rules : List Rule} {l : List Label}
    (hk : S.env.kind = .classification) (h : (Vote.predictUnstacked S w xs rules).1 = .ok l) :
    ∀ c ∈ l, c = .num .nan ∨ SomeoneSays S.env rules c := by
  have h' : Vote.predictUnstacked S w xs rules = (.ok l, (Vote.predictUnstacked S w xs rules).2) := Prod.ext h rfl
  simp only [Vote.predictUnstacked, hk] at h'
  obtain ⟨_, s1, h3, h'⟩ := Py.bind_eq_ok h'
  simp only [Py.get_run, Prod.mk.injEq, Except.ok.injEq] at h3
  obtain ⟨rfl, rfl⟩ := h3
  cases w with
  | none =>
    simp only [Py.ofExcept_run, Prod.mk.injEq, equalClassifier] at h'
    exact weightedClassifier_mem h'.1
  | some w =>
    simp only [Py.ofExcept_run, Prod.mk.injEq] at h'
    exact weightedClassifier_mem h'.1

end Verif.RuleSetProps
