import Verif.EachPointLemmas
import Verif.OneRuleStackProps

/-!
# C93: one prediction for every point
-/

namespace Verif.EachPointProps

open Verif Vote RuleSet RuleSetProps EachPoint

/-- **C93 (rules).** A rule predicts once for every row of the features. -/
theorem C93_rule {E : Env} {r : Rule} {x : Xs} {l : List Label} (h : Rule.predict E r (some x) = .ok l) : l.length = x.length := by
  unfold Rule.predict at h
  cases ha : r.evaluateActivation E x with
  | error e => simp [ha, bind, Except.bind] at h
  | ok v =>
    rw [← evaluateActivation_size ha]
    cases hp : r.getPrediction E with
    | error e => simp [ha, hp, bind, Except.bind] at h
    | ok o =>
      match o with
      | none =>
        simp only [ha, hp, bind, Except.bind] at h
        cases h
        simp
      | some (.text t) =>
        simp only [ha, hp, bind, Except.bind] at h
        split at h
        · cases h
        · cases h
          simp
      | some (.num y) =>
        simp only [ha, hp, bind, Except.bind] at h
        cases h
        simp

/-- **C93 (rulesets), partial.** A ruleset which has rules predicts once for every row of the features, with or without weights, stacked or not.
Missing: rulesets without rules (`C93_empty_false`). -/
theorem C93_ruleset_partial {R : RsEnv} {s s' : RuleSet} {k : Kind} {x : Xs} {w : Option WeightsArg} {l : List Cell} (hne : s.rules ≠ [])
    (hk : s.ruleType = some k) (h : RuleSet.predict R (some x) w s = (.ok l, s')) : l.length = x.length := by
  have hun : ∀ {s'}, RuleSet.predictUnstacked R k (some x) w s = (.ok l, s') → l.length = x.length := by
    intro s' h
    unfold RuleSet.predictUnstacked at h
    rw [Py.bind_ok (Py.get_run s)] at h
    obtain ⟨w', s1, h1, h⟩ := Py.bind_eq_ok h
    cases (Rule.ofExcept_ok h1).2
    obtain ⟨u, s2, _, h⟩ := Py.bind_eq_ok h
    obtain ⟨l', s3, h3, h⟩ := Py.bind_eq_ok h
    have h4 := (Rule.ofExcept_ok h3).1
    cases h
    rw [List.length_map]
    exact predictUnstacked_size (S := voteEnv R k) (st := s.rules.map (·.rule)) (st' := _) (fun _ _ _ h => activationOf_size h) (by simpa using hne) (Prod.ext h4 rfl)
  unfold RuleSet.predict at h
  rw [Py.bind_ok (Py.get_run s), if_neg (by simpa using hne)] at h
  simp only [hk] at h
  cases hf : R.stackedFit with
  | false =>
    simp only [hf] at h
    exact hun h
  | true =>
    cases hc : s.stacked with
    | none =>
      simp only [hf, hc] at h
      exact hun h
    | some c =>
      simp only [hf, hc] at h
      obtain ⟨c', s1, h1, h⟩ := Py.bind_eq_ok h
      have h1 := (Rule.ofExcept_ok h1).1
      obtain ⟨w', s2, _, h⟩ := Py.bind_eq_ok h
      have h := (Rule.ofExcept_ok h).1
      rw [predictStacked_size h]
      exact stackFor_height hne h1

example : (Rule.predict (someRs.ofKind .regression) (VoteProps.voter 0 [1, 1, 0] (.num (.fin 2))) (some (.arr ⟨1, [[.fin 12], [.fin 3]]⟩))) =
      .ok [.num .nan, .num (.fin 2)] ∧
    (RuleSet.predict someRs (some (.arr ⟨1, [[.fin 12], [.fin 3]]⟩)) none (OneRuleProps.alone .classification (.text "yes"))).1 =
      .ok [.label (.num .nan), .label (.text "yes")] ∧
    (RuleSet.predict { someRs with stackedFit := true } (some (.arr ⟨1, [[.fin 12], [.fin 3]]⟩)) none OneRuleProps.stackedAlone).1 =
      .ok [.label (.num .nan), .label (.num (.fin 2))] :=
  ⟨by decide +kernel, by decide +kernel, by decide +kernel⟩

/-- **C93 (rulesets, stored activations).** Without features a ruleset which has rules, and whose predictions are not stacked, predicts once for every
point of the activations which the rules have, when these have one length. -/
theorem C93_stored {R : RsEnv} {s s' : RuleSet} {k : Kind} {n : Nat} {w : Option WeightsArg} {l : List Cell} (hne : s.rules ≠ [])
    (hk : s.ruleType = some k) (hs : R.stackedFit = false ∨ s.stacked = none) (hn : ∀ m ∈ s.rules, ∀ v, m.rule.act = some v → v.length = n)
    (h : RuleSet.predict R none w s = (.ok l, s')) : l.length = n := by
  have hun : RuleSet.predictUnstacked R k none w s = (.ok l, s') := by
    unfold RuleSet.predict at h
    rw [Py.bind_ok (Py.get_run s), if_neg (by simpa using hne)] at h
    simp only [hk] at h
    rcases hs with hs | hs
    · simpa only [hs] using h
    · rw [hs] at h
      cases hf : R.stackedFit <;> simpa only [hf] using h
  unfold RuleSet.predictUnstacked at hun
  rw [Py.bind_ok (Py.get_run s)] at hun
  obtain ⟨w', s1, h1, hun⟩ := Py.bind_eq_ok hun
  cases (Rule.ofExcept_ok h1).2
  obtain ⟨u, s2, _, hun⟩ := Py.bind_eq_ok hun
  obtain ⟨l', s3, h3, hun⟩ := Py.bind_eq_ok hun
  have h4 := (Rule.ofExcept_ok h3).1
  cases hun
  rw [List.length_map]
  refine predictUnstacked_size (S := voteEnv R k) (xs := none) (st := s.rules.map (·.rule)) (st' := _) ?_ (by simpa using hne) (Prod.ext h4 rfl)
  intro r hr v hv
  obtain ⟨m, hm, rfl⟩ := List.mem_map.1 hr
  have hv : m.rule.activation = some v := by simpa [activationOf] using hv
  refine hn m hm v ?_
  cases ha : m.rule.act with
  | none => simp [Rule.activation, ha] at hv
  | some u =>
    simp only [Rule.activation, ha] at hv
    split at hv
    · cases hv
    · exact hv

example : (∀ m ∈ (OneRuleProps.alone .regression (.num (.fin 2))).rules, ∀ v, m.rule.act = some v → v.length = 3) ∧
    (RuleSet.predict someRs none none (OneRuleProps.alone .regression (.num (.fin 2)))).1 =
      .ok [.label (.num (.fin 2)), .label (.num (.fin 2)), .label (.num .nan)] := by
  refine ⟨?_, by decide +kernel⟩
  intro m hm v hv
  simp [OneRuleProps.alone, setWith] at hm
  subst hm
  cases hv
  rfl

/-- **C93 is false of rulesets without rules:** they predict for no point. -/
theorem C93_empty_false {R : RsEnv} {s : RuleSet} (x : Xs) (w : Option WeightsArg) (h : s.rules = []) :
    RuleSet.predict R (some x) w s = (.ok [], s) := by
  unfold RuleSet.predict
  rw [Py.bind_ok (Py.get_run s), if_pos (by simp [h])]
  rfl

example : (RuleSet.blank true).rules = [] := rfl

end Verif.EachPointProps
