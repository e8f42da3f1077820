import Verif.RuleSetDemo
import Verif.RuleSetFit
import Verif.VoteProps

/-!
# Lemmas on `RuleSet.predict`
-/

namespace Verif.RuleSetProps

open Verif Spec Vote RuleSet

theorem putBack_same (l : List Member) : putBack l (l.map (·.rule)) = l := by
  induction l with
  | nil => rfl
  | cons m l ih =>
    unfold putBack at ih ⊢
    rw [List.map_cons, List.zipWith_cons_cons, ih]

theorem predict_unstacked {R : RsEnv} {k : Kind} {s : RuleSet} {xs : Option Xs} {w : Option WeightsArg} {w' : Option Weights}
    {l : List Label} (hne : s.rules ≠ []) (hk : s.ruleType = some k) (hu : R.stackedFit = false ∨ s.stacked = none)
    (hw : weightsOf R k s.rules w = .ok w')
    (h : Vote.predictUnstacked (voteEnv R k) w' xs (s.rules.map (·.rule)) = (.ok l, s.rules.map (·.rule))) :
    predict R xs w s = (.ok (l.map .label), s) := by
  have hlen : ¬ s.rules.length = 0 := fun e => hne (List.length_eq_zero_iff.1 e)
  have hrun : RuleSet.predictUnstacked R k xs w s = (.ok (l.map .label), s) := by
    unfold RuleSet.predictUnstacked
    rw [Py.bind_ok (Py.get_run s), Py.bind_ok (a := w') (s' := s) (by rw [Py.ofExcept_run, hw]), h,
      Py.bind_ok (Py.modify_run _ _), Py.bind_ok (a := l) (by rw [Py.ofExcept_run])]
    simp only [putBack_same]
    rfl
  unfold predict
  rw [Py.bind_ok (Py.get_run s)]
  simp only [if_neg hlen, hk]
  rcases hu with hu | hu
  · rw [hu]
    exact hrun
  · rw [hu]
    cases R.stackedFit <;> exact hrun

theorem predict_stacked {R : RsEnv} {k : Kind} {s : RuleSet} {xs : Option Xs} {w : Option WeightsArg} {w' : Option Weights}
    {l : List Cell} {c c' : Columns Nat} (hne : s.rules ≠ []) (hk : s.ruleType = some k) (hu : R.stackedFit = true)
    (hc : s.stacked = some c) (hf : stackFor R xs s c = .ok c') (hw : weightsOf R k s.rules w = .ok w')
    (h : Vote.predictStacked (voteEnv R k) (s.rules.map (·.rule)) c' w' = .ok l) : predict R xs w s = (.ok l, s) := by
  have hlen : ¬ s.rules.length = 0 := fun e => hne (List.length_eq_zero_iff.1 e)
  unfold predict
  rw [Py.bind_ok (Py.get_run s)]
  simp only [if_neg hlen, hk, hu, hc]
  rw [Py.bind_ok (a := c') (s' := s) (by rw [Py.ofExcept_run, hf]), Py.bind_ok (a := w') (s' := s) (by rw [Py.ofExcept_run, hw]),
    Py.ofExcept_run, h]

/-- The weights given to `predict` are `wt`: a Series with these weights, or the name of an attribute which has these values. -/
def WeightsGiven (S : SetEnv) (rules : List Rule) (wt : Rule → Rat) : WeightsArg → Prop
  | .series w => WeightsAre S w rules wt
  | .attr name => DifferentNames S rules ∧ ∀ r ∈ rules, r.getattr S.env name = .ok (.num (.fin (wt r))) ∨
      wt r = 0 ∧ (r.getattr S.env name = .ok (.num .nan) ∨ r.getattr S.env name = .ok .none)

theorem weightsOf_given {R : RsEnv} {k : Kind} {rules : List Member} {wt : Rule → Rat} {w : WeightsArg}
    (h : WeightsGiven (voteEnv R k) (rules.map (·.rule)) wt w) :
    ∃ w', weightsOf R k rules (some w) = .ok (some w') ∧ WeightsAre (voteEnv R k) w' (rules.map (·.rule)) wt := by
  cases w with
  | series w => exact ⟨w, rfl, h⟩
  | attr name =>
    obtain ⟨w', h1, h2⟩ := VoteProps.C21_attribute_partial h.1 h.2
    exact ⟨w', by unfold weightsOf; simp only; rw [h1]; rfl, h2⟩

/-- Stacked activations of the rules: those which are remembered when no features are given -/
theorem stackFor_eq {R : RsEnv} {k : Kind} {s : RuleSet} {xs : Option Xs} {n : Nat} {on : Rule → Nat → Bool} {c : Columns Nat}
    (hk : ∀ m ∈ s.rules, m.kind = k) (hne : s.rules ≠ []) (hd : DifferentNames (voteEnv R k) (s.rules.map (·.rule)))
    (hc : xs = none → c = stackOf (voteEnv R k) (s.rules.map (·.rule)) n on)
    (ha : ∀ r ∈ s.rules.map (·.rule), activationOf (voteEnv R k).env xs r = .ok (some (vec n (on r)))) :
    stackFor R xs s c = .ok (stackOf (voteEnv R k) (s.rules.map (·.rule)) n on) := by
  cases xs with
  | none => rw [← hc rfl]; rfl
  | some x =>
    have hlen : ¬ s.rules.length = 0 := fun e => hne (List.length_eq_zero_iff.1 e)
    have hst := stackedFrom_eq hd ha
    unfold stackFor evaluateStacked activations
    simp only [if_neg hlen, bind, Except.bind]
    have hev : (s.rules.mapM fun m : Member => m.rule.evaluateActivation (R.ofKind m.kind) x) =
        .ok (s.rules.map fun m => vec n (on m.rule)) := by
      refine mapM_ok fun m hm => ?_
      have := ha m.rule (List.mem_map.2 ⟨m, hm, rfl⟩)
      rw [hk m hm]
      unfold activationOf at this
      simp only at this
      cases h : m.rule.evaluateActivation (R.ofKind k) x with
      | error e =>
        rw [show (voteEnv R k).env = R.ofKind k from rfl, h] at this
        cases this
      | ok v =>
        rw [show (voteEnv R k).env = R.ofKind k from rfl, h] at this
        cases this
        rfl
    rw [hev]
    simp only [Except.map]
    have hcols : namedColumns R s.rules (s.rules.map fun m => vec n (on m.rule)) =
        (s.rules.map (·.rule)).map fun r => ((voteEnv R k).condStr r.cond, vec n (on r)) := by
      unfold namedColumns
      rw [List.zipWith_map_right, List.zipWith_self, List.map_map]
      rfl
    have hfr : frameOf (namedColumns R s.rules (s.rules.map fun m => vec n (on m.rule))) =
        .ok (stackOf (voteEnv R k) (s.rules.map (·.rule)) n on) := by
      rw [hcols]
      unfold stackedFrom at hst
      rw [mapM_ok (g := fun r => ((voteEnv R k).condStr r.cond, vec n (on r)))] at hst
      · exact hst
      · intro r hr
        obtain ⟨m, hm, rfl⟩ := List.mem_map.1 hr
        have := ha m.rule (List.mem_map.2 ⟨m, hm, rfl⟩)
        unfold activationOf at this
        simp only at this
        cases h : m.rule.evaluateActivation (voteEnv R k).env x with
        | error e => rw [h] at this; cases this
        | ok v => rw [h] at this; cases this; rfl
    rw [hfr]
    rfl

end Verif.RuleSetProps
