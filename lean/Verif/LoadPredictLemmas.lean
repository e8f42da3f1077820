import Verif.SaveLemmas
import Verif.ScaleSetLemmas
import Verif.SetEval
import Verif.LoadPredictSpec

/-!
# Lemmas: predictions of two rulesets whose rules have the same conditions and predictions
-/

namespace Verif.LoadPredict

open Verif Rule Vote RuleSet Scales

/-- Two rules with the same condition and the same prediction -/
def Alike (E : Env) (r r' : Rule) : Prop := r'.cond = r.cond ∧ r'.getPrediction E = r.getPrediction E

variable {S : SetEnv} {E : Env} {x : Xs}

theorem evaluateActivation_alike {r r' : Rule} (h : r'.cond = r.cond) (E : Env) (x : Xs) :
    r'.evaluateActivation E x = r.evaluateActivation E x := by
  unfold evaluateActivation
  rw [h]

theorem activationOf_alike {r r' : Rule} (h : r'.cond = r.cond) (E : Env) (x : Xs) : activationOf E (some x) r' = activationOf E (some x) r := by
  unfold activationOf
  simp only [evaluateActivation_alike h]

theorem firstVector_alike {r r' : Rule} (h : Alike E r r') (v : List Nat) : firstVector E r' v = firstVector E r v := by
  unfold firstVector calcPredictionVector Rule.length
  simp only [h.2, h.1]

theorem predict_alike {r r' : Rule} (h : Alike E r r') (x : Xs) : Rule.predict E r' (some x) = Rule.predict E r (some x) := by
  unfold Rule.predict
  simp only [evaluateActivation_alike h.1, h.2]

theorem foldlM_alike {β : Type} {step step' : β → Rule → Except Err β} {l l' : List Rule} {P : Rule → Rule → Prop} (hl : List.Forall₂ P l l')
    (h : ∀ b r r', P r r' → step' b r' = step b r) (b : β) : l'.foldlM step' b = l.foldlM step b := by
  induction hl generalizing b with
  | nil => rfl
  | cons hr _ ih =>
    rw [List.foldlM_cons, List.foldlM_cons, h b _ _ hr]
    congr 1
    funext c
    exact ih c

theorem mapM_alike {β : Type} {f f' : Rule → Except Err β} {l l' : List Rule} {P : Rule → Rule → Prop} (hl : List.Forall₂ P l l')
    (h : ∀ r r', P r r' → f' r' = f r) : l'.mapM f' = l.mapM f := by
  induction hl with
  | nil => rfl
  | cons hr _ ih => rw [List.mapM_cons, List.mapM_cons, h _ _ hr, ih]

variable {rules rules' : List Rule}

theorem weightedRegressor_alike (h : List.Forall₂ (Alike S.env) rules rules') (w : Weights) :
    weightedRegressor S rules' w (some x) = weightedRegressor S rules w (some x) := by
  unfold weightedRegressor
  rw [← h.length_eq, foldlM_alike (step := weightedStep S w (some x)) h]
  intro b r r' hr
  unfold weightedStep
  rw [hr.1, activationOf_alike hr.1]
  simp only [firstVector_alike hr, hr.2]

theorem weightedClassifier_alike (h : List.Forall₂ (Alike S.env) rules rules') (w : Weights) :
    weightedClassifier S rules' w (some x) = weightedClassifier S rules w (some x) := by
  unfold weightedClassifier
  rw [← h.length_eq, foldlM_alike (step := classStep S w (some x)) h]
  intro b r r' hr
  unfold classStep
  rw [hr.1, activationOf_alike hr.1]
  simp only [hr.2]

theorem any_alike {P : Rule → Rule → Prop} (h : List.Forall₂ P rules rules') {f : Rule → Bool} (hf : ∀ r r', P r r' → f r' = f r) :
    rules'.any f = rules.any f := by
  induction h with
  | nil => rfl
  | cons hr _ ih => rw [List.any_cons, List.any_cons, hf _ _ hr, ih]

theorem equalClassifier_alike (h : List.Forall₂ (Alike S.env) rules rules') :
    equalClassifier S rules' (some x) = equalClassifier S rules (some x) := by
  unfold equalClassifier
  rw [weightedClassifier_alike h]
  congr 1
  funext n
  rw [any_alike h fun r r' hr => by rw [hr.1]]

theorem equalStep_alike {r r' : Rule} (hr : Alike S.env r r') (i : Nat)
    {acc : Option (Option Nat × List Num × List Nat)} (ha : Fresh acc) :
    SameRun Fresh (equalStep S (some x) i r acc) (equalStep S (some x) i r' acc) := by
  unfold equalStep
  rw [activationOf_alike hr.1]
  simp only [firstVector_alike hr, hr.2]
  refine sameRun_bind (sameRun_ofExcept _) fun v _ => ?_
  cases v with
  | none => exact sameRun_pure ha
  | some v =>
    by_cases h0 : v.length = 0
    · simp only [if_pos h0]
      exact sameRun_pure ha
    · simp only [if_neg h0]
      cases acc with
      | none => exact sameRun_bind (sameRun_ofExcept _) fun p _ => sameRun_pure (by rintro k c w ⟨⟩; rfl)
      | some a =>
        obtain ⟨k, cum, cumW⟩ := a
        obtain rfl := ha k cum cumW rfl
        refine sameRun_bind (sameRun_ofExcept _) fun p _ => sameRun_bind (sameRun_ofExcept _) fun p _ => sameRun_bind (sameRun_ofExcept _) fun p _ =>
          sameRun_bind (sameRun_ofExcept _) fun p _ => sameRun_bind (P := fun _ => True) ⟨.ok (), fun _ => rfl, fun _ => rfl, fun _ _ => trivial⟩ fun _ _ =>
          sameRun_pure (by rintro k c w ⟨⟩; rfl)

theorem equalLoop_alike (h : List.Forall₂ (Alike S.env) rules rules') (i : Nat)
    {acc : Option (Option Nat × List Num × List Nat)} (ha : Fresh acc) :
    SameRun Fresh (equalLoop S (some x) i rules acc) (equalLoop S (some x) i rules' acc) := by
  induction h generalizing i acc with
  | nil => exact sameRun_pure ha
  | cons hr _ ih =>
    unfold equalLoop
    exact sameRun_bind (equalStep_alike hr i ha) fun a ha => ih _ ha

theorem equalRegressor_alike (h : List.Forall₂ (Alike S.env) rules rules') :
    ∃ o, equalRegressor S (some x) rules = (o, rules) ∧ equalRegressor S (some x) rules' = (o, rules') := by
  unfold equalRegressor
  rw [Py.bind_ok (Py.get_run rules), Py.bind_ok (Py.get_run rules'), ← h.length_eq]
  by_cases h0 : rules.length = 0
  · simp only [if_pos h0]
    exact ⟨_, rfl, rfl⟩
  · simp only [if_neg h0]
    have : SameRun (fun _ => True)
        (equalLoop S (some x) 0 rules none >>= fun a => match a with
          | none => Py.throw .valueError
          | some (_, cum, cumW) => Py.ofExcept (zipOp Num.div cum (cumW.map fun a : Nat => .fin a)))
        (equalLoop S (some x) 0 rules' none >>= fun a => match a with
          | none => Py.throw .valueError
          | some (_, cum, cumW) => Py.ofExcept (zipOp Num.div cum (cumW.map fun a : Nat => .fin a))) := by
      refine sameRun_bind (equalLoop_alike h 0 (by rintro k c w ⟨⟩)) fun a _ => ?_
      cases a with
      | none => exact sameRun_throw _
      | some a => exact sameRun_ofExcept _
    obtain ⟨o, h1, h2, -⟩ := this
    exact ⟨o, h1 _, h2 _⟩

theorem predictUnstacked_alike (h : List.Forall₂ (Alike S.env) rules rules') (w : Option Weights) :
    ∃ o, Vote.predictUnstacked S w (some x) rules = (o, rules) ∧ Vote.predictUnstacked S w (some x) rules' = (o, rules') := by
  unfold Vote.predictUnstacked
  rw [Py.bind_ok (Py.get_run rules), Py.bind_ok (Py.get_run rules')]
  cases S.env.kind with
  | regression =>
    cases w with
    | some w =>
      simp only [weightedRegressor_alike h w]
      cases weightedRegressor S rules w (some x) with
      | error e => exact ⟨_, rfl, rfl⟩
      | ok l => exact ⟨_, rfl, rfl⟩
    | none =>
      obtain ⟨o, h1, h2⟩ := equalRegressor_alike (x := x) h
      simp only
      cases o with
      | error e => exact ⟨_, Py.bind_err h1, Py.bind_err h2⟩
      | ok l => exact ⟨_, by rw [Py.bind_ok h1]; rfl, by rw [Py.bind_ok h2]; rfl⟩
  | classification =>
    cases w with
    | some w =>
      simp only [weightedClassifier_alike h w]
      exact ⟨_, rfl, rfl⟩
    | none =>
      simp only [equalClassifier_alike h]
      exact ⟨_, rfl, rfl⟩

/-! ## Rulesets -/

variable {R : RsEnv}

/-- Two rules of one class with the same condition, prediction and weight, if there is one -/
def Peer (R : RsEnv) (k : Kind) (w : Option WeightsArg) (m m' : Member) : Prop :=
  m.kind = k ∧ m'.kind = k ∧ Alike (R.ofKind k) m.rule m'.rule ∧
    ∀ name, w = some (.attr name) → m'.rule.getattr (R.ofKind k) name = m.rule.getattr (R.ofKind k) name

theorem weightsOf_peers {k : Kind} {w : Option WeightsArg} {l l' : List Member} (h : List.Forall₂ (Peer R k w) l l') :
    weightsOf R k l' w = weightsOf R k l w := by
  unfold weightsOf
  cases w with
  | none => rfl
  | some w =>
    cases w with
    | series w => rfl
    | attr name =>
      have hr : List.Forall₂ (fun r r' : Rule => r'.cond = r.cond ∧ r'.getattr (R.ofKind k) name = r.getattr (R.ofKind k) name) (l.map (·.rule)) (l'.map (·.rule)) := by
        rw [List.forall₂_map_left_iff, List.forall₂_map_right_iff]
        exact h.imp fun m m' hm => ⟨hm.2.2.1.1, hm.2.2.2 name rfl⟩
      simp only [weightsFrom]
      rw [mapM_alike hr]
      rintro r r' ⟨h1, h2⟩
      show (r'.getattr (R.ofKind k) name >>= _) = (r.getattr (R.ofKind k) name >>= _)
      rw [h1, h2]

theorem putBack_self {l : List Member} : putBack l (l.map (·.rule)) = l := by
  unfold putBack
  induction l with
  | nil => rfl
  | cons m l ih => rw [List.map_cons, List.zipWith_cons_cons, ih]

theorem predictUnstacked_run {k : Kind} {w : Option WeightsArg} {s : RuleSet} {o : Except Err (List Label)} {w' : Option Weights}
    (hw : weightsOf R k s.rules w = .ok w') (ho : Vote.predictUnstacked (voteEnv R k) w' (some x) (s.rules.map (·.rule)) = (o, s.rules.map (·.rule))) :
    RuleSet.predictUnstacked R k (some x) w s = (o.map (List.map .label), s) := by
  unfold RuleSet.predictUnstacked
  rw [Py.bind_ok (Py.get_run s), Py.bind_ok (show Py.ofExcept (weightsOf R k s.rules w) s = (.ok w', s) by rw [hw]; rfl)]
  simp only [ho]
  rw [Py.bind_ok (Py.modify_run _ _), putBack_self]
  cases o <;> rfl

theorem predictUnstacked_peers {k : Kind} {w : Option WeightsArg} {s s' : RuleSet} (h : List.Forall₂ (Peer R k w) s.rules s'.rules) :
    ∃ o, RuleSet.predictUnstacked R k (some x) w s = (o, s) ∧ RuleSet.predictUnstacked R k (some x) w s' = (o, s') := by
  have hr : List.Forall₂ (Alike (voteEnv R k).env) (s.rules.map (·.rule)) (s'.rules.map (·.rule)) := by
    rw [List.forall₂_map_left_iff, List.forall₂_map_right_iff]
    exact h.imp fun m m' hm => hm.2.2.1
  have hw := weightsOf_peers h
  cases e : weightsOf R k s.rules w with
  | error err =>
    rw [e] at hw
    refine ⟨.error err, ?_, ?_⟩
    · unfold RuleSet.predictUnstacked
      rw [Py.bind_ok (Py.get_run s), Py.bind_err (show Py.ofExcept (weightsOf R k s.rules w) s = (.error err, s) by rw [e]; rfl)]
    · unfold RuleSet.predictUnstacked
      rw [Py.bind_ok (Py.get_run s'), Py.bind_err (show Py.ofExcept (weightsOf R k s'.rules w) s' = (.error err, s') by rw [hw]; rfl)]
  | ok w' =>
    rw [e] at hw
    obtain ⟨o, h1, h2⟩ := predictUnstacked_alike (x := x) hr w'
    exact ⟨_, predictUnstacked_run e h1, predictUnstacked_run hw h2⟩

/-- No stacked activations are used in predictions. -/
def Unstacked (R : RsEnv) (s : RuleSet) : Prop := R.stackedFit = false ∨ s.stacked = none

theorem predict_unstacked {k : Kind} {w : Option WeightsArg} {s : RuleSet} (hu : Unstacked R s) (hk : s.ruleType = some k) (hne : s.rules.length ≠ 0) (xs : Option Xs) :
    RuleSet.predict R xs w s = RuleSet.predictUnstacked R k xs w s := by
  unfold RuleSet.predict
  rw [Py.bind_ok (Py.get_run s), if_neg hne, hk]
  simp only
  rcases hu with h | h
  · rw [h]
  · rw [h]
    cases R.stackedFit <;> rfl

theorem predict_peers {k : Kind} {w : Option WeightsArg} {s s' : RuleSet} (hu : Unstacked R s) (hu' : Unstacked R s') (hk : s.ruleType = some k)
    (hk' : s'.ruleType = some k) (h : List.Forall₂ (Peer R k w) s.rules s'.rules) :
    ∃ o, RuleSet.predict R (some x) w s = (o, s) ∧ RuleSet.predict R (some x) w s' = (o, s') := by
  by_cases hne : s.rules.length = 0
  · refine ⟨.ok [], ?_, ?_⟩
    · unfold RuleSet.predict
      rw [Py.bind_ok (Py.get_run s), if_pos hne]
      rfl
    · unfold RuleSet.predict
      rw [Py.bind_ok (Py.get_run s'), if_pos (by rw [← h.length_eq]; exact hne)]
      rfl
  · rw [predict_unstacked hu hk hne, predict_unstacked hu' hk' (by rw [← h.length_eq]; exact hne)]
    exact predictUnstacked_peers h

theorem mapM_peers {k : Kind} {w : Option WeightsArg} {l l' : List Member} (h : List.Forall₂ (Peer R k w) l l') (x : Xs) :
    (l'.mapM fun m : Member => m.rule.evaluateActivation (R.ofKind m.kind) x) = l.mapM fun m : Member => m.rule.evaluateActivation (R.ofKind m.kind) x := by
  induction h with
  | nil => rfl
  | cons hm _ ih => rw [List.mapM_cons, List.mapM_cons, ih, hm.1, hm.2.1, evaluateActivation_alike hm.2.2.1.1]

theorem evaluate_peers {k : Kind} {w : Option WeightsArg} {s s' : RuleSet} (h : List.Forall₂ (Peer R k w) s.rules s'.rules) (x : Xs) :
    RuleSet.evaluate R s' x = RuleSet.evaluate R s x := by
  unfold RuleSet.evaluate
  rw [← h.length_eq, mapM_peers h]

theorem evaluateSelf_peers {k : Kind} {w : Option WeightsArg} {l l' : List Member} (h : List.Forall₂ (Peer R k w) l l') (x : Xs) :
    RuleSet.evaluateSelf R (some x) l' = RuleSet.evaluateSelf R (some x) l := by
  unfold RuleSet.evaluateSelf activations
  simp only [← h.length_eq, mapM_peers h]

theorem calcCriterion_peers {k : Kind} {w : Option WeightsArg} {kw : Rule.Kw} {y : List Label} {s s' : RuleSet} (hu : Unstacked R s) (hu' : Unstacked R s')
    (hk : s.ruleType = some k) (hk' : s'.ruleType = some k) (h : List.Forall₂ (Peer R k w) s.rules s'.rules) (hne : s.rules.length ≠ 0) :
    (RuleSet.calcCriterion R y (some x) w kw s').1 = (RuleSet.calcCriterion R y (some x) w kw s).1 ∧
      ((RuleSet.calcCriterion R y (some x) w kw s).1 = .ok () →
        (RuleSet.calcCriterion R y (some x) w kw s').2.criterion = (RuleSet.calcCriterion R y (some x) w kw s).2.criterion) := by
  obtain ⟨o, h1, h2⟩ := predict_peers (x := x) hu hu' hk hk' h
  have hne' : s'.rules.length ≠ 0 := by rw [← h.length_eq]; exact hne
  have ha := evaluateSelf_peers h x
  simp only [RuleSet.calcCriterion, criterionActivation, Py.bind_run, Py.get_run, if_neg hne, if_neg hne', hk, hk', h1, h2]
  cases o with
  | error e => exact ⟨rfl, fun e => by cases e⟩
  | ok p =>
    by_cases h0 : p.length = 0
    · simp [h0]
    · simp only [if_neg h0, Py.bind_run, Py.ofExcept_run]
      cases hp : labelsOfCells p with
      | error e => exact ⟨rfl, fun e => by cases e⟩
      | ok l =>
        cases k with
        | classification =>
          simp only [Py.bind_run, Py.get_run, Py.ofExcept_run, ha]
          cases he : RuleSet.evaluateSelf R (some x) s.rules with
          | error e => exact ⟨rfl, fun e => by cases e⟩
          | ok a =>
            simp only [Py.pure_run]
            cases hc : RFun.classificationCriterionVector (kw.criterionMethod.getD "success_rate") (a.getD []) l y with
            | error e => exact ⟨rfl, fun e => by cases e⟩
            | ok c => exact ⟨rfl, fun _ => rfl⟩
        | regression =>
          simp only [Py.bind_run, Py.ofExcept_run]
          cases hn : Rule.numbers l with
          | error e => exact ⟨rfl, fun e => by cases e⟩
          | ok l =>
            simp only
            cases hy : Rule.numbers y with
            | error e => exact ⟨rfl, fun e => by cases e⟩
            | ok y =>
              simp only
              cases hc : RFun.regressionCriterion (kw.criterionMethod.getD "mse_norm") l y with
              | error e => exact ⟨rfl, fun e => by cases e⟩
              | ok c => exact ⟨rfl, fun _ => rfl⟩

/-! ## Rules which are saved and loaded -/

theorem getattr_prediction {E : Env} {r r' : Rule} (h : r'.getattr E "prediction" = r.getattr E "prediction") :
    r'.getPrediction E = r.getPrediction E := by
  have key : ∀ r : Rule, r.getattr E "prediction" = (r.getPrediction E).map Save.predAttr := by
    intro r
    unfold Rule.getattr
    rw [if_neg (by decide), if_pos rfl]
    cases r.getPrediction E with
    | error e => rfl
    | ok o => cases o <;> rfl
  have inj : ∀ o o' : Option Label, Save.predAttr o' = Save.predAttr o → o' = o := by
    intro o o' h
    rcases o with _ | (x | t) <;> rcases o' with _ | (x' | t') <;> simp_all [Save.predAttr, Rule.ofLabel]
  rw [key, key] at h
  cases h1 : r.getPrediction E with
  | error e =>
    cases h2 : r'.getPrediction E with
    | error e' => rw [h1, h2] at h; cases h; rfl
    | ok o' => rw [h1, h2] at h; cases h
  | ok o =>
    cases h2 : r'.getPrediction E with
    | error e' => rw [h1, h2] at h; cases h
    | ok o' =>
      rw [h1, h2] at h
      rw [inj o o' (Except.ok.inj h)]

theorem ofExcept_both {σ α : Type} {e : Except Err α} {s s' : σ} {a : α} (h : (Py.ofExcept e : Py σ α) s = (.ok a, s')) :
    e = .ok a ∧ s' = s := by
  rw [Py.ofExcept_run] at h
  exact ⟨(Prod.ext_iff.1 h).1, (Prod.ext_iff.1 h).2.symm⟩

theorem stackIf_stacked {R : RsEnv} {s s' : RuleSet} (h3 : stackIf (computeStacked R none) s = (.ok (), s')) :
    s'.stacked = s.stacked ∨ evaluateStacked R none s'.rules = .ok s'.stacked := by
  unfold stackIf at h3
  rw [Py.bind_ok (Py.get_run _)] at h3
  split at h3
  · unfold computeStacked at h3
    rw [Py.bind_ok (Py.get_run _)] at h3
    obtain ⟨c, s5, h5, h6⟩ := Py.bind_eq_ok h3
    obtain ⟨e, e'⟩ := ofExcept_both h5
    subst e'
    cases h6
    exact .inr e
  · cases h3
    exact .inl rfl

theorem setLoaded_stacked {R : RsEnv} {rules : List Member} {s s' : RuleSet} (h : Save.setLoaded R rules s = (.ok (), s')) :
    s'.stacked = s.stacked ∨ evaluateStacked R none s'.rules = .ok s'.stacked := by
  unfold Save.setLoaded at h
  obtain ⟨_, s1, h1, h⟩ := Py.bind_eq_ok h
  cases h1
  obtain ⟨_, s2, h2, h⟩ := Py.bind_eq_ok h
  obtain ⟨_, s3, h3, h⟩ := Py.bind_eq_ok h
  cases h
  unfold computeSelf at h2
  rw [Py.bind_ok (Py.get_run _)] at h2
  obtain ⟨a, s4, h4, h6⟩ := Py.bind_eq_ok h2
  obtain ⟨-, e⟩ := ofExcept_both h4
  subst e
  cases h6
  have key := stackIf_stacked h3
  exact key

theorem load_stacked {W : Save.Texts} {R : RsEnv} {by_ : String} {t : Save.Table} {s s' : RuleSet}
    (h : Save.load W R by_ (some t) s = (.ok (), s')) : s'.stacked = s.stacked ∨ evaluateStacked R none s'.rules = .ok s'.stacked := by
  unfold Save.load at h
  simp only at h
  rw [Py.bind_ok (Py.modify_run _ _)] at h
  obtain ⟨a3, s3, h3, g3⟩ := Py.bind_eq_ok h
  obtain ⟨-, e3⟩ := ofExcept_both h3
  subst e3
  rw [Py.bind_ok (Py.modify_run _ _)] at g3
  obtain ⟨a4, s4, h4, g4⟩ := Py.bind_eq_ok g3
  obtain ⟨-, e4⟩ := ofExcept_both h4
  subst e4
  rw [Py.bind_ok (Py.modify_run _ _)] at g4
  obtain ⟨a5, s5, h5, g5⟩ := Py.bind_eq_ok g4
  obtain ⟨-, e5⟩ := ofExcept_both h5
  subst e5
  have key := setLoaded_stacked g5
  exact key

theorem foldlM_stays {α β ε : Type} {f : β → α → Except ε β} {b : β} : ∀ {l : List α}, (∀ a ∈ l, f b a = .ok b) → l.foldlM f b = .ok b
  | [], _ => rfl
  | a :: l, h => by
    rw [List.foldlM_cons, h a (by simp)]
    exact foldlM_stays (l := l) fun a ha => h a (by simp [ha])

theorem activationOf_nothing {E : Env} {r : Rule} (h : r.act = none) : activationOf E none r = .ok none := by
  simp only [activationOf, Rule.activation, h]

theorem equalLoop_nothing {S : SetEnv} {st : List Rule} : ∀ {l : List Rule} {i : Nat}, (∀ r ∈ l, r.act = none) →
    equalLoop S none i l none st = (.ok none, st)
  | [], _, _ => rfl
  | r :: l, i, h => by
    have e : equalStep S none i r none st = (.ok none, st) := by
      unfold equalStep
      rw [Py.bind_ok (show Py.ofExcept (activationOf S.env none r) st = (.ok none, st) by rw [activationOf_nothing (h r (by simp))]; rfl)]
      rfl
    unfold equalLoop
    rw [Py.bind_ok e]
    exact equalLoop_nothing fun r hr => h r (by simp [hr])

theorem predictUnstacked_nothing {S : SetEnv} {w : Option Weights} {rules : List Rule} (hne : rules ≠ []) (h : ∀ r ∈ rules, r.act = none) :
    (Vote.predictUnstacked S w none rules).1 = .error .valueError := by
  have hl : rules.length ≠ 0 := fun e => hne (List.length_eq_zero_iff.1 e)
  have hc : ∀ w, weightedClassifier S rules w none = .error .valueError := by
    intro w
    unfold weightedClassifier
    rw [if_neg hl, foldlM_stays (b := []) (f := classStep S w none)]
    · rfl
    · intro r hr
      unfold classStep
      cases weightOf w (S.condStr r.cond) with
      | none => rfl
      | some x => simp only [activationOf_nothing (h r hr), bind, Except.bind]
  have hr : ∀ w, weightedRegressor S rules w none = .error .valueError := by
    intro w
    unfold weightedRegressor
    rw [if_neg hl, foldlM_stays (b := none) (f := weightedStep S w none)]
    · rfl
    · intro r hr
      unfold weightedStep
      cases weightOf w (S.condStr r.cond) with
      | none => rfl
      | some x => simp only [activationOf_nothing (h r hr), bind, Except.bind]
  have he : equalRegressor S none rules = (.error .valueError, rules) := by
    unfold equalRegressor
    rw [Py.bind_ok (Py.get_run _), if_neg hl, Py.bind_ok (equalLoop_nothing h)]
    rfl
  unfold Vote.predictUnstacked
  rw [Py.bind_ok (Py.get_run _)]
  cases S.env.kind <;> cases w
  all_goals simp only [equalClassifier, hc, hr, he, Py.bind_run, Py.ofExcept_run]

theorem predict_nothing {R : RsEnv} {k : Kind} {w : Option WeightsArg} {s : RuleSet} (hk : s.ruleType = some k) (hs : s.stacked = none)
    (hne : s.rules ≠ []) (h : ∀ m ∈ s.rules, m.rule.act = none) (hw : w = none ∨ ∃ f, w = some (.series f)) :
    (RuleSet.predict R none w s).1 = .error .valueError := by
  have hl : s.rules.length ≠ 0 := fun e => hne (List.length_eq_zero_iff.1 e)
  have hw' : ∃ w', weightsOf R k s.rules w = .ok w' := by
    rcases hw with rfl | ⟨f, rfl⟩
    · exact ⟨_, rfl⟩
    · exact ⟨_, rfl⟩
  obtain ⟨w', hw'⟩ := hw'
  rw [predict_unstacked (.inr hs) hk hl]
  unfold RuleSet.predictUnstacked
  rw [Py.bind_ok (Py.get_run _), Py.bind_ok (show Py.ofExcept (weightsOf R k s.rules w) s = (.ok w', s) by rw [hw']; rfl)]
  have e := predictUnstacked_nothing (S := voteEnv R k) (w := w') (rules := s.rules.map (·.rule)) (by simpa using hne) (by simpa using h)
  simp only [e, Py.bind_run, Py.ofExcept_run, Py.modify_run]

end Verif.LoadPredict

namespace Verif.LoadPredict

open Verif Save Spec Vote RuleSet

variable {W : Texts} {R : RsEnv} {by_ : String} {s s0 s' : RuleSet} {t : Save.Table}

theorem reloaded_back (h : Reloaded W R by_ s t s0 s') :
    List.Forall₂ (SameSaved R) s.rules s'.rules ∧ s'.ruleType = s.ruleType ∧ (∀ m ∈ s'.rules, m.rule.act = none) ∧ s'.stacked = none ∧
      s.rules ≠ [] := by
  obtain ⟨s1, h1, h2, -, -, -, -, -, h3, -, -, h4⟩ := load_back (s0 := s0) h.exact h.kinds h.rules h.size h.saved
  rw [h.loaded] at h1
  cases h1
  have hne := (toTable_ok h.saved).1
  have hne' : s'.rules ≠ [] := by
    intro e
    rw [e] at h2
    exact hne (List.forall₂_nil_right_iff.1 h2)
  have hact : ∀ m ∈ s'.rules, m.rule.act = none := fun m hm => (h4 m hm).2.2.1
  refine ⟨h2, h3, hact, ?_, hne⟩
  rcases load_stacked h.loaded with e | e
  · rw [e, h.fresh]
  · rw [(evaluateSelf_none hne' hact).2] at e
    exact (Except.ok.inj e).symm

theorem reloaded_peers (h : Reloaded W R by_ s t s0 s') {k : Kind} (hk : s.ruleType = some k) {w : Option WeightsArg} (hw : SavedWeights k w) :
    List.Forall₂ (Peer R k w) s.rules s'.rules := by
  obtain ⟨h2, -⟩ := reloaded_back h
  have key : ∀ {l l' : List Member}, List.Forall₂ (SameSaved R) l l' → (∀ m ∈ l, s.ruleType = some m.kind) → List.Forall₂ (Peer R k w) l l' := by
    intro l l' hl
    induction hl with
    | nil => exact fun _ => .nil
    | @cons m m' l l' hm _ ih =>
      intro hkinds
      have e : m.kind = k := by
        have := hkinds m (by simp)
        rw [hk] at this
        exact (Option.some.inj this).symm
      subst e
      refine .cons ⟨rfl, hm.kind, ⟨hm.cond, getattr_prediction hm.prediction⟩, ?_⟩ (ih fun m hm => hkinds m (by simp [hm]))
      rintro name rfl
      simp only [SavedWeights, List.mem_cons, List.not_mem_nil, or_false] at hw
      rcases hw with (rfl | rfl | rfl) | ⟨e, rfl | rfl⟩
      · exact hm.prediction
      · exact hm.coverage
      · exact hm.criterion
      · exact hm.zscore e
      · exact hm.std e
  exact key h2 h.kinds

end Verif.LoadPredict
