import Verif.StackedSetLemmas
import Verif.RuleEval
import Verif.RuleLemmas

/-!
# Lemmas about stacked eval: one rule
-/

namespace Verif.Rule

open Verif Thresholds Spec RuleSet RFun

variable {E : Env} {y : List Label} {kw : Kw} {v : List Nat}

/-- The criterion which a rule computes -/
def ownCriterion (E : Env) (y : List Label) (v : List Nat) (kw : Kw) (r : Rule) : Except Err Num :=
  match E.kind with
  | .regression => do
    let p ← r.calcPredictionVector E (some v)
    let p ← numbers (p.getD [])
    let ys ← numbers y
    regressionCriterion (kw.criterionMethod.getD "mse_norm") p ys
  | .classification => do
    match ← r.getPrediction E with
    | none => .error .typeError
    | some p => classificationCriterion (kw.criterionMethod.getD "success_rate") v p y

theorem calcCriterion_own {r r1 : Rule} (h : calcCriterion E y v kw r = (.ok (), r1)) :
    ∃ c, ownCriterion E y v kw r = .ok c ∧ check E "criterion" { r with criterion := .num c } = (.ok (), r1) := by
  unfold calcCriterion at h
  rw [Py.bind_ok (Py.get_run _)] at h
  unfold ownCriterion
  cases hk : E.kind with
  | regression =>
    rw [hk] at h
    simp only at h ⊢
    obtain ⟨a, r2, h2, h⟩ := Py.bind_eq_ok h
    obtain ⟨e2, rfl⟩ := ofExcept_ok h2
    obtain ⟨b, r3, h3, h⟩ := Py.bind_eq_ok h
    obtain ⟨e3, rfl⟩ := ofExcept_ok h3
    obtain ⟨c, r4, h4, h⟩ := Py.bind_eq_ok h
    obtain ⟨e4, rfl⟩ := ofExcept_ok h4
    obtain ⟨d, r5, h5, h⟩ := Py.bind_eq_ok h
    obtain ⟨e5, rfl⟩ := ofExcept_ok h5
    rw [Py.bind_ok (Py.modify_run _ _)] at h
    refine ⟨d, ?_, h⟩
    simp only [e2, e3, e4, e5, bind, Except.bind]
  | classification =>
    rw [hk] at h
    simp only at h ⊢
    obtain ⟨a, r2, h2, h⟩ := Py.bind_eq_ok h
    obtain ⟨e2, rfl⟩ := ofExcept_ok h2
    cases a with
    | none => simp at h
    | some p =>
      simp only at h
      obtain ⟨d, r5, h5, h⟩ := Py.bind_eq_ok h
      obtain ⟨e5, rfl⟩ := ofExcept_ok h5
      rw [Py.bind_ok (Py.modify_run _ _)] at h
      refine ⟨d, ?_, h⟩
      simp only [e2, e5, bind, Except.bind]

theorem ownCriterion_data {r r' : Rule} (h : r'.prediction = r.prediction) (hc : r'.cond = r.cond) :
    ownCriterion E y v kw r' = ownCriterion E y v kw r := by
  unfold ownCriterion
  rw [calcPredictionVector_data h hc, getPrediction_data h]

theorem step_criterion (hE : SeesPrediction E) {r0 : Rule} {c : Num} (hc : ∀ c', ownCriterion E y v kw r0 = .ok c' → c' = c) :
    Step E (calcTest E y v kw) "criterion" (.num c) (fun r => r.prediction = r0.prediction ∧ r.cond = r0.cond) (fun _ => True) := by
  intro r r' hr hl hg r1 h
  refine ⟨trivial, ?_⟩
  simp only [calcTest, if_true] at h
  obtain ⟨_, r2, h1, h2⟩ := Py.bind_eq_ok h
  obtain ⟨c', e1, e2⟩ := calcCriterion_own h1
  rw [ownCriterion_data hr.1 hr.2] at e1
  obtain rfl := hc c' e1
  have hh : (check E "criterion" >>= fun _ => checkIfGood E "criterion") { r with criterion := .num c' } = (.ok (), r1) := by
    rw [Py.bind_ok e2]
    exact h2
  exact (checked_step hE (like_setFigure hl (a := "criterion") (by decide) (.num c')) hg hh).2

/-- The rule after the activation has been computed -/
theorem evalActivation_state {xs : Option Xs} {rc : Bool} {r r1 : Rule} (h : evalActivation E xs rc r = (.ok v, r1)) :
    match xs, rc with
    | some x, true => calcActivation E (some x) r = (.ok (), r1)
    | _, _ => r1 = r := by
  unfold evalActivation at h
  obtain ⟨_, r2, h1, h⟩ := Py.bind_eq_ok h
  rw [Py.bind_ok (Py.get_run _)] at h
  have hr : r1 = r2 := by
    cases ho : r2.act with
    | none => simp [ho] at h
    | some own =>
      simp only [ho] at h
      cases xs with
      | none => simp only [Py.pure_run] at h; cases h; rfl
      | some x =>
        simp only at h
        split at h
        · simp only [Py.pure_run] at h; cases h; rfl
        · exact (ofExcept_ok h).2.symm
  subst hr
  unfold recomputeIf at h1
  cases rc with
  | false =>
    simp only [Bool.false_eq_true, if_false, Py.pure_run] at h1
    cases h1
    cases xs <;> rfl
  | true =>
    rw [if_pos rfl] at h1
    cases xs with
    | some x => exact h1
    | none =>
      unfold calcActivation at h1
      simp only at h1
      rw [Py.bind_ok (Py.get_run _)] at h1
      split at h1
      · simp at h1
      · simp only [Py.pure_run] at h1; cases h1; rfl

end Verif.Rule

namespace Verif.RuleSet

open Verif Vote Spec RFun

variable {R : RsEnv}

theorem mul_comm' (a b : Num) : Num.mul a b = Num.mul b a := by
  cases a <;> cases b <;> simp [Num.mul, mul_comm]

theorem label_eq_comm (a b : Label) : a.eq b = b.eq a := by
  cases a <;> cases b <;> simp [Label.eq, Num.beq, Bool.and_comm, eq_comm]

theorem label_nan (a : Label) : Label.eq (.num .nan) a = false := by
  cases a with
  | text s => rfl
  | num x => cases x <;> rfl

theorem column_plain {u : List Bool} {y : List Label}
    (h : ∀ c ∈ activated u y, (∃ x : Num, c = .num x ∧ x ≠ .nan) ∨ ∃ s, c = .text s ∧ s ≠ "" ∧ s ≠ "zero") (p : Label) :
    ((conditionalColumn (arr u) y).filter fun t => t.eq p).length = ((activated u y).filter fun t => p.eq t).length ∧
      ((conditionalColumn (arr u) y).filter fun t => !t.isNaN).length = (activated u y).length := by
  induction u generalizing y with
  | nil => exact ⟨rfl, rfl⟩
  | cons b u ih =>
    cases y with
    | nil => exact ⟨rfl, rfl⟩
    | cons t y =>
      have hc : conditionalColumn (arr (b :: u)) (t :: y) = conditionalCell b.toNat t :: conditionalColumn (arr u) y := rfl
      rw [hc]
      cases b with
      | false =>
        have ha : activated (false :: u) (t :: y) = activated u y := by simp [activated]
        rw [ha] at h ⊢
        obtain ⟨i1, i2⟩ := ih h
        have : conditionalCell false.toNat t = .num .nan := conditionalCell_zero t
        rw [this]
        refine ⟨?_, ?_⟩
        · rw [List.filter_cons, label_nan, if_neg (by simp)]
          exact i1
        · rw [List.filter_cons, if_neg (by simp [Label.isNaN, Num.isNaN])]
          exact i2
      | true =>
        have ha : activated (true :: u) (t :: y) = t :: activated u y := by simp [activated]
        rw [ha] at h ⊢
        obtain ⟨i1, i2⟩ := ih (y := y) fun c hc => h c (by simp [hc])
        have ht : conditionalCell true.toNat t = t ∧ t.isNaN = false := by
          rcases h t (by simp) with ⟨x, rfl, hx⟩ | ⟨s, rfl, h1, h2⟩
          · refine ⟨conditionalCell_num x, ?_⟩
            cases x <;> first | rfl | exact absurd rfl hx
          · exact ⟨conditionalCell_text h1 h2, rfl⟩
        rw [ht.1]
        refine ⟨?_, ?_⟩
        · rw [List.filter_cons, List.filter_cons, label_eq_comm t p]
          split
          · rw [List.length_cons, List.length_cons, i1]
          · exact i1
        · rw [List.filter_cons, if_pos (by simp [ht.2]), List.length_cons, List.length_cons, i2]

theorem columnSuccess_plain {u : List Bool} {y : List Label}
    (h : ∀ c ∈ activated u y, (∃ x : Num, c = .num x ∧ x ≠ .nan) ∨ ∃ s, c = .text s ∧ s ≠ "" ∧ s ≠ "zero") (p : Label) :
    columnSuccess (arr u) p y = successRate p (activated u y) := by
  obtain ⟨h1, h2⟩ := column_plain h p
  unfold columnSuccess successRate
  simp only [h1, h2]
  split
  · rename_i e
    rw [List.length_eq_zero_iff.1 e]
    rfl
  · rename_i e
    have : ((activated u y).length : Rat) ≠ 0 := by exact_mod_cast e
    simp [Num.div, this]

/-- The predictions of the rules, by the texts of their conditions -/
theorem labelsOf_ok {k : Kind} {rules : List Member} (hd : DifferentTexts R rules) {preds : List (String × Label)}
    (h : labelsOf (voteEnv R k) (rules.map (·.rule)) = .ok preds) :
    List.Forall₂ (fun m p => p.1 = R.condStr m.rule.cond ∧ ∃ l, m.rule.getPrediction (R.ofKind k) = .ok l ∧ p.2 = l.getD (.num .nan)) rules preds := by
  have h' : seriesOf R (fun m => (m.rule.getPrediction (R.ofKind k)).map fun p => p.getD (.num .nan)) rules = .ok preds := by
    unfold labelsOf at h
    unfold seriesOf
    rw [← h, List.mapM_map]
    congr 2
    funext m
    show Except.map _ (Except.map _ (m.rule.getPrediction (R.ofKind k))) = Except.map _ (m.rule.getPrediction (R.ofKind k))
    cases m.rule.getPrediction (R.ofKind k) <;> rfl
  refine (seriesOf_ok hd h').imp ?_
  rintro m p ⟨h1, h2⟩
  refine ⟨h1, ?_⟩
  cases hg : m.rule.getPrediction (R.ofKind k) with
  | error e => rw [hg] at h2; cases h2
  | ok l => rw [hg] at h2; exact ⟨l, rfl, (Except.ok.inj h2).symm⟩

theorem forall2_fst {α β} {P : α → String × β → Prop} {f : α → String} (hf : ∀ a p, P a p → p.1 = f a) {l : List α}
    {l' : List (String × β)} (h : List.Forall₂ P l l') : l'.map (·.1) = l.map f := by
  induction h with
  | nil => rfl
  | cons h _ ih => rw [List.map_cons, List.map_cons, ih, hf _ _ h]

theorem asLabels_get {s : Series Num} {i : Nat} {n : String} {x : Num} (h : s[i]? = some (n, x)) :
    iloc (asLabels s) i = .ok (.num x) := by
  unfold iloc asLabels
  rw [List.getElem?_map, h]
  rfl

/-- The stacked criterion of a rule is the one which it would compute. -/
theorem testFigures_ok {k : Kind} {rules : List Member} (hd : DifferentTexts R rules) {c : Columns Nat} {y : List Label} {kw : Rule.Kw}
    (hn : c.map (·.1) = rules.map fun m => R.condStr m.rule.cond)
    {vals : List (String × Series Label)} (h : testFigures R k rules c y kw = .ok vals) {i : Nat} {m : Member} {u : List Bool}
    (hm : rules[i]? = some m) (hc : c[i]? = some (R.condStr m.rule.cond, arr u)) (hl : y.length = u.length)
    (hk : match k with
      | .regression => m.rule.length ≠ 0
      | .classification => ∀ c ∈ activated u y, (∃ x : Num, c = .num x ∧ x ≠ .nan) ∨ ∃ s, c = .text s ∧ s ≠ "" ∧ s ≠ "zero") :
    ∃ x, Rule.Matches i [("criterion", .num x)] vals ∧
      ∀ x', Rule.ownCriterion (R.ofKind k) y (arr u) kw m.rule = .ok x' → x' = x := by
  unfold testFigures at h
  simp only [bind, Except.bind] at h
  split at h
  · cases h
  rename_i preds hp
  have hf := labelsOf_ok hd hp
  have hnames := forall2_fst (f := fun m : Member => R.condStr m.rule.cond) (fun a p h => h.1) hf
  obtain ⟨q, hq, hq1, l, hq2, hq3⟩ := forall2_get hf hm
  cases k with
  | classification =>
    simp only at h hk
    split at h
    · cases h
    rename_i L hL
    cases h
    unfold classificationCriterions at hL
    rw [if_neg (by rw [hn, hnames]; simp)] at hL
    cases hL
    refine ⟨columnSuccess (arr u) q.2 y, .cons ⟨rfl, ?_⟩ .nil, ?_⟩
    · refine asLabels_get (n := R.condStr m.rule.cond) ?_
      rw [List.getElem?_zipWith, hc, hq]
    · intro x' hx'
      simp only [Rule.ownCriterion, RsEnv.ofKind] at hx'
      have hq2' : m.rule.getPrediction { R.env with kind := .classification } = .ok l := hq2
      rw [hq2'] at hx'
      simp only [bind, Except.bind] at hx'
      cases l with
      | none => cases hx'
      | some p =>
        simp only [Option.getD_some] at hq3
        rw [hq3, columnSuccess_plain hk]
        simp only [classificationCriterion, extract_arr hl, bind, Except.bind] at hx'
        split at hx'
        · cases hx'; rfl
        · cases hx'
  | regression =>
    simp only at h hk
    split at h
    · cases h
    rename_i ps hps
    split at h
    · cases h
    rename_i ys hys
    split at h
    · cases h
    rename_i L hL
    cases h
    obtain ⟨⟨n', x0⟩, hx1, hx2⟩ := mapM_get hps hq
    have hx : q.2 = .num x0 ∧ n' = q.1 := by
      cases hq4 : q.2 with
      | text s => simp [hq4] at hx2
      | num z => simp only [hq4] at hx2; cases hx2; exact ⟨rfl, rfl⟩
    obtain ⟨hx, rfl⟩ := hx
    have hpn : ps.map (·.1) = preds.map (·.1) := mapM_fst (by
      intro a b hab
      split at hab
      · cases hab; rfl
      · cases hab) hps
    have hcn : (c.map (·.1)).Nodup := by rw [hn]; exact hd
    have hal : alignIndex (c.map (·.1)) (ps.map (·.1)) = c.map (·.1) := by
      unfold alignIndex
      rw [if_pos (by rw [hpn, hnames, hn])]
    have hcol : (predictionColumns c ps)[i]? = some (R.condStr m.rule.cond, (arr u).map fun a : Nat => if a = 0 then Num.nan else Num.mul (.fin a) x0) := by
      unfold predictionColumns
      have hpsn : (ps.map (·.1)).Nodup := by rw [hpn, hnames]; exact hd
      have l1 : lookup c (R.condStr m.rule.cond) = some (arr u) := lookup_get hcn hc
      have l2 : lookup ps (R.condStr m.rule.cond) = some x0 := by
        have := lookup_get hpsn hx1
        rwa [hq1] at this
      rw [hal, List.getElem?_map, List.getElem?_map, hc]
      simp only [Option.map_some, l1, l2]
    obtain ⟨⟨n2, x⟩, hb1, hb2⟩ := mapM_get hL hcol
    cases hr : regressionCriterion (kw.criterionMethod.getD "mse_norm") ((arr u).map fun a : Nat => if a = 0 then Num.nan else Num.mul (.fin a) x0) ys with
    | error e => rw [hr] at hb2; cases hb2
    | ok z =>
      rw [hr] at hb2
      cases hb2
      refine ⟨x, .cons ⟨rfl, asLabels_get hb1⟩ .nil, ?_⟩
      intro x' hx'
      simp only [Rule.ownCriterion, RsEnv.ofKind] at hx'
      have hq2' : m.rule.getPrediction { R.env with kind := .regression } = .ok l := hq2
      simp only [Rule.calcPredictionVector, hq2', bind, Except.bind] at hx'
      have hnum : ∀ ns : List Num, Rule.numbers (ns.map Label.num) = .ok ns := by
        intro ns
        unfold Rule.numbers
        induction ns with
        | nil => rfl
        | cons a ns ih => rw [List.map_cons, List.mapM_cons, ih]; rfl
      have hvec : Rule.numbers ((arr u).map fun a : Nat => Label.num (if a = 0 then Num.nan else Num.mul x0 (.fin a))) =
          .ok ((arr u).map fun a : Nat => if a = 0 then Num.nan else Num.mul (.fin a) x0) := by
        have : ((arr u).map fun a : Nat => Label.num (if a = 0 then Num.nan else Num.mul x0 (.fin a))) =
            ((arr u).map fun a : Nat => if a = 0 then Num.nan else Num.mul (.fin a) x0).map Label.num := by
          rw [List.map_map]
          apply List.map_congr_left
          intro a _
          simp only [Function.comp, mul_comm' x0]
        rw [this, hnum]
      cases l with
      | none =>
        simp only [Option.getD_none] at hq3
        rw [hx] at hq3
        cases hq3
        have hv : ((arr u).map fun _ : Nat => Label.num Num.nan) =
            (arr u).map fun a : Nat => Label.num (if a = 0 then Num.nan else Num.mul .nan (.fin a)) := by
          apply List.map_congr_left
          intro a _
          split <;> rfl
        simp only [Option.getD_some, hv, hvec, hys, hr] at hx'
        exact (Except.ok.inj hx').symm
      | some p =>
        simp only [Option.getD_some] at hq3
        rw [hx] at hq3
        subst hq3
        simp only [if_neg hk, Option.getD_some, hvec, hys, hr] at hx'
        exact (Except.ok.inj hx').symm

/-! ## What is left unchanged -/

/-- The marks and the prediction of a rule -/
def marks (r : Rule) : Bool × Bool × Pred := (r.fitted, r.evaluated, r.prediction)

theorem marks_data {a b : Rule} (h : a.data = b.data) : marks a = marks b := by
  have h1 := congrArg Rule.fitted h
  have h2 := congrArg Rule.evaluated h
  have h3 := congrArg Rule.prediction h
  exact Prod.ext h1 (Prod.ext h2 h3)

theorem leaves_checkIfGood_marks (E : Env) (a : String) : Rule.Leaves marks (Rule.checkIfGood E a) := fun r =>
  marks_data (Rule.checkIfGood_data E a r)

theorem leaves_checkAllIfGood_marks (E : Env) : Rule.Leaves marks (Rule.checkAllIfGood E) := fun r =>
  marks_data (Rule.checkAllIfGood_data E r)

theorem leaves_check_marks (E : Env) (a : String) : Rule.Leaves marks (Rule.check E a) := fun r =>
  marks_data (Rule.check_data E a r)

theorem leaves_calcCriterion_marks (E : Env) (y : List Label) (v : List Nat) (kw : Rule.Kw) :
    Rule.Leaves marks (Rule.calcCriterion E y v kw) := by
  refine Rule.leaves_bind Rule.leaves_get fun r => ?_
  split
  · exact Rule.leaves_bind (Rule.leaves_ofExcept _) fun _ => Rule.leaves_bind (Rule.leaves_ofExcept _) fun _ =>
      Rule.leaves_bind (Rule.leaves_ofExcept _) fun _ => Rule.leaves_bind (Rule.leaves_ofExcept _) fun _ =>
      Rule.leaves_bind (Rule.leaves_modify fun r => rfl) fun _ => leaves_check_marks _ _
  · refine Rule.leaves_bind (Rule.leaves_ofExcept _) fun p => ?_
    split
    · exact Rule.leaves_throw _
    · exact Rule.leaves_bind (Rule.leaves_ofExcept _) fun _ => Rule.leaves_bind (Rule.leaves_modify fun r => rfl) fun _ =>
        leaves_check_marks _ _

theorem leaves_test_marks (E : Env) (y : List Label) (v : List Nat) (kw : Rule.Kw) (k : Kind) :
    Rule.Leaves marks (Rule.attrLoop E (Rule.calcTest E y v kw) false (Rule.testAttrs k)) := by
  have : Rule.testAttrs k = ["criterion"] := by cases k <;> rfl
  rw [this]
  unfold Rule.attrLoop
  refine Rule.leaves_bind Rule.leaves_get fun r => Rule.leaves_ite
    (Rule.leaves_bind (Rule.leaves_modify fun r => ?_) fun _ => Rule.leaves_pure _)
    (Rule.leaves_bind ?_ fun _ => Rule.leaves_bind (leaves_checkIfGood_marks _ _) fun _ => Rule.leaves_pure _)
  · rfl
  · unfold Rule.calcTest
    rw [if_pos rfl]
    exact leaves_calcCriterion_marks _ _ _ _

theorem leaves_setFigures_marks (E : Env) (i : Nat) {vals : List (String × Series Label)} (h : ∀ p ∈ vals, p.1 = "criterion") :
    Rule.Leaves marks (setFigures E i vals) := by
  induction vals with
  | nil => exact Rule.leaves_pure _
  | cons p vals ih =>
    obtain ⟨a, s⟩ := p
    have ha : a = "criterion" := h (a, s) (by simp)
    subst ha
    unfold setFigures
    refine Rule.leaves_bind (Rule.leaves_ofExcept _) fun x => Rule.leaves_bind (Rule.leaves_modify fun r => ?_) fun _ =>
      Rule.leaves_bind (leaves_checkIfGood_marks _ _) fun _ => Rule.leaves_bind Rule.leaves_get fun _ =>
      Rule.leaves_bind (ih fun p hp => h p (by simp [hp])) fun _ => Rule.leaves_pure _
    rfl

theorem receive_marks {E : Env} {i n : Nat} {vals : List (String × Series Label)} (h : ∀ p ∈ vals, p.1 = "criterion") {r r' : Rule}
    (hr : receive E (fun r => { r with evaluated := true }) i vals r = (.ok n, r')) : marks r' = (r.fitted, true, r.prediction) := by
  have : Rule.Leaves marks (do
      let n ← setFigures E i vals
      Rule.checkAllIfGood E
      pure n) :=
    Rule.leaves_bind (leaves_setFigures_marks _ _ h) fun _ => Rule.leaves_bind (leaves_checkAllIfGood_marks _) fun _ => Rule.leaves_pure _
  unfold receive at hr
  rw [Py.bind_ok (Py.modify_run _ _)] at hr
  have := this { r with evaluated := true }
  rw [hr] at this
  exact this

theorem setFigures_le {E : Env} {i n : Nat} {vals : List (String × Series Label)} {r r' : Rule}
    (h : setFigures E i vals r = (.ok n, r')) : n ≤ vals.length := by
  induction vals generalizing r n r' with
  | nil =>
    cases h
    exact Nat.le_refl _
  | cons p vals ih =>
    obtain ⟨a, s⟩ := p
    unfold setFigures at h
    obtain ⟨_, r1, _, h⟩ := Py.bind_eq_ok h
    obtain ⟨_, r2, _, h⟩ := Py.bind_eq_ok h
    obtain ⟨_, r3, _, h⟩ := Py.bind_eq_ok h
    obtain ⟨_, r4, _, h⟩ := Py.bind_eq_ok h
    obtain ⟨m, r5, h5, h⟩ := Py.bind_eq_ok h
    have := ih h5
    simp only [Py.pure_run] at h
    obtain ⟨e, -⟩ := Prod.mk.inj h
    have e := Except.ok.inj e
    rw [List.length_cons]
    split at e <;> omega

theorem receive_le {E : Env} {mark : Rule → Rule} {i n : Nat} {vals : List (String × Series Label)} {r r' : Rule}
    (h : receive E mark i vals r = (.ok n, r')) : n ≤ vals.length := by
  unfold receive at h
  obtain ⟨_, r1, _, h⟩ := Py.bind_eq_ok h
  obtain ⟨m, r2, h2, h⟩ := Py.bind_eq_ok h
  obtain ⟨_, r3, _, h⟩ := Py.bind_eq_ok h
  simp only [Py.pure_run] at h
  cases h
  exact setFigures_le h2

/-! ## One rule -/

/-- The rule of the stacked eval which gets the criterion: with its new activation, or as it was -/
def Prepared (E : Env) (xs : Option Xs) (keep : Bool) (r ra : Rule) : Prop :=
  match xs, keep with
  | some x, true => Rule.calcActivation E (some x) r = (.ok (), ra)
  | _, _ => ra = r

theorem calcActivation_bad {E : Env} {xs : Option Xs} {r ra : Rule} (h : Rule.calcActivation E xs r = (.ok (), ra)) (hb : r.good = false) :
    ra.good = false := by
  cases hg : ra.good with
  | false => rfl
  | true =>
    have := (Rule.keeps_calcActivation E xs).good h hg
    rw [hb] at this
    cases this

theorem prepared_bad {E : Env} {xs : Option Xs} {keep : Bool} {r ra : Rule} (h : Prepared E xs keep r ra) (hb : r.good = false) :
    ra.good = false := by
  unfold Prepared at h
  split at h
  · exact calcActivation_bad h hb
  · rw [h]
    exact hb

theorem prepared_data {E : Env} {xs : Option Xs} {keep : Bool} {r ra : Rule} (hx : ∀ x, xs = some x → x.length ≠ 0)
    (h : Prepared E xs keep r ra) : ra.prediction = r.prediction ∧ ra.cond = r.cond ∧ ra.fitted = r.fitted := by
  unfold Prepared at h
  split at h
  · obtain ⟨w, -, hd⟩ := Rule.calcActivation_ok h (hx _ rfl)
    have h1 := congrArg Rule.prediction hd
    have h2 := congrArg Rule.cond hd
    have h3 := congrArg Rule.fitted hd
    exact ⟨h1, h2, h3⟩
  · rw [h]
    exact ⟨rfl, rfl, rfl⟩

/-- One rule of the stacked eval -/
theorem eval_receive {k : Kind} {y : List Label} {xs : Option Xs} {keep : Bool} {kw : Rule.Kw} {r ra r' : Rule} {rules : List Member}
    {m : Member} {i : Nat} {c : Columns Nat} {vals : List (String × Series Label)} (hE : SeesPrediction (R.ofKind k))
    (hx : ∀ x, xs = some x → x.length ≠ 0) (hcm : EvalComparable (R.ofKind k) y xs r)
    (hf : Rule.eval (R.ofKind k) y xs keep false kw r = (.ok (), r')) (ha : Prepared (R.ofKind k) xs keep r ra)
    (hd : DifferentTexts R rules) (hm : rules[i]? = some m) (hr : m.rule = ra)
    (hn : c.map (·.1) = rules.map fun m => R.condStr m.rule.cond)
    (hcol : ∀ u, Rule.Uses (R.ofKind k) r xs (arr u) → c[i]? = some (R.condStr m.rule.cond, arr u))
    (hv : testFigures R k rules c y kw = .ok vals) :
    ∃ n r2, receive (R.ofKind k) (fun r => { r with evaluated := true }) i vals ra = (.ok n, r2) ∧ SameEval r r' r2 ∧ n ≤ 1 ∧
      (0 < n → r2.good = false) := by
  obtain ⟨u, hu, hl, hcase⟩ := hcm
  obtain ⟨d1, d2, d3⟩ := prepared_data hx ha
  obtain ⟨x, hM, hown⟩ := testFigures_ok hd hn hv hm (hcol u hu) hl (by
    cases k with
    | regression =>
      have : r.length ≠ 0 := hcase
      show m.rule.length ≠ 0
      unfold Rule.length at this ⊢
      rwa [hr, d2]
    | classification => exact hcase)
  have hvals : ∀ p ∈ vals, p.1 = "criterion" := by
    obtain ⟨q, t, ⟨e1, -⟩, e2, e3⟩ := List.forall₂_cons_left_iff.1 hM
    cases e2
    subst e3
    intro p hp
    rw [List.mem_singleton] at hp
    rw [hp, e1]
  have hlen : vals.length = 1 := (List.Forall₂.length_eq hM).symm
  cases hg : r.good with
  | false =>
    have hb := prepared_bad ha hg
    obtain ⟨r1, h1, k1⟩ := Rule.setFigures_bad (E := R.ofKind k) (r := { ra with evaluated := true }) hM hb
    have hb1 : r1.good = false := k1.good.trans hb
    have hrec : receive (R.ofKind k) (fun r => { r with evaluated := true }) i vals ra = (.ok 1, r1) := by
      unfold receive
      rw [Py.bind_ok (Py.modify_run _ _), Py.bind_ok h1, Py.bind_ok (Rule.checkAllIfGood_bad hb1)]
      rfl
    have hp : r'.good = false ∧ r'.cond = r.cond := by
      have h2 := Rule.leaves_eval (R.ofKind k) y xs keep false kw r
      rw [hf] at h2
      refine ⟨?_, h2⟩
      cases hg' : r'.good with
      | false => rfl
      | true =>
        have := (Rule.keeps_eval (R.ofKind k) y xs keep false kw).good hf hg'
        rw [hg] at this
        cases this
    refine ⟨1, r1, hrec, ⟨?_, hb1.trans hp.1.symm, ?_, ?_⟩, Nat.le_refl _, fun _ => hb1⟩
    · exact (k1.cond.trans d2).trans hp.2.symm
    · intro e
      rw [hg] at e
      cases e
    all_goals
      intro e
      rw [hp.1] at e
      cases e
  | true =>
    obtain ⟨v, r1, r2, r3, h1, h2, h3, rfl⟩ := Rule.eval_steps hx (.inl hg) hf
    obtain ⟨hu', -, -⟩ := Rule.evalActivation_ok hx h1
    have ev : v = arr u := by
      cases xs with
      | some x => exact Except.ok.inj (hu'.symm.trans hu)
      | none => exact Option.some.inj (hu'.symm.trans hu)
    subst ev
    have hra : r1 = ra := by
      have := Rule.evalActivation_state h1
      unfold Prepared at ha
      cases xs with
      | none => exact this.trans ha.symm
      | some x =>
        cases keep with
        | false => exact this.trans ha.symm
        | true =>
          have ha : Rule.calcActivation _ _ r = (.ok (), ra) := ha
          have this : Rule.calcActivation _ _ r = (.ok (), r1) := this
          rw [ha] at this
          exact (congrArg Prod.snd this).symm
    subst hra
    have htest : Rule.testAttrs (R.ofKind k).kind = [("criterion", Label.num x)].map (·.1) := by
      cases (R.ofKind k).kind <;> rfl
    have hmarks := leaves_test_marks (R.ofKind k) y (arr u) kw (R.ofKind k).kind r1
    rw [h2] at hmarks
    have hmarks3 := leaves_checkAllIfGood_marks (R.ofKind k) r2
    rw [h3] at hmarks3
    have hm3 : marks r3 = marks r1 := hmarks3.trans hmarks
    rw [htest] at h2
    obtain ⟨n, r2', hrec, hk, hgood, hbad⟩ := Rule.receive_like hE
      (.cons (Rule.step_criterion hE (r0 := r1) (c := x) (fun c' e => hown c' (by rw [hr]; exact e))) .nil) (by simp) hM
      (mark := fun r => { r with evaluated := true }) (fun _ => rfl) ⟨rfl, rfl⟩ h2 h3
    have hm2 := receive_marks hvals hrec
    refine ⟨n, r2', hrec, ⟨hk.cond, hk.good, fun _ => hk.bad, fun g => ⟨rfl, ?_⟩⟩, ?_, ?_⟩
    · have hcore := (hgood g).1.1
      have e1 : r3.prediction = r1.prediction := congrArg (fun p => p.2.2) hm3
      have e2 : r2'.prediction = r1.prediction := congrArg (fun p => p.2.2) hm2
      have e3 : r2'.evaluated = true := congrArg (fun p => p.2.1) hm2
      have e4 : r3.fitted = r1.fitted := congrArg (fun p => p.1) hm3
      have e5 : r2'.fitted = r1.fitted := congrArg (fun p => p.1) hm2
      have e6 : r2'.prediction = r3.prediction := e2.trans e1.symm
      have e7 : r2'.fitted = r3.fitted := e5.trans e4.symm
      clear * - hcore e3 e6 e7
      cases r2'
      cases r3
      simp only [Rule.core, Rule.mk.injEq] at hcore e3 e6 e7 ⊢
      simp_all
    · have := receive_le hrec
      omega
    · intro hn0
      cases hg3 : r3.good with
      | false => exact hk.good.trans hg3
      | true =>
        have := (hgood hg3).2
        omega

end Verif.RuleSet
