import Verif.StackedSpec
import Verif.RuleFit

/-!
# Lemmas about stacked fit: one rule
-/

namespace Verif.Rule

open Verif Thresholds Spec RuleSet RFun

/-- The rule without the record of checks and the mark `fitted` -/
def core (r : Rule) : Rule := { r with fitted := false, evaluated := false, log := [] }

/-- The same rule up to marks, the record of checks and the form of the prediction -/
def Like (E : Env) (r r' : Rule) : Prop :=
  r'.core = { r.core with prediction := r'.prediction } ∧ r'.getPrediction E = r.getPrediction E

theorem Like.refl (E : Env) (r : Rule) : Like E r r := ⟨rfl, rfl⟩

theorem Like.good {E : Env} {r r' : Rule} (h : Like E r r') : r'.good = r.good := by have := congrArg Rule.good h.1; exact this
theorem Like.bad {E : Env} {r r' : Rule} (h : Like E r r') : r'.badBecause = r.badBecause := by have := congrArg Rule.badBecause h.1; exact this
theorem Like.cond {E : Env} {r r' : Rule} (h : Like E r r') : r'.cond = r.cond := by have := congrArg Rule.cond h.1; exact this
theorem Like.act {E : Env} {r r' : Rule} (h : Like E r r') : r'.act = r.act := by have := congrArg Rule.act h.1; exact this

theorem Like.trans {E : Env} {a b c : Rule} (h : Like E a b) (h' : Like E b c) : Like E a c := by
  refine ⟨?_, h'.2.trans h.2⟩
  rw [h'.1, h.1]

theorem Like.symm {E : Env} {a b : Rule} (h : Like E a b) : Like E b a := by
  refine ⟨?_, h.2.symm⟩
  rw [h.1]
  rfl

/-- The same changes on both sides -/
theorem Like.map {E : Env} {r r' : Rule} (h : Like E r r') (f : Rule → Rule)
    (hf : ∀ r p, (f { r with prediction := p }).core = { (f r).core with prediction := p })
    (hp : ∀ r, (f r).prediction = r.prediction) (hc : ∀ r, (f r.core).core = (f r).core) : Like E (f r) (f r') := by
  constructor
  · rw [← hc r', h.1, hf, hc, hp]
  · unfold getPrediction
    rw [hp, hp]
    exact h.2

theorem like_getattr {E : Env} (hE : SeesPrediction E) {r r' : Rule} (h : Like E r r') : r'.getattr E = r.getattr E := by
  funext name
  have e : r' = { r with prediction := r'.prediction, fitted := r'.fitted, evaluated := r'.evaluated, log := r'.log } := by
    obtain ⟨h, -⟩ := h
    cases r
    cases r'
    simp only [core, Rule.mk.injEq] at h ⊢
    simp_all
  have h2 := h.2
  generalize r'.prediction = p, r'.fitted = a, r'.evaluated = b, r'.log = l at e
  subst e
  unfold getattr
  have hx : ∀ name, E.extra { r with prediction := p, fitted := false, evaluated := false, log := [] } name =
      E.extra { r with fitted := false, evaluated := false, log := [] } name := by
    intro name
    have := hE { r with fitted := false, evaluated := false, log := [] } p r.prediction name
    exact this h2
  simp only [hx, h2]
  rfl

theorem like_accepts {E : Env} (hE : SeesPrediction E) {r r' : Rule} (h : Like E r r') (t : Limits) (name : String) :
    r'.accepts E t name = r.accepts E t name := by
  unfold accepts
  rw [like_getattr hE h]

/-- A computation which does the same on rules which are alike -/
def Alike {α} (E : Env) (m : Py Rule α) : Prop :=
  ∀ r r', Like E r r' → (m r').1 = (m r).1 ∧ Like E (m r).2 (m r').2

theorem alike_checkOne {E : Env} (hE : SeesPrediction E) (t : Limits) (name : String) : Alike E (checkOne E t name) := by
  intro r r' h
  rw [checkOne_run, checkOne_run, like_accepts hE h]
  cases r.accepts E t name with
  | error e => exact ⟨rfl, h⟩
  | ok b =>
    cases b
    · refine ⟨rfl, ?_, h.2⟩
      have := h.1
      simp only [core] at this ⊢
      rw [Rule.mk.injEq] at this ⊢
      simp_all
    · exact ⟨rfl, h⟩

theorem alike_pure {E : Env} {α} (a : α) : Alike E (pure a : Py Rule α) := fun _ _ h => ⟨rfl, h⟩

theorem alike_bind {E : Env} {α β} {m : Py Rule α} {f : α → Py Rule β} (hm : Alike E m) (hf : ∀ a, Alike E (f a)) :
    Alike E (m >>= f) := by
  intro r r' h
  obtain ⟨h1, h2⟩ := hm r r' h
  rw [Py.bind_run, Py.bind_run]
  rcases e : m r with ⟨x, r1⟩
  rcases e' : m r' with ⟨x', r1'⟩
  rw [e, e'] at h1 h2
  simp only at h1 h2
  subst h1
  cases x' with
  | error e => exact ⟨rfl, h2⟩
  | ok a => exact hf a _ _ h2

theorem alike_check {E : Env} (hE : SeesPrediction E) (name : String) : Alike E (check E name) := by
  unfold check
  cases E.thresholds with
  | none => exact alike_pure _
  | some t => exact alike_bind (alike_checkOne hE t name) fun _ => alike_pure _

theorem alike_checkEach {E : Env} (hE : SeesPrediction E) (t : Limits) (l : List String) : Alike E (checkEach E t l) := by
  induction l with
  | nil => exact alike_pure _
  | cons a l ih =>
    unfold checkEach
    refine alike_bind (alike_checkOne hE t a) fun b => ?_
    cases b
    · exact alike_pure _
    · exact ih

theorem alike_checkAll {E : Env} (hE : SeesPrediction E) : Alike E (checkAll E) := by
  unfold checkAll
  cases E.thresholds with
  | none => exact alike_pure _
  | some t => exact alike_checkEach hE t _

theorem alike_ifGood {E : Env} {m : Py Rule Unit} (hm : Alike E m) :
    Alike E (do let r ← Py.get; if r.good then m else pure ()) := by
  intro r r' h
  rw [Py.bind_run, Py.bind_run]
  simp only [Py.get_run, h.good]
  cases r.good with
  | false => exact alike_pure _ r r' h
  | true => exact hm r r' h

theorem alike_checkIfGood {E : Env} (hE : SeesPrediction E) (name : String) : Alike E (checkIfGood E name) :=
  alike_ifGood (alike_check hE name)

theorem alike_checkAllIfGood {E : Env} (hE : SeesPrediction E) : Alike E (checkAllIfGood E) := alike_ifGood (alike_checkAll hE)

/-- Checking twice is checking once. -/
theorem check_twice {E : Env} {name : String} {r r1 : Rule} (hg : r.good = true)
    (h : (check E name >>= fun _ => checkIfGood E name) r = (.ok (), r1)) :
    ∃ r2, checkIfGood E name r = (.ok (), r2) ∧ Like E r2 r1 := by
  have e : checkIfGood E name r = check E name r := by
    unfold checkIfGood
    rw [Py.bind_run]
    simp [Py.get_run, hg]
  rw [e]
  obtain ⟨_, r2, h1, h⟩ := Py.bind_eq_ok h
  refine ⟨r2, h1, ?_⟩
  unfold checkIfGood at h
  rw [Py.bind_run] at h
  simp only [Py.get_run] at h
  cases hg2 : r2.good with
  | false =>
    rw [hg2] at h
    simp only [Bool.false_eq_true, if_false, Py.pure_run] at h
    cases h
    exact Like.refl _ _
  | true =>
    rw [hg2] at h
    simp only [if_true] at h
    unfold check at h h1
    cases ht : E.thresholds with
    | none =>
      simp only [ht, Py.pure_run] at h
      cases h
      exact Like.refl _ _
    | some t =>
      simp only [ht] at h h1
      obtain ⟨b, r3, h3, h⟩ := Py.bind_eq_ok h
      obtain ⟨b', r3', h3', h1⟩ := Py.bind_eq_ok h1
      simp only [Py.pure_run] at h h1
      cases h
      cases h1
      rw [checkOne_run] at h3 h3'
      cases ha : r.accepts E t name with
      | error e => rw [ha] at h3'; cases h3'
      | ok c =>
        rw [ha] at h3'
        cases c
        · simp only at h3'
          cases h3'
          simp at hg2
        · simp only at h3'
          cases h3'
          rw [accepts_log, ha] at h3
          simp only at h3
          cases h3
          exact ⟨rfl, rfl⟩

/-! ## The loop over attributes -/

/-- From a good rule satisfying `P`, computing the attribute `a` in the unstacked fit has the effect of setting it to `l`. -/
def Step (E : Env) (compute : String → Py Rule Unit) (a : String) (l : Label) (P Q : Rule → Prop) : Prop :=
  ∀ r r', P r → Like E r r' → r.good = true → ∀ r1, (compute a >>= fun _ => checkIfGood E a) r = (.ok (), r1) →
    Q r1 ∧ ∃ r1', checkIfGood E a (setFigure a l r') = (.ok (), r1') ∧ Like E r1 r1'

/-- The same for a list of attributes -/
inductive Chain (E : Env) (compute : String → Py Rule Unit) : (Rule → Prop) → List (String × Label) → Prop
  | nil {P} : Chain E compute P []
  | cons {a l P Q rest} : Step E compute a l P Q → Chain E compute Q rest → Chain E compute P ((a, l) :: rest)

/-- What a bad rule keeps -/
structure Kept (r r' : Rule) : Prop where
  cond : r'.cond = r.cond
  act : r'.act = r.act
  good : r'.good = r.good
  bad : r'.badBecause = r.badBecause

theorem setNaN_kept (a : String) (r : Rule) : Kept r (setNaN a r) := by
  unfold setNaN
  repeat' split
  all_goals exact ⟨rfl, rfl, rfl, rfl⟩

theorem setFigure_kept (a : String) (l : Label) (r : Rule) : Kept r (setFigure a l r) := by
  unfold setFigure
  repeat' split
  all_goals exact ⟨rfl, rfl, rfl, rfl⟩

theorem Kept.trans {a b c : Rule} (h : Kept a b) (h' : Kept b c) : Kept a c :=
  ⟨h'.cond.trans h.cond, h'.act.trans h.act, h'.good.trans h.good, h'.bad.trans h.bad⟩

theorem attrLoop_bad {E : Env} {compute : String → Py Rule Unit} {l : List String} {r : Rule} (hb : r.good = false) :
    ∃ r1, attrLoop E compute false l r = (.ok (), r1) ∧ Kept r r1 := by
  induction l generalizing r with
  | nil => exact ⟨r, rfl, ⟨rfl, rfl, rfl, rfl⟩⟩
  | cons a l ih =>
    unfold attrLoop
    rw [Py.bind_run]
    simp only [Py.get_run, hb]
    obtain ⟨r1, h1, h2⟩ := ih (r := setNaN a r) ((setNaN_kept a r).good.trans hb)
    exact ⟨r1, h1, (setNaN_kept a r).trans h2⟩

theorem checkIfGood_bad {E : Env} {a : String} {r : Rule} (hb : r.good = false) : checkIfGood E a r = (.ok (), r) := by
  unfold checkIfGood
  rw [Py.bind_run]
  simp [Py.get_run, hb]

theorem checkAllIfGood_bad {E : Env} {r : Rule} (hb : r.good = false) : checkAllIfGood E r = (.ok (), r) := by
  unfold checkAllIfGood
  rw [Py.bind_run]
  simp [Py.get_run, hb]

/-- The values which are set at place `i` -/
def Matches (i : Nat) (pairs : List (String × Label)) (vals : List (String × Series Label)) : Prop :=
  List.Forall₂ (fun p q => q.1 = p.1 ∧ iloc q.2 i = .ok p.2) pairs vals

theorem setFigures_bad {E : Env} {i : Nat} {pairs : List (String × Label)} {vals : List (String × Series Label)} {r : Rule}
    (h : Matches i pairs vals) (hb : r.good = false) :
    ∃ r1, setFigures E i vals r = (.ok pairs.length, r1) ∧ Kept r r1 := by
  induction h generalizing r with
  | nil => exact ⟨r, rfl, ⟨rfl, rfl, rfl, rfl⟩⟩
  | @cons p q pairs vals h _ ih =>
    obtain ⟨a, s⟩ := q
    obtain ⟨a', l⟩ := p
    obtain ⟨e, hl⟩ := h
    simp only at e hl
    subst e
    have k := setFigure_kept a l r
    obtain ⟨r1, h1, h2⟩ := ih (r := setFigure a l r) (k.good.trans hb)
    refine ⟨r1, ?_, k.trans h2⟩
    unfold setFigures
    rw [hl, Py.bind_ok (Py.ofExcept_run _ _), Py.bind_ok (Py.modify_run _ _), Py.bind_ok (checkIfGood_bad (k.good.trans hb)),
      Py.bind_ok (Py.get_run _), Py.bind_ok h1]
    simp [Py.pure_run, k.good, hb]

/-- The loops of the unstacked and of the stacked fit agree. -/
theorem chain_loop {E : Env} {compute : String → Py Rule Unit} {P : Rule → Prop} {pairs : List (String × Label)}
    (hc : Chain E compute P pairs) {i : Nat} {vals : List (String × Series Label)} (hv : Matches i pairs vals) {r r' r1 : Rule}
    (hP : P r) (hl : Like E r r') (h : attrLoop E compute false (pairs.map (·.1)) r = (.ok (), r1)) :
    ∃ n r1', setFigures E i vals r' = (.ok n, r1') ∧ Kept r1 r1' ∧ (r1.good = true → Like E r1 r1' ∧ n = 0) ∧
      (r1.good = false → pairs ≠ [] → 0 < n) := by
  induction hc generalizing vals r r' r1 with
  | nil =>
    cases hv
    cases h
    exact ⟨0, r', rfl, ⟨hl.cond, hl.act, hl.good, hl.bad⟩, fun _ => ⟨hl, rfl⟩, fun _ h => absurd rfl h⟩
  | @cons a l P Q rest hs hrest ih =>
    obtain ⟨q, vals', ⟨e, hl'⟩, hv', rfl⟩ := List.forall₂_cons_left_iff.1 hv
    obtain ⟨a', s⟩ := q
    simp only at e hl'
    subst e
    cases hg : r.good with
    | false =>
      obtain ⟨r2, h2, k2⟩ := attrLoop_bad (E := E) (compute := compute) (l := ((a', l) :: rest).map (·.1)) hg
      rw [h] at h2
      cases h2
      obtain ⟨r3, h3, k3⟩ := setFigures_bad (E := E) hv (hl.good.trans hg)
      refine ⟨_, r3, h3, ⟨?_, ?_, ?_, ?_⟩, fun e => ?_, fun _ _ => by simp⟩
      · rw [k3.cond, hl.cond, k2.cond]
      · rw [k3.act, hl.act, k2.act]
      · rw [k3.good, hl.good, k2.good]
      · rw [k3.bad, hl.bad, k2.bad]
      · rw [k2.good, hg] at e
        cases e
    | true =>
      rw [List.map_cons] at h
      unfold attrLoop at h
      rw [Py.bind_run] at h
      simp only [Py.get_run, hg] at h
      rw [if_neg (by simp)] at h
      obtain ⟨_, ra, ha, h⟩ := Py.bind_eq_ok h
      obtain ⟨_, rb, hb, h⟩ := Py.bind_eq_ok h
      have hab : (compute a' >>= fun _ => checkIfGood E a') r = (.ok (), rb) := by
        rw [Py.bind_ok ha]
        exact hb
      obtain ⟨hQ, rb', hb', hlb⟩ := hs r r' hP hl hg rb hab
      obtain ⟨n, r1', h1, k, hgood, hbad⟩ := ih hv' hQ hlb h
      have hrun : setFigures E i ((a', s) :: vals') r' = (.ok (if rb'.good then n else n + 1), r1') := by
        rw [setFigures, hl', Py.bind_ok (Py.ofExcept_run _ _), Py.bind_ok (Py.modify_run _ _), Py.bind_ok hb',
          Py.bind_ok (Py.get_run _), Py.bind_ok h1]
        rfl
      refine ⟨_, r1', hrun, k, fun e => ?_, fun e _ => ?_⟩
      · obtain ⟨h2, h3⟩ := hgood e
        refine ⟨h2, ?_⟩
        have : rb.good = true := by
          cases hrb : rb.good with
          | true => rfl
          | false =>
            obtain ⟨r2, h2, k2⟩ := attrLoop_bad (E := E) (compute := compute) (l := rest.map (·.1)) hrb
            rw [h] at h2
            cases h2
            rw [k2.good, hrb] at e
            cases e
        rw [hlb.good, this, if_pos rfl, h3]
      · cases hrb : rb'.good with
        | false => simp
        | true =>
          rw [if_pos rfl]
          cases rest with
          | nil =>
            cases h
            rw [hlb.good, e] at hrb
            cases hrb
          | cons p rest => exact hbad e (by simp)

/-- One rule: the stacked fit gives the same verdict as the unstacked one, and the same figures if the rule is good. -/
theorem receive_like {E : Env} (hE : SeesPrediction E) {compute : String → Py Rule Unit} {P : Rule → Prop}
    {pairs : List (String × Label)} (hc : Chain E compute P pairs) (hne : pairs ≠ []) {i : Nat}
    {vals : List (String × Series Label)} (hv : Matches i pairs vals)
    {mark : Rule → Rule} (hm : ∀ r, (mark r).core = r.core) {r r1 r2 : Rule}
    (hP : P r) (h : attrLoop E compute false (pairs.map (·.1)) r = (.ok (), r1)) (h2 : checkAllIfGood E r1 = (.ok (), r2)) :
    ∃ n r2', receive E mark i vals r = (.ok n, r2') ∧ Kept r2 r2' ∧ (r2.good = true → Like E r2 r2' ∧ n = 0) ∧
      (r1.good = false ↔ 0 < n) := by
  have hl : Like E r (mark r) := by
    have e := hm r
    have hp : (mark r).prediction = r.prediction := by have := congrArg Rule.prediction e; exact this
    refine ⟨?_, ?_⟩
    · rw [e, hp]
      rfl
    · unfold getPrediction
      rw [hp]
  obtain ⟨n, r1', h1, k, hgood, hbad⟩ := chain_loop hc hv hP hl h
  cases hg : r1.good with
  | false =>
    rw [checkAllIfGood_bad hg] at h2
    cases h2
    refine ⟨n, r1', ?_, k, fun e => ?_, fun _ => hbad hg hne, fun _ => rfl⟩
    · unfold receive
      rw [Py.bind_ok (Py.modify_run _ _), Py.bind_ok h1, Py.bind_ok (checkAllIfGood_bad (k.good.trans hg))]
      rfl
    · rw [hg] at e
      cases e
  | true =>
    obtain ⟨hl1, rfl⟩ := hgood hg
    obtain ⟨e1, e2⟩ := alike_checkAllIfGood hE r1 r1' hl1
    rw [h2] at e1 e2
    simp only at e1 e2
    rcases hx : checkAllIfGood E r1' with ⟨x, r2'⟩
    rw [hx] at e1 e2
    simp only at e1 e2
    subst e1
    refine ⟨0, r2', ?_, ⟨e2.cond, e2.act, e2.good, e2.bad⟩, fun _ => ⟨e2, rfl⟩, (fun e => by cases e), fun e => absurd e (lt_irrefl _)⟩
    unfold receive
    rw [Py.bind_ok (Py.modify_run _ _), Py.bind_ok h1, Py.bind_ok hx]
    rfl

/-! ## The attributes of the train set -/

theorem checked_step {E : Env} (hE : SeesPrediction E) {a : String} {r r' r1 : Rule} (hl : Like E r r') (hg : r.good = true)
    (h : (check E a >>= fun _ => checkIfGood E a) r = (.ok (), r1)) :
    r1.data = r.data ∧ ∃ r1', checkIfGood E a r' = (.ok (), r1') ∧ Like E r1 r1' := by
  obtain ⟨r2, h2, hl2⟩ := check_twice hg h
  obtain ⟨e1, e2⟩ := alike_checkIfGood hE a r r' hl
  rw [h2] at e1 e2
  rcases hx : checkIfGood E a r' with ⟨x, r2'⟩
  rw [hx] at e1 e2
  simp only at e1 e2
  subst e1
  refine ⟨?_, r2', rfl, hl2.symm.trans e2⟩
  obtain ⟨_, r3, h3, h4⟩ := Py.bind_eq_ok h
  have d3 := check_data E a r
  have d4 := checkIfGood_data E a r3
  rw [h3] at d3
  rw [h4] at d4
  exact d4.trans d3

theorem plain_step {E : Env} (hE : SeesPrediction E) {a : String} {r r' r1 : Rule} (hl : Like E r r')
    (h : checkIfGood E a r = (.ok (), r1)) :
    r1.data = r.data ∧ ∃ r1', checkIfGood E a r' = (.ok (), r1') ∧ Like E r1 r1' := by
  obtain ⟨e1, e2⟩ := alike_checkIfGood hE a r r' hl
  rw [h] at e1 e2
  rcases hx : checkIfGood E a r' with ⟨x, r2'⟩
  rw [hx] at e1 e2
  simp only at e1 e2
  subst e1
  refine ⟨?_, r2', rfl, e2⟩
  have d := checkIfGood_data E a r
  rw [h] at d
  exact d

theorem data_act {a b : Rule} (h : a.data = b.data) : a.act = b.act := by
  have := congrArg Rule.act h
  exact this

theorem data_prediction {a b : Rule} (h : a.data = b.data) : a.prediction = b.prediction := by
  have := congrArg Rule.prediction h
  exact this

/-- Setting the size, the deviation, the sign or the z-score on both sides -/
theorem like_setFigure {E : Env} {r r' : Rule} (h : Like E r r') {a : String} (ha : a ≠ "prediction") (l : Label) :
    Like E (setFigure a l r) (setFigure a l r') := by
  refine h.map _ (fun r p => ?_) (fun r => ?_) (fun r => ?_)
  all_goals
    unfold setFigure
    repeat' split
    all_goals first | rfl | (exfalso; exact ha ‹_›)

/-- Setting a prediction on both sides -/
theorem like_prediction {E : Env} {r r' : Rule} (h : Like E r r') {p q : Pred}
    (hp : getPrediction E { r with prediction := p } = getPrediction E { r with prediction := q }) :
    Like E { r with prediction := p } { r' with prediction := q } := by
  refine ⟨?_, hp.symm⟩
  have := h.1
  simp only [core] at this ⊢
  rw [Rule.mk.injEq] at this ⊢
  simp_all

variable {E : Env} {y : List Label} {kw : Kw} {v : List Nat}

theorem step_size (hE : SeesPrediction E) {P : Rule → Prop} (hP : ∀ r x r1, P r → r1.data = { r with trainSize := x }.data → P r1) :
    Step E (calcTrain E y kw) "train_set_size" (.num (.fin y.length)) P P := by
  intro r r' hr hl hg r1 h
  simp only [calcTrain, if_true, calcTrainSetSize] at h
  rw [Py.bind_ok (Py.modify_run _ _)] at h
  obtain ⟨d, h2⟩ := plain_step hE (like_setFigure hl (a := "train_set_size") (by decide) (.num (.fin y.length))) h
  exact ⟨hP r _ r1 hr d, h2⟩

theorem step_mean (hE : SeesPrediction E) (hk : E.kind = .regression) {ys : List Num} (hys : numbers y = .ok ys) {m : Num}
    (hm : conditionalMean v ys = .ok m) :
    Step E (calcTrain E y kw) "prediction" (.num m) (fun r => r.act = some v)
      (fun r => r.act = some v ∧ r.prediction = .label (.num m)) := by
  intro r r' hr hl hg r1 h
  simp only [calcTrain] at h
  simp (config := { decide := true }) only [if_true, if_false] at h
  obtain ⟨_, r2, h1, h2⟩ := Py.bind_eq_ok h
  unfold calcPrediction at h1
  rw [Py.bind_run] at h1
  simp only [Py.get_run, hk, hr] at h1
  rw [hys, Py.bind_ok (Py.ofExcept_run _ _), hm, Py.bind_ok (Py.ofExcept_run _ _), Py.bind_ok (Py.modify_run _ _)] at h1
  have hh : (check E "prediction" >>= fun _ => checkIfGood E "prediction") { r with prediction := .label (.num m) } = (.ok (), r1) := by
    rw [Py.bind_ok h1]
    exact h2
  obtain ⟨d, h3⟩ := checked_step hE (like_prediction hl (p := .label (.num m)) (q := .label (.num m)) rfl) hg hh
  exact ⟨⟨(data_act d).trans hr, data_prediction d⟩, h3⟩

theorem step_std (hE : SeesPrediction E) {ys : List Num} (hys : numbers y = .ok ys) {m x : Num}
    (hm : conditionalVar v ys = .ok x) :
    Step E (calcTrain E y kw) "std" (.num (E.sqrt x)) (fun r => r.act = some v ∧ r.prediction = .label (.num m))
      (fun r => r.act = some v ∧ r.prediction = .label (.num m)) := by
  intro r r' hr hl hg r1 h
  simp only [calcTrain] at h
  simp (config := { decide := true }) only [if_true, if_false] at h
  obtain ⟨_, r2, h1, h2⟩ := Py.bind_eq_ok h
  unfold calcStd at h1
  rw [Py.bind_run] at h1
  simp only [Py.get_run, hr.1] at h1
  rw [hys, Py.bind_ok (Py.ofExcept_run _ _), hm, Py.bind_ok (Py.ofExcept_run _ _), Py.bind_ok (Py.modify_run _ _)] at h1
  have hh : (check E "std" >>= fun _ => checkIfGood E "std") { r with std := .num (E.sqrt x) } = (.ok (), r1) := by
    rw [Py.bind_ok h1]
    exact h2
  obtain ⟨d, h3⟩ := checked_step hE (like_setFigure hl (a := "std") (by decide) (.num (E.sqrt x))) hg hh
  exact ⟨⟨(data_act d).trans hr.1, (data_prediction d).trans hr.2⟩, h3⟩

theorem step_sign (hE : SeesPrediction E) {m : Num} :
    Step E (calcTrain E y kw) "sign" (.text (if m.lt (.fin 0) then "-" else "+"))
      (fun r => r.act = some v ∧ r.prediction = .label (.num m)) (fun r => r.act = some v ∧ r.prediction = .label (.num m)) := by
  intro r r' hr hl hg r1 h
  simp only [calcTrain] at h
  simp (config := { decide := true }) only [if_true, if_false] at h
  obtain ⟨_, r2, h1, h2⟩ := Py.bind_eq_ok h
  unfold calcSign at h1
  rw [Py.bind_run] at h1
  simp only [Py.get_run, hr.2, Py.modify_run] at h1
  cases h1
  have h2' : checkIfGood E "sign" (setFigure "sign" (.text (if m.lt (.fin 0) then "-" else "+")) r) = (.ok (), r1) := by
    rw [← h2]
    obtain ⟨_, hp⟩ := hr
    cases r
    simp only at hp
    subst hp
    rfl
  obtain ⟨d, h3⟩ := plain_step hE (like_setFigure hl (a := "sign") (by decide) (.text (if m.lt (.fin 0) then "-" else "+"))) h2'
  exact ⟨⟨(data_act d).trans hr.1, (data_prediction d).trans hr.2⟩, h3⟩

theorem step_zscore (hE : SeesPrediction E) {ys : List Num} (hys : numbers y = .ok ys) {m : Num} :
    Step E (calcTrain E y kw) "zscore" (.num (zscoreExternal E.sqrt m (nones v) ys kw.horizon))
      (fun r => r.act = some v ∧ r.prediction = .label (.num m)) (fun r => r.act = some v ∧ r.prediction = .label (.num m)) := by
  intro r r' hr hl hg r1 h
  simp only [calcTrain] at h
  simp (config := { decide := true }) only [if_true, if_false] at h
  obtain ⟨_, r2, h1, h2⟩ := Py.bind_eq_ok h
  unfold calcZscore at h1
  rw [Py.bind_run] at h1
  simp only [Py.get_run, hr.1, hr.2] at h1
  rw [hys, Py.bind_ok (Py.ofExcept_run _ _), Py.bind_ok (Py.ofExcept_run _ _), Py.bind_ok (Py.modify_run _ _)] at h1
  have hh : (check E "zscore" >>= fun _ => checkIfGood E "zscore")
      { r with zscore := .num (zscoreExternal E.sqrt m (nones v) ys kw.horizon) } = (.ok (), r1) := by
    rw [Py.bind_ok h1]
    exact h2
  obtain ⟨d, h3⟩ := checked_step hE
    (like_setFigure hl (a := "zscore") (by decide) (.num (zscoreExternal E.sqrt m (nones v) ys kw.horizon))) hg hh
  exact ⟨⟨(data_act d).trans hr.1, (data_prediction d).trans hr.2⟩, h3⟩

theorem step_class (hE : SeesPrediction E) (hk : E.kind = .classification) {l : Label}
    (hm : ∀ p, classProbabilities v y = .ok p → bestClass E.floatStr p = .ok l) :
    Step E (calcTrain E y kw) "prediction" l (fun r => r.act = some v) (fun r => r.act = some v) := by
  intro r r' hr hl hg r1 h
  simp only [calcTrain] at h
  simp (config := { decide := true }) only [if_true, if_false] at h
  obtain ⟨_, r2, h1, h2⟩ := Py.bind_eq_ok h
  unfold calcPrediction at h1
  rw [Py.bind_run] at h1
  simp only [Py.get_run, hk] at h1
  have ha : r.activation = none ∨ r.activation = some v := by
    unfold activation
    rw [hr]
    simp only
    split
    · exact .inl rfl
    · exact .inr rfl
  rcases ha with ha | ha
  · rw [ha] at h1
    simp at h1
  rw [ha] at h1
  simp only at h1
  cases hp : classProbabilities v y with
  | error e =>
    rw [hp, Py.bind_err (Py.ofExcept_run _ _)] at h1
    cases h1
  | ok p =>
    rw [hp, Py.bind_ok (Py.ofExcept_run _ _), Py.bind_ok (Py.modify_run _ _)] at h1
    have hh : (check E "prediction" >>= fun _ => checkIfGood E "prediction") { r with prediction := .probs p } = (.ok (), r1) := by
      rw [Py.bind_ok h1]
      exact h2
    obtain ⟨d, h3⟩ := checked_step hE (like_prediction hl (p := .probs p) (q := .label l)
      (by simp [getPrediction, hm p hp, Except.map])) hg hh
    exact ⟨(data_act d).trans hr, h3⟩

/-- The values set for a regression rule -/
def regressionPairs (sqrt : Num → Num) (n : Nat) (m x z : Num) : List (String × Label) :=
  [("train_set_size", .num (.fin n)), ("prediction", .num m), ("std", .num (sqrt x)),
    ("sign", .text (if m.lt (.fin 0) then "-" else "+")), ("zscore", .num z)]

theorem chain_regression (hE : SeesPrediction E) (hk : E.kind = .regression) {ys : List Num} (hys : numbers y = .ok ys)
    {m x : Num} (hm : conditionalMean v ys = .ok m) (hx : conditionalVar v ys = .ok x) :
    Chain E (calcTrain E y kw) (fun r => r.act = some v)
      (regressionPairs E.sqrt y.length m x (zscoreExternal E.sqrt m (nones v) ys kw.horizon)) :=
  .cons (step_size hE fun _ _ _ h d => (data_act d).trans h)
    (.cons (step_mean hE hk hys hm) (.cons (step_std hE hys hx) (.cons (step_sign hE) (.cons (step_zscore hE hys) .nil))))

theorem chain_classification (hE : SeesPrediction E) (hk : E.kind = .classification) {l : Label}
    (hm : ∀ p, classProbabilities v y = .ok p → bestClass E.floatStr p = .ok l) :
    Chain E (calcTrain E y kw) (fun r => r.act = some v) [("train_set_size", .num (.fin y.length)), ("prediction", l)] :=
  .cons (step_size hE fun _ _ _ h d => (data_act d).trans h) (.cons (step_class hE hk hm) .nil)

end Verif.Rule
