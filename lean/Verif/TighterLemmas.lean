import Verif.TighterSpec
import Verif.ThresholdLemmas
import Verif.RuleLemmas
import Verif.FitProps

/-!
# Lemmas: stricter thresholds
-/

namespace Verif.Strict

open Verif Spec Thresholds

/-! ## One check -/

theorem lt_tighter {v : Num} {a b : Rat} (h : a ≤ b) (hv : v.lt (.fin b) = false) : v.lt (.fin a) = false := by
  cases v <;> simp [Num.lt, Num.le] at hv ⊢
  intro h1
  exact h.trans (hv (h1.trans h))

theorem gt_tighter {v : Num} {a b : Rat} (h : b ≤ a) (hv : (Num.fin b).lt v = false) : (Num.fin a).lt v = false := by
  cases v <;> simp [Num.lt, Num.le] at hv ⊢
  intro h1
  exact (hv (h.trans h1)).trans h

/-- A limit which is met stays met when it is loosened. -/
theorem limit_tighter {g : String → Except Err Attr} {k : String} {l l' : Lim} {x' : Num} (h : TighterLim k l l') (hx : LimitIs g l' x') :
    ∃ x, LimitIs g l x ∧ (x = x' ∨ ∃ a b : Rat, x = .fin a ∧ x' = .fin b ∧ ((k = "min" ∧ a ≤ b) ∨ (k = "max" ∧ b ≤ a))) := by
  rcases h with rfl | ⟨a, b, rfl, rfl, h⟩
  · exact ⟨x', hx, .inl rfl⟩
  · refine ⟨.fin a, .inl rfl, .inr ⟨a, b, rfl, ?_, h⟩⟩
    rcases hx with h | ⟨s, h, -⟩
    · cases h; rfl
    · cases h

theorem test_none {t : Dict Num} {k : String} {f : Num → Except Err Bool} (h : Dict.get? t k = none) : test t k f = .ok false := by
  unfold test
  rw [h]

theorem test_some {t : Dict Num} {k : String} {f : Num → Except Err Bool} {x : Num} (h : Dict.get? t k = some x) : test t k f = f x := by
  unfold test
  rw [h]

/-- What an accepted value has passed -/
theorem verdict_true {v : Attr} {t : Dict Num} : verdict v t = .ok true ↔
    test t "min" v.lt = .ok false ∧ test t "max" v.gt = .ok false ∧ test t "equal" (fun e => .ok !(v.eqNum e)) = .ok false ∧
      test t "different" (fun d => .ok (v.eqNum d)) = .ok false := by
  unfold verdict
  simp only [bind, Except.bind]
  rcases test t "min" v.lt with e | _ | _
  · simp
  · rcases test t "max" v.gt with e | _ | _
    · simp
    · rcases test t "equal" (fun e => .ok !(v.eqNum e)) with e | _ | _
      · simp
      · rcases test t "different" (fun d => .ok (v.eqNum d)) with e | _ | _ <;> simp
      · simp
    · simp
  · simp

theorem test_tighter {t t' : Dict Num} {k : String} {f : Num → Except Err Bool}
    (h : ∀ x, Dict.get? t k = some x → ∃ x', Dict.get? t' k = some x' ∧ (f x' = .ok false → f x = .ok false))
    (ht : test t' k f = .ok false) : test t k f = .ok false := by
  cases hx : Dict.get? t k with
  | none => exact test_none hx
  | some x =>
    obtain ⟨x', h', hf⟩ := h x hx
    rw [test_some h'] at ht
    rw [test_some hx]
    exact hf ht

theorem call_tighter {M : Math} {g : String → Except Err Attr} {name : String} {t t' : Limits} (h : Tighter t t')
    (hc : (call M g name t').1 = .ok true) : (call M g name t).1 = .ok true := by
  unfold call at hc ⊢
  rw [Py.bind_ok (Py.get_run t')] at hc
  rw [Py.bind_ok (Py.get_run t)]
  cases hn : Dict.get? t name with
  | none => rfl
  | some th =>
    obtain ⟨th', h1, harg, hlim⟩ := h name th hn
    rw [h1] at hc
    simp only at hc ⊢
    cases hg : g name with
    | error e =>
      rw [hg] at hc
      cases hc
    | ok v =>
      rw [hg] at hc
      rw [Py.bind_ok (Py.ofExcept_run _ _)] at hc ⊢
      by_cases hv : v = .callable ∨ v = .none
      · rw [if_pos hv]
        rfl
      · rw [if_neg hv] at hc ⊢
        have hm : measured M th' v = measured M th v := by
          unfold measured
          rw [harg]
        rw [hm] at hc
        cases hv' : measured M th v with
        | error e =>
          rw [hv'] at hc
          cases hc
        | ok v =>
          rw [hv'] at hc
          rw [Py.bind_ok (Py.ofExcept_run _ _)] at hc ⊢
          by_cases hall : ∀ p ∈ th', p.1 ≠ "arg" → ∃ m, LimitIs g p.2 m
          · obtain ⟨d', hd', hget'⟩ := resolveAll_ok hall
            have hall' : ∀ p ∈ th, p.1 ≠ "arg" → ∃ m, LimitIs g p.2 m := by
              intro p hp hne
              obtain ⟨l', hl', htl⟩ := hlim p hp hne
              obtain ⟨x', hx'⟩ := hall _ (get?_mem hl') hne
              obtain ⟨x, hx, -⟩ := limit_tighter htl hx'
              exact ⟨x, hx⟩
            obtain ⟨d, hd, hget⟩ := resolveAll_ok hall'
            rw [hd'] at hc
            rw [hd]
            rw [Py.bind_ok (Py.ofExcept_run _ _)] at hc ⊢
            simp only [Py.ofExcept_run] at hc ⊢
            have key : ∀ k, k ≠ "arg" → ∀ x, Dict.get? d k = some x → ∃ x', Dict.get? d' k = some x' ∧
                (x = x' ∨ ∃ a b : Rat, x = .fin a ∧ x' = .fin b ∧ ((k = "min" ∧ a ≤ b) ∨ (k = "max" ∧ b ≤ a))) := by
              intro k hk x hx
              obtain ⟨l, hl, hlx⟩ := (hget k hk x).1 hx
              obtain ⟨l', hl', htl⟩ := hlim (k, l) (get?_mem hl) hk
              obtain ⟨x', hx'⟩ := hall _ (get?_mem hl') hk
              obtain ⟨z, hz, hzx⟩ := limit_tighter htl hx'
              rw [LimitIs.unique hz hlx] at hzx
              exact ⟨x', (hget' k hk x').2 ⟨l', hl', hx'⟩, hzx⟩
            obtain ⟨c1, c2, c3, c4⟩ := verdict_true.1 hc
            refine verdict_true.2 ⟨test_tighter (fun x hx => ?_) c1, test_tighter (fun x hx => ?_) c2, test_tighter (fun x hx => ?_) c3,
              test_tighter (fun x hx => ?_) c4⟩
            · obtain ⟨x', hx', hr⟩ := key "min" (by decide) x hx
              refine ⟨x', hx', fun hf => ?_⟩
              rcases hr with rfl | ⟨a, b, rfl, rfl, ⟨-, hab⟩ | ⟨h, -⟩⟩
              · exact hf
              · cases v <;> simp only [Attr.lt] at hf ⊢ <;> first | cases hf | skip
                simp only [Except.ok.injEq] at hf ⊢
                exact lt_tighter hab hf
              · exact absurd h (by decide)
            · obtain ⟨x', hx', hr⟩ := key "max" (by decide) x hx
              refine ⟨x', hx', fun hf => ?_⟩
              rcases hr with rfl | ⟨a, b, rfl, rfl, ⟨h, -⟩ | ⟨-, hab⟩⟩
              · exact hf
              · exact absurd h (by decide)
              · cases v <;> simp only [Attr.gt] at hf ⊢ <;> first | cases hf | skip
                simp only [Except.ok.injEq] at hf ⊢
                exact gt_tighter hab hf
            · obtain ⟨x', hx', hr⟩ := key "equal" (by decide) x hx
              refine ⟨x', hx', fun hf => ?_⟩
              rcases hr with rfl | ⟨a, b, rfl, rfl, ⟨h, -⟩ | ⟨h, -⟩⟩
              · exact hf
              · exact absurd h (by decide)
              · exact absurd h (by decide)
            · obtain ⟨x', hx', hr⟩ := key "different" (by decide) x hx
              refine ⟨x', hx', fun hf => ?_⟩
              rcases hr with rfl | ⟨a, b, rfl, rfl, ⟨h, -⟩ | ⟨h, -⟩⟩
              · exact hf
              · exact absurd h (by decide)
              · exact absurd h (by decide)
          · push Not at hall
            obtain ⟨p, hp, hne, hno⟩ := hall
            obtain ⟨e, he⟩ := resolveAll_error ⟨p, hp, hne, hno⟩
            rw [he] at hc
            cases hc

/-! ## Rules -/

section
open Rule
variable {α β : Type}

/-- The same environment with other thresholds -/
def withLimits (E : Env) (t : Option Limits) : Env := { E with thresholds := t }

/-- When `p'` succeeds and leaves a good rule, `p` does the same. -/
def Fine (p p' : Py Rule α) : Prop :=
  ∀ (r : Rule) (l : List Bool) (a : α) (r2 : Rule), p' r = (.ok a, r2) → r2.good = true →
    ∃ l', p { r with log := l } = (.ok a, { r2 with log := l' })

theorem fine_pure (a : α) : Fine (pure a) (pure a) := by
  intro r l b r2 h _
  simp only [Py.pure_run, Prod.mk.injEq, Except.ok.injEq] at h
  obtain ⟨rfl, rfl⟩ := h
  exact ⟨l, rfl⟩

theorem fine_throw (e : Err) (p : Py Rule α) : Fine p (Py.throw e) := by
  intro r l b r2 h _
  simp [Py.throw_run] at h

theorem fine_ofExcept (x : Except Err α) : Fine (Py.ofExcept x) (Py.ofExcept x) := by
  intro r l b r2 h _
  simp only [Py.ofExcept_run, Prod.mk.injEq] at h
  obtain ⟨rfl, rfl⟩ := h
  exact ⟨l, rfl⟩

theorem fine_bind {p p' : Py Rule α} {f f' : α → Py Rule β} (h : Fine p p') (hf : ∀ a, Fine (f a) (f' a)) (hk : ∀ a, Keeps (f' a)) :
    Fine (p >>= f) (p' >>= f') := by
  intro r l b r2 hb hg
  obtain ⟨a, r1, h1, h2⟩ := Py.bind_eq_ok hb
  obtain ⟨l1, e1⟩ := h r l a r1 h1 ((hk a).good h2 hg)
  obtain ⟨l2, e2⟩ := hf a r1 l1 b r2 h2 hg
  refine ⟨l2, ?_⟩
  rw [Py.bind_ok e1, e2]

theorem fine_get {f f' : Rule → Py Rule β} (hf : ∀ r l, Fine (f { r with log := l }) (f' r)) :
    Fine (Py.get >>= f) (Py.get >>= f') := by
  intro r l b r2 hb hg
  rw [Py.bind_ok (Py.get_run r)] at hb
  rw [Py.bind_ok (Py.get_run _)]
  exact hf r l r l b r2 hb hg

theorem fine_modify {f : Rule → Rule} (hf : ∀ r l, ∃ l', f { r with log := l } = { f r with log := l' }) : Fine (Py.modify f) (Py.modify f) := by
  intro r l b r2 h _
  simp only [Py.modify_run, Prod.mk.injEq, Except.ok.injEq] at h
  obtain ⟨-, rfl⟩ := h
  obtain ⟨l', e⟩ := hf r l
  exact ⟨l', by rw [Py.modify_run, e]⟩

theorem fine_if {c : Prop} [Decidable c] {p q p' q' : Py Rule α} (h1 : Fine p p') (h2 : Fine q q') :
    Fine (if c then p else q) (if c then p' else q') := by
  split
  · exact h1
  · exact h2

variable {E : Env} {t : Option Limits}

theorem accepts_log (E : Env) (t : Limits) (r : Rule) (l : List Bool) (name : String) :
    ({ r with log := l } : Rule).accepts E t name = r.accepts E t name := rfl

theorem accepts_tighter {u u' : Limits} (h : Tighter u u') {r : Rule} {name : String}
    (ha : r.accepts (withLimits E t) u' name = .ok true) : r.accepts E u name = .ok true := call_tighter h ha

theorem fine_checkOne {u u' : Limits} (h : Tighter u u') (name : String) : Fine (checkOne E u name) (checkOne (withLimits E t) u' name) := by
  intro r l b r2 hb hg
  rw [checkOne_run] at hb
  cases ha : r.accepts (withLimits E t) u' name with
  | error e => simp [ha] at hb
  | ok c =>
    rw [ha] at hb
    cases c with
    | false =>
      simp only [Prod.mk.injEq, Except.ok.injEq] at hb
      obtain ⟨-, rfl⟩ := hb
      cases hg
    | true =>
      simp only [Prod.mk.injEq, Except.ok.injEq] at hb
      obtain ⟨rfl, rfl⟩ := hb
      refine ⟨true :: l, ?_⟩
      rw [checkOne_run, accepts_log, accepts_tighter h ha]

/-- Without thresholds nothing is refused. -/
theorem fine_nothing (u' : Limits) (name : String) : Fine (pure true) (checkOne E u' name) := by
  intro r l b r2 hb hg
  rw [checkOne_run] at hb
  cases ha : r.accepts E u' name with
  | error e => simp [ha] at hb
  | ok c =>
    rw [ha] at hb
    cases c with
    | false =>
      simp only [Prod.mk.injEq, Except.ok.injEq] at hb
      obtain ⟨-, rfl⟩ := hb
      cases hg
    | true =>
      simp only [Prod.mk.injEq, Except.ok.injEq] at hb
      obtain ⟨rfl, rfl⟩ := hb
      exact ⟨l, rfl⟩

variable (ht : TighterOpt E.thresholds t)
include ht

theorem fine_check (name : String) : Fine (check E name) (check (withLimits E t) name) := by
  unfold check
  cases h : E.thresholds with
  | none =>
    clear ht
    cases t with
    | none => exact fine_pure ()
    | some u => exact fine_bind (p := pure true) (f := fun _ => pure ()) (fine_nothing u name) (fun _ => fine_pure ()) fun _ => keeps_pure _
  | some u =>
    rw [h] at ht
    cases t with
    | none => exact ht.elim
    | some u' => exact fine_bind (fine_checkOne ht name) (fun _ => fine_pure ()) fun _ => keeps_pure _

theorem fine_checkAll : Fine (Rule.checkAll E) (Rule.checkAll (withLimits E t)) := by
  unfold Rule.checkAll
  cases h : E.thresholds with
  | none =>
    clear ht
    cases t with
    | none => exact fine_pure ()
    | some u =>
      show Fine (pure ()) (checkEach (withLimits E (some u)) u E.names)
      induction E.names with
      | nil => exact fine_pure ()
      | cons a l ih =>
        unfold checkEach
        refine fine_bind (p := pure true) (f := fun _ => pure ()) (fine_nothing u a) (fun b => ?_) fun b => keeps_ite (keeps_checkEach _ _ _) (keeps_pure _)
        cases b with
        | false => exact fine_pure ()
        | true => exact ih
  | some u =>
    rw [h] at ht
    cases t with
    | none => exact ht.elim
    | some u' =>
      show Fine (checkEach E u E.names) (checkEach (withLimits E (some u')) u' E.names)
      induction E.names with
      | nil => exact fine_pure ()
      | cons a l ih =>
        unfold checkEach
        exact fine_bind (fine_checkOne ht a) (fun b => fine_if ih (fine_pure _)) fun b => keeps_ite (keeps_checkEach _ _ _) (keeps_pure _)

theorem fine_checkIfGood (name : String) : Fine (checkIfGood E name) (checkIfGood (withLimits E t) name) :=
  fine_get fun _ _ => fine_if (fine_check ht name) (fine_pure _)

theorem fine_checkAllIfGood : Fine (checkAllIfGood E) (checkAllIfGood (withLimits E t)) :=
  fine_get fun _ _ => fine_if (fine_checkAll ht) (fine_pure _)

theorem fine_calcActivation (xs : Option Xs) : Fine (calcActivation E xs) (calcActivation (withLimits E t) xs) := by
  cases xs with
  | none => exact fine_get fun _ _ => fine_if (fine_throw _ _) (fine_pure _)
  | some x =>
    exact fine_if (fine_pure _) (fine_get fun _ _ => fine_bind (fine_ofExcept _) (fun _ => fine_bind (fine_modify fun _ l => ⟨l, rfl⟩)
      (fun _ => fine_check ht _) fun _ => keeps_check _ _) fun _ => keeps_bind (keeps_modify fun _ => ⟨rfl, rfl, rfl⟩) fun _ => keeps_check _ _)

theorem fine_calcPrediction (y : List Label) : Fine (calcPrediction E y) (calcPrediction (withLimits E t) y) := by
  refine fine_get fun r l => ?_
  show Fine (match E.kind with | .regression => _ | .classification => _) (match E.kind with | .regression => _ | .classification => _)
  cases E.kind with
  | regression =>
    simp only
    cases r.act with
    | none => exact fine_pure _
    | some v =>
      exact fine_bind (fine_ofExcept _) (fun _ => fine_bind (fine_ofExcept _) (fun _ => fine_bind (fine_modify fun _ l => ⟨l, rfl⟩)
        (fun _ => fine_check ht _) fun _ => keeps_check _ _) fun _ => keeps_bind (keeps_modify fun _ => ⟨rfl, rfl, rfl⟩) fun _ => keeps_check _ _)
        fun _ => keeps_bind (keeps_ofExcept _) fun _ => keeps_bind (keeps_modify fun _ => ⟨rfl, rfl, rfl⟩) fun _ => keeps_check _ _
  | classification =>
    show Fine (match r.activation with | none => _ | some v => _) (match r.activation with | none => _ | some v => _)
    cases r.activation with
    | none => exact fine_throw _ _
    | some v =>
      exact fine_bind (fine_ofExcept _) (fun _ => fine_bind (fine_modify fun _ l => ⟨l, rfl⟩)
        (fun _ => fine_check ht _) fun _ => keeps_check _ _) fun _ => keeps_bind (keeps_modify fun _ => ⟨rfl, rfl, rfl⟩) fun _ => keeps_check _ _

theorem fine_calcStd (y : List Label) : Fine (calcStd E y) (calcStd (withLimits E t) y) := by
  refine fine_get fun r l => ?_
  simp only
  cases r.act with
  | none => exact fine_pure _
  | some v =>
    exact fine_bind (fine_ofExcept _) (fun _ => fine_bind (fine_ofExcept _) (fun _ => fine_bind (fine_modify fun _ l => ⟨l, rfl⟩)
      (fun _ => fine_check ht _) fun _ => keeps_check _ _) fun _ => keeps_bind (keeps_modify fun _ => ⟨rfl, rfl, rfl⟩) fun _ => keeps_check _ _)
      fun _ => keeps_bind (keeps_ofExcept _) fun _ => keeps_bind (keeps_modify fun _ => ⟨rfl, rfl, rfl⟩) fun _ => keeps_check _ _

theorem fine_calcZscore (y : List Label) (k : Num) : Fine (calcZscore E y k) (calcZscore (withLimits E t) y k) := by
  refine fine_get fun r l => ?_
  simp only
  cases r.act with
  | none => exact fine_pure _
  | some v =>
    exact fine_bind (fine_ofExcept _) (fun _ => fine_bind (fine_ofExcept _) (fun _ => fine_bind (fine_modify fun _ l => ⟨l, rfl⟩)
      (fun _ => fine_check ht _) fun _ => keeps_check _ _) fun _ => keeps_bind (keeps_modify fun _ => ⟨rfl, rfl, rfl⟩) fun _ => keeps_check _ _)
      fun _ => keeps_bind (keeps_ofExcept _) fun _ => keeps_bind (keeps_modify fun _ => ⟨rfl, rfl, rfl⟩) fun _ => keeps_check _ _

omit ht in
theorem fine_calcSign : Fine calcSign calcSign := by
  refine fine_get fun r l => ?_
  simp only
  split
  · exact fine_pure _
  · exact fine_modify fun _ l => ⟨l, rfl⟩
  · exact fine_throw _ _

theorem fine_calcTrain (y : List Label) (kw : Kw) (a : String) : Fine (calcTrain E y kw a) (calcTrain (withLimits E t) y kw a) :=
  fine_if (fine_modify fun _ l => ⟨l, rfl⟩) <| fine_if (fine_calcPrediction ht y) <| fine_if (fine_calcStd ht y) <| fine_if fine_calcSign <|
    fine_if (fine_calcZscore ht y _) (fine_throw _ _)

theorem fine_calcCriterion (y : List Label) (v : List Nat) (kw : Kw) : Fine (Rule.calcCriterion E y v kw) (Rule.calcCriterion (withLimits E t) y v kw) := by
  refine fine_get fun r l => ?_
  show Fine (match E.kind with | .regression => _ | .classification => _) (match E.kind with | .regression => _ | .classification => _)
  cases E.kind with
  | regression =>
    exact fine_bind (fine_ofExcept _) (fun _ => fine_bind (fine_ofExcept _) (fun _ => fine_bind (fine_ofExcept _) (fun _ =>
      fine_bind (fine_ofExcept _) (fun _ => fine_bind (fine_modify fun _ l => ⟨l, rfl⟩) (fun _ => fine_check ht _) fun _ => keeps_check _ _)
      fun _ => keeps_bind (keeps_modify fun _ => ⟨rfl, rfl, rfl⟩) fun _ => keeps_check _ _)
      fun _ => keeps_bind (keeps_ofExcept _) fun _ => keeps_bind (keeps_modify fun _ => ⟨rfl, rfl, rfl⟩) fun _ => keeps_check _ _)
      fun _ => keeps_bind (keeps_ofExcept _) fun _ => keeps_bind (keeps_ofExcept _) fun _ => keeps_bind (keeps_modify fun _ => ⟨rfl, rfl, rfl⟩) fun _ => keeps_check _ _)
      fun _ => keeps_bind (keeps_ofExcept _) fun _ => keeps_bind (keeps_ofExcept _) fun _ => keeps_bind (keeps_ofExcept _) fun _ => keeps_bind (keeps_modify fun _ => ⟨rfl, rfl, rfl⟩) fun _ => keeps_check _ _
  | classification =>
    refine fine_bind (fine_ofExcept _) (fun p => ?_) fun p => ?_
    · cases p with
      | none => exact fine_throw _ _
      | some p =>
        exact fine_bind (fine_ofExcept _) (fun _ => fine_bind (fine_modify fun _ l => ⟨l, rfl⟩)
          (fun _ => fine_check ht _) fun _ => keeps_check _ _) fun _ => keeps_bind (keeps_modify fun _ => ⟨rfl, rfl, rfl⟩) fun _ => keeps_check _ _
    · cases p with
      | none => exact keeps_throw _
      | some p => exact keeps_bind (keeps_ofExcept _) fun _ => keeps_bind (keeps_modify fun _ => ⟨rfl, rfl, rfl⟩) fun _ => keeps_check _ _

theorem fine_calcTest (y : List Label) (v : List Nat) (kw : Kw) (a : String) : Fine (calcTest E y v kw a) (calcTest (withLimits E t) y v kw a) :=
  fine_if (fine_calcCriterion ht y v kw) <| fine_if (fine_modify fun _ l => ⟨l, rfl⟩) (fine_throw _ _)

omit ht in
theorem setNaN_log (a : String) (r : Rule) (l : List Bool) : setNaN a { r with log := l } = { setNaN a r with log := l } := by
  unfold setNaN
  repeat' split
  all_goals rfl

theorem fine_attrLoop {compute compute' : String → Py Rule Unit} (hc : ∀ a, Fine (compute a) (compute' a)) (hk : ∀ a, Keeps (compute' a))
    (force : Bool) (l : List String) : Fine (attrLoop E compute force l) (attrLoop (withLimits E t) compute' force l) := by
  induction l with
  | nil => exact fine_pure _
  | cons a l ih =>
    unfold attrLoop
    refine fine_get fun r _ => fine_if ?_ ?_
    · exact fine_bind (fine_modify fun r l => ⟨l, setNaN_log a r l⟩) (fun _ => ih) fun _ => keeps_attrLoop _ hk _ _
    · exact fine_bind (hc a) (fun _ => fine_bind (fine_checkIfGood ht a) (fun _ => ih) fun _ => keeps_attrLoop _ hk _ _)
        fun _ => keeps_bind (keeps_checkIfGood _ _) fun _ => keeps_attrLoop _ hk _ _

theorem fine_fit (y : List Label) (xs : Option Xs) (force : Bool) (kw : Kw) : Fine (Rule.fit E y xs force kw) (Rule.fit (withLimits E t) y xs force kw) := by
  refine fine_if (fine_throw _ _) (fine_get fun r l => fine_if (fine_pure _) (fine_if (fine_pure _) ?_))
  exact fine_bind (fine_calcActivation ht xs) (fun _ => fine_bind (fine_attrLoop ht (fine_calcTrain ht y kw) (keeps_calcTrain _ y kw) force _)
    (fun _ => fine_bind (fine_checkAllIfGood ht) (fun _ => fine_modify fun _ l => ⟨l, rfl⟩) fun _ => keeps_modify fun _ => ⟨rfl, rfl, rfl⟩)
    fun _ => keeps_bind (keeps_checkAllIfGood _) fun _ => keeps_modify fun _ => ⟨rfl, rfl, rfl⟩)
    fun _ => keeps_bind (keeps_attrLoop _ (keeps_calcTrain _ y kw) _ _) fun _ => keeps_bind (keeps_checkAllIfGood _) fun _ => keeps_modify fun _ => ⟨rfl, rfl, rfl⟩

theorem fine_evalActivation (xs : Option Xs) (recompute : Bool) : Fine (evalActivation E xs recompute) (evalActivation (withLimits E t) xs recompute) := by
  unfold evalActivation
  refine fine_bind (fine_if (fine_calcActivation ht xs) (fine_pure _)) (fun _ => fine_get fun r l => ?_) fun _ => keeps_bind keeps_get fun r => ?_
  · simp only
    cases r.act with
    | none => exact fine_throw _ _
    | some own =>
      cases xs with
      | none => exact fine_pure _
      | some xs => exact fine_if (fine_pure _) (fine_ofExcept _)
  · cases r.act with
    | none => exact keeps_throw _
    | some own =>
      cases xs with
      | none => exact keeps_pure _
      | some xs => exact keeps_ite (keeps_pure _) (keeps_ofExcept _)

omit ht in
theorem foldl_setNaN_log (k : List String) (r : Rule) (l : List Bool) :
    k.foldl (fun r a => setNaN a r) { r with log := l } = { k.foldl (fun r a => setNaN a r) r with log := l } := by
  induction k generalizing r with
  | nil => rfl
  | cons a k ih => rw [List.foldl_cons, List.foldl_cons, setNaN_log, ih]

theorem fine_eval (y : List Label) (xs : Option Xs) (recompute force : Bool) (kw : Kw) :
    Fine (Rule.eval E y xs recompute force kw) (Rule.eval (withLimits E t) y xs recompute force kw) := by
  refine fine_if (fine_throw _ _) (fine_get fun r l => fine_if ?_ (fine_if (fine_pure _) ?_))
  · exact fine_modify fun r l => ⟨l, foldl_setNaN_log _ { r with fitted := true } l⟩
  exact fine_bind (fine_evalActivation ht xs recompute) (fun v => fine_bind (fine_attrLoop ht (fine_calcTest ht y v kw) (keeps_calcTest _ y v kw) force _)
    (fun _ => fine_bind (fine_checkAllIfGood ht) (fun _ => fine_modify fun _ l => ⟨l, rfl⟩) fun _ => keeps_modify fun _ => ⟨rfl, rfl, rfl⟩)
    fun _ => keeps_bind (keeps_checkAllIfGood _) fun _ => keeps_modify fun _ => ⟨rfl, rfl, rfl⟩)
    fun _ => keeps_bind (keeps_attrLoop _ (keeps_calcTest _ y _ kw) _ _) fun _ => keeps_bind (keeps_checkAllIfGood _) fun _ => keeps_modify fun _ => ⟨rfl, rfl, rfl⟩

end

end Verif.Strict
