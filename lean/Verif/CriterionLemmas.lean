import Verif.FitProps
import Verif.PredictLemmas
import Verif.MeasureProps

/-!
# Lemmas on the criterion of rulesets
-/

namespace Verif.RuleSetProps

open Verif Spec Vote RuleSet

theorem labelsOfCells_label (l : List Label) : labelsOfCells (l.map .label) = .ok l := by
  unfold labelsOfCells
  induction l with
  | nil => rfl
  | cons a l ih => simp only [List.map_cons, List.mapM_cons, ih]; rfl

/-- The criterion of a ruleset of regression rules -/
theorem calcCriterion_regression {R : RsEnv} {s t : RuleSet} {xs : Option Xs} {w : Option WeightsArg} {kw : Rule.Kw}
    {p y : List (Option Rat)} {c : Num} (hne : s.rules ≠ []) (hk : s.ruleType = some .regression) (hp0 : p ≠ [])
    (hp : predict R xs w s = (.ok (p.map fun q => .label (.num (Num.ofOption q))), t))
    (hc : RFun.regressionCriterion (kw.criterionMethod.getD "mse_norm") (p.map Num.ofOption) (y.map Num.ofOption) = .ok c) :
    calcCriterion R (y.map fun q => .num (Num.ofOption q)) xs w kw s = (.ok (), { t with criterion := .num c }) := by
  have hlen : ¬ s.rules.length = 0 := fun e => hne (List.length_eq_zero_iff.1 e)
  have hpl : ¬ (p.map fun q => Cell.label (.num (Num.ofOption q))).length = 0 := by
    rw [List.length_map]
    exact fun e => hp0 (List.length_eq_zero_iff.1 e)
  have hcells : labelsOfCells (p.map fun q => Cell.label (.num (Num.ofOption q))) = .ok (p.map fun q => .num (Num.ofOption q)) := by
    rw [← labelsOfCells_label, List.map_map]
    rfl
  unfold calcCriterion
  rw [Py.bind_ok (Py.get_run s)]
  simp only [if_neg hlen, hk]
  rw [Py.bind_ok hp]
  simp only [if_neg hpl]
  rw [Py.bind_ok (s' := t) (by rw [Py.ofExcept_run, hcells]), Py.bind_ok (s' := t) (by rw [Py.ofExcept_run, RFun.numbers_ofOption]),
    Py.bind_ok (s' := t) (by rw [Py.ofExcept_run, RFun.numbers_ofOption]), Py.bind_ok (s' := t) (by rw [Py.ofExcept_run, hc]),
    Py.modify_run]

theorem calcCriterion_raises {R : RsEnv} {s t : RuleSet} {xs : Option Xs} {w : Option WeightsArg} {kw : Rule.Kw}
    {p y : List (Option Rat)} {e : Err} (hne : s.rules ≠ []) (hk : s.ruleType = some .regression) (hp0 : p ≠ [])
    (hp : predict R xs w s = (.ok (p.map fun q => .label (.num (Num.ofOption q))), t))
    (hc : RFun.regressionCriterion (kw.criterionMethod.getD "mse_norm") (p.map Num.ofOption) (y.map Num.ofOption) = .error e) :
    calcCriterion R (y.map fun q => .num (Num.ofOption q)) xs w kw s = (.error e, t) := by
  have hlen : ¬ s.rules.length = 0 := fun e => hne (List.length_eq_zero_iff.1 e)
  have hpl : ¬ (p.map fun q => Cell.label (.num (Num.ofOption q))).length = 0 := by
    rw [List.length_map]
    exact fun e => hp0 (List.length_eq_zero_iff.1 e)
  have hcells : labelsOfCells (p.map fun q => Cell.label (.num (Num.ofOption q))) = .ok (p.map fun q => .num (Num.ofOption q)) := by
    rw [← labelsOfCells_label, List.map_map]
    rfl
  unfold calcCriterion
  rw [Py.bind_ok (Py.get_run s)]
  simp only [if_neg hlen, hk]
  rw [Py.bind_ok hp]
  simp only [if_neg hpl]
  rw [Py.bind_ok (s' := t) (by rw [Py.ofExcept_run, hcells]), Py.bind_ok (s' := t) (by rw [Py.ofExcept_run, RFun.numbers_ofOption]),
    Py.bind_ok (s' := t) (by rw [Py.ofExcept_run, RFun.numbers_ofOption]), Py.bind_err (e := e) (s' := t) (by rw [Py.ofExcept_run, hc])]

theorem activated_mem {α} {u : List Bool} {l : List α} {x : α} (h : x ∈ activated u l) : x ∈ l := by
  unfold activated at h
  obtain ⟨⟨b, x⟩, hx, rfl⟩ := List.mem_map.1 h
  exact (List.of_mem_zip (List.mem_filter.1 hx).1).2

theorem activated_cons {α} (b : Bool) (u : List Bool) (x : α) (l : List α) :
    activated (b :: u) (x :: l) = if b then x :: activated u l else activated u l := by
  cases b <;> rfl

theorem activated_length {α β} {u : List Bool} {l : List α} {l' : List β} (h : l.length = u.length) (h' : l'.length = u.length) :
    (activated u l).length = (activated u l').length := by
  induction u generalizing l l' with
  | nil => rfl
  | cons b u ih =>
    cases l with
    | nil => cases h
    | cons x l =>
      cases l' with
      | nil => cases h'
      | cons x' l' =>
        have := ih (by simpa using h) (by simpa using h' : l'.length = u.length)
        rw [activated_cons, activated_cons]
        cases b <;> simp [this]

theorem activated_zip {α β} {u : List Bool} {l : List α} {l' : List β} (h : l.length = u.length) (h' : l'.length = u.length) :
    activated u (l.zip l') = (activated u l).zip (activated u l') := by
  induction u generalizing l l' with
  | nil => rfl
  | cons b u ih =>
    cases l with
    | nil => cases h
    | cons x l =>
      cases l' with
      | nil => cases h'
      | cons x' l' =>
        have := ih (by simpa using h) (by simpa using h' : l'.length = u.length)
        rw [List.zip_cons_cons, activated_cons, activated_cons, activated_cons, this]
        cases b <;> rfl

theorem count_right {p y : List Label} (hc : ∀ q ∈ p, IsClass q ∨ q = .num .nan) (hy : ∀ t ∈ y, IsClass t) :
    (List.zipWith Label.eq p y).count true = (p.zip y).countP fun x => x.1 = x.2 := by
  induction p generalizing y with
  | nil => rfl
  | cons q p ih =>
    cases y with
    | nil => rfl
    | cons t y =>
      rw [List.forall_mem_cons] at hc hy
      rw [List.zipWith_cons_cons, List.zip_cons_cons, List.count_cons, List.countP_cons, ih hc.2 hy.2]
      congr 1
      rcases hc.1 with h | rfl
      · have := RFun.eq_iff h hy.1
        by_cases e : q = t
        · rw [this.2 e]
          simp [e]
        · have e' : q.eq t = false := by
            cases hb : q.eq t with
            | false => rfl
            | true => exact absurd (this.1 hb) e
          rw [e']
          simp [e]
      · rcases hy.1 with ⟨r, rfl⟩ | ⟨r, rfl⟩ <;> simp [Label.eq, Num.beq, Num.le]

theorem count_decided {p : List Label} (hc : ∀ q ∈ p, IsClass q ∨ q = .num .nan) :
    (p.filter fun q => !q.isNaN).length = p.countP fun q => q ≠ .num .nan := by
  rw [← List.countP_eq_length_filter]
  apply List.countP_congr
  intro q hq
  rcases hc q hq with (⟨r, rfl⟩ | ⟨r, rfl⟩) | rfl <;> simp [Label.isNaN, Num.isNaN]

theorem successRateVector_eq {p y : List Label} {z : List (Label × Label)} (hl : p.length = y.length)
    (hc : ∀ q ∈ p, IsClass q ∨ q = .num .nan) (hy : ∀ t ∈ y, IsClass t) (hd : ∃ q ∈ p, q ≠ .num .nan) (hz : z = p.zip y) :
    RFun.successRateVector p y =
      .ok (some (.fin ((z.countP (fun x => x.1 = x.2) : Rat) / p.countP (fun q => q ≠ .num .nan)))) := by
  obtain ⟨q, hq, hqn⟩ := hd
  have hpos : 0 < p.countP fun q => q ≠ .num .nan := List.countP_pos_iff.2 ⟨q, hq, by simpa using hqn⟩
  have hpos' : ((p.countP fun q => q ≠ .num .nan : Nat) : Rat) ≠ 0 := by exact_mod_cast hpos.ne'
  have hy0 : ¬ y.length = 0 := by
    rw [← hl]
    exact fun e => by rw [List.length_eq_zero_iff.1 e] at hq; cases hq
  unfold RFun.successRateVector
  rw [if_neg hy0, if_neg (not_not.2 hl), count_right hc hy, count_decided hc, hz]
  unfold Num.div
  simp only [if_neg hpos']

end Verif.RuleSetProps
