import Verif.RowOrderRun
import Verif.FitProps
import Verif.RuleFlagLemmas
import Verif.CoverageLemmas

/-!
# Lemmas: `fit` of a ruleset on the same points in two orders
-/

namespace Verif.RowOrder

open Verif Spec RuleSet

/-- The vector of decisions about rows -/
def bits (xs : Xs) (f : List Num → Bool) : List Nat := (rowsOf xs).map fun r => (f r).toNat

/-- The same rule, with the activation of one decision about the rows of both -/
def Joint (xs xs' : Xs) (m m' : Member) : Prop :=
  m'.kind = m.kind ∧ m'.rule = { m.rule with act := m'.rule.act } ∧ ∃ f, m.rule.act = some (bits xs f) ∧ m'.rule.act = some (bits xs' f)

theorem bits_active {xs xs' : Xs} {y y' : List Label} (h : SamePoints xs y xs' y') (f : List Num → Bool) :
    SameActive (bits xs f) y (bits xs' f) y' := active_map h _

theorem Joint.twins {xs xs' : Xs} {y y' : List Label} (h : SamePoints xs y xs' y') {m m' : Member} (hj : Joint xs xs' m m') : TwinMembers y y' m m' := by
  obtain ⟨h1, h2, f, h3, h4⟩ := hj
  exact ⟨h1, h2, .inr ⟨_, _, h3, h4, bits_active h f⟩⟩

theorem Joint.good {xs xs' : Xs} {m m' : Member} (h : Joint xs xs' m m') : m'.rule.good = m.rule.good := by rw [h.2.1]

theorem Joint.cond {xs xs' : Xs} {m m' : Member} (h : Joint xs xs' m m') : m'.rule.cond = m.rule.cond := by rw [h.2.1]

/-! ## One rule -/

theorem fit_act {E : Env} {y : List Label} {xs : Xs} {force : Bool} {kw : Rule.Kw} {r r' : Rule} (hx : xs.length ≠ 0)
    (h : Rule.fit E y (some xs) force kw r = (.ok (), r')) : ∃ v, r.evaluateActivation E xs = .ok v ∧ r'.act = some v := by
  obtain ⟨r1, r2, r3, h1, h2, h3, rfl⟩ := Rule.fit_steps (show Rule.Runs r (some xs) from hx) h
  obtain ⟨v, hv, hd⟩ := Rule.calcActivation_ok h1 hx
  have key : r1.act = r2.act := (Rule.act_attrLoop E (Rule.act_calcTrain E y kw) force _ r1).symm.trans (by rw [h2])
  have e1 : r1.act = some v := congrArg Rule.act hd
  refine ⟨v, hv, ?_⟩
  have := congrArg Rule.act (Rule.checkAllIfGood_data E r2)
  rw [h3] at this
  exact this.trans (key.symm.trans e1)

theorem evaluateActivation_eq {E : Env} {r : Rule} {xs : Xs} {v : List Nat} (h : r.evaluateActivation E xs = .ok v) : Rule.evaluate r.cond xs = .ok v := by
  unfold Rule.evaluateActivation at h
  simp only [bind, Except.bind] at h
  split at h
  · cases h
  rename_i hu
  split at h
  · cases h
  cases h
  exact hu

theorem fit_joint {E : Env} (hE : OrderFree E) {k : Kind} {xs xs' : Xs} {y y' : List Label} (h : SamePoints xs y xs' y') (h0 : xs.length ≠ 0)
    {force : Bool} {kw : Rule.Kw} {r r1 r1' : Rule} (h1 : Rule.fit E y (some xs) force kw r = (.ok (), r1))
    (h1' : Rule.fit E y' (some xs') force kw r = (.ok (), r1')) : Joint xs xs' ⟨k, r1⟩ ⟨k, r1'⟩ := by
  have hn := (fit_order (P := fun a a' => a = a') hE h force kw (r := r) (r' := r) ⟨rfl, rfl⟩).2.1
  rw [h1, h1'] at hn
  refine ⟨rfl, hn, ?_⟩
  obtain ⟨v, hv, ha⟩ := fit_act h0 h1
  obtain ⟨v', hv', ha'⟩ := fit_act (by rw [← (length_order h).1]; exact h0) h1'
  have e := evaluateActivation_eq hv
  have e' := evaluateActivation_eq hv'
  rcases evaluate_both h r.cond with ⟨err, he, -⟩ | ⟨f, hf, hf'⟩
  · rw [he] at e
    cases e
  · rw [hf] at e
    rw [hf'] at e'
    cases e
    cases e'
    exact ⟨f, ha, ha'⟩

/-! ## All rules -/

theorem eachDone_joint {R : RsEnv} (hR : ∀ k, OrderFree (R.ofKind k)) {xs xs' : Xs} {y y' : List Label} (h : SamePoints xs y xs' y') (h0 : xs.length ≠ 0)
    {force : Bool} {kw : Rule.Kw} {rules l l' : List Member} (hl : EachDone R (fun E => Rule.fit E y (some xs) force kw) rules l)
    (hl' : EachDone R (fun E => Rule.fit E y' (some xs') force kw) rules l') : List.Forall₂ (Joint xs xs') l l' := by
  unfold EachDone at hl hl'
  induction hl generalizing l' with
  | nil => cases hl'; exact .nil
  | @cons m m1 rest l hm _ ih =>
    cases hl' with
    | @cons _ m1' _ l'' hm' hr =>
      refine .cons ?_ (ih hr)
      obtain ⟨k1, r1⟩ := m1
      obtain ⟨k2, r2⟩ := m1'
      obtain ⟨rfl, e1⟩ := hm
      obtain ⟨e0, e2⟩ := hm'
      simp only at e0
      subst e0
      exact fit_joint (hR _) h h0 e1 e2

theorem filter_forall₂ {α β : Type} {S : α → β → Prop} {p : α → Bool} {q : β → Bool} (hpq : ∀ a b, S a b → p a = q b) {l : List α} {l' : List β}
    (h : List.Forall₂ S l l') : List.Forall₂ S (l.filter p) (l'.filter q) := by
  induction h with
  | nil => exact .nil
  | @cons a b l l' hab _ ih =>
    rw [List.filter_cons, List.filter_cons, hpq a b hab]
    split
    · exact .cons hab ih
    · exact ih

theorem forall₂_mem_left {α β : Type} {S : α → β → Prop} {l : List α} {l' : List β} (h : List.Forall₂ S l l') {a : α} (ha : a ∈ l) :
    ∃ b ∈ l', S a b := by
  induction h with
  | nil => cases ha
  | @cons a0 b0 l l' hab _ ih =>
    rcases List.mem_cons.1 ha with rfl | ha
    · exact ⟨b0, by simp, hab⟩
    · obtain ⟨b, hb, hs⟩ := ih ha
      exact ⟨b, by simp [hb], hs⟩

theorem forall₂_mem_right {α β : Type} {S : α → β → Prop} {l : List α} {l' : List β} (h : List.Forall₂ S l l') {b : β} (hb : b ∈ l') :
    ∃ a ∈ l, S a b := by
  induction h with
  | nil => cases hb
  | @cons a0 b0 l l' hab _ ih =>
    rcases List.mem_cons.1 hb with rfl | hb
    · exact ⟨a0, by simp, hab⟩
    · obtain ⟨a, ha, hs⟩ := ih hb
      exact ⟨a, by simp [ha], hs⟩

theorem stays_joint {H : Cond.Hasher} {xs xs' : Xs} {l l' : List Member} (h : List.Forall₂ (Joint xs xs') l l') {m m' : Member} (hm : Joint xs xs' m m') :
    Stays H l m ↔ Stays H l' m' := by
  unfold Stays
  rw [hm.good, hm.cond]
  refine and_congr_right fun _ => ⟨fun hs d hd hg => ?_, fun hs d hd hg => ?_⟩
  · obtain ⟨d0, hd0, hj⟩ := forall₂_mem_right h hd
    rw [hj.cond]
    exact hs d0 hd0 (by rw [← hj.good]; exact hg)
  · obtain ⟨d0, hd0, hj⟩ := forall₂_mem_left h hd
    have := hs d0 hd0 (by rw [hj.good]; exact hg)
    rwa [hj.cond] at this

/-! ## The union -/

theorem bits_vec (xs : Xs) (f : List Num → Bool) : bits xs f = vec (rowsOf xs).length fun i => ((rowsOf xs)[i]?.map f).getD false := by
  unfold bits vec
  apply List.ext_getElem?
  intro i
  rw [List.getElem?_map, List.getElem?_map]
  by_cases hi : i < (rowsOf xs).length
  · rw [List.getElem?_range hi, List.getElem?_eq_getElem hi]
    simp only [Option.map_some, List.getElem?_eq_getElem hi, Option.getD_some]
    cases f (rowsOf xs)[i] <;> rfl
  · rw [List.getElem?_eq_none (l := rowsOf xs) (by omega), List.getElem?_eq_none (l := List.range _) (by simp; omega)]
    rfl

/-- One decision about the rows of both for the union -/
theorem covered_joint {xs xs' : Xs} {l l' : List Member} (h : List.Forall₂ (Joint xs xs') l l') :
    ∃ f, vec (rowsOf xs).length (coveredBy l) = bits xs f ∧ vec (rowsOf xs').length (coveredBy l') = bits xs' f := by
  induction h with
  | nil => exact ⟨fun _ => false, by rw [bits_vec]; apply vec_congr; intro i hi; simp [coveredBy, List.getElem?_eq_getElem hi],
      by rw [bits_vec]; apply vec_congr; intro i hi; simp [coveredBy, List.getElem?_eq_getElem hi]⟩
  | @cons m m' l l' hm _ ih =>
    obtain ⟨g, hg, hg'⟩ := ih
    obtain ⟨-, -, f, hf, hf'⟩ := hm
    have key : ∀ (xs : Xs) (m : Member) (l : List Member), m.rule.act = some (bits xs f) → vec (rowsOf xs).length (coveredBy l) = bits xs g →
        vec (rowsOf xs).length (coveredBy (m :: l)) = bits xs fun r => f r || g r := by
      intro xs m l hm hl
      rw [bits_vec]
      apply vec_congr
      intro i hi
      have e : coveredBy l i = g (rowsOf xs)[i] := by
        have := congrArg (fun v : List Nat => v[i]?) hl
        simp only [vec, bits, List.getElem?_map, List.getElem?_range hi, List.getElem?_eq_getElem hi, Option.map_some, Option.some.injEq] at this
        cases h1 : coveredBy l i <;> cases h2 : g (rowsOf xs)[i] <;> simp [h1, h2] at this <;> rfl
      have e2 : coveredBy (m :: l) i = (f (rowsOf xs)[i] || coveredBy l i) := by
        simp only [coveredBy, List.any_cons, hm, bits, List.getElem?_map, List.getElem?_eq_getElem hi, Option.map_some, Option.some.injEq]
        congr 1
        cases f (rowsOf xs)[i] <;> simp
      rw [e2, e, List.getElem?_eq_getElem hi]
      rfl
    exact ⟨_, key xs m l hf hg, key xs' m' l' hf' hg'⟩

theorem joint_points {xs xs' : Xs} {l l' : List Member} (h : List.Forall₂ (Joint xs xs') l l') :
    (∀ m ∈ l, HasPoints (rowsOf xs).length m) ∧ ∀ m ∈ l', HasPoints (rowsOf xs').length m := by
  constructor
  · intro m hm
    obtain ⟨m', -, -, -, f, hf, -⟩ := forall₂_mem_left h hm
    exact ⟨_, by rw [hf, bits_vec]⟩
  · intro m hm
    obtain ⟨m', -, -, -, f, -, hf⟩ := forall₂_mem_right h hm
    exact ⟨_, by rw [hf, bits_vec]⟩

theorem addNames_joint {R : RsEnv} {xs xs' : Xs} {l l' : List Member} (h : List.Forall₂ (Joint xs xs') l l') (n : List String) (k : List Int) :
    addNames R n l = addNames R n l' ∧ addIndexes R k l = addIndexes R k l' := by
  induction h generalizing n k with
  | nil => exact ⟨rfl, rfl⟩
  | @cons m m' l l' hm _ ih =>
    unfold addNames addIndexes
    rw [hm.cond]
    exact ih _ _

theorem columns_joint {R : RsEnv} {xs xs' : Xs} {y y' : List Label} (hp : SamePoints xs y xs' y') {l l' : List Member}
    (h : List.Forall₂ (Joint xs xs') l l') : SameColumns y y' (columnsOf R l) (columnsOf R l') ∧ (DifferentTexts R l → DifferentTexts R l') := by
  constructor
  · unfold SameColumns columnsOf
    rw [List.forall₂_map_left_iff, List.forall₂_map_right_iff]
    refine h.imp fun m m' hj => ?_
    obtain ⟨-, -, f, hf, hf'⟩ := id hj
    refine ⟨by rw [hj.cond], ?_⟩
    simp only [hf, hf', Option.getD_some]
    exact bits_active hp f
  · intro hd
    have : (l.map fun m => R.condStr m.rule.cond) = l'.map fun m => R.condStr m.rule.cond := by
      clear hd
      induction h with
      | nil => rfl
      | @cons m m' l l' hm _ ih => rw [List.map_cons, List.map_cons, hm.cond, ih]
    unfold DifferentTexts
    rw [← this]
    exact hd

theorem rowsOf_length (xs : Xs) : (rowsOf xs).length = xs.length := by
  cases xs <;> rfl

theorem afterFit_none {R : RsEnv} {given : Bool} {s s' : RuleSet} (h : afterFit R [] given s = (.ok (), s')) :
    s'.names = s.names ∧ s'.indexes = s.indexes := by
  unfold afterFit at h
  rw [if_neg (by simp)] at h
  obtain ⟨_, s1, h1, h⟩ := Py.bind_eq_ok h
  have e1 : s1.names = s.names ∧ s1.indexes = s.indexes := by
    rcases whenSet_ok h1 with ⟨-, rfl⟩ | ⟨-, h1⟩
    · exact ⟨rfl, rfl⟩
    · obtain ⟨a, -, rfl⟩ := recomputeSelf_ok h1
      exact ⟨rfl, rfl⟩
  rcases whenSet_ok h with ⟨-, rfl⟩ | ⟨-, h⟩
  · exact e1
  · obtain ⟨a, -, rfl⟩ := recomputeStacked_ok h
    exact e1

theorem coverage_active {s s' : RuleSet} {v v' : List Nat} {y y' : List Label} (h : s.act = some v) (h' : s'.act = some v')
    (hs : SameActive v y v' y') (h0 : v.length ≠ 0) : s.rulesetCoverage = s'.rulesetCoverage := by
  have hv : v.Perm v' := SamePairs.left hs
  unfold rulesetCoverage available
  rw [h, h']
  simp only [if_neg h0, if_neg (show v'.length ≠ 0 by rw [← hv.length_eq]; exact h0), nones_perm hv, hv.length_eq]

/-! ## `eval` -/

theorem twins_good {y y' : List Label} {m m' : Member} (h : TwinMembers y y' m m') : m'.rule.good = m.rule.good := by rw [h.2.1]

theorem twins_cond {y y' : List Label} {m m' : Member} (h : TwinMembers y y' m m') : m'.rule.cond = m.rule.cond := by rw [h.2.1]

theorem stays_twins {H : Cond.Hasher} {y y' : List Label} {l l' : List Member} (h : List.Forall₂ (TwinMembers y y') l l') {m m' : Member}
    (hm : TwinMembers y y' m m') : Stays H l m ↔ Stays H l' m' := by
  unfold Stays
  rw [twins_good hm, twins_cond hm]
  refine and_congr_right fun _ => ⟨fun hs d hd hg => ?_, fun hs d hd hg => ?_⟩
  · obtain ⟨d0, hd0, hj⟩ := forall₂_mem_right h hd
    rw [twins_cond hj]
    exact hs d0 hd0 (by rw [← twins_good hj]; exact hg)
  · obtain ⟨d0, hd0, hj⟩ := forall₂_mem_left h hd
    have := hs d0 hd0 (by rw [twins_good hj]; exact hg)
    rwa [twins_cond hj] at this

theorem eachEval_twins {R : RsEnv} (hR : ∀ k, OrderFree (R.ofKind k)) {xs xs' : Xs} {y y' : List Label} (h : SamePoints xs y xs' y')
    {keep force : Bool} {kw : Rule.Kw} {rules l l' : List Member} (hl : EachDone R (fun E => Rule.eval E y (some xs) keep force kw) rules l)
    (hl' : EachDone R (fun E => Rule.eval E y' (some xs') keep force kw) rules l') : List.Forall₂ (TwinMembers y y') l l' := by
  unfold EachDone at hl hl'
  induction hl generalizing l' with
  | nil => cases hl'; exact .nil
  | @cons m m1 rest l hm _ ih =>
    cases hl' with
    | @cons _ m1' _ l'' hm' hr =>
      refine .cons ?_ (ih hr)
      obtain ⟨-, g2, g3⟩ := eval_order (P := fun a a' => a = a') (hR m.kind) (fun _ _ => .inl) h keep force kw (r := m.rule) (r' := m.rule) ⟨rfl, rfl⟩
      have e : Rule.eval (R.ofKind m.kind) y (some xs) keep force kw m.rule = (.ok (), m1.rule) := hm.2
      have e' : Rule.eval (R.ofKind m.kind) y' (some xs') keep force kw m.rule = (.ok (), m1'.rule) := hm'.2
      rw [e, e'] at g2 g3
      exact ⟨hm'.1.trans hm.1.symm, g2, g3⟩

end Verif.RowOrder
