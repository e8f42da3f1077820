import Verif.SortedLemmas

/-!
# Lemmas about rulesets: fit and eval
-/

namespace Verif.RuleSet

open Verif Vote

variable {R : RsEnv}

/-! ## One rule after the other -/

theorem eachRule_ok {f : Env → Py Rule Unit} {l l' : List Member} (h : eachRule R f l = (.ok (), l')) :
    Spec.EachDone R f l l' := by
  induction l generalizing l' with
  | nil =>
    simp only [eachRule] at h
    cases h
    exact .nil
  | cons m rest ih =>
    simp only [eachRule, onRule] at h
    rcases hp : f (R.ofKind m.kind) m.rule with ⟨a, r⟩
    rw [hp] at h
    cases a with
    | error e =>
      simp only at h
      cases h
    | ok u =>
      simp only at h
      rcases he : eachRule R f rest with ⟨b, rest'⟩
      rw [he] at h
      obtain ⟨rfl, rfl⟩ := Prod.mk.inj h
      refine .cons ⟨rfl, ?_⟩ (ih he)
      exact hp

theorem forRules_ok {f : Env → Py Rule Unit} {s s' : RuleSet} (h : forRules R f s = (.ok (), s')) :
    ∃ l, Spec.EachDone R f s.rules l ∧ s' = { s with rules := l } := by
  unfold forRules at h
  simp only at h
  rcases he : eachRule R f s.rules with ⟨b, l⟩
  rw [he] at h
  obtain ⟨rfl, rfl⟩ := Prod.mk.inj h
  exact ⟨l, eachRule_ok he, rfl⟩

/-! ## The rules which are dropped -/

theorem isDropped_ok {H : Cond.Hasher} {drops : List (Member × Nat)} {m : Member × Nat} {b : Bool}
    (h : isDropped H drops m = .ok b) :
    b = true ↔ ∃ d ∈ drops, d.2 = m.2 ∨ Cond.eq H m.1.rule.cond d.1.rule.cond = .ok true := by
  induction drops with
  | nil =>
    simp only [isDropped] at h
    cases h
    simp
  | cons d rest ih =>
    simp only [isDropped] at h
    split at h
    · rename_i e
      cases h
      simp [e]
    · rename_i hne
      simp only [bind, Except.bind] at h
      split at h
      · cases h
      · rename_i b' hb'
        cases b' with
        | true =>
          simp only [if_true] at h
          cases h
          simp [hb']
        | false =>
          simp only [Bool.false_eq_true, if_false] at h
          rw [ih h]
          simp [hne, hb']

open Classical in
theorem keepRules_ok {H : Cond.Hasher} {drops l : List (Member × Nat)} {kept : List Member}
    (h : keepRules H drops l = .ok kept) :
    kept = (l.filter fun m => ¬ ∃ d ∈ drops, d.2 = m.2 ∨ Cond.eq H m.1.rule.cond d.1.rule.cond = .ok true).map (·.1) := by
  induction l generalizing kept with
  | nil =>
    simp only [keepRules] at h
    cases h
    rfl
  | cons m rest ih =>
    simp only [keepRules, bind, Except.bind] at h
    split at h
    · cases h
    rename_i b hb
    split at h
    · cases h
    rename_i k hk
    have hd := isDropped_ok hb
    injection h with h
    rw [← h, ih hk]
    cases b with
    | true =>
      have := hd.1 rfl
      rw [List.filter_cons_of_neg (by rw [decide_eq_true_eq, not_not]; exact this), if_pos rfl]
    | false =>
      have : ¬ ∃ d ∈ drops, d.2 = m.2 ∨ Cond.eq H m.1.rule.cond d.1.rule.cond = .ok true := by
        intro e
        cases hd.2 e
      rw [List.filter_cons_of_pos (by rw [decide_eq_true_eq]; exact this)]
      rfl

theorem zipIdx_same {l : List Member} {n : Nat} {p q : Member × Nat} (hp : p ∈ l.zipIdx n) (hq : q ∈ l.zipIdx n)
    (h : p.2 = q.2) : p = q := by
  have e1 := List.mk_mem_zipIdx_iff_le_and_getElem?_sub (l := l) (x := p.1) (i := p.2) (k := n)
  have e2 := List.mk_mem_zipIdx_iff_le_and_getElem?_sub (l := l) (x := q.1) (i := q.2) (k := n)
  have h1 := (e1.1 hp).2
  have h2 := (e2.1 hq).2
  rw [← h, h1] at h2
  injection h2 with h2
  exact Prod.ext h2 h

open Classical in
/-- The rules which stay -/
theorem keepRules_bad {H : Cond.Hasher} {l kept : List Member} (h : keepRules H (badRules l) l.zipIdx = .ok kept) :
    kept = l.filter fun m => Spec.Stays H l m := by
  rw [keepRules_ok h]
  have e : ∀ m ∈ l.zipIdx, (¬ ∃ d ∈ badRules l, d.2 = m.2 ∨ Cond.eq H m.1.rule.cond d.1.rule.cond = .ok true) ↔
      Spec.Stays H l m.1 := by
    intro m hm
    unfold badRules Spec.Stays
    constructor
    · intro hn
      constructor
      · cases hg : m.1.rule.good with
        | true => rfl
        | false => exact absurd ⟨m, List.mem_filter.2 ⟨hm, by simp [hg]⟩, Or.inl rfl⟩ hn
      · intro d hd hg he
        rw [← List.zipIdx_map_fst 0 l] at hd
        obtain ⟨p, hp, rfl⟩ := List.mem_map.1 hd
        exact hn ⟨p, List.mem_filter.2 ⟨hp, by simp [hg]⟩, Or.inr he⟩
    · rintro ⟨hg, hn⟩ ⟨d, hd, h⟩
      obtain ⟨hd, hb⟩ := List.mem_filter.1 hd
      rcases h with h | h
      · rw [zipIdx_same hd hm h, hg] at hb
        simp at hb
      · have : d.1 ∈ l := by
          rw [← List.zipIdx_map_fst 0 l]
          exact List.mem_map_of_mem hd
        exact hn d.1 this (by simpa using hb) h
  have : (l.zipIdx.filter fun m => ¬ ∃ d ∈ badRules l, d.2 = m.2 ∨ Cond.eq H m.1.rule.cond d.1.rule.cond = .ok true) =
      l.zipIdx.filter fun m => Spec.Stays H l m.1 := by
    apply List.filter_congr
    intro m hm
    rw [decide_eq_decide]
    exact e m hm
  rw [this]
  conv => rhs; rw [← List.zipIdx_map_fst 0 l]
  rw [List.filter_map, List.zipIdx_map_fst]
  rfl

theorem badRules_fst (l : List Member) : (badRules l).map (·.1) = l.filter fun m => !m.rule.good := by
  unfold badRules
  conv => rhs; rw [← List.zipIdx_map_fst 0 l]
  rw [List.filter_map]
  rfl

/-! ## Appending without update -/

theorem appendAll_rules {rules : List Member} {s s' : RuleSet} (h : appendAll R rules s = (.ok (), s')) :
    s'.rules = s.rules ++ rules ∧ s'.act = s.act ∧ s'.stacked = s.stacked ∧ s'.stack = s.stack ∧
      s'.names = addNames R s.names rules ∧ s'.indexes = addIndexes R s.indexes rules := by
  induction rules generalizing s with
  | nil =>
    simp only [appendAll, Py.pure_run] at h
    cases h
    simp [addNames, addIndexes]
  | cons m rest ih =>
    simp only [appendAll] at h
    obtain ⟨_, s1, h1, h⟩ := Py.bind_eq_ok h
    obtain ⟨idx, na, ei, en, -, rfl⟩ := append_noupdate h1
    obtain ⟨i1, i2, i3, i4, i5, i6⟩ := ih h
    refine ⟨by simpa using i1, i2, i3, i4, ?_, ?_⟩
    · simp [addNames, en, i5]
    · simp [addIndexes, ei, i6]

theorem dropRules_ok {drops : List (Member × Nat)} {s s' : RuleSet} (h : dropRules R drops s = (.ok (), s')) :
    keepRules R.hasher drops s.rules.zipIdx = .ok s'.rules ∧ s'.stacked = none ∧ s'.stack = s.stack ∧
      s'.act = s.act.map (fun v => v.map fun _ => 0) ∧ s'.names = addNames R s.names s'.rules ∧
      s'.indexes = addIndexes R s.indexes s'.rules := by
  unfold dropRules at h
  rw [Py.bind_ok (Py.get_run s)] at h
  obtain ⟨kept, s1, h1, h⟩ := Py.bind_eq_ok h
  simp only [Py.ofExcept_run] at h1
  obtain ⟨e1, e2⟩ := Prod.mk.inj h1
  subst e2
  rw [Py.bind_ok (Py.modify_run _ _)] at h
  obtain ⟨_, s2, h2, h⟩ := Py.bind_eq_ok h
  rw [Py.bind_ok (Py.modify_run _ _)] at h
  obtain ⟨i1, i2, i3, i4, i5, i6⟩ := appendAll_rules h
  have hc : s2 = { s with rules := [], act := s.act.map (fun v => v.map fun _ => 0) } := by
    unfold clearActivation at h2
    rw [Py.bind_ok (Py.get_run _)] at h2
    cases ha : s.act with
    | none =>
      simp only [ha, Py.pure_run] at h2
      cases h2
      simp
    | some v =>
      simp only [ha] at h2
      obtain ⟨_, s3, h3, h2⟩ := Py.bind_eq_ok h2
      simp only [Py.ofExcept_run] at h3
      obtain ⟨e3, e4⟩ := Prod.mk.inj h3
      subst e4
      simp only [Py.modify_run] at h2
      cases h2
      simp
  subst hc
  simp only [List.nil_append] at i1 i2 i3 i4 i5 i6
  subst i1
  exact ⟨e1, i3, i4, i2, i5, i6⟩

theorem whenSet_ok {c : RuleSet → Bool} {u : Py RuleSet Unit} {s s' : RuleSet} (h : whenSet c u s = (.ok (), s')) :
    (c s = false ∧ s' = s) ∨ (c s = true ∧ u s = (.ok (), s')) := by
  unfold whenSet at h
  rw [Py.bind_ok (Py.get_run s)] at h
  cases hc : c s with
  | false =>
    simp only [hc, Bool.false_eq_true, if_false, Py.pure_run] at h
    cases h
    exact Or.inl ⟨rfl, rfl⟩
  | true =>
    simp only [hc, if_true] at h
    exact Or.inr ⟨rfl, h⟩

theorem recomputeSelf_ok {s s' : RuleSet} (h : recomputeSelf R s = (.ok (), s')) :
    ∃ a, evaluateSelf R none s.rules = .ok a ∧ s' = { s with act := a } := by
  unfold recomputeSelf at h
  rw [Py.bind_ok (Py.modify_run _ _)] at h
  obtain ⟨a, h1, rfl⟩ := computeSelf_ok h
  exact ⟨a, h1, rfl⟩

theorem recomputeStacked_ok {s s' : RuleSet} (h : recomputeStacked R s = (.ok (), s')) :
    ∃ c, evaluateStacked R none s.rules = .ok c ∧ s' = { s with stacked := c } := by
  unfold recomputeStacked at h
  rw [Py.bind_ok (Py.modify_run _ _)] at h
  obtain ⟨a, h1, rfl⟩ := computeStacked_ok h
  exact ⟨a, h1, rfl⟩

/-- After the rules have been fitted -/
structure AfterFit (R : RsEnv) (s : RuleSet) (dropped given : Bool) (s' : RuleSet) : Prop where
  stack : s'.stack = s.stack
  recomputed : dropped = true ∨ given = true ∨ noActivation s = true → evaluateSelf R none s'.rules = .ok s'.act
  kept : dropped = false → given = false → noActivation s = false → s'.act = s.act
  stacked : s.stack = true → dropped = true ∨ given = true ∨ s.stacked = none → evaluateStacked R none s'.rules = .ok s'.stacked
  keptStacked : dropped = false → (s.stack = false ∨ given = false ∧ s.stacked ≠ none) → s'.stacked = s.stacked

theorem afterFit_ok {s s' : RuleSet} {given : Bool} (h : afterFit R (badRules s.rules) given s = (.ok (), s')) :
    AfterFit R s (decide ((badRules s.rules).length > 0)) given s' ∧
      ((badRules s.rules = [] ∧ s'.rules = s.rules ∧ s'.names = s.names ∧ s'.indexes = s.indexes) ∨
        keepRules R.hasher (badRules s.rules) s.rules.zipIdx = .ok s'.rules ∧
          s'.names = addNames R s.names s'.rules ∧ s'.indexes = addIndexes R s.indexes s'.rules) := by
  unfold afterFit at h
  split at h
  · rename_i hpos
    rw [decide_eq_true hpos]
    obtain ⟨_, s1, h1, h⟩ := Py.bind_eq_ok h
    obtain ⟨d1, d2, d3, d4, d5, d6⟩ := dropRules_ok h1
    obtain ⟨_, s2, h2, h⟩ := Py.bind_eq_ok h
    obtain ⟨a, ha, rfl⟩ := recomputeSelf_ok h2
    rcases whenSet_ok h with ⟨hs, rfl⟩ | ⟨hs, h⟩
    · refine ⟨⟨d3, fun _ => ha, (fun e => by cases e), fun e => ?_, (fun e => by cases e)⟩, Or.inr ⟨d1, d5, d6⟩⟩
      rw [← d3, show s1.stack = false from hs] at e
      cases e
    · obtain ⟨c, hc, rfl⟩ := recomputeStacked_ok h
      exact ⟨⟨d3, fun _ => ha, (fun e => by cases e), fun _ _ => hc, (fun e => by cases e)⟩, Or.inr ⟨d1, d5, d6⟩⟩
  · rename_i hpos
    have hnil : badRules s.rules = [] := List.length_eq_zero_iff.1 (by omega)
    rw [decide_eq_false hpos]
    obtain ⟨_, s1, h1, h⟩ := Py.bind_eq_ok h
    have first : s1 = { s with act := s1.act } ∧ (given = true ∨ noActivation s = true → evaluateSelf R none s1.rules = .ok s1.act) ∧
        (given = false → noActivation s = false → s1.act = s.act) := by
      rcases whenSet_ok h1 with ⟨hs, rfl⟩ | ⟨hs, h1⟩
      · rw [Bool.or_eq_false_iff] at hs
        refine ⟨rfl, ?_, fun _ _ => rfl⟩
        rw [hs.1, hs.2]
        rintro (e | e) <;> cases e
      · obtain ⟨a, ha, rfl⟩ := recomputeSelf_ok h1
        refine ⟨rfl, fun _ => ha, ?_⟩
        intro e1 e2
        rw [e1, e2] at hs
        cases hs
    obtain ⟨f1, f2, f3⟩ := first
    rcases whenSet_ok h with ⟨hs, hs1⟩ | ⟨hs, h⟩
    · subst hs1
      have hr : s'.rules = s.rules := by rw [f1]
      have hst : s'.stack = s.stack := by rw [f1]
      have hsd : s'.stacked = s.stacked := by rw [f1]
      refine ⟨⟨hst, ?_, fun _ => f3, ?_, fun _ _ => hsd⟩, Or.inl ⟨hnil, hr, by rw [f1], by rw [f1]⟩⟩
      · rintro (e | e)
        · cases e
        · exact f2 e
      · intro e1 e2
        rw [hst, hsd, e1, Bool.true_and, Bool.or_eq_false_iff] at hs
        rcases e2 with e2 | e2 | e2
        · cases e2
        · rw [e2] at hs
          cases hs.2
        · rw [e2] at hs
          cases hs.1
    · obtain ⟨c, hc, rfl⟩ := recomputeStacked_ok h
      have hr : s1.rules = s.rules := by rw [f1]
      have hst : s1.stack = s.stack := by rw [f1]
      have hsd : s1.stacked = s.stacked := by rw [f1]
      refine ⟨⟨hst, ?_, fun _ => f3, fun _ _ => hc, ?_⟩, Or.inl ⟨hnil, hr, ?_, ?_⟩⟩
      · rintro (e | e)
        · cases e
        · exact f2 e
      · intro _ e
        rw [hst, hsd] at hs
        rw [Bool.and_eq_true, Bool.or_eq_true] at hs
        rcases e with e | ⟨e1, e2⟩
        · rw [e] at hs
          cases hs.1
        · rcases hs.2 with h2 | h2
          · exact absurd (Option.isNone_iff_eq_none.1 h2) e2
          · rw [e1] at h2
            cases h2
      · show s1.names = s.names
        rw [f1]
      · show s1.indexes = s.indexes
        rw [f1]

/-- What `fit` does when it goes through -/
theorem fit_ok {y : List Label} {xs : Option Xs} {force : Bool} {kw : Rule.Kw} {s s' : RuleSet} {dropped : List Member}
    (h : fit R y xs force kw s = (.ok dropped, s')) :
    (s' = s ∧ dropped = [] ∧ (xs.any (fun x => x.length = 0) = true ∨ s.rules = [] ∨
        (xs = none ∧ ∀ m ∈ s.rules, m.rule.fitted = true))) ∨
      ∃ l s1, Spec.EachDone R (fun E => Rule.fit E y xs force kw) s.rules l ∧
        afterFit R (badRules l) xs.isSome { s with rules := l } = (.ok (), s1) ∧
        s' = { s1 with trainSize := .num (.fin y.length) } ∧ dropped = (badRules l).map (·.1) := by
  unfold fit at h
  obtain ⟨k, s0, h0, h'⟩ := Py.bind_eq_ok h
  clear h
  rename' h' => h
  have : s0 = s := by
    unfold needType at h0
    rw [Py.bind_ok (Py.get_run s)] at h0
    cases hk : s.ruleType with
    | none => simp [hk] at h0
    | some k =>
      simp only [hk, Py.pure_run] at h0
      cases h0
      rfl
  subst this
  split at h
  · simp at h
  rw [Py.bind_ok (Py.get_run _)] at h
  split at h
  · rename_i hx
    simp only [Py.pure_run] at h
    cases h
    exact Or.inl ⟨rfl, rfl, Or.inl hx⟩
  split at h
  · rename_i hx
    simp only [Py.pure_run] at h
    cases h
    exact Or.inl ⟨rfl, rfl, Or.inr (Or.inl (List.length_eq_zero_iff.1 hx))⟩
  split at h
  · rename_i hx
    simp only [Py.pure_run] at h
    cases h
    rw [Bool.and_eq_true, Option.isNone_iff_eq_none, List.all_eq_true] at hx
    exact Or.inl ⟨rfl, rfl, Or.inr (Or.inr ⟨hx.2, hx.1⟩)⟩
  obtain ⟨_, s1, h1, h⟩ := Py.bind_eq_ok h
  obtain ⟨l, hl, rfl⟩ := forRules_ok h1
  rw [Py.bind_ok (Py.get_run _)] at h
  obtain ⟨_, s2, h2, h⟩ := Py.bind_eq_ok h
  unfold calcTrainSetSize at h
  rw [Py.bind_ok (Py.modify_run _ _)] at h
  simp only [Py.pure_run] at h
  cases h
  exact Or.inr ⟨l, s2, hl, h2, rfl, rfl⟩

end Verif.RuleSet
