import Verif.FeatureTableSpec
import Verif.SetLemmas

/-!
# Lemmas on features numbered by a table
-/

namespace Verif.RuleSet

open Verif Spec RuleSetProps

variable {R : RsEnv} {rules : List Member} {compute stack : Bool} {t : RuleSet}

/-- The constructor before features are numbered -/
def start (R : RsEnv) (rules : List Member) (compute : Bool) : Py RuleSet Unit := do
  appendAll R rules
  computeIf R compute
  stackIf (computeStacked R none)
  collectNames R

theorem init_start : init R rules compute = (do start R rules compute; setFeaturesIndexes R; checkIf R : Py RuleSet Unit) := by
  unfold init start
  simp only [← bind_assoc_run]

theorem appendAll_table : appendAll (withoutTable R) rules = appendAll R rules := by
  induction rules with
  | nil => rfl
  | cons m l ih =>
    unfold appendAll
    rw [ih]
    rfl

theorem start_table : start (withoutTable R) rules compute = start R rules compute := by
  unfold start
  rw [appendAll_table]
  rfl

/-- What is made without table is what `set_features_indexes` starts from with the table. -/
theorem start_ok (h : make (withoutTable R) rules compute stack = .ok t) :
    start R rules compute (blank stack) = (.ok (), t) ∧ t.rules = rules ∧ (∃ l, allNames rules = .ok l ∧ t.names = R.strings l) ∧
      (R.checkDuplicated = true → checkDuplicatedRules R (decide (t.names.length > 0)) rules = .ok ()) := by
  have hm := make_ok h
  obtain ⟨e1, e2⟩ := hm.noIndexes rfl
  refine ⟨?_, e1, hm.names, fun hc => ?_⟩
  · unfold make at h
    rw [init_start, start_table] at h
    split at h
    · rename_i x s hi
      cases h
      obtain ⟨_, s1, h1, hi⟩ := Py.bind_eq_ok hi
      obtain ⟨_, s2, h2, hi⟩ := Py.bind_eq_ok hi
      obtain ⟨rules', idx, -, rfl, n1, -⟩ := setFeaturesIndexes_ok h2
      obtain ⟨rfl, rfl⟩ := n1 rfl
      obtain ⟨rfl, -⟩ := checkIf_ok hi
      exact h1
    · cases h
  · have := hm.check hc
    rw [e1] at this
    exact this

theorem make_start (h : make (withoutTable R) rules compute stack = .ok t) :
    make R rules compute stack =
      match (do setFeaturesIndexes R; checkIf R : Py RuleSet Unit) t with
      | (.ok _, s) => .ok s
      | (.error e, _) => .error e := by
  unfold make
  rw [init_start, Py.bind_ok (start_ok h).1]
  rfl

theorem get?_mem {α : Type} {T : Thresholds.Dict α} {f : String} {i : α} (h : T.get? f = some i) : (f, i) ∈ T := by
  unfold Thresholds.Dict.get? at h
  obtain ⟨p, hp, rfl⟩ := Option.map_eq_some_iff.1 h
  have := List.find?_some hp
  rw [beq_iff_eq] at this
  rw [← this]
  exact List.mem_of_find?_eq_some hp

theorem get?_known {α : Type} {T : Thresholds.Dict α} {f : String} {i : α} (h : (f, i) ∈ T) : ∃ j, T.get? f = some j := by
  unfold Thresholds.Dict.get?
  cases hf : T.find? fun p => p.1 == f with
  | none => exact absurd (List.find?_eq_none.1 hf _ h) (by simp)
  | some p => exact ⟨p.2, rfl⟩

theorem get?_unknown {α : Type} {T : Thresholds.Dict α} {f : String} (h : ∀ i, (f, i) ∉ T) : T.get? f = none := by
  cases hf : T.get? f with
  | none => rfl
  | some i => exact absurd (get?_mem hf) (h i)

theorem indexesOf_gives {l : List String} {idx : List Int} (h : indexesOf R l = .ok idx) : List.Forall₂ (TableGives R.allIndexes) l idx := by
  unfold indexesOf at h
  induction l generalizing idx with
  | nil => cases h; exact .nil
  | cons f l ih =>
    rw [List.mapM_cons] at h
    cases hf : R.allIndexes.get? f with
    | none => rw [hf] at h; cases h
    | some i =>
      rw [hf] at h
      simp only [bind, Except.bind] at h
      split at h
      · cases h
      · rename_i r hr
        cases h
        exact .cons (get?_mem hf) (ih hr)

theorem indexesOf_known {l : List String} (h : ∀ f ∈ l, ∃ i, TableGives R.allIndexes f i) : ∃ idx, indexesOf R l = .ok idx := by
  unfold indexesOf
  refine mapM_exists fun f hf => ?_
  obtain ⟨i, hi⟩ := h f hf
  obtain ⟨j, hj⟩ := get?_known hi
  exact ⟨j, by rw [hj]⟩

theorem indexesOf_cases (l : List String) : (∃ idx, indexesOf R l = .ok idx) ∨ indexesOf R l = .error .keyError := by
  unfold indexesOf
  induction l with
  | nil => exact .inl ⟨[], rfl⟩
  | cons f l ih =>
    rw [List.mapM_cons]
    cases hf : R.allIndexes.get? f with
    | none => exact .inr rfl
    | some i =>
      rcases ih with ⟨idx, hi⟩ | hi
      · exact .inl ⟨i :: idx, by rw [hi]; rfl⟩
      · exact .inr (by rw [hi]; rfl)

theorem indexesOf_unknown {l : List String} {f : String} (hf : f ∈ l) (h : ∀ i, (f, i) ∉ R.allIndexes) : indexesOf R l = .error .keyError := by
  rcases indexesOf_cases (R := R) l with ⟨idx, hi⟩ | hi
  · exfalso
    have hg := indexesOf_gives hi
    clear hi
    induction hg with
    | nil => cases hf
    | cons hd _ ih =>
      rcases List.mem_cons.1 hf with rfl | hf
      · exact h _ hd
      · exact ih hf
  · exact hi

theorem reindexRules_renumbered {l l' : List Member} (h : reindexRules R l = .ok l') : List.Forall₂ (Renumbered R.allIndexes) l l' := by
  induction l generalizing l' with
  | nil =>
    simp only [reindexRules] at h
    cases h
    exact .nil
  | cons m rest ih =>
    simp only [reindexRules, bind, Except.bind] at h
    split at h
    · cases h
    rename_i na hna
    split at h
    · cases h
    rename_i idx hi
    split at h
    · cases h
    · rename_i hr
      cases h
      refine .cons ⟨rfl, na, idx, ?_, indexesOf_gives hi, rfl⟩ (ih hr)
      unfold Cond.need at hna
      split at hna
      · cases hna; assumption
      · cases hna

theorem reindexRules_known {l : List Member} (hn : ∀ m ∈ l, ∃ na, m.rule.cond.names = some na) (h : ∀ m ∈ l, Knows R.allIndexes m) :
    ∃ l', reindexRules R l = .ok l' := by
  induction l with
  | nil => exact ⟨[], rfl⟩
  | cons m l ih =>
    obtain ⟨na, hna⟩ := hn m List.mem_cons_self
    obtain ⟨idx, hi⟩ := indexesOf_known (h m List.mem_cons_self na hna)
    obtain ⟨l', hl⟩ := ih (fun x hx => hn x (List.mem_cons_of_mem _ hx)) fun x hx => h x (List.mem_cons_of_mem _ hx)
    exact ⟨_, by simp only [reindexRules, hna, Cond.need, hi, hl, bind, Except.bind]; rfl⟩

theorem reindexRules_unknown {l : List Member} (hn : ∀ m ∈ l, ∃ na, m.rule.cond.names = some na) {m : Member} (hm : m ∈ l)
    {na : List String} (hna : m.rule.cond.names = some na) {f : String} (hf : f ∈ na) (hu : ∀ i, (f, i) ∉ R.allIndexes) :
    reindexRules R l = .error .keyError := by
  induction l with
  | nil => cases hm
  | cons q l ih =>
    obtain ⟨nq, hnq⟩ := hn q List.mem_cons_self
    rcases indexesOf_cases (R := R) nq with ⟨idx, hi⟩ | hi
    · rcases List.mem_cons.1 hm with rfl | hm
      · rw [hna] at hnq
        cases hnq
        rw [indexesOf_unknown hf hu] at hi
        cases hi
      · simp only [reindexRules, hnq, Cond.need, hi, ih (fun x hx => hn x (List.mem_cons_of_mem _ hx)) hm, bind, Except.bind]
    · simp only [reindexRules, hnq, Cond.need, hi, bind, Except.bind]

theorem allNames_from {l : List Member} {r : List String} (h : allNames l = .ok r) :
    (∀ m ∈ l, ∃ na, m.rule.cond.names = some na) ∧ ∀ f ∈ r, ∃ m ∈ l, ∃ na, m.rule.cond.names = some na ∧ f ∈ na := by
  unfold allNames at h
  cases hm : l.mapM (fun m => Cond.need m.rule.cond.names) with
  | error e => rw [hm] at h; cases h
  | ok ns =>
    rw [hm] at h
    cases h
    clear * - hm
    induction l generalizing ns with
    | nil =>
      cases hm
      exact ⟨fun _ h => absurd h (by simp), fun _ h => absurd h (by simp)⟩
    | cons m l ih =>
      rw [List.mapM_cons] at hm
      cases hn : m.rule.cond.names with
      | none => rw [hn] at hm; cases hm
      | some na =>
        rw [hn] at hm
        simp only [Cond.need, bind, Except.bind] at hm
        split at hm
        · cases hm
        · rename_i r hr
          cases hm
          obtain ⟨i1, i2⟩ := ih _ hr
          refine ⟨fun q hq => ?_, fun f hf => ?_⟩
          · rcases List.mem_cons.1 hq with rfl | hq
            · exact ⟨na, hn⟩
            · exact i1 q hq
          · rw [List.flatten_cons, List.mem_append] at hf
            rcases hf with hf | hf
            · exact ⟨m, List.mem_cons_self, na, hn, hf⟩
            · obtain ⟨q, hq, e⟩ := i2 f hf
              exact ⟨q, List.mem_cons_of_mem _ hq, e⟩

/-- The text of a rule by names does not depend on its indexes. -/
theorem ruleText_renumbered {T : Thresholds.Dict Int} {m m' : Member} (h : Renumbered T m m') : ruleText R true m' = ruleText R true m := by
  obtain ⟨h1, na, idx, -, -, h2⟩ := h
  unfold ruleText
  rw [h1, h2]
  rfl

theorem texts_renumbered {T : Thresholds.Dict Int} {l l' : List Member} (h : List.Forall₂ (Renumbered T) l l') :
    l'.mapM (ruleText R true) = l.mapM (ruleText R true) := by
  induction h with
  | nil => rfl
  | cons hd _ ih => rw [List.mapM_cons, List.mapM_cons, ih, ruleText_renumbered hd]

theorem set_known {idx : List Int} {l' : List Member} (hT : R.allIndexes ≠ []) (h1 : indexesOf R t.names = .ok idx)
    (h2 : reindexRules R t.rules = .ok l') : setFeaturesIndexes R t = (.ok (), { t with rules := l', indexes := idx }) := by
  have hl : R.allIndexes.length > 0 := List.length_pos_iff.2 hT
  unfold setFeaturesIndexes
  rw [Py.bind_ok (Py.get_run t), if_pos hl, Py.bind_ok (a := idx) (s' := t) (by rw [Py.ofExcept_run, h1]),
    Py.bind_ok (Py.modify_run _ _), Py.bind_ok (a := l') (by rw [Py.ofExcept_run, h2]), Py.modify_run]

theorem set_unknown (hT : R.allIndexes ≠ []) (h : indexesOf R t.names = .error .keyError ∨ reindexRules R t.rules = .error .keyError) :
    ∃ s, setFeaturesIndexes R t = (.error .keyError, s) := by
  have hl : R.allIndexes.length > 0 := List.length_pos_iff.2 hT
  unfold setFeaturesIndexes
  rw [Py.bind_ok (Py.get_run t), if_pos hl]
  rcases indexesOf_cases (R := R) t.names with ⟨idx, hi⟩ | hi
  · rcases h with h | h
    · rw [h] at hi; cases hi
    · rw [Py.bind_ok (a := idx) (s' := t) (by rw [Py.ofExcept_run, hi]), Py.bind_ok (Py.modify_run _ _)]
      exact ⟨_, by rw [Py.bind_err (e := .keyError) (by rw [Py.ofExcept_run, h])]⟩
  · exact ⟨t, by rw [Py.bind_err (e := .keyError) (s' := t) (by rw [Py.ofExcept_run, hi])]⟩

end Verif.RuleSet
