import Verif.UnionLemmas

/-!
# Lemmas about rulesets: one stacked column for each rule
-/

namespace Verif.RuleSet

open Verif Vote Spec

variable {R : RsEnv} {n : Nat}

theorem columnsOf_fst (rules : List Member) : (columnsOf R rules).map (·.1) = rules.map fun m => R.condStr m.rule.cond := by
  simp [columnsOf, Function.comp_def]

theorem namedColumns_stored (rules : List Member) :
    namedColumns R rules (rules.map fun m => m.rule.act.getD []) = columnsOf R rules := by
  unfold namedColumns columnsOf
  rw [List.zipWith_map_right, List.zipWith_self]

theorem stored_length {m : Member} (h : HasPoints n m) : (m.rule.act.getD []).length = n := by
  obtain ⟨on, hon⟩ := h
  rw [hon]
  exact vec_len on

theorem evaluateStacked_stored {rules : List Member} (h : ∀ m ∈ rules, HasPoints n m) (hd : DifferentTexts R rules)
    {c : Option (Columns Nat)} (hc : evaluateStacked R none rules = .ok c) : c = some (columnsOf R rules) := by
  unfold evaluateStacked at hc
  split at hc
  · rename_i he
    cases hc
    rw [List.length_eq_zero_iff.1 he]
    rfl
  · simp only [activations, mapM_act h, bind, Except.bind, namedColumns_stored, frameOf] at hc
    rw [dictOf_nodup (by rw [columnsOf_fst]; exact hd)] at hc
    cases rules with
    | nil => rename_i he; exact absurd rfl he
    | cons m rules =>
      rw [columnsOf, List.map_cons] at hc ⊢
      simp only at hc
      rw [if_pos] at hc
      · cases hc
        rfl
      · simp only [List.all_eq_true, decide_eq_true_eq, List.mem_map]
        rintro x ⟨m', hm', rfl⟩
        rw [stored_length (h m' (by simp [hm'])), stored_length (h m (by simp))]

/-- The stacked activations of a ruleset which stacks: none yet, or one column for each rule -/
structure StackOk (R : RsEnv) (s : RuleSet) : Prop where
  stack : s.stack = true
  columns : DifferentTexts R s.rules →
    (s.stacked = some (columnsOf R s.rules)) ∨ (s.rules = [] ∧ s.stacked = none)

theorem StackOk.make (hI : TextIgnoresIndexes R) {rules : List Member} {compute : Bool} {s : RuleSet}
    (hp : ∀ m ∈ rules, HasPoints n m) (h : Made R rules compute true s) : StackOk R s := by
  refine ⟨h.stack, fun hd => Or.inl ?_⟩
  have hc : columnsOf R s.rules = columnsOf R rules := by
    have := h.same
    unfold columnsOf
    generalize s.rules = l at this
    clear h hp
    induction this with
    | nil => rfl
    | cons h _ ih =>
      obtain ⟨-, idx, e⟩ := h
      rw [List.map_cons, List.map_cons, ih, e]
      congr 2
      exact hI _ _
  have hd' : DifferentTexts R rules := by
    unfold DifferentTexts at hd ⊢
    rw [← columnsOf_fst, ← hc, columnsOf_fst]
    exact hd
  have hs := h.stacked
  simp only [if_true] at hs
  rw [hc, evaluateStacked_stored hp hd' hs]

theorem setColumn_new {c c' : Columns Nat} {name : String} {v : List Nat} (hn : name ∉ c.map (·.1))
    (h : setColumn c name v = .ok c') : c' = c ++ [(name, v)] := by
  unfold setColumn at h
  split at h
  · cases h
    rfl
  · split at h
    · cases h
    · split at h
      · rename_i ha
        simp only [List.any_eq_true, decide_eq_true_eq] at ha
        obtain ⟨p, hp, e⟩ := ha
        exact absurd (e ▸ List.mem_map_of_mem hp) hn
      · cases h
        rfl

theorem StackOk.iaddRule {m : Member} {s s' : RuleSet} (hs : StackOk R s) (hm : HasPoints n m)
    (h : RuleSet.iaddRule R m s = (.ok (), s')) : StackOk R s' := by
  obtain ⟨idx, na, a, c, -, -, -, -, -, -, hc, rfl⟩ := iaddRule_ok h
  refine ⟨hs.stack, fun hd => Or.inl ?_⟩
  have hc := hc hs.stack
  unfold NewStack at hc
  obtain ⟨on, hon⟩ := hm
  rw [hon] at hc
  simp only at hc
  unfold DifferentTexts at hd
  simp only [List.map_append, List.map_cons, List.map_nil] at hd
  obtain ⟨d1, -, d2⟩ := List.nodup_append.1 hd
  have hl : columnsOf R (s.rules ++ [m]) = columnsOf R s.rules ++ [(R.condStr m.rule.cond, vec n on)] := by
    simp [columnsOf, hon]
  simp only
  rcases hs.columns d1 with he | ⟨he, hn⟩
  · rw [he] at hc
    obtain ⟨-, c', hc', rfl⟩ := hc
    rw [setColumn_new _ hc', hl]
    rw [columnsOf_fst]
    intro hx
    exact d2 _ hx _ (by simp) rfl
  · rw [hn] at hc
    rw [hc.2, hl, he]
    rfl

theorem StackOk.iaddSet (hn : 0 < n) {o s s' : RuleSet} (hs : StackOk R s) (ho : StackOk R o) (hu : UnionOk n o)
    (h : RuleSet.iaddSet R o s = (.ok (), s')) : StackOk R s' := by
  obtain ⟨a, c, -, -, -, -, hc, rfl⟩ := iaddSet_ok h
  have hc := hc hs.stack
  refine ⟨hs.stack, fun hd => ?_⟩
  unfold DifferentTexts at hd
  simp only [List.map_append] at hd
  obtain ⟨d1, d2, -⟩ := List.nodup_append.1 hd
  simp only
  unfold NewStackSet at hc
  by_cases he : o.rules = []
  · rw [hu.empty he] at hc
    have hc : c = s.stacked := hc
    rw [hc, he, List.append_nil]
    exact hs.columns d1
  · rw [available_vec hn (hu.union he)] at hc
    have e2 : o.stacked = some (columnsOf R o.rules) := by
      rcases ho.columns d2 with e | ⟨e, -⟩
      · exact e
      · exact absurd e he
    refine Or.inl ?_
    have hl : columnsOf R (s.rules ++ o.rules) = columnsOf R s.rules ++ columnsOf R o.rules := by simp [columnsOf]
    rcases hs.columns d1 with e1 | ⟨e0, e1⟩
    · rw [e1, e2] at hc
      have hc : c = some (columnsOf R s.rules ++ columnsOf R o.rules) := hc
      rw [hc, hl]
    · rw [e1, e2] at hc
      have hc : c = some (columnsOf R o.rules) := hc
      rw [hc, e0, List.nil_append]

/-- Selecting the columns in another order -/
theorem selectColumns_columnsOf {l l' : List Member} (hp : l'.Perm l) (hd : DifferentTexts R l) {c : Columns Nat}
    (h : selectColumns (columnsOf R l) (l'.map fun m => R.condStr m.rule.cond) = .ok c) : c = columnsOf R l' := by
  unfold selectColumns at h
  split at h
  · cases h
  · cases h
    have key : ∀ m ∈ l, ((columnsOf R l).filter fun p => p.1 = R.condStr m.rule.cond) =
        [(R.condStr m.rule.cond, m.rule.act.getD [])] := by
      clear hp ‹¬_›
      induction l with
      | nil => intro m hm; cases hm
      | cons a l ih =>
        unfold DifferentTexts at hd
        rw [List.map_cons, List.nodup_cons] at hd
        intro m hm
        have e : columnsOf R (a :: l) = (R.condStr a.rule.cond, a.rule.act.getD []) :: columnsOf R l := rfl
        rw [e]
        rcases List.mem_cons.1 hm with rfl | hm
        · rw [List.filter_cons_of_pos (by simp)]
          congr 1
          rw [List.filter_eq_nil_iff]
          intro p hp hpe
          simp only [decide_eq_true_eq] at hpe
          apply hd.1
          rw [← columnsOf_fst, ← hpe]
          exact List.mem_map_of_mem hp
        · rw [List.filter_cons_of_neg]
          · exact ih hd.2 m hm
          · simp only [decide_eq_true_eq]
            intro e
            exact hd.1 (e ▸ List.mem_map_of_mem hm)
    rw [List.flatMap_map]
    have : ∀ l'' : List Member, (∀ m ∈ l'', m ∈ l) →
        (l''.flatMap fun m => (columnsOf R l).filter fun p => p.1 = R.condStr m.rule.cond) = columnsOf R l'' := by
      intro l'' hl
      induction l'' with
      | nil => rfl
      | cons m l'' ih =>
        rw [List.flatMap_cons, key m (hl m (by simp)), ih fun m hm => hl m (by simp [hm])]
        rfl
    exact this l' fun m hm => hp.mem_iff.1 hm

theorem DifferentTexts.perm {l l' : List Member} (hp : l'.Perm l) (hd : DifferentTexts R l') : DifferentTexts R l := by
  unfold DifferentTexts at hd ⊢
  exact (hp.map _).nodup_iff.1 hd

/-- After any history -/
theorem Built.stackOk (hn : 0 < n) (hI : TextIgnoresIndexes R) {s : RuleSet} (h : Built R (HasPoints n) true s) :
    StackOk R s := by
  induction h with
  | empty => exact ⟨rfl, fun _ => Or.inr ⟨rfl, rfl⟩⟩
  | make hp h => exact .make hI hp (make_ok h)
  | iaddRule _ hm h ih => exact ih.iaddRule hm h
  | append _ hm h ih =>
    obtain ⟨s1, h1, rfl⟩ := append_update h
    have := ih.iaddRule hm h1
    exact ⟨ih.stack, this.columns⟩
  | iaddSet _ ho h ih1 ih2 => exact ih1.iaddSet hn ih2 (Built.unionOk hn ho) h
  | @addRule s m s' hs hm h ih =>
    unfold RuleSet.addRule at h
    rw [ih.stack] at h
    refine .make (n := n) hI ?_ (make_ok h)
    intro x hx
    rcases List.mem_append.1 hx with hx | hx
    · exact (Built.unionOk hn hs).points x hx
    · rw [List.mem_singleton.1 hx]
      exact hm
  | @addSet s o s' hs ho h ih1 ih2 =>
    unfold RuleSet.addSet at h
    simp only [bind, Except.bind] at h
    split at h
    · cases h
    rename_i rules hr
    rw [ih1.stack, ih2.stack] at h
    refine .make (n := n) hI ?_ (make_ok h)
    intro x hx
    rcases List.mem_append.1 (setOf_mem hr hx) with hx | hx
    · exact (Built.unionOk hn hs).points x hx
    · exact (Built.unionOk hn ho).points x hx
  | @setRules s rules s' _ hp h ih =>
    unfold RuleSet.setRules at h
    rw [Py.bind_ok (Py.get_run s)] at h
    obtain ⟨t, s1, h1, h⟩ := Py.bind_eq_ok h
    simp only [Py.ofExcept_run] at h1
    obtain ⟨e1, e2⟩ := Prod.mk.inj h1
    subst e2
    simp only [Py.modify_run] at h
    cases h
    rw [ih.stack] at e1
    have := StackOk.make hI hp (make_ok e1)
    exact ⟨ih.stack, this.columns⟩
  | sort _ h ih =>
    rcases sort_ok h with ⟨-, rfl⟩ | ⟨rules, hr, ⟨hs, rfl⟩ | ⟨hs, c, c', hc, hc', rfl⟩⟩
    · exact ih
    · exact absurd (ih.stack.symm.trans hs) (by simp)
    · refine ⟨hs, fun hd => Or.inl ?_⟩
      have hp := sortedRules_perm hr
      have hd' := DifferentTexts.perm hp hd
      simp only
      rcases ih.columns hd' with e | ⟨-, e⟩
      · rw [hc] at e
        cases e
        rw [selectColumns_columnsOf hp hd' hc']
      · rw [hc] at e
        cases e

end Verif.RuleSet
