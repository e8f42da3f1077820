import Verif.RuleHeapLemmas

/-!
# Properties of rules which depend on their activation objects: `in` (C47), `get_correlation` (C48), deletion (C49)

As for activations, theorems are about a state `h` reached by an arbitrary history (`Reach w₀ h us`), where `us` is the vector
each activation stands for.
-/

namespace Verif.RuleHeapProps

open Verif Verif.Activation Verif.ActivationProps Verif.Spec Verif.RuleHeap

/-! ## C47 -/

/-- **C47 (missing activation).** `r2 in r1` is false, and nothing changes, when `r1` has no activation or `r1` has one which is
alive and `r2` has none. -/
theorem C47_missing {w₀ : World} {h : Heap} {us : Values} (hr : Activation.Reach w₀ h us) (self other : HRule) :
    (self.act = none → RuleHeap.contains self other h = (.ok false, h)) ∧
    (∀ i u, self.act = some i → us[i]? = some (some u) → other.act = none →
      RuleHeap.contains self other h = (.ok false, h)) := by
  constructor
  · intro hs
    simp [RuleHeap.contains, hs, truthy, Py.bind_run]
  · intro i u hs hi ho
    simp [RuleHeap.contains, hs, ho, Py.bind_run, truthy_live hr hi]
    simp [truthy]

/-- **C47 (exact meaning).** Whenever `r2 in r1` returns, for rules with activations of the same length, it is true exactly when
one of the two activations is included in the other, whichever. -/
theorem C47_exact {w₀ : World} {h h' : Heap} {us : Values} {i j : Nat} {u v : List Bool} {self other : HRule} {r : Bool}
    (hr : Activation.Reach w₀ h us) (hs : self.act = some i) (ho : other.act = some j) (hi : us[i]? = some (some u))
    (hj : us[j]? = some (some v)) (hl : u.length = v.length) (hf : Fits h.w u)
    (hc : RuleHeap.contains self other h = (.ok r, h')) : r = true ↔ Included v u ∨ Included u v :=
  C09_contains_exact hr hi hj hl hf ((contains_step hr hs ho hi hj).1 hc)

/-- **C47, partial.** `r2 in r1` is true exactly when all points activated by `r2` are activated by `r1`, when `r1` activates at
least as many points.  Missing: otherwise it is false (`C47_contains_false`). -/
theorem C47_contains_partial {w₀ : World} {h h' : Heap} {us : Values} {i j : Nat} {u v : List Bool} {self other : HRule}
    {r : Bool} (hr : Activation.Reach w₀ h us) (hs : self.act = some i) (ho : other.act = some j)
    (hi : us[i]? = some (some u)) (hj : us[j]? = some (some v)) (hl : u.length = v.length) (hf : Fits h.w u)
    (hc : RuleHeap.contains self other h = (.ok r, h')) (hcount : v.count true ≤ u.count true) :
    r = true ↔ Included v u :=
  C09_contains_partial hr hi hj hl hf ((contains_step hr hs ho hi hj).1 hc) hcount

/-- **C47 (it answers), partial.** For live activations of the same length `r2 in r1` returns an answer, and leaves every
activation as it was.  Missing: both activations kept as integers, and a taken file name. -/
theorem C47_answers_partial {w₀ : World} {h : Heap} {us : Values} {i j : Nat} {u v : List Bool} {self other : HRule}
    (hr : Activation.Reach w₀ h us) (hs : self.act = some i) (ho : other.act = some j)
    (hi : us[i]? = some (some u)) (hj : us[j]? = some (some v)) (hl : u.length = v.length) (hf : Fits h.w u)
    (hint : ¬ (IsInt h i ∧ IsInt h j))
    (hfile : h.w.storeRaw = true ∨ h.w.files (.vec (h.w.rands h.w.nRands)) = none) :
    ∃ r h', RuleHeap.contains self other h = (.ok r, h') ∧
      ∀ (k : Nat) (x : List Bool), us[k]? = some (some x) → Shows h' k x := by
  obtain ⟨r, h', h1, h2⟩ := C09_contains_answers_partial hr hi hj hl hf hint hfile
  exact ⟨r, h', (contains_step hr hs ho hi hj).2 h1, h2⟩

/-- **C47 (intersections).** `r1 & r2` is contained in `r1` and in `r2`, whenever `in` answers; a rule is contained in itself. -/
theorem C47_meet {w₀ : World} {h h' : Heap} {us : Values} {i j k : Nat} {u v : List Bool} {r₁ r₂ both : HRule} {r : Bool}
    (hr : Activation.Reach w₀ h us) (h1 : r₁.act = some i) (h2 : r₂.act = some j) (h3 : both.act = some k)
    (hi : us[i]? = some (some u)) (hj : us[j]? = some (some v)) (hk : us[k]? = some (some (List.zipWith (· && ·) u v)))
    (hl : u.length = v.length) (hf : Fits h.w u) :
    (RuleHeap.contains r₁ both h = (.ok r, h') → r = true) ∧ (RuleHeap.contains r₂ both h = (.ok r, h') → r = true) ∧
      (RuleHeap.contains r₁ r₁ h = (.ok r, h') → r = true) := by
  have hfv : Fits h.w v := by simpa only [Fits, hl] using hf
  have i1 : Included (List.zipWith (· && ·) u v) u := by
    intro p hp
    simp only [List.getElem?_zipWith] at hp
    cases hu : u[p]? <;> cases hv : v[p]? <;> simp_all
  have i2 : Included (List.zipWith (· && ·) u v) v := by
    intro p hp
    simp only [List.getElem?_zipWith] at hp
    cases hu : u[p]? <;> cases hv : v[p]? <;> simp_all
  exact ⟨fun hc => (C47_exact hr h1 h3 hi hk (by simp [hl]) hf hc).2 (.inl i1),
    fun hc => (C47_exact hr h2 h3 hj hk (by simp [hl]) hfv hc).2 (.inl i2),
    fun hc => (C47_exact hr h1 h1 hi hi rfl hf hc).2 (.inl fun _ h => h)⟩

/-- A rule of one feature which predicts 1. -/
def rule (i : Nat) : HRule := ⟨1, some i, .number (.fin 1) true⟩

/-- `[1,0,0]` in `[1,1,0]`, `[1,0,1]` not in `[1,1,0]`, without activation. -/
example : (RuleHeap.contains (rule 1) (rule 2) demo).1 = .ok true ∧ (RuleHeap.contains (rule 1) (rule 0) demo).1 = .ok false ∧
    (RuleHeap.contains (rule 1) ⟨1, none, .none⟩ demo).1 = .ok false ∧ demoValues[1]? = some (some [true, true, false]) := by
  decide +kernel

/-- **C47 is false**: a rule is said to contain a rule which activates more points. -/
theorem C47_contains_false :
    ∃ (w₀ : World) (h h' : Heap) (us : Values) (i j : Nat) (u v : List Bool), Activation.Reach w₀ h us ∧
      us[i]? = some (some u) ∧ us[j]? = some (some v) ∧ u.length = v.length ∧ Fits h.w u ∧
      RuleHeap.contains (rule i) (rule j) h = (.ok true, h') ∧ ¬ Included v u := by
  refine ⟨_, demo, (RuleHeap.contains (rule 1) (rule 3) demo).2, _, 1, 3, _, _, demo_reach, rfl, rfl, rfl, Or.inr (by simp),
    Prod.ext (by decide +kernel) rfl, fun h => ?_⟩
  have := h 2 rfl
  cases this

/-- **C47 is false of activations kept as integers**, where `in` raises `ValueError`, **and of deleted ones**, where it raises
`TypeError` instead of being false. -/
theorem C47_answers_false :
    (∃ (w₀ : World) (h : Heap) (us : Values) (i j : Nat) (u v : List Bool), Activation.Reach w₀ h us ∧
      us[i]? = some (some u) ∧ us[j]? = some (some v) ∧ u.length = v.length ∧
      (RuleHeap.contains (rule i) (rule j) h).1 = .error .valueError) ∧
    ∃ (w₀ : World) (h : Heap) (us : Values) (i j : Nat) (u v : List Bool), Activation.Reach w₀ h us ∧
      us[i]? = some (some u) ∧ us[j]? = some (some v) ∧ i ≠ j ∧
      (RuleHeap.delActivation (rule j) h).1 = .ok () ∧
      (RuleHeap.contains (rule i) (rule j) (RuleHeap.delActivation (rule j) h).2).1 = .error .typeError :=
  ⟨⟨_, ints, _, 0, 1, _, _, ints_reach, rfl, rfl, rfl, by decide +kernel⟩,
    _, demo, _, 1, 0, _, _, demo_reach, rfl, rfl, by decide, by decide +kernel, by decide +kernel⟩

/-! ## C48 -/

/-- The sign of a number other than zero. -/
def sign (q : Rat) : Rat := if q < 0 then -1 else 1

theorem signOf_fin {q : Rat} (hq : q ≠ 0) (b : Bool) : signOf (.number (.fin q) b) = .ok (.fin (sign q)) := by
  simp [signOf, hq, sign]

/-- **C48 (value), partial.** The correlation of two rules with activations of the same length, and predictions which are numbers
other than 0, is the fraction of the points where the activations agree times the product of the signs; activations are left
as they are.  Missing: rules with different numbers of features (`C48_features_false`) and a prediction which is 0
(`C48_zero_false`). -/
theorem C48_value_partial {w₀ : World} {h : Heap} {us : Values} {i j : Nat} {u v : List Bool} {self other : HRule} {p q : Rat}
    {b c : Bool} (hr : Activation.Reach w₀ h us) (hs : self.act = some i) (ho : other.act = some j)
    (hi : us[i]? = some (some u)) (hj : us[j]? = some (some v)) (hl : u.length = v.length)
    (hf : self.features = other.features) (hp : self.prediction = .number (.fin p) b)
    (hq : other.prediction = .number (.fin q) c) (hp0 : p ≠ 0) (hq0 : q ≠ 0) :
    ∃ h', RuleHeap.correlation self other h =
        (.ok (.fin ((agreements u v : Rat) / u.length * (sign p * sign q))), h') ∧
      ∀ (k : Nat) (x : List Bool), us[k]? = some (some x) → Shows h' k x := by
  obtain ⟨h', h1, h2⟩ := correlation_live hr hs ho hi hj hl hf (hp ▸ signOf_fin hp0 b) (hq ▸ signOf_fin hq0 c)
  exact ⟨h', h1, h2⟩

/-- **C48 (a correlation), partial.** It is between -1 and 1 and symmetric; it is 1 exactly for rules with the same activation and
the same sign, -1 exactly for rules with the same activation and opposite signs.  Missing: as for `C48_value_partial`. -/
theorem C48_similarity_partial {w₀ : World} {h : Heap} {us : Values} {i j : Nat} {u v : List Bool} {self other : HRule}
    {p q : Rat} {b c : Bool} (hr : Activation.Reach w₀ h us) (hs : self.act = some i) (ho : other.act = some j)
    (hi : us[i]? = some (some u)) (hj : us[j]? = some (some v)) (hl : u.length = v.length)
    (hf : self.features = other.features) (hp : self.prediction = .number (.fin p) b)
    (hq : other.prediction = .number (.fin q) c) (hp0 : p ≠ 0) (hq0 : q ≠ 0) :
    ∃ x : Rat, (RuleHeap.correlation self other h).1 = .ok (.fin x) ∧ (RuleHeap.correlation other self h).1 = .ok (.fin x) ∧
      -1 ≤ x ∧ x ≤ 1 ∧ (x = 1 ↔ u = v ∧ 0 < p * q) ∧ (x = -1 ↔ u = v ∧ p * q < 0) := by
  obtain ⟨h1, e1, -⟩ := C48_value_partial hr hs ho hi hj hl hf hp hq hp0 hq0
  obtain ⟨h2, e2, -⟩ := C48_value_partial hr ho hs hj hi hl.symm hf.symm hq hp hq0 hp0
  have hpos : (0 : Rat) < u.length := by
    have : 0 < u.length := List.length_pos_iff.2 (hr.abs.rep i u hi).1
    exact_mod_cast this
  have hle : (agreements u v : Rat) / u.length ≤ 1 := by
    rw [div_le_one₀ hpos]; exact_mod_cast agreements_le u v hl
  have hge : 0 ≤ (agreements u v : Rat) / u.length := div_nonneg (by exact_mod_cast Nat.zero_le _) hpos.le
  have hone : (agreements u v : Rat) / u.length = 1 ↔ u = v := by
    rw [div_eq_one_iff_eq hpos.ne', ← agreements_eq u v hl]
    exact_mod_cast Iff.rfl
  have hsg : (sign p * sign q = 1 ∧ 0 < p * q) ∨ (sign p * sign q = -1 ∧ p * q < 0) := by
    unfold sign
    rcases lt_or_gt_of_ne hp0 with a | a <;> rcases lt_or_gt_of_ne hq0 with d | d
    · simp [a, d, mul_pos_of_neg_of_neg a d]
    · simp [a, d.le, not_lt.2 d.le, mul_neg_of_neg_of_pos a d]
    · simp [not_lt.2 a.le, d, mul_neg_of_pos_of_neg a d]
    · simp [not_lt.2 a.le, not_lt.2 d.le, mul_pos a d]
  refine ⟨_, by rw [e1], ?_, ?_⟩
  · rw [e2, agreements_comm, hl, mul_comm (sign q)]
  · rcases hsg with ⟨hk, hm⟩ | ⟨hk, hm⟩ <;> rw [hk]
    · refine ⟨by linarith, by linarith, by rw [mul_one, hone]; simp [hm], ⟨fun h => by linarith, fun h => by linarith [h.2]⟩⟩
    · refine ⟨by linarith, by linarith, ⟨fun h => by linarith, fun h => by linarith [h.2]⟩, ?_⟩
      rw [← hone]
      constructor
      · intro h; exact ⟨by linarith, hm⟩
      · intro h; linarith [h.1]

example : (RuleHeap.correlation (rule 0) ⟨1, some 1, .number (.fin (-2)) true⟩ demo).1 = .ok (.fin (-1 / 3)) := by
  decide +kernel

/-- **C48 (different lengths).** Rules whose activations have different lengths raise `ValueError`. -/
theorem C48_lengths {w₀ : World} {h : Heap} {us : Values} {i j : Nat} {u v : List Bool} {self other : HRule} {p q : Rat}
    {b c : Bool} (hr : Activation.Reach w₀ h us) (hs : self.act = some i) (ho : other.act = some j)
    (hi : us[i]? = some (some u)) (hj : us[j]? = some (some v)) (hl : u.length ≠ v.length)
    (hp : self.prediction = .number (.fin p) b) (hq : other.prediction = .number (.fin q) c) (hp0 : p ≠ 0) (hq0 : q ≠ 0) :
    RuleHeap.correlation self other h = (.error .valueError, h) := by
  have h1 := correlation_length hr.abs hi hj hl
  by_cases hf : self.features = other.features
  · simp [RuleHeap.correlation, hf, hp, hq, signOf_fin hp0, signOf_fin hq0, hs, ho, Py.bind_run, h1, Py.ofExcept]
  · simp [RuleHeap.correlation, hf]

/-- **C48 is false of rules with different numbers of features**: the lengths which are compared are those of the conditions. -/
theorem C48_features_false :
    ∃ (w₀ : World) (h : Heap) (us : Values) (i j : Nat) (u v : List Bool) (self other : HRule), Activation.Reach w₀ h us ∧
      self.act = some i ∧ other.act = some j ∧ us[i]? = some (some u) ∧ us[j]? = some (some v) ∧ u.length = v.length ∧
      self.prediction = .number (.fin 1) true ∧ other.prediction = .number (.fin 1) true ∧
      (RuleHeap.correlation self other h).1 = .error .valueError :=
  ⟨_, demo, _, 0, 1, _, _, rule 0, ⟨2, some 1, .number (.fin 1) true⟩, demo_reach, rfl, rfl, rfl, rfl, rfl, rfl, rfl,
    by decide +kernel⟩

/-- **C48 is false when a prediction is 0**: the correlation is NaN, or `ZeroDivisionError` is raised when the prediction is a
number of Python; **and of classes which are texts**, where `TypeError` is raised. -/
theorem C48_zero_false :
    ∃ (w₀ : World) (h : Heap) (us : Values) (i j : Nat) (u v : List Bool), Activation.Reach w₀ h us ∧
      us[i]? = some (some u) ∧ us[j]? = some (some v) ∧ u.length = v.length ∧
      (RuleHeap.correlation (rule i) ⟨1, some j, .number (.fin 0) true⟩ h).1 = .ok .nan ∧
      (RuleHeap.correlation (rule i) ⟨1, some j, .number (.fin 0) false⟩ h).1 = .error .zeroDivisionError ∧
      (RuleHeap.correlation (rule i) ⟨1, some j, .text⟩ h).1 = .error .typeError :=
  ⟨_, demo, _, 0, 1, _, _, demo_reach, rfl, rfl, rfl, by decide +kernel, by decide +kernel, by decide +kernel⟩

/-! ## C49 -/

/-- **C49 (deletion).** A rule with a live activation has it available and reads its vector; `del_activation` goes through,
and then the activation is not available. -/
theorem C49_deleted {w₀ : World} {h : Heap} {us : Values} {i : Nat} {u : List Bool} {self : HRule}
    (hr : Activation.Reach w₀ h us) (hs : self.act = some i) (hi : us[i]? = some (some u)) :
    (available self h).1 = .ok true ∧ (RuleHeap.activation self h).1 = .ok (some (arr u)) ∧
    ∃ h', delActivation self h = (.ok (), h') ∧ (available self h').1 = .ok false := by
  obtain ⟨hne, a, ha, hra⟩ := hr.abs.rep i u hi
  refine ⟨?_, ?_, ?_⟩
  · have hd := hra.data
    simp only [available, hs, look, ha, Py.bind_run, Py.get_run]
    cases hd' : a.data <;> simp_all [DataRep]
  · obtain ⟨h', e, -⟩ := onObj_raw hr.abs hi
    simp [RuleHeap.activation, hs, Py.bind_run, truthy_live hr hi, e]
  · obtain ⟨a', w', e, -, hd⟩ := delete_at ha
    refine ⟨_, by simpa [delActivation, hs] using e, ?_⟩
    have hlt := (List.getElem?_eq_some_iff.1 ha).1
    simp only [available, hs, look, Py.bind_run, Py.get_run, List.getElem?_set_self hlt]
    rcases hd with ⟨c, hd⟩ | ⟨p, hd, hp⟩
    · simp [hd]
    · simp [hd, hp]

/-- **C49 (computed figures remain).** The number of activated points, the coverage and the entropies which were read before
`del_activation` can be read again after it, with the same answer, and the length is the same. -/
theorem C49_figures {h h₁ : Heap} {i : Nat} {self : HRule} {r : Read} {x : Out} (hs : self.act = some i)
    (hf : Figure r) (hread : step (.read r i) h = (.ok x, h₁)) :
    ∃ h₂, delActivation self h₁ = (.ok (), h₂) ∧ (step (.read r i) h₂).1 = .ok x ∧
      (h₂.objs[i]?).map (·.length) = (h₁.objs[i]?).map (·.length) := by
  simp only [step, onObj] at hread
  cases ha : h.objs[i]? with
  | none => simp [ha] at hread
  | some a =>
    simp only [ha] at hread
    rcases hrun : r.run ⟨a, h.w⟩ with ⟨e, o'⟩
    rw [hrun] at hread
    cases hread
    have hlt := (List.getElem?_eq_some_iff.1 ha).1
    have h1 : (h.objs.set i o'.act)[i]? = some o'.act := List.getElem?_set_self hlt
    obtain ⟨a', w', e, hsame, -⟩ := delete_at (h := ⟨h.objs.set i o'.act, o'.w⟩) h1
    refine ⟨_, by simpa [delActivation, hs] using e, ?_, ?_⟩
    · simp only [step, onObj, List.set_set, List.getElem?_set_self hlt]
      rw [hsame, figure_again hf hrun]
    · simp only [List.set_set, List.getElem?_set_self hlt]
      rw [hsame]
      rfl

/-- **C49 (coverage of the rule).** A coverage which was read before `del_activation` is the coverage after it. -/
theorem C49_coverage {h h₁ : Heap} {self : HRule} {c : Option Frac} (hread : RuleHeap.coverage self h = (.ok c, h₁)) :
    ∃ h₂, delActivation self h₁ = (.ok (), h₂) ∧ (RuleHeap.coverage self h₂).1 = .ok c := by
  cases hs : self.act with
  | none =>
    simp only [RuleHeap.coverage, hs] at hread ⊢
    cases hread
    exact ⟨h, by simp [delActivation, hs], rfl⟩
  | some i =>
    simp only [RuleHeap.coverage, hs] at hread ⊢
    obtain ⟨f, h2, h3, h4⟩ := Py.bind_eq_ok hread
    cases h4
    have : step (.read .coverage i) h = (.ok (.quotient f), h₁) := by
      simp only [step, Read.run, onObj, Py.bind_run] at h3 ⊢
      cases ha : h.objs[i]? with
      | none => simp [ha] at h3
      | some a =>
        simp only [ha] at h3 ⊢
        rcases hrun : Activation.coverage ⟨a, h.w⟩ with ⟨e | g, o'⟩ <;> simp [hrun] at h3 ⊢ <;> exact h3
    obtain ⟨h₂, k1, k2, -⟩ := C49_figures hs (.inr (.inl rfl)) this
    refine ⟨h₂, k1, ?_⟩
    simp only [step, Read.run, onObj, Py.bind_run] at k2 ⊢
    cases ha : h₂.objs[i]? with
    | none => simp [ha] at k2
    | some a =>
      simp only [ha] at k2 ⊢
      rcases hrun : Activation.coverage ⟨a, h₂.w⟩ with ⟨e | g, o'⟩ <;> simp [hrun] at k2 ⊢
      exact k2

/-- **C49 (other rules).** Rules with other activations keep theirs, and `del_activation` of a rule without activation does
nothing. -/
theorem C49_others {w₀ : World} {h : Heap} {us : Values} {self : HRule} (hr : Activation.Reach w₀ h us) :
    (self.act = none → delActivation self h = (.ok (), h) ∧ (available self h).1 = .ok false ∧
      (RuleHeap.activation self h).1 = .ok none) ∧
    ∀ (i : Nat) (u : List Bool), self.act = some i → us[i]? = some (some u) →
      ∀ (other : HRule) (k : Nat) (x : List Bool), other.act = some k → us[k]? = some (some x) → k ≠ i →
        Shows (delActivation self h).2 k x ∧ (available other (delActivation self h).2).1 = .ok true ∧
          (RuleHeap.activation other (delActivation self h).2).1 = .ok (some (arr x)) := by
  constructor
  · intro hs
    simp [delActivation, available, RuleHeap.activation, truthy, hs, Py.bind_run]
  · intro i u hs hi other k x ho hk hki
    have hleg : Legal h.w us (.delete i) := ⟨u, by simp [Vectors, hi]⟩
    have e : (delActivation self h).2 = (step (.delete i) h).2 := by
      obtain ⟨h', r1, -⟩ := delete_abs hr.abs hi
      simp [delActivation, hs, step, Py.bind_run, r1]
    rw [e]
    have hkeep := after_keep (.delete i) (step (.delete i) h).1 (step (.delete i) h).2.objs.length hk (by simp) (by simpa using fun h => hki h.symm)
    have hr' := hr.step (.delete i) hleg
    exact ⟨hr'.abs.shows hkeep, (C49_deleted hr' ho hkeep).1, (C49_deleted hr' ho hkeep).2.1⟩

/-- Four rules: the second, kept in a file, is deleted after its coverage was read. -/
example :
    (step (.read .coverage 1) demo).1 = .ok (.quotient ⟨2, 3⟩) ∧ Figure .coverage ∧
    (let h' := (delActivation (rule 1) (step (.read .coverage 1) demo).2).2
     (RuleHeap.coverage (rule 1) h').1 = .ok (some ⟨2, 3⟩) ∧ (available (rule 1) h').1 = .ok false ∧
      (available (rule 3) h').1 = .ok true ∧ h'.w.files (.vec 0) = none) :=
  ⟨by decide +kernel, .inr (.inl rfl), by decide +kernel⟩

/-- **C49, what `activation` does after deletion.** It raises, unless the vector was stored as it is: it is not `None`, as
documented for activations which are not available. -/
theorem C49_activation_raises {w₀ : World} {h : Heap} {us : Values} {i : Nat} {u : List Bool} {a : Act} {self : HRule}
    (hr : Activation.Reach w₀ h us) (hs : self.act = some i) (hi : us[i]? = some (some u)) (ha : h.objs[i]? = some a)
    (_hraw : ∀ v, a.data ≠ .raw v) :
    ∃ e, (RuleHeap.activation self (delActivation self h).2).1 = .error e := by
  obtain ⟨hne, a0, ha0, hra⟩ := hr.abs.rep i u hi
  rw [ha] at ha0
  cases ha0
  obtain ⟨a', w', e, hsame, hd⟩ := delete_at ha
  have hlt := (List.getElem?_eq_some_iff.1 ha).1
  have hl : a'.length = some u.length := by rw [hsame]; exact hra.length
  have hld : a'.loaded = true := by rw [hsame]; exact hra.loaded
  have hz : u.length ≠ 0 := fun hc => hne (List.length_eq_zero_iff.1 hc)
  have e' : delActivation self h = (.ok (), ⟨h.objs.set i a', w'⟩) := by simpa [delActivation, hs] using e
  rw [e']
  rcases hd with ⟨c, hd⟩ | ⟨p, hd, hp⟩
  · exact ⟨.typeError, by
      simp [RuleHeap.activation, hs, truthy, look, Py.bind_run, hlt, hl, hz, onObj, raw, hld, hd]⟩
  · exact ⟨.fileNotFound, by
      simp [RuleHeap.activation, hs, truthy, look, Py.bind_run, hlt, hl, hz, onObj, raw, hld, hd, Activation.read, hp]⟩

/-- **C49 is false of `activation`**, which is documented to be `None` when it is not available. -/
theorem C49_activation_false :
    ∃ (w₀ : World) (h : Heap) (us : Values) (i : Nat) (u : List Bool), Activation.Reach w₀ h us ∧
      us[i]? = some (some u) ∧ (delActivation (rule i) h).1 = .ok () ∧
      (available (rule i) (delActivation (rule i) h).2).1 = .ok false ∧
      (RuleHeap.activation (rule i) (delActivation (rule i) h).2).1 ≠ .ok none :=
  ⟨_, demo, _, 0, _, demo_reach, rfl, by decide +kernel, by decide +kernel, by decide +kernel⟩

end Verif.RuleHeapProps
