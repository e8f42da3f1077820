import Verif.RuleAttrLemmas
import Verif.ConditionProps

/-!
# Properties of attributes of rules (C50)
-/

namespace Verif.RuleAttrProps

open Verif RuleAttr ConditionProps

/-! ## C50 -/

/-- **C50 (reading).** The attributes of the condition can be read from the rule, as long as they have not been assigned on the
rule and the rule class and the activation have none of this name; so can those of the activation, which come first. -/
theorem C50_read {K : String → Option ClassAttr} {r : Obj} {item : String} (hK : K item = none)
    (ho : r.own.lookup item = none) :
    (∀ a v, r.act = some a → a.lookup item = some v → getAttr K r item = some v) ∧
    ∀ c, r.cond = some c → (∀ a, r.act = some a → a.lookup item = none) →
      (item = "features_names" → getAttr K r item = some (.names c.names)) ∧
      (item = "features_indexes" → getAttr K r item = some (.indexes c.indexes)) ∧
      (item = "bmins" → getAttr K r item = some (.bounds c.bmins)) ∧
      (item = "bmaxs" → getAttr K r item = some (.bounds c.bmaxs)) ∧
      (item = "impossible" → getAttr K r item = some (.flag c.impossible)) := by
  have hg : getAttr K r item = forward r item := by simp [getAttr, hK, ho]
  rw [hg]
  constructor
  · intro a v ha hv
    simp [forward, ha, hv]
  · intro c hc ha
    have : forward r item = condGet c item := by
      unfold forward
      cases h : r.act with
      | none => simp [hc]
      | some a => simp [ha a h, hc]
    rw [this]
    refine ⟨?_, ?_, ?_, ?_, ?_⟩ <;> rintro rfl <;> rfl

/-- **C50 (what was assigned is read).** After an assignment which goes through, the name reads the value; every other name
reads as before. -/
theorem C50_write {K : String → Option ClassAttr} {r r' : Obj} {item : String} {v : Val} (h : setAttr K r item v = .ok r') :
    getAttr K r' item = some v ∧ ∀ j, j ≠ item → getAttr K r' j = getAttr K r j := by
  obtain ⟨hc, ha, ⟨hk, rfl⟩ | ⟨hk, rfl⟩⟩ := set_known h
  · refine ⟨by simp [getAttr, hk], fun j hj => ?_⟩
    simp only [getAttr, if_neg hj]
    rfl
  · constructor
    · unfold getAttr
      split
      · rename_i b hb
        exact absurd hb (hk b)
      · simp [lookup_put]
    · intro j hj
      simp only [getAttr, lookup_put, if_neg hj]
      rfl

/-- **C50 (which names can be assigned).** Exactly the names which can be read, except properties without setter; other
assignments raise `AttributeError`. -/
theorem C50_assignable (K : String → Option ClassAttr) (r : Obj) (item : String) (v : Val) :
    ((∃ r', setAttr K r item v = .ok r') ↔ getAttr K r item ≠ none ∧ K item ≠ some (.property false)) ∧
      ((getAttr K r item = none ∨ K item = some (.property false)) → setAttr K r item v = .error .attributeError) := by
  have key : (getAttr K r item = none ∨ K item = some (.property false)) → setAttr K r item v = .error .attributeError := by
    rintro (hg | hk)
    · exact setAttr_none hg
    · simp [setAttr, getAttr, hk, objectSet]
  refine ⟨⟨?_, ?_⟩, key⟩
  · rintro ⟨r', h⟩
    refine ⟨fun hg => ?_, fun hk => ?_⟩
    · rw [key (.inl hg)] at h; cases h
    · rw [key (.inr hk)] at h; cases h
  · rintro ⟨hg, hk⟩
    unfold setAttr
    rw [if_neg (by simpa using hg)]
    unfold objectSet
    split
    · exact ⟨_, rfl⟩
    · exact absurd (by assumption) hk
    · exact ⟨_, rfl⟩

/-- **C50, what assignments do not do.** No sequence of assignments to a rule changes its condition or its activation: every
evaluation of the condition and every comparison with it is as before. -/
theorem C50_condition_untouched (K : String → Option ClassAttr) (l : List (String × Val)) (r : Obj) :
    (assign K l r).cond = r.cond ∧ (assign K l r).act = r.act := by
  induction l generalizing r with
  | nil => exact ⟨rfl, rfl⟩
  | cons p t ih =>
    obtain ⟨i, v⟩ := p
    simp only [assign]
    cases h : setAttr K r i v with
    | error e => exact ih r
    | ok r' =>
      obtain ⟨h1, h2, -⟩ := set_known h
      obtain ⟨k1, k2⟩ := ih r'
      exact ⟨k1.trans h1, k2.trans h2⟩

/-- A fresh rule with the condition `one` (feature "a" between 0 and 5). -/
def fresh : Obj := { cond := some one, act := some [("length", .thing 3), ("nones", .thing 2)], props := fun _ => .thing 9, own := [] }

example : regression "bmins" = none ∧ fresh.own.lookup "bmins" = none ∧ getAttr regression fresh "bmins" = some (.bounds (some [.fin 0])) ∧
    getAttr regression fresh "nones" = some (.thing 2) ∧ getAttr regression fresh "nonsense" = none ∧
    (setAttr regression fresh "nonsense" (.thing 1)).isOk = false ∧ (setAttr regression fresh "good" (.flag true)).isOk = false ∧
    (setAttr regression fresh "train_set_size" (.thing 7)).isOk = true := by decide +kernel

/-- **C50 is false of assignments**: assigning an attribute of the condition on the rule, which is documented to set it on the
condition, hides it: the rule shows the new bounds, and selects rows by the old ones. -/
theorem C50_assign_false :
    ∃ (r r' : Obj) (c : Cond) (v : List Num), Spec.Reach c ∧ r.cond = some c ∧ r.own = [] ∧
      setAttr regression r "bmins" (.bounds (some v)) = .ok r' ∧
      getAttr regression r' "bmins" = some (.bounds (some v)) ∧ r'.cond = some c ∧ c.bmins ≠ some v ∧
      Cond.evaluate c ⟨1, [[.fin 1]]⟩ = .ok [1] ∧
      ∃ d, condSet c "bmins" (.bounds (some v)) = .ok d ∧ Cond.evaluate d ⟨1, [[.fin 1]]⟩ = .ok [0] := by
  refine ⟨fresh, { fresh with own := [("bmins", .bounds (some [.fin 3]))] }, one, [.fin 3], one_reach, rfl, rfl, rfl, rfl, rfl,
    by decide +kernel, by decide +kernel, { one with bmins := some [.fin 3] }, by decide +kernel, by decide +kernel⟩

end Verif.RuleAttrProps
