import Verif.RuleAttr

/-!
# Helper lemmas: attributes of rules
-/

namespace Verif.RuleAttrProps

open Verif RuleAttr

theorem lookup_put (l : List (String × Val)) (i j : String) (v : Val) :
    (put l i v).lookup j = if j = i then some v else l.lookup j := by
  unfold put
  by_cases h : j = i
  · subst h; simp
  · rw [if_neg h, List.lookup_cons, beq_eq_false_iff_ne.2 h]
    simp only [Bool.false_eq_true, if_false]
    induction l with
    | nil => rfl
    | cons p t ih =>
      by_cases hp : p.1 = i
      · have : j ≠ p.1 := fun e => h (e.trans hp)
        obtain ⟨a, b⟩ := p
        rw [List.lookup_cons, beq_eq_false_iff_ne.2 this]
        simpa [List.filter_cons, show a = i from hp] using ih
      · obtain ⟨a, b⟩ := p
        simp only [List.filter_cons, ne_eq, hp, not_false_eq_true, decide_true, if_true, List.lookup_cons]
        split
        · rfl
        · exact ih

/-- Assignments one after the other; the ones which raise change nothing. -/
def assign (K : String → Option ClassAttr) : List (String × Val) → Obj → Obj
  | [], r => r
  | (i, v) :: rest, r =>
    match setAttr K r i v with
    | .ok r' => assign K rest r'
    | .error _ => assign K rest r

/-- Nothing is forwarded for a name which cannot be read. -/
theorem forward_none {K : String → Option ClassAttr} {r : Obj} {item : String} (hg : getAttr K r item = none) :
    r.act.bind (fun a => a.lookup item) = none ∧ r.cond.bind (fun c => condGet c item) = none := by
  have hf : forward r item = none := by
    unfold getAttr at hg
    split at hg
    · cases hg
    · split at hg
      · cases hg
      · split at hg
        · cases hg
        · exact hg
  unfold forward at hf
  split at hf
  · cases hf
  · rename_i ha
    exact ⟨ha, hf⟩

/-- Assigning such a name raises. -/
theorem setAttr_none {K : String → Option ClassAttr} {r : Obj} {item : String} {v : Val} (hg : getAttr K r item = none) :
    setAttr K r item v = .error .attributeError := by
  obtain ⟨ha, hc⟩ := forward_none hg
  unfold setAttr
  simp only [hg, Option.isNone_none, if_true, ha]
  cases h : r.cond with
  | none => rfl
  | some c =>
    rw [h] at hc
    simp only [Option.bind_some] at hc
    simp [hc]

/-- What an assignment which does not raise does, if the rule, its activation or its condition has the attribute. -/
theorem set_known {K : String → Option ClassAttr} {r r' : Obj} {i : String} {v : Val} (h : setAttr K r i v = .ok r') :
    r'.cond = r.cond ∧ r'.act = r.act ∧
      ((K i = some (.property true) ∧ r' = { r with props := fun j => if j = i then v else r.props j }) ∨
        ((∀ b, K i ≠ some (.property b)) ∧ r' = { r with own := put r.own i v })) := by
  by_cases hg : getAttr K r i = none
  · rw [setAttr_none hg] at h
    cases h
  · unfold setAttr at h
    rw [if_neg (by simpa using hg)] at h
    unfold objectSet at h
    split at h
    · cases h
      exact ⟨rfl, rfl, .inl ⟨by assumption, rfl⟩⟩
    · cases h
    · rename_i h1 h2
      cases h
      refine ⟨rfl, rfl, .inr ⟨fun b hb => ?_, rfl⟩⟩
      cases b
      · exact h2 hb
      · exact h1 hb

end Verif.RuleAttrProps
