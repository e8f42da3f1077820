import Verif.SharedRules
import Verif.FitLemmas

/-!
# Lemmas about rules as objects
-/

namespace Verif.SharedRules

open Verif Spec RuleSet

variable {R : RsEnv}

theorem membersOf_nil (rules : List Member) : membersOf rules [] = [] := rfl

theorem membersOf_cons {rules : List Member} {k : Nat} {m : Member} (h : rules[k]? = some m) (refs : List Nat) :
    membersOf rules (k :: refs) = m :: membersOf rules refs := by
  simp [membersOf, h]

theorem membersOf_congr {rules rules' : List Member} {refs : List Nat} (h : ∀ k ∈ refs, rules'[k]? = rules[k]?) :
    membersOf rules' refs = membersOf rules refs := by
  induction refs with
  | nil => rfl
  | cons k t ih =>
    have := ih fun k hk => h k (List.mem_cons_of_mem _ hk)
    unfold membersOf at this ⊢
    rw [List.filterMap_cons, List.filterMap_cons, h k (by simp), this]

theorem membersOf_append (rules : List Member) (a b : List Nat) : membersOf rules (a ++ b) = membersOf rules a ++ membersOf rules b := by
  simp [membersOf]

/-- All references are to rules. -/
def ValidRefs (rules : List Member) (refs : List Nat) : Prop := ∀ k ∈ refs, k < rules.length

theorem membersOf_length {rules : List Member} {refs : List Nat} (h : ValidRefs rules refs) :
    (membersOf rules refs).length = refs.length := by
  induction refs with
  | nil => rfl
  | cons k t ih =>
    have hk := h k (by simp)
    rw [membersOf_cons (List.getElem?_eq_getElem hk), List.length_cons, List.length_cons, ih fun k hk => h k (List.mem_cons_of_mem _ hk)]

theorem membersOf_take {rules : List Member} {refs : List Nat} (h : ValidRefs rules refs) (n : Nat) :
    membersOf rules (refs.take n) = (membersOf rules refs).take n := by
  induction refs generalizing n with
  | nil => simp [membersOf]
  | cons k t ih =>
    have hk := h k (by simp)
    cases n with
    | zero => simp [membersOf]
    | succ n =>
      rw [List.take_succ_cons, membersOf_cons (List.getElem?_eq_getElem hk), membersOf_cons (List.getElem?_eq_getElem hk),
        List.take_succ_cons, ih fun k hk => h k (List.mem_cons_of_mem _ hk)]

/-! ## One rule after the other -/

theorem eachRef_other {f : Env → Py Rule Unit} {refs : List Nat} {k : Nat} (hk : k ∉ refs) (rules : List Member) :
    (eachRef R f refs rules).2[k]? = rules[k]? := by
  induction refs generalizing rules with
  | nil => rfl
  | cons j t ih =>
    rw [List.mem_cons, not_or] at hk
    rw [eachRef, Py.bind_run]
    have h1 : (onRef R f j rules).2[k]? = rules[k]? := by
      unfold onRef
      split
      · rfl
      · exact List.getElem?_set_ne (Ne.symm hk.1)
    rcases ho : onRef R f j rules with ⟨a, rules'⟩
    rw [ho] at h1
    cases a with
    | error e => exact h1
    | ok u => exact (ih hk.2 _).trans h1

theorem eachRef_spec {f : Env → Py Rule Unit} {refs : List Nat} (hn : refs.Nodup) (rules : List Member)
    (hv : ValidRefs rules refs) :
    ((eachRef R f refs rules).1, membersOf (eachRef R f refs rules).2 refs) = eachRule R f (membersOf rules refs) ∧
      (eachRef R f refs rules).2.length = rules.length := by
  induction refs generalizing rules with
  | nil => exact ⟨rfl, rfl⟩
  | cons k t ih =>
    have hk := hv k (by simp)
    have hk' := List.getElem?_eq_getElem hk
    have hkt : k ∉ t := (List.nodup_cons.1 hn).1
    have e1 : onRef R f k rules = ((onRule R f rules[k]).1, rules.set k (onRule R f rules[k]).2) := by
      unfold onRef
      rw [hk']
    rw [membersOf_cons hk', eachRef, eachRule]
    have hself : (rules.set k (onRule R f rules[k]).2)[k]? = some (onRule R f rules[k]).2 := by
      rw [List.getElem?_set_self hk]
    have hother : membersOf (rules.set k (onRule R f rules[k]).2) t = membersOf rules t :=
      membersOf_congr fun j hj => List.getElem?_set_ne (fun (e : k = j) => hkt (e ▸ hj))
    rcases ho : onRule R f rules[k] with ⟨a, m'⟩
    rw [ho] at e1 hself hother
    cases a with
    | error e =>
      rw [Py.bind_err e1]
      simp only
      exact ⟨by rw [membersOf_cons hself, hother], by simp⟩
    | ok u =>
      rw [Py.bind_ok e1]
      obtain ⟨h1, h2⟩ := ih (List.nodup_cons.1 hn).2 (rules.set k m') (fun j hj => by
        rw [List.length_set]; exact hv j (List.mem_cons_of_mem _ hj))
      rw [hother] at h1
      rw [← h1]
      refine ⟨?_, by rw [h2, List.length_set]⟩
      have : (eachRef R f t (rules.set k m')).2[k]? = some m' := by
        rw [eachRef_other hkt, hself]
      rw [membersOf_cons this]

/-! ## The rules after `fit` -/

/-- The rules are left. -/
def Leaves {α} (m : Py RuleSet α) : Prop := ∀ s, (m s).2.rules = s.rules

namespace Leaves

theorem pure {α} (a : α) : Leaves (pure a) := fun _ => rfl
theorem throw {α} (e : Err) : Leaves (Py.throw e : Py RuleSet α) := fun _ => rfl
theorem get : Leaves (Py.get : Py RuleSet RuleSet) := fun _ => rfl
theorem ofExcept {α} (x : Except Err α) : Leaves (Py.ofExcept x : Py RuleSet α) := fun _ => rfl
theorem modify {f : RuleSet → RuleSet} (h : ∀ s, (f s).rules = s.rules) : Leaves (Py.modify f) := h

theorem bind {α β} {m : Py RuleSet α} {f : α → Py RuleSet β} (h : Leaves m) (h' : ∀ a, Leaves (f a)) : Leaves (m >>= f) := by
  intro s
  rw [Py.bind_run]
  have := h s
  split
  · rename_i a t e
    rw [e] at this
    exact (h' a t).trans this
  · rename_i e t e'
    rw [e'] at this
    exact this

theorem ite {α} {c : Prop} [Decidable c] {a b : Py RuleSet α} (ha : Leaves a) (hb : Leaves b) : Leaves (if c then a else b) := by
  split
  · exact ha
  · exact hb

theorem computeSelf (xs : Option Xs) : Leaves (computeSelf R xs) :=
  .bind .get fun _ => .bind (.ofExcept _) fun _ => .modify fun _ => rfl

theorem computeStacked (xs : Option Xs) : Leaves (computeStacked R xs) :=
  .bind .get fun _ => .bind (.ofExcept _) fun _ => .modify fun _ => rfl

theorem recomputeSelf : Leaves (recomputeSelf R) := .bind (.modify fun _ => rfl) fun _ => .computeSelf _

theorem recomputeStacked : Leaves (recomputeStacked R) := .bind (.modify fun _ => rfl) fun _ => .computeStacked _

theorem whenSet {c : RuleSet → Bool} {u : Py RuleSet Unit} (h : Leaves u) : Leaves (whenSet c u) := .bind .get fun _ => .ite h (.pure _)

theorem clearActivation : Leaves (clearActivation R) := by
  refine .bind .get fun s => ?_
  cases s.act with
  | none => exact .pure _
  | some v => exact .bind (.ofExcept _) fun _ => .modify fun _ => rfl

theorem noteIndexes (l : Option (List Int)) : Leaves (noteIndexes R l) := by
  unfold RuleSet.noteIndexes
  split
  · exact .throw _
  · exact .modify fun _ => rfl

theorem noteNames (l : Option (List String)) : Leaves (noteNames R l) := by
  unfold RuleSet.noteNames
  split
  · exact .throw _
  · exact .modify fun _ => rfl

theorem updateActivation (o : Option (List Nat)) : Leaves (updateActivation R o) := by
  unfold RuleSet.updateActivation
  split
  · exact .pure _
  · refine .bind .get fun s => ?_
    split
    · exact .ite (.throw _) (.bind (.ofExcept _) fun _ => .modify fun _ => rfl)
    · exact .bind (.ofExcept _) fun _ => .modify fun _ => rfl

theorem updateIf (o : Option (List Nat)) : Leaves (updateIf R o) := .bind .get fun _ => .ite (.updateActivation _) (.pure _)

theorem stackIf {u : Py RuleSet Unit} (h : Leaves u) : Leaves (stackIf u) := .bind .get fun _ => .ite h (.pure _)

theorem stackRule (r : Rule) : Leaves (stackRule R r) := by
  unfold RuleSet.stackRule
  split
  · exact .pure _
  · refine .ite (.throw _) (.bind .get fun s => ?_)
    split
    · exact .modify fun _ => rfl
    · exact .bind (.ofExcept _) fun _ => .modify fun _ => rfl

theorem stackSet (o : RuleSet) : Leaves (stackSet o) := by
  unfold RuleSet.stackSet
  split
  · exact .pure _
  · refine .bind .get fun s => ?_
    split
    · exact .modify fun _ => rfl
    · exact .modify fun _ => rfl

end Leaves

theorem leaves_bind_rules {α β} {m : Py RuleSet α} {f : α → Py RuleSet β} (h' : ∀ a, Leaves (f a)) (s : RuleSet) :
    ((m >>= f) s).2.rules = (m s).2.rules := by
  rw [Py.bind_run]
  split
  · rename_i a t e
    rw [h' a t, e]
  · rename_i e t e'
    rw [e']

theorem iaddRule_rules (m : Member) (s : RuleSet) :
    (RuleSet.iaddRule R m s).2.rules = s.rules ∨ (RuleSet.iaddRule R m s).2.rules = s.rules ++ [m] := by
  unfold RuleSet.iaddRule
  rw [leaves_bind_rules fun _ => .bind (.noteIndexes _) fun _ => .bind (.noteNames _) fun _ => .bind (.updateIf _) fun _ => .stackIf (.stackRule _)]
  unfold pushRule
  rw [Py.bind_ok (Py.get_run s)]
  cases s.ruleType with
  | none => exact .inr rfl
  | some k =>
    by_cases e : k = m.kind
    · simp only [if_pos e]; exact .inr rfl
    · simp only [if_neg e]; exact .inl rfl

theorem iaddSet_rules (o s : RuleSet) :
    (RuleSet.iaddSet R o s).2.rules = s.rules ∨ (RuleSet.iaddSet R o s).2.rules = s.rules ++ o.rules := by
  unfold RuleSet.iaddSet
  rw [leaves_bind_rules fun _ => .bind (.noteIndexes _) fun _ => .bind (.noteNames _) fun _ => .bind (.updateIf _) fun _ => .stackIf (.stackSet _)]
  unfold pushSet
  rw [Py.bind_ok (Py.get_run s)]
  cases s.ruleType with
  | none =>
    cases o.ruleType with
    | none => exact .inr rfl
    | some k => exact .inr rfl
  | some k =>
    cases o.ruleType with
    | none => exact .inr rfl
    | some k' =>
      by_cases e : k = k'
      · simp only [if_pos e]; exact .inr rfl
      · simp only [if_neg e]; exact .inl rfl

theorem iaddRule_ok_rules {m : Member} {s t : RuleSet} (h : RuleSet.iaddRule R m s = (.ok (), t)) : t.rules = s.rules ++ [m] := by
  have e : (RuleSet.iaddRule R m s).2.rules = (pushRule m s).2.rules := by
    unfold RuleSet.iaddRule
    rw [leaves_bind_rules fun _ => .bind (.noteIndexes _) fun _ => .bind (.noteNames _) fun _ => .bind (.updateIf _) fun _ => .stackIf (.stackRule _)]
  rw [h] at e
  rw [show t.rules = _ from e]
  unfold RuleSet.iaddRule at h
  obtain ⟨_, s1, h1, -⟩ := Py.bind_eq_ok h
  rw [h1]
  unfold pushRule at h1
  rw [Py.bind_ok (Py.get_run s)] at h1
  cases hk : s.ruleType with
  | none =>
    simp only [hk, Py.modify_run] at h1
    cases h1
    rfl
  | some k =>
    by_cases e : k = m.kind
    · simp only [hk, if_pos e, Py.modify_run] at h1
      cases h1
      rfl
    · simp only [hk, if_neg e, Py.throw_run] at h1
      cases h1

theorem append_rules (m : Member) (s : RuleSet) :
    (RuleSet.append R m false s).2.rules = s.rules ∧ (∃ e, (RuleSet.append R m false s).1 = .error e) ∨
      (RuleSet.append R m false s).2.rules = s.rules ++ [m] := by
  unfold RuleSet.append
  rw [Py.bind_ok (Py.get_run s)]
  simp only [Bool.false_eq_true, if_false]
  rw [Py.bind_ok (Py.modify_run _ _)]
  rcases h : RuleSet.iaddRule R m { s with compute := false, stack := false } with ⟨a, t⟩
  have hr := iaddRule_rules (R := R) m { s with compute := false, stack := false }
  rw [h] at hr
  cases a with
  | error e =>
    rw [Py.bind_err h]
    rcases hr with hr | hr
    · exact .inl ⟨hr, e, rfl⟩
    · exact .inr hr
  | ok u =>
    rw [Py.bind_ok h]
    have : t.rules = s.rules ++ [m] := iaddRule_ok_rules (s := { s with compute := false, stack := false }) h
    exact .inr this

theorem appendAll_prefix (l : List Member) : ∀ s, ∃ k, (appendAll R l s).2.rules = s.rules ++ l.take k := by
  induction l with
  | nil => intro s; exact ⟨0, by simp [appendAll]⟩
  | cons m t ih =>
    intro s
    rw [appendAll]
    rcases h : RuleSet.append R m false s with ⟨a, s1⟩
    have hr := append_rules (R := R) m s
    rw [h] at hr
    cases a with
    | error e =>
      rw [Py.bind_err h]
      rcases hr with ⟨hr, -⟩ | hr
      · exact ⟨0, by simpa using hr⟩
      · exact ⟨1, by simpa using hr⟩
    | ok u =>
      rw [Py.bind_ok h]
      rcases hr with ⟨-, e, he⟩ | hr
      · cases he
      · obtain ⟨k, hk⟩ := ih s1
        refine ⟨k + 1, ?_⟩
        rw [hk, show s1.rules = s.rules ++ [m] from hr]
        simp

theorem appendAll_ok_rules {l : List Member} : ∀ {s t : RuleSet}, appendAll R l s = (.ok (), t) → t.rules = s.rules ++ l := by
  induction l with
  | nil =>
    intro s t h
    cases h
    simp
  | cons m l ih =>
    intro s t h
    rw [appendAll] at h
    obtain ⟨u, s1, h1, h2⟩ := Py.bind_eq_ok h
    have hr := append_rules (R := R) m s
    rw [h1] at hr
    rcases hr with ⟨-, e, he⟩ | hr
    · cases he
    · rw [ih h2, show s1.rules = s.rules ++ [m] from hr]
      simp

theorem init_rest_leaves (hR : R.allIndexes = []) (compute : Bool) :
    Leaves (do
      computeIf R compute
      stackIf (computeStacked R none)
      collectNames R
      setFeaturesIndexes R
      checkIf R) := by
  refine .bind ?_ fun _ => .bind (.stackIf (.computeStacked _)) fun _ => .bind (.bind .get fun _ => .bind (.ofExcept _) fun _ => .modify fun _ => rfl) fun _ =>
    .bind (.bind .get fun _ => ?_) fun _ => .bind .get fun _ => .ite (.ofExcept _) (.pure _)
  · unfold computeIf
    exact .ite (.computeSelf _) (.pure _)
  · rw [hR]
    exact .bind (.ofExcept _) fun _ => .pure _

theorem init_rules (hR : R.allIndexes = []) (l : List Member) (compute stack : Bool) :
    (∃ k, (RuleSet.init R l compute (RuleSet.blank stack)).2.rules = l.take k) ∧
      ((RuleSet.init R l compute (RuleSet.blank stack)).1 = .ok () → (RuleSet.init R l compute (RuleSet.blank stack)).2.rules = l) := by
  have h := leaves_bind_rules (m := appendAll R l) (fun _ => init_rest_leaves (R := R) hR compute) (RuleSet.blank stack)
  rw [show RuleSet.init R l compute = (appendAll R l >>= fun _ => do
      computeIf R compute
      stackIf (computeStacked R none)
      collectNames R
      setFeaturesIndexes R
      checkIf R) from rfl]
  rw [h]
  obtain ⟨k, hk⟩ := appendAll_prefix (R := R) l (RuleSet.blank stack)
  refine ⟨⟨k, by simpa [RuleSet.blank] using hk⟩, fun ho => ?_⟩
  rcases ha : appendAll R l (RuleSet.blank stack) with ⟨a, t⟩
  cases a with
  | error e =>
    rw [Py.bind_err ha] at ho
    cases ho
  | ok u =>
    have := appendAll_ok_rules ha
    simpa [RuleSet.blank] using this

theorem setAll_same {rules : List Member} {refs : List Nat} {k : Nat} (hv : ValidRefs rules refs) :
    (refs.zip ((membersOf rules refs).take k)).foldl (fun l q => l.set q.1 q.2) rules = rules := by
  induction refs generalizing k with
  | nil => rfl
  | cons r t ih =>
    have hr := hv r (by simp)
    have e := List.getElem?_eq_getElem hr
    rw [membersOf_cons e]
    cases k with
    | zero => simp
    | succ k =>
      simp only [List.take_succ_cons, List.zip_cons_cons, List.foldl_cons]
      rw [List.set_getElem_self]
      exact ih fun j hj => hv j (List.mem_cons_of_mem _ hj)

theorem dropRules_prefix (drops : List (Member × Nat)) (s : RuleSet) :
    ((∃ e, keepRules R.hasher drops s.rules.zipIdx = .error e) ∧ (dropRules R drops s).2.rules = s.rules) ∨
      ∃ kept k, keepRules R.hasher drops s.rules.zipIdx = .ok kept ∧ (dropRules R drops s).2.rules = kept.take k := by
  unfold dropRules
  rw [Py.bind_ok (Py.get_run s)]
  cases hk : keepRules R.hasher drops s.rules.zipIdx with
  | error e =>
    left
    refine ⟨⟨e, rfl⟩, ?_⟩
    rw [Py.bind_err (e := e) (s' := s) (by rw [Py.ofExcept_run])]
  | ok kept =>
    right
    rw [Py.bind_ok (a := kept) (s' := s) (by rw [Py.ofExcept_run]), Py.bind_ok (Py.modify_run _ _)]
    have hc := Leaves.clearActivation (R := R) { s with rules := [] }
    rcases h : RuleSet.clearActivation R { s with rules := [] } with ⟨a, s1⟩
    rw [h] at hc
    cases a with
    | error e =>
      rw [Py.bind_err h]
      exact ⟨kept, 0, rfl, by simpa using hc⟩
    | ok u =>
      rw [Py.bind_ok h, Py.bind_ok (Py.modify_run _ _)]
      obtain ⟨k, hk⟩ := appendAll_prefix (R := R) kept { s1 with stacked := none }
      refine ⟨kept, k, rfl, ?_⟩
      rw [hk]
      show s1.rules ++ _ = _
      rw [show s1.rules = [] from hc]
      rfl

theorem afterFit_rules (given : Bool) (y : List Label) (s : RuleSet) :
    ((RuleSet.afterFit R (badRules s.rules) given >>= fun _ => RuleSet.calcTrainSetSize y) s).2.rules =
      if (badRules s.rules).length > 0 then (dropRules R (badRules s.rules) s).2.rules else s.rules := by
  rw [leaves_bind_rules (m := RuleSet.afterFit R (badRules s.rules) given) (f := fun _ => RuleSet.calcTrainSetSize y) (fun _ _ => rfl)]
  unfold RuleSet.afterFit
  split
  · rw [leaves_bind_rules fun _ => .bind .recomputeSelf fun _ => .whenSet .recomputeStacked]
  · exact (Leaves.bind (.whenSet .recomputeSelf) fun _ => .whenSet .recomputeStacked) s

/-- The objects which are kept are those of the rules which are kept. -/
theorem keptRefs_spec {H : Cond.Hasher} {drops : List (Member × Nat)} {rules : List Member} {refs : List Nat} :
    ∀ {n : Nat}, ValidRefs rules refs →
    (∀ e, keepRules H drops ((membersOf rules refs).zipIdx n) = .error e → ∃ e, keptRefs H drops (((membersOf rules refs).zipIdx n).zip refs) = .error e) ∧
    (∀ kept, keepRules H drops ((membersOf rules refs).zipIdx n) = .ok kept →
      ∃ l, keptRefs H drops (((membersOf rules refs).zipIdx n).zip refs) = .ok l ∧ membersOf rules l = kept ∧ l.Sublist refs) := by
  induction refs with
  | nil =>
    intro n _
    refine ⟨fun e h => ?_, fun kept h => ?_⟩
    · simp [membersOf, keepRules] at h
    · simp only [membersOf, List.filterMap_nil, List.zipIdx_nil, keepRules] at h
      cases h
      exact ⟨[], rfl, rfl, List.Sublist.refl _⟩
  | cons k t ih =>
    intro n hv
    have hk0 := hv k (by simp)
    have hk := List.getElem?_eq_getElem hk0
    obtain ⟨ih1, ih2⟩ := ih (n := n + 1) fun j hj => hv j (List.mem_cons_of_mem _ hj)
    rw [membersOf_cons hk]
    simp only [List.zipIdx_cons, List.zip_cons_cons, keepRules, keptRefs, bind, Except.bind]
    cases hb : isDropped H drops (rules[k], n) with
    | error e => exact ⟨fun _ _ => ⟨e, rfl⟩, (fun _ h => by cases h)⟩
    | ok b =>
      simp only
      cases hr : keepRules H drops ((membersOf rules t).zipIdx (n + 1)) with
      | error e =>
        obtain ⟨e', he'⟩ := ih1 e hr
        rw [he']
        exact ⟨fun _ _ => ⟨e', rfl⟩, (fun _ h => by cases h)⟩
      | ok kept =>
        obtain ⟨l, hl, hm, hs⟩ := ih2 kept hr
        rw [hl]
        refine ⟨fun _ h => (by cases h), fun kept' h => ?_⟩
        cases h
        cases b with
        | true => exact ⟨l, rfl, hm, hs.cons _⟩
        | false => exact ⟨k :: l, rfl, by rw [membersOf_cons hk, hm]; rfl, hs.cons_cons _⟩

theorem refsAfter_spec {rules : List Member} {o : Obj} (hv : ValidRefs rules o.refs) (given : Bool) (y : List Label) :
    let s := shown rules o
    let s' := ((RuleSet.afterFit R (badRules s.rules) given >>= fun _ => RuleSet.calcTrainSetSize y) s).2
    membersOf rules (refsAfter R o.refs s s') = s'.rules ∧ (refsAfter R o.refs s s').Sublist o.refs := by
  intro s s'
  have hr := afterFit_rules (R := R) given y s
  unfold refsAfter
  by_cases hb : (badRules s.rules).length > 0
  · rw [if_pos hb] at hr ⊢
    have hk := keptRefs_spec (H := R.hasher) (drops := badRules s.rules) (n := 0) hv
    rcases dropRules_prefix (R := R) (badRules s.rules) s with ⟨⟨e, he⟩, h⟩ | ⟨kept, k, hk1, h⟩
    · obtain ⟨e', he'⟩ := hk.1 e he
      have : keptRefs R.hasher (badRules s.rules) (s.rules.zipIdx.zip o.refs) = .error e' := he'
      rw [this]
      exact ⟨(hr.trans h).symm, List.Sublist.refl _⟩
    · obtain ⟨l, hl, hm, hs⟩ := hk.2 kept hk1
      have : keptRefs R.hasher (badRules s.rules) (s.rules.zipIdx.zip o.refs) = .ok l := hl
      rw [this]
      refine ⟨?_, (List.take_sublist _ _).trans hs⟩
      simp only
      rw [membersOf_take (fun j hj => hv j (hs.subset hj)), hm, show s'.rules = kept.take k from hr.trans h]
      rw [List.length_take, List.take_eq_take_min (i := k)]
  · rw [if_neg hb] at hr ⊢
    exact ⟨hr.symm, List.Sublist.refl _⟩

end Verif.SharedRules
