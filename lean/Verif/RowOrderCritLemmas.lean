import Verif.RowOrderSetLemmas
import Verif.LocalProps

/-!
# Lemmas: the criterion of a ruleset on the same points in two orders
-/

namespace Verif.RowOrder

open Verif Spec RuleSet Vote

theorem samePoint_of_rows {xs xs' : Xs} {y y' : List Label} (h : SamePoints xs y xs' y') {i j : Nat} {r : List Num}
    (hi : (rowsOf xs)[i]? = some r) (hj : (rowsOf xs')[j]? = some r) : SamePoint xs i xs' j := by
  cases xs with
  | arr m =>
    cases xs' with
    | frame f => exact absurd h (by simp [SamePoints])
    | arr m' => exact ⟨h.1, r, hi, hj⟩
  | frame f =>
    cases xs' with
    | arr m => exact absurd h (by simp [SamePoints])
    | frame f' => exact ⟨r, r, hi, hj, fun n _ _ => by rw [h.1]⟩

theorem samePoint_self {xs : Xs} {i j : Nat} {r : List Num} (hi : (rowsOf xs)[i]? = some r) (hj : (rowsOf xs)[j]? = some r) :
    SamePoint xs i xs j := by
  cases xs with
  | arr m => exact ⟨rfl, r, hi, hj⟩
  | frame f => exact ⟨r, r, hi, hj, fun n _ _ => rfl⟩

/-- What depends on the point only goes with the points. -/
theorem local_pairs {α : Type} [Inhabited α] {xs xs' : Xs} {y y' : List Label} (h : SamePoints xs y xs' y') {l l' : List α}
    (hn : l.length = y.length) (hn' : l'.length = y'.length) (hl : ∀ i j, SamePoint xs i xs j → Same i j l l)
    (hl' : ∀ i j, SamePoint xs i xs' j → Same i j l l') : SamePairs l y l' y' := by
  classical
  have hp := SamePoints.pairs h
  let g : List Num → α := fun r => if e : ∃ i : Nat, (rowsOf xs)[i]? = some r then (l[e.choose]?).getD default else default
  have e1 : l = (rowsOf xs).map g := by
    apply List.ext_getElem?
    intro i
    rw [List.getElem?_map]
    cases hi : (rowsOf xs)[i]? with
    | none =>
      rw [Option.map_none, List.getElem?_eq_none_iff]
      have := List.getElem?_eq_none_iff.1 hi
      rw [hn, ← hp.1]
      exact this
    | some r =>
      have e : ∃ i : Nat, (rowsOf xs)[i]? = some r := ⟨i, hi⟩
      obtain ⟨x, hx, hx'⟩ := hl i e.choose (samePoint_self hi e.choose_spec)
      simp only [g, Option.map_some, dif_pos e, hx, hx', Option.getD_some]
  have e2 : l' = (rowsOf xs').map g := by
    apply List.ext_getElem?
    intro i
    rw [List.getElem?_map]
    cases hi : (rowsOf xs')[i]? with
    | none =>
      rw [Option.map_none, List.getElem?_eq_none_iff]
      have := List.getElem?_eq_none_iff.1 hi
      rw [hn', ← hp.2.1]
      exact this
    | some r =>
      have hm : r ∈ rowsOf xs := (SamePairs.left hp).mem_iff.2 (List.mem_of_getElem? hi)
      have e : ∃ i : Nat, (rowsOf xs)[i]? = some r := List.mem_iff_getElem?.1 hm
      obtain ⟨x, hx, hx'⟩ := hl' e.choose i (samePoint_of_rows h e.choose_spec hi)
      simp only [g, Option.map_some, dif_pos e, hx, hx', Option.getD_some]
  have := SamePairs.map hp g (id : Label → Label)
  rwa [List.map_id, List.map_id, ← e1, ← e2] at this

theorem mapM_length {α β : Type} {f : α → Except Err β} {l : List α} {l' : List β} (h : l.mapM f = .ok l') : l'.length = l.length := by
  induction l generalizing l' with
  | nil => cases h; rfl
  | cons a l ih =>
    rw [List.mapM_cons] at h
    simp only [bind, Except.bind] at h
    split at h
    · cases h
    split at h
    · cases h
    rename_i hr
    cases h
    rw [List.length_cons, ih hr, List.length_cons]

theorem mapM_as_map {α β : Type} [Inhabited β] {f : α → Except Err β} {l : List α} {l' : List β} (h : l.mapM f = .ok l') :
    l' = l.map fun a => ((f a).toOption).getD default := by
  induction l generalizing l' with
  | nil => cases h; rfl
  | cons a l ih =>
    rw [List.mapM_cons] at h
    simp only [bind, Except.bind] at h
    split at h
    · cases h
    rename_i hf
    split at h
    · cases h
    rename_i hr
    cases h
    rw [List.map_cons, ← ih hr, hf]
    rfl

theorem regression_lengths {m : String} {p y : List Num} {c : Num} (h : RFun.regressionCriterion m p y = .ok c) : p.length = y.length := by
  by_contra hne
  have e : RFun.errors p y = .error .valueError := by unfold RFun.errors; rw [if_pos hne]
  unfold RFun.regressionCriterion RFun.mseNorm RFun.maeNorm RFun.aae RFun.mse RFun.mae at h
  simp only [bind, Except.bind, e] at h
  split at h
  · cases h
  split at h
  · cases h
  split at h
  · cases h
  split at h
  · cases h
  split at h <;> cases h

/-- The criterion of a ruleset of regression rules, step by step -/
theorem calcCriterion_steps {R : RsEnv} {y : List Label} {xs : Option Xs} {w : Option WeightsArg} {kw : Rule.Kw} {s t : RuleSet}
    (hk : s.ruleType = some .regression) (hne : s.rules ≠ []) (h : calcCriterion R y xs w kw s = (.ok (), t)) :
    ∃ l s1, predict R xs w s = (.ok l, s1) ∧ (l = [] ∨ ∃ p q ys c, labelsOfCells l = .ok p ∧ Rule.numbers p = .ok q ∧ Rule.numbers y = .ok ys ∧
      RFun.regressionCriterion (kw.criterionMethod.getD "mse_norm") q ys = .ok c ∧ t.criterion = .num c) := by
  have h0 : ¬ s.rules.length = 0 := fun e => hne (List.length_eq_zero_iff.1 e)
  unfold calcCriterion at h
  rw [Py.bind_ok (Py.get_run s)] at h
  simp only [if_neg h0, hk] at h
  obtain ⟨l, s1, hp, h⟩ := Py.bind_eq_ok h
  refine ⟨l, s1, hp, ?_⟩
  split at h
  · rename_i e
    exact .inl (List.length_eq_zero_iff.1 e)
  obtain ⟨p, s2, h1, h⟩ := Py.bind_eq_ok h
  obtain ⟨q, s3, h2, h⟩ := Py.bind_eq_ok h
  obtain ⟨ys, s4, h3, h⟩ := Py.bind_eq_ok h
  obtain ⟨c, s5, h4, h⟩ := Py.bind_eq_ok h
  refine .inr ⟨p, q, ys, c, Local.ofExcept_ok h1, Local.ofExcept_ok h2, Local.ofExcept_ok h3, Local.ofExcept_ok h4, ?_⟩
  cases h
  rfl

end Verif.RowOrder
