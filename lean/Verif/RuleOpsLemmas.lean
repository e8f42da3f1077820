import Verif.RuleOps
import Verif.RuleProps

/-!
# Helper lemmas about intersections of rules
-/

namespace Verif.MeetProps

open Verif Rule Spec Cond ConditionProps

theorem mul_arr (u v : List Bool) :
    List.zipWith (fun p q => p * q % 256) (arr u) (arr v) = arr (List.zipWith (· && ·) u v) ∧
      List.zipWith (· * ·) (arr u) (arr v) = arr (List.zipWith (· && ·) u v) := by
  induction u generalizing v with
  | nil => exact ⟨rfl, rfl⟩
  | cons a u ih =>
    cases v with
    | nil => exact ⟨rfl, rfl⟩
    | cons b v =>
      obtain ⟨h1, h2⟩ := ih v
      simp only [arr, List.map_cons, List.zipWith_cons_cons, List.cons.injEq] at h1 h2 ⊢
      refine ⟨⟨?_, h1⟩, ?_, h2⟩ <;> cases a <;> cases b <;> rfl

theorem make_ok {E : Env} {c : Cond} {v : List Nat} {r : Rule} (h : make E c (some v) = (.ok (), r)) :
    r.cond = c ∧ r.act = some v ∧ r.actCoverage = none ∧ r.prediction = .none ∧ r.std = .none ∧ r.sign = .none ∧
      r.zscore = .none ∧ r.criterion = .none ∧ r.trainSize = .none ∧ r.testSize = .none ∧ r.fitted = false ∧ r.evaluated = false ∧
      (E.thresholds = none → r.good = true) ∧
      ∀ t, E.thresholds = some t → (r.good = true → accepts E t r "coverage" = .ok true) ∧
        (r.good = false → r.badBecause = some "coverage" ∧
          accepts E t { r with good := true, badBecause := none } "coverage" = .ok false) := by
  replace h : check E "coverage" (blank c (some v)) = (.ok (), r) := h
  unfold check at h
  cases ht : E.thresholds with
  | none =>
    rw [ht] at h
    cases h
    simp [blank]
  | some t =>
    rw [ht] at h
    simp only [Py.bind_run, checkOne_run] at h
    generalize hr0 : blank c (some v) = r0 at h
    cases ha : accepts E t r0 "coverage" with
    | error e => rw [ha] at h; cases h
    | ok b =>
      rw [ha] at h
      cases b with
      | true =>
        cases h
        subst hr0
        refine ⟨rfl, rfl, rfl, rfl, rfl, rfl, rfl, rfl, rfl, rfl, rfl, rfl, by simp, ?_⟩
        rintro t' ⟨⟩
        exact ⟨fun _ => ha, by simp [blank]⟩
      | false =>
        cases h
        subst hr0
        refine ⟨rfl, rfl, rfl, rfl, rfl, rfl, rfl, rfl, rfl, rfl, rfl, rfl, by simp, ?_⟩
        rintro t' ⟨⟩
        exact ⟨by simp, fun _ => ⟨rfl, ha⟩⟩

theorem and_ok {E : Env} {by_ : String} {fits : List Nat → List Nat → Except Err Unit} {r₁ r₂ r : Rule}
    (h : Rule.and E by_ fits r₁ r₂ = .ok r) :
    ∃ c x y, Cond.and by_ r₁.cond r₂.cond = .ok c ∧ r₁.act = some x ∧ r₂.act = some y ∧ x.length = y.length ∧
      fits x y = .ok () ∧ make E c (some (List.zipWith (fun p q => p * q % 256) x y)) = (.ok (), r) := by
  simp only [Rule.and, bind, Except.bind] at h
  split at h
  · cases h
  rename_i c hc
  split at h
  · cases h
  rename_i v hv
  split at h
  · rename_i r' hm
    cases h
    cases ha : r₁.act with
    | none => rw [ha] at hv; cases hv
    | some x =>
      cases hb : r₂.act with
      | none => rw [ha, hb] at hv; cases hv
      | some y =>
        rw [ha, hb] at hv
        simp only [meetAct, bind, Except.bind] at hv
        split at hv
        · cases hv
        rename_i hl
        split at hv
        · cases hv
        rename_i hf
        cases hv
        exact ⟨c, x, y, hc, rfl, rfl, by simpa using hl, hf, hm⟩
  · cases h

theorem evaluate_and {by_ : String} (hb : by_ = "index" ∨ by_ = "name") {a b c : Cond} {as bs : List Feature}
    (ha : Reach a) (hbr : Reach b) (has : Shows a as) (hbs : Shows b bs) (hna : NoNaN as) (hnb : NoNaN bs)
    (hc : Cond.and by_ a b = .ok c) {xs : Xs} {u v : List Bool} (h1 : Rule.evaluate a xs = .ok (arr u))
    (h2 : Rule.evaluate b xs = .ok (arr v)) : Rule.evaluate c xs = .ok (arr (List.zipWith (· && ·) u v)) := by
  obtain ⟨k1, k2⟩ := C13_evaluate_partial hb ha hbr has hbs hna hnb hc
  cases xs with
  | arr m => rw [← (mul_arr u v).2]; exact k1 m _ _ h1 h2
  | frame f => rw [← (mul_arr u v).2]; exact k2 f _ _ h1 h2

theorem count_both (u v : List Bool) :
    (List.zipWith (· && ·) u v).count true ≤ u.count true ∧ (List.zipWith (· && ·) u v).count true ≤ v.count true := by
  induction u generalizing v with
  | nil => simp
  | cons a u ih =>
    cases v with
    | nil => simp
    | cons b v =>
      obtain ⟨h1, h2⟩ := ih v
      cases a <;> cases b <;> simp <;> omega

end Verif.MeetProps
