import Verif.Settings
import Verif.RuleFit

/-! # Lemmas about the thresholds in force -/

namespace Verif.Settings

open Rule
open Thresholds (Limits)

theorem setAll_mro (l : List (Nat × Option Limits)) (K : Classes) : (setAll l K).mro = K.mro := by
  induction l generalizing K with
  | nil => rfl
  | cons p t ih => obtain ⟨c, x⟩ := p; simp only [setAll, ih]; rfl

theorem setAll_table (l : List (Nat × Option Limits)) (K : Classes) (d : Nat) :
    (setAll l K).table d = ((l.reverse.find? fun p => p.1 = d).map Prod.snd).or (K.table d) := by
  induction l generalizing K with
  | nil => rfl
  | cons p t ih =>
    obtain ⟨c, x⟩ := p
    simp only [setAll, ih, List.reverse_cons, List.find?_append]
    cases t.reverse.find? fun p => p.1 = d with
    | some q => simp
    | none =>
      by_cases h : c = d
      · simp [h, setClass]
      · simp [h, setClass, Ne.symm h]

theorem checkEach_accepted {E : Env} {t : Limits} : ∀ {l : List String} {r : Rule},
    (∀ a ∈ l, accepts E t r a = .ok true) →
      ∃ k, checkEach E t l r = (.ok (), { r with log := k }) := by
  intro l
  induction l with
  | nil => intro r _; exact ⟨r.log, rfl⟩
  | cons a l ih =>
    intro r h
    have ha := h a (by simp)
    obtain ⟨k, hk⟩ := ih (r := { r with log := true :: r.log }) (fun b hb => by
      rw [accepts_log]; exact h b (by simp [hb]))
    refine ⟨k, ?_⟩
    have h1 : checkOne E t a r = (.ok true, { r with log := true :: r.log }) := by
      simp [checkOne, Py.bind_run, ha]
    simp only [checkEach]
    rw [Py.bind_run, h1]
    simpa using hk

theorem checkEach_refused {E : Env} {t : Limits} {a : String} {l2 : List String} : ∀ {l1 : List String} {r : Rule},
    (∀ b ∈ l1, accepts E t r b = .ok true) → accepts E t r a = .ok false →
      ∃ k, checkEach E t (l1 ++ a :: l2) r = (.ok (), { r with log := k, badBecause := some a, good := false }) := by
  intro l1
  induction l1 with
  | nil =>
    intro r _ ha
    refine ⟨false :: r.log, ?_⟩
    have h1 : checkOne E t a r = (.ok false, { r with log := false :: r.log, badBecause := some a, good := false }) := by
      simp [checkOne, Py.bind_run, ha]
    simp only [List.nil_append, checkEach]
    rw [Py.bind_run, h1]
    simp
  | cons b l ih =>
    intro r h ha
    have hb := h b (by simp)
    obtain ⟨k, hk⟩ := ih (r := { r with log := true :: r.log })
      (fun c hc => by rw [accepts_log]; exact h c (by simp [hc])) (by rw [accepts_log]; exact ha)
    refine ⟨k, ?_⟩
    have h1 : checkOne E t b r = (.ok true, { r with log := true :: r.log }) := by
      simp [checkOne, Py.bind_run, hb]
    simp only [List.cons_append, checkEach]
    rw [Py.bind_run, h1]
    simpa using hk

end Verif.Settings
