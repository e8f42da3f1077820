import Verif.InsideSpec
import Verif.SetEvalLemmas
import Verif.RowOrderRun
import Verif.StackedFigLemmas
import Verif.RuleEval

/-!
# The targets inside a rule: lemmas
-/

namespace Verif.Inside

open Verif Rule Spec RFun RowOrder

variable {β : Type}

/-- What `extract` gives for the activation of a rule -/
theorem extract_inside {E : Env} {r : Rule} {xs : Xs} {v : List Nat} {y : List β} (h : r.evaluateActivation E xs = .ok v)
    (hc : TalksAbout r.cond xs) (hl : (pointsOf xs).length = y.length) : v.length = y.length ∧ extract v y = .ok (targetsInside r.cond xs y) := by
  have e := RuleSet.evaluateActivation_ok h hc
  subst e
  refine ⟨by simpa using hl, ?_⟩
  rw [extract_zip (by simpa using hl)]
  congr 1
  unfold targetsInside
  rw [List.zip_map_left, List.filter_map, List.map_map]
  congr 1
  apply List.filter_congr
  intro p _
  simp only [Function.comp_apply, Prod.map, flag]
  split <;> simp_all

/-- Everything computed from the extracted targets can be computed from a vector of ones. -/
theorem ones_pairs {l l' : List β} (h : l.Perm l') : SamePairs (List.replicate l.length 1) l (List.replicate l'.length 1) l' := by
  have e : ∀ l : List β, (List.replicate l.length 1).zip l = l.map fun b => (1, b) := by
    intro l
    induction l with
    | nil => rfl
    | cons a l ih => simp [List.replicate_succ, ih]
  refine ⟨by simp, by simp, ?_⟩
  rw [e, e]
  exact h.map _

theorem extract_ones (l : List β) : extract (List.replicate l.length 1) l = .ok l := by
  rw [extract_zip (by simp)]
  congr 1
  induction l with
  | nil => rfl
  | cons a l ih => simp_all [List.replicate_succ]

theorem mean_of_extract {v v' : List Nat} {y y' l l' : List Num} (h : extract v y = .ok l) (h' : extract v' y' = .ok l') (hp : l.Perm l') :
    conditionalMean v y = conditionalMean v' y' := by
  have := conditionalMean_order (ones_pairs hp)
  unfold conditionalMean at this ⊢
  rwa [extract_ones, extract_ones, ← h, ← h'] at this

theorem var_of_extract {v v' : List Nat} {y y' l l' : List Num} (h : extract v y = .ok l) (h' : extract v' y' = .ok l') (hp : l.Perm l') :
    conditionalVar v y = conditionalVar v' y' := by
  have := conditionalVar_order (ones_pairs hp)
  unfold conditionalVar at this ⊢
  rwa [extract_ones, extract_ones, ← h, ← h'] at this

theorem classes_of_extract {v v' : List Nat} {y y' l l' : List Label} (h : extract v y = .ok l) (h' : extract v' y' = .ok l') (hp : l.Perm l') :
    classProbabilities v y = classProbabilities v' y' := by
  have := classProbabilities_order (ones_pairs hp)
  unfold classProbabilities at this ⊢
  rwa [extract_ones, extract_ones, ← h, ← h'] at this

theorem criterion_of_extract {m : String} {p : Label} {v v' : List Nat} {y y' l l' : List Label} (h : extract v y = .ok l)
    (h' : extract v' y' = .ok l') (hp : l.Perm l') : classificationCriterion m v p y = classificationCriterion m v' p y' := by
  have := classificationCriterion_order (m := m) (p := p) (ones_pairs hp)
  unfold classificationCriterion at this ⊢
  rwa [extract_ones, extract_ones, ← h, ← h'] at this

/-- Targets which are numbers -/
theorem extract_numbers {v : List Nat} {ys : List Num} {l : List Label} (h : extract v (ys.map Label.num) = .ok l) (hl : v.length = ys.length) :
    ∃ k, extract v ys = .ok k ∧ l = k.map Label.num := by
  refine ⟨_, extract_zip hl, ?_⟩
  rw [extract_zip (by simpa using hl)] at h
  cases h
  rw [List.zip_map_right, List.filter_map, List.map_map, List.map_map]
  rfl

theorem perm_numbers {k k' : List Num} (h : (k.map Label.num).Perm (k'.map Label.num)) : k.Perm k' := by
  have := h.map toNum
  rw [List.map_map, List.map_map] at this
  have e : toNum ∘ Label.num = id := rfl
  rwa [e, List.map_id, List.map_id] at this

/-- The errors of a rule which are numbers: those of the activated targets -/
theorem errors_activated {v : List Nat} {x : Num} {ys k : List Num} (hv : ∀ a ∈ v, a = 0 ∨ a = 1) (h : extract v ys = .ok k)
    (hl : v.length = ys.length) (g : Num → Num) (hg : g .nan = .nan) :
    Num.dropna ((List.zipWith Num.sub (v.map fun a : Nat => if a = 0 then Num.nan else Num.mul x (.fin a)) ys).map g) =
      Num.dropna (k.map fun t => g (Num.sub (Num.mul x (.fin 1)) t)) := by
  rw [extract_zip hl] at h
  cases h
  induction v generalizing ys with
  | nil => rfl
  | cons a v ih =>
    cases ys with
    | nil => cases hl
    | cons t ys =>
      have ih := ih (ys := ys) (fun b hb => hv b (List.mem_cons_of_mem _ hb)) (by simpa using hl)
      unfold Num.dropna at ih ⊢
      rcases hv a (by simp) with rfl | rfl
      · have : Num.sub .nan t = .nan := by cases t <;> rfl
        simp only [List.map_cons, List.zipWith_cons_cons, if_true, this, hg, List.zip_cons_cons]
        rw [List.filter_cons_of_neg (by simp [Num.isNaN]), ih, List.filter_cons_of_neg (by simp)]
      · simp only [List.map_cons, List.zipWith_cons_cons, List.zip_cons_cons, one_ne_zero, if_false, Nat.cast_one]
        rw [List.filter_cons_of_pos (a := ((1 : Nat), t)) (by simp), List.map_cons, List.map_cons, List.filter_cons, List.filter_cons, ih]

end Verif.Inside
