import Verif.RulePredict
import Verif.RuleProps

/-!
# What `Rule.predict` returns
-/

namespace Verif.RulePredictProps

open Verif Spec Rule RuleProps

/-- What stands for no prediction: NaN, or the text "nan" beside texts -/
def blankOf : Label → Label
  | .num _ => .num .nan
  | .text _ => .text "nan"

/-- The values predicted for a DataFrame -/
theorem predict_frame {E : Env} {r : Rule} {fs : List Feature} {f : Frame} {p : Label}
    (hp : r.getPrediction E = .ok (some p)) (htext : ∀ s, p = .text s → s.length ≤ 32 ∧ s ≠ "nan") (hc : Reach r.cond)
    (hs : Shows r.cond fs) (hne : fs ≠ []) (hr : ∀ g ∈ fs, g.name ∈ f.columns) (hst : ∀ v, E.store v = .ok ()) :
    predict E r (some (.frame f)) = .ok ((f.rows.map fun row => flag (InBoxNamed fs f.columns row)).map fun a : Nat =>
      if a = 1 then p else blankOf p) := by
  have he := ConditionProps.C11_evaluate_named hc hs hne hr
  cases p with
  | num x =>
    simp only [predict, evaluateActivation, Rule.evaluate, he, hst, bind, Except.bind, hp]
    congr 1
    apply List.map_congr_left
    intro a _
    split <;> rfl
  | text s =>
    have ht : truncate s = s := by
      unfold truncate
      rw [List.take_of_length_le (htext s rfl).1, String.ofList_toList]
    simp only [predict, evaluateActivation, Rule.evaluate, he, hst, bind, Except.bind, hp, if_neg (htext s rfl).2, ht, blankOf]

/-- **C18 (DataFrames, partial).** On a DataFrame which does not have exactly one row, `predict` returns a Series with the index of the
DataFrame: the prediction where the row satisfies the condition; elsewhere NaN, or the text "nan" for a class which is a text.  Missing: one
row (`C18_one_row_false`), long names and the name "nan" of classes, conditions without features. -/
theorem C18_frame_partial {E : Env} {r : Rule} {fs : List Feature} {f : Frame} {p : Label} {index : List Label}
    (hp : r.getPrediction E = .ok (some p)) (htext : ∀ s, p = .text s → s.length ≤ 32 ∧ s ≠ "nan") (hc : Reach r.cond)
    (hs : Shows r.cond fs) (hne : fs ≠ []) (hr : ∀ g ∈ fs, g.name ∈ f.columns) (hst : ∀ v, E.store v = .ok ())
    (hi : index.length = f.rows.length) (h1 : f.rows.length ≠ 1) :
    ∃ values, predictObject E r (some (.frame f)) index = .ok (.series index values) ∧ values.length = index.length ∧
      ∀ (i : Nat) (row : List Num), f.rows[i]? = some row →
        (InBoxNamed fs f.columns row → values[i]? = some p) ∧
        (¬ InBoxNamed fs f.columns row → values[i]? = some (blankOf p)) := by
  have e := predict_frame hp htext hc hs hne hr hst
  refine ⟨(f.rows.map fun row => flag (InBoxNamed fs f.columns row)).map fun a : Nat => if a = 1 then p else blankOf p, ?_,
    by rw [List.length_map, List.length_map, hi], ?_⟩
  · simp only [predictObject, e, bind, Except.bind, squeezed]
    rw [if_neg (by simp [hi])]
    split
    · next h =>
      have := congrArg List.length h
      simp only [List.length_map, List.length_cons, List.length_nil] at this
      exact absurd this h1
    · rfl
  · intro i row hrow
    simp only [List.getElem?_map, hrow, Option.map_some]
    constructor <;> intro hb <;> simp [flag, hb]

/-- Two rows -/
def twoRows : Frame := ⟨["b", "a"], [[.nan, .fin 1], [.fin 0, .fin 2]]⟩

theorem someCond_reach : Reach someCond :=
  .init (by_ := "index") (i := some [.int 0]) (lo := some [.float (.fin 0)]) (hi := some [.float (.fin 1)])
    (n := some [.str "a"]) (s := true) (by decide +kernel)

example : (someRule (.label (.text "red")) []).getPrediction (someEnv .classification) = .ok (some (.text "red")) ∧
    (∀ s, Label.text "red" = .text s → s.length ≤ 32 ∧ s ≠ "nan") ∧ Reach (someRule (.label (.text "red")) []).cond ∧
    Shows someCond [⟨"a", 0, .fin 0, .fin 1⟩] ∧ (∀ g ∈ [(⟨"a", 0, .fin 0, .fin 1⟩ : Feature)], g.name ∈ twoRows.columns) ∧
    predictObject (someEnv .classification) (someRule (.label (.text "red")) []) (some (.frame twoRows)) [.num (.fin 7), .num (.fin 8)] =
      .ok (.series [.num (.fin 7), .num (.fin 8)] [.text "red", .text "nan"]) := by
  refine ⟨rfl, ?_, someCond_reach, ⟨rfl, rfl, rfl, rfl⟩, by simp [twoRows], by decide +kernel⟩
  intro s h
  cases h
  decide

/-- **C18 (one row).** On a DataFrame of one row `predict` returns a single value: the prediction if the row satisfies the condition, NaN or
"nan" otherwise. -/
theorem C18_one_row {E : Env} {r : Rule} {fs : List Feature} {f : Frame} {p i : Label} {row : List Num}
    (hp : r.getPrediction E = .ok (some p)) (htext : ∀ s, p = .text s → s.length ≤ 32 ∧ s ≠ "nan") (hc : Reach r.cond)
    (hs : Shows r.cond fs) (hne : fs ≠ []) (hr : ∀ g ∈ fs, g.name ∈ f.columns) (hst : ∀ v, E.store v = .ok ())
    (h1 : f.rows = [row]) :
    ∃ value, predictObject E r (some (.frame f)) [i] = .ok (.scalar value) ∧
      (InBoxNamed fs f.columns row → value = p) ∧
      (¬ InBoxNamed fs f.columns row → value = blankOf p) := by
  have e := predict_frame hp htext hc hs hne hr hst
  rw [h1] at e
  refine ⟨_, by simp only [predictObject, e, bind, Except.bind, squeezed]; rfl, ?_, ?_⟩ <;> intro hb <;> simp [flag, hb]

/-- One row -/
def oneRow : Frame := ⟨["b", "a"], [[.nan, .fin 1]]⟩

example : oneRow.rows = [[.nan, .fin 1]] ∧ (∀ g ∈ [(⟨"a", 0, .fin 0, .fin 1⟩ : Feature)], g.name ∈ oneRow.columns) ∧
    predictObject (someEnv .regression) (someRule (.label (.num (.fin 7))) []) (some (.frame oneRow)) [.num (.fin 3)] =
      .ok (.scalar (.num (.fin 7))) :=
  ⟨rfl, by simp [oneRow], by decide +kernel⟩

/-- **C18 is false of DataFrames of one row**: no Series is returned. -/
theorem C18_one_row_false : ∃ (E : Env) (r : Rule) (f : Frame) (index : List Label), Reach r.cond ∧ index.length = f.rows.length ∧
    ∃ a, predictObject E r (some (.frame f)) index = .ok a ∧ ∀ i v, a ≠ .series i v := by
  refine ⟨someEnv .regression, someRule (.label (.num (.fin 7))) [], oneRow, [.num (.fin 3)], someCond_reach, rfl,
    .scalar (.num (.fin 7)), by decide +kernel, ?_⟩
  intro i v h
  cases h

/-- **C18 (arrays).** On an array, and without data, `predict` returns an array. -/
theorem C18_array {E : Env} {r : Rule} {xs : Option Xs} {index : List Label} (hx : ∀ f, xs ≠ some (.frame f)) :
    predictObject E r xs index = (predict E r xs).map .array := by
  unfold predictObject
  cases hp : predict E r xs with
  | error e => rfl
  | ok v =>
    simp only [bind, Except.bind, Except.map]

example : predictObject (someEnv .regression) (someRule (.label (.num (.fin 7))) (arr [true, false])) (some someXs) [] =
    .ok (.array [.num (.fin 7), .num (.fin 7), .num .nan, .num (.fin 7)]) := by decide +kernel

end Verif.RulePredictProps
