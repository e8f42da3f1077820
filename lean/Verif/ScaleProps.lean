import Verif.ScaleRun
import Verif.RuleFlagProps

/-!
# The scale of the features does not matter (C70)
-/

namespace Verif.Scales

open Verif Spec Cond ConditionProps RuleFlagProps

/-! ## Concrete units for the examples -/

/-- The feature "a" goes from Celsius to Fahrenheit; "b" is cubed. -/
def units (n : String) : Rat → Rat := if n = "a" then fun q => q * 9 / 5 + 32 else if n = "b" then fun q => q * q * q else id

theorem units_mono (n : String) : StrictMono (units n) := by
  unfold units
  split
  · intro a b h
    show a * 9 / 5 + 32 < b * 9 / 5 + 32
    linarith
  · split
    · intro a b h
      show a * a * a < b * b * b
      nlinarith [sq_nonneg (a + b), sq_nonneg (a - b), sq_nonneg a, sq_nonneg b, mul_pos (sub_pos.2 h) (sub_pos.2 h)]
    · exact strictMono_id

/-- `two` in these units -/
def twoScaled : Cond :=
  { indexes := some [0, 2], bmins := some [.fin (151 / 5), .fin 1], bmaxs := some [.inf, .fin 27], names := some ["a", "b"], impossible := false }

theorem twoScaled_reach : Reach twoScaled :=
  reach_build (by_ := "index") (fs := [⟨"a", 0, .fin (151 / 5), .inf⟩, ⟨"b", 2, .fin 1, .fin 27⟩]) (s := true) (by decide +kernel)

/-- The features of `two` -/
def twoShown : List Feature := [⟨"a", 0, .fin (-1), .inf⟩, ⟨"b", 2, .fin 1, .fin 3⟩]

/-- Columns 0 and 2 of an array in these units -/
def columns (k : Nat) : Rat → Rat := if k = 0 then units "a" else if k = 2 then units "b" else id

theorem columns_mono (k : Nat) : StrictMono (columns k) := by
  unfold columns
  split
  · exact units_mono _
  · split
    · exact units_mono _
    · exact strictMono_id

/-! ## Evaluation -/

/-- **C70 (evaluate).** A condition with its bounds in other units of the features, on data in these other units, selects the same rows as
the condition on the data — or raises the same exception. The change of unit can be any strictly increasing function, another one for each
feature. -/
theorem C70_evaluate {h : String → Rat → Rat} {c c' : Cond} {fs : List Feature} {xs xs' : Xs} (hh : ∀ n, StrictMono (h n)) (hr : Reach c)
    (hs : Shows c fs) (hr' : Reach c') (hs' : Shows c' (fs.map (scaled h))) (hx : Rescaled h fs xs xs') :
    Rule.evaluate c' xs' = Rule.evaluate c xs := by
  obtain ⟨gs, hg⟩ := reach_regular hr
  obtain ⟨gs', hg'⟩ := reach_regular hr'
  have e := Shows.unique hs hg.shows
  have e' := Shows.unique hs' hg'.shows
  subst e
  subst e'
  exact evaluate_rescaled hh hg hg' hx

/-- `two` in other units, on an array with a missing value and an infinite one, and on a DataFrame -/
example :
    Reach two ∧ Shows two twoShown ∧ Reach twoScaled ∧ Shows twoScaled (twoShown.map (scaled units)) ∧
      Rescaled units twoShown (.arr ⟨3, [[.fin 0, .nan, .fin 2], [.fin (-2), .fin 0, .fin 2], [.inf, .fin 0, .fin 2], [.fin 5, .fin 0, .fin 3]]⟩)
        (.arr ⟨3, [[.fin 32, .nan, .fin 8], [.fin (142 / 5), .fin 0, .fin 8], [.inf, .fin 0, .fin 8], [.fin 41, .fin 0, .fin 27]]⟩) ∧
      Rescaled units twoShown (.frame ⟨["b", "a"], [[.fin 2, .fin 0]]⟩) (.frame ⟨["b", "a"], [[.fin 8, .fin 32]]⟩) ∧
      Rule.evaluate two (.arr ⟨3, [[.fin 0, .nan, .fin 2], [.fin (-2), .fin 0, .fin 2], [.inf, .fin 0, .fin 2], [.fin 5, .fin 0, .fin 3]]⟩) =
        .ok [1, 0, 0, 1] := by
  refine ⟨two_reach, ⟨rfl, rfl, rfl, rfl⟩, twoScaled_reach, by unfold Shows; decide +kernel, ⟨columns, columns_mono, ?_, ?_⟩, ?_, by decide +kernel⟩
  · simp [twoShown, columnOf, columns]
  · simp [scaledMat, columns, onNum, units, List.mapIdx, List.mapIdx.go]; norm_num
  · simp [Rescaled, scaledFrame, onNum, units, List.mapIdx, List.mapIdx.go]; norm_num

/-- **C70 (condition).** The two conditions are impossible, or not, together. -/
theorem C70_impossible {h : String → Rat → Rat} {c c' : Cond} {fs : List Feature} (hh : ∀ n, StrictMono (h n)) (hr : Reach c)
    (hs : Shows c fs) (hr' : Reach c') (hs' : Shows c' (fs.map (scaled h))) : c'.impossible = c.impossible := by
  obtain ⟨gs, hg⟩ := reach_regular hr
  obtain ⟨gs', hg'⟩ := reach_regular hr'
  have e := Shows.unique hs hg.shows
  have e' := Shows.unique hs' hg'.shows
  subst e
  subst e'
  rw [hg.imp, hg'.imp, any_scaled hh]

/-- `never` in other units: 2 and 1 become 8 and 1. -/
example : Reach never ∧ Shows never [⟨"z", 7, .fin 2, .fin 1⟩] ∧ never.impossible = true ∧
    build "index" [scaled (fun _ q => q * 4 + 1) ⟨"z", 7, .fin 2, .fin 1⟩] true =
      .ok { never with bmins := some [.fin 9], bmaxs := some [.fin 5] } :=
  ⟨never_reach, ⟨rfl, rfl, rfl, rfl⟩, rfl, by decide +kernel⟩

/-- **C70 (&).** The intersection of the conditions in other units is the intersection, in these units: both raise `IndexError`, or both are
conditions which show the same features, up to the unit. -/
theorem C70_and {h : String → Rat → Rat} {by_ : String} (hb : by_ = "index" ∨ by_ = "name") {a b a' b' : Cond} {as bs : List Feature}
    (hh : ∀ n, StrictMono (h n)) (ha : Reach a) (has : Shows a as) (hb1 : Reach b) (hbs : Shows b bs)
    (ha' : Reach a') (has' : Shows a' (as.map (scaled h))) (hb' : Reach b') (hbs' : Shows b' (bs.map (scaled h))) :
    (Cond.and by_ a b = .error .indexError ∧ Cond.and by_ a' b' = .error .indexError) ∨
      ∃ c c' cs, Cond.and by_ a b = .ok c ∧ Cond.and by_ a' b' = .ok c' ∧ Shows c cs ∧ Shows c' (cs.map (scaled h)) := by
  obtain ⟨as0, ra⟩ := reach_regular ha
  obtain ⟨bs0, rb⟩ := reach_regular hb1
  obtain ⟨as1, ra'⟩ := reach_regular ha'
  obtain ⟨bs1, rb'⟩ := reach_regular hb'
  have e1 := Shows.unique has ra.shows
  have e2 := Shows.unique hbs rb.shows
  have e3 := Shows.unique has' ra'.shows
  have e4 := Shows.unique hbs' rb'.shows
  subst e1 e2 e3 e4
  rcases and_regular hb ra rb with ⟨d, e⟩ | ⟨d, c, rest, e, hp, rc⟩
  · rcases and_regular hb ra' rb' with ⟨-, e'⟩ | ⟨d', -⟩
    · exact .inl ⟨e, e'⟩
    · exact absurd ((disagree_scaled h as bs).2 d) d'
  · rcases and_regular hb ra' rb' with ⟨d', -⟩ | ⟨-, c', rest', e', hp', rc'⟩
    · exact absurd ((disagree_scaled h as bs).1 d') d
    · refine .inr ⟨c, c', _, e, e', rc.shows, ?_⟩
      rw [← sortF_scaled]
      have := rc'.shows
      have hperm : (merged (sortF by_ (as.map (scaled h))) (bs.map (scaled h)) ++ rest').Perm
          ((merged (sortF by_ as) bs ++ rest).map (scaled h)) := by
        rw [List.map_append, sortF_scaled, merged_scaled hh]
        refine List.Perm.append_left _ (hp'.trans ?_)
        rw [others_scaled]
        exact (hp.map _).symm
      have hperm2 := sortF_perm by_ (merged (sortF by_ (as.map (scaled h))) (bs.map (scaled h)) ++ rest')
      rw [sortF_congr by_ hperm ((hperm2.map _).nodup_iff.1 rc'.names_nodup) ((hperm2.map _).nodup_iff.1 rc'.idx_nodup)] at this
      exact this

/-- `two & one` -/
example :
    Reach two ∧ Shows two twoShown ∧ Reach one ∧ Shows one [⟨"a", 0, .fin 0, .fin 5⟩] ∧
      build "index" [scaled units ⟨"a", 0, .fin 0, .fin 5⟩] true =
        .ok { one with bmins := some [.fin 32], bmaxs := some [.fin 41] } ∧
      Cond.and "index" two one = .ok { two with bmins := some [.fin 0, .fin 1], bmaxs := some [.fin 5, .fin 3] } ∧
      Cond.and "index" twoScaled { one with bmins := some [.fin 32], bmaxs := some [.fin 41] } =
        .ok { two with bmins := some [.fin 32, .fin 1], bmaxs := some [.fin 41, .fin 27] } :=
  ⟨two_reach, ⟨rfl, rfl, rfl, rfl⟩, one_reach, ⟨rfl, rfl, rfl, rfl⟩, by decide +kernel, by decide +kernel, by decide +kernel⟩

/-! ## Rules -/

/-- Features in the other units, or none for both -/
def BothRescaled (h : String → Rat → Rat) (fs : List Feature) : Option Xs → Option Xs → Prop
  | some xs, some xs' => Rescaled h fs xs xs'
  | none, none => True
  | _, _ => False

theorem sameView {h : String → Rat → Rat} {c c' : Cond} {fs : List Feature} {xs xs' : Option Xs} (hh : ∀ n, StrictMono (h n)) (hr : Reach c)
    (hs : Shows c fs) (hr' : Reach c') (hs' : Shows c' (fs.map (scaled h))) (hx : BothRescaled h fs xs xs') : SameView c c' xs xs' := by
  obtain ⟨gs, hg⟩ := reach_regular hr
  obtain ⟨gs', hg'⟩ := reach_regular hr'
  have e := Shows.unique hs hg.shows
  have e' := Shows.unique hs' hg'.shows
  subst e
  subst e'
  refine ⟨length_scaled hg hg', ?_, ?_⟩
  · cases xs <;> cases xs' <;> first | rfl | exact hx.elim
  · rintro x x' rfl rfl
    exact ⟨length_rescaled hx, evaluate_rescaled hh hg hg' hx⟩

/-- **C70 (fit).** Fitting the rule with its condition in other units, on data in these units, gives the same outcome and the same rule —
activation, prediction, figures, good or not and why — but for the condition. -/
theorem C70_fit {E : Env} {h : String → Rat → Rat} {r : Rule} {c' : Cond} {fs : List Feature} {xs xs' : Option Xs} (hE : CondFree E)
    (hh : ∀ n, StrictMono (h n)) (hr : Reach r.cond) (hs : Shows r.cond fs) (hr' : Reach c') (hs' : Shows c' (fs.map (scaled h)))
    (hx : BothRescaled h fs xs xs') (y : List Label) (force : Bool) (kw : Rule.Kw) :
    Rule.fit E y xs' force kw (recond c' r) = ((Rule.fit E y xs force kw r).1, recond c' (Rule.fit E y xs force kw r).2) :=
  (alike_fit hE (sameView hh hr hs hr' hs' hx) y force kw r rfl).1

/-- **C70 (eval).** The same for `eval`: the criterion, in particular, does not depend on the units of the features. -/
theorem C70_eval {E : Env} {h : String → Rat → Rat} {r : Rule} {c' : Cond} {fs : List Feature} {xs xs' : Option Xs} (hE : CondFree E)
    (hh : ∀ n, StrictMono (h n)) (hr : Reach r.cond) (hs : Shows r.cond fs) (hr' : Reach c') (hs' : Shows c' (fs.map (scaled h)))
    (hx : BothRescaled h fs xs xs') (y : List Label) (recompute force : Bool) (kw : Rule.Kw) :
    Rule.eval E y xs' recompute force kw (recond c' r) =
      ((Rule.eval E y xs recompute force kw r).1, recond c' (Rule.eval E y xs recompute force kw r).2) :=
  (alike_eval hE (sameView hh hr hs hr' hs' hx) y recompute force kw r rfl).1

/-- **C70 (predict).** The predictions of a rule do not depend on the units of the features. -/
theorem C70_predict {E : Env} {h : String → Rat → Rat} {r : Rule} {c' : Cond} {fs : List Feature} {xs xs' : Xs} (hh : ∀ n, StrictMono (h n))
    (hr : Reach r.cond) (hs : Shows r.cond fs) (hr' : Reach c') (hs' : Shows c' (fs.map (scaled h))) (hx : Rescaled h fs xs xs') :
    (recond c' r).predict E (some xs') = r.predict E (some xs) :=
  predict_recond (C70_evaluate hh hr hs hr' hs' hx) rfl

/-- The rule `newRule` (0 ≤ a ≤ 1) with its condition in degrees Fahrenheit -/
def warmCond : Cond :=
  { indexes := some [0], bmins := some [.fin 32], bmaxs := some [.fin (169 / 5)], names := some ["a"], impossible := false }

/-- `someXs` in degrees Fahrenheit -/
def warmXs : Xs := .arr ⟨1, [[.fin 32], [.fin (169 / 5)], [.fin (178 / 5)], [.fin (329 / 10)]]⟩

/-- The hypotheses are met by `newRule` on four rows, three of them activated. -/
theorem warm : CondFree (RuleProps.someEnv .regression) ∧ Reach RuleProps.someCond ∧ Shows RuleProps.someCond [⟨"a", 0, .fin 0, .fin 1⟩] ∧
    Reach warmCond ∧ Shows warmCond ([⟨"a", 0, .fin 0, .fin 1⟩].map (scaled units)) ∧
    Rescaled units [⟨"a", 0, .fin 0, .fin 1⟩] RuleProps.someXs warmXs := by
  refine ⟨fun _ _ _ => rfl, ?_, ⟨rfl, rfl, rfl, rfl⟩, ?_, by unfold Shows; decide +kernel, ⟨columns, columns_mono, ?_, ?_⟩⟩
  · exact reach_build (by_ := "index") (fs := [⟨"a", 0, .fin 0, .fin 1⟩]) (s := true) (by decide +kernel)
  · exact reach_build (by_ := "index") (fs := [⟨"a", 0, .fin 32, .fin (169 / 5)⟩]) (s := true) (by decide +kernel)
  · simp [columnOf, columns]
  · simp [RuleProps.someXs, warmXs, scaledMat, columns, onNum, units, List.mapIdx, List.mapIdx.go]; norm_num

/-- What is fitted, evaluated and predicted there: a good rule which predicts 2 for three points of four -/
example :
    let E := RuleProps.someEnv .regression
    let r := (Rule.fit E fourY (some warmXs) false {} (recond warmCond newRule)).2
    let e := (Rule.eval E otherY (some warmXs) false false {} r).2
    (Rule.fit E fourY (some warmXs) false {} (recond warmCond newRule)).1 = .ok () ∧ r.good = true ∧ r.act = some [1, 1, 0, 1] ∧
      r.prediction = .label (.num (.fin 2)) ∧ (Rule.eval E otherY (some warmXs) false false {} r).1 = .ok () ∧ e.criterion ≠ .none ∧
      e.criterion = (Rule.eval E otherY (some RuleProps.someXs) false false {} fittedRule).2.criterion ∧
      r.predict E (some warmXs) = .ok [.num (.fin 2), .num (.fin 2), .num .nan, .num (.fin 2)] := by
  decide +kernel

end Verif.Scales
