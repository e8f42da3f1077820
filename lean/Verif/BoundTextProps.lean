import Verif.BoundTextLemmas
import Verif.ConditionProps

/-!
# Properties: bounds, names and indexes assigned as texts (C88)
-/

namespace Verif.BoundTextProps

open Verif Spec Cond ConditionProps

/-- **C88, partial (lower bounds).** Assigning a text which is a list of integers to `bmins` does what assigning the list does.  Missing:
other numbers, of which the digits after the point are lost (`C88_truncated_mins`, `C88_fraction_false`). -/
theorem C88_mins_partial (zs : List Int) (c : Cond) :
    setBmins (.text (.ok (zs.map fun z : Int => .fin z))) c = setBmins (.list (zs.map fun z : Int => .fin z)) c := by
  refine setBmins_congr ?_ c
  have := bounds_text (zs.map fun z : Int => (z : Rat))
  simpa only [List.map_map, Function.comp_def, trunc_int] using this

/-- `"[2, -3]"` -/
example : setBmins (.text (.ok [.fin 2, .fin (-3)])) two = setBmins (.list [.fin 2, .fin (-3)]) two ∧
    (setBmins (.text (.ok [.fin 2, .fin (-3)])) two).2.bmins = some [.fin 2, .fin (-3)] := by decide +kernel

/-- **C88, partial (upper bounds).** The same for `bmaxs`.  Missing: other numbers than integers. -/
theorem C88_maxs_partial (zs : List Int) (c : Cond) :
    setBmaxs (.text (.ok (zs.map fun z : Int => .fin z))) c = setBmaxs (.list (zs.map fun z : Int => .fin z)) c := by
  refine setBmaxs_congr ?_ c
  have := bounds_text (zs.map fun z : Int => (z : Rat))
  simpa only [List.map_map, Function.comp_def, trunc_int] using this

/-- `"[5, 9]"` -/
example : setBmaxs (.text (.ok [.fin 5, .fin 9])) two = setBmaxs (.list [.fin 5, .fin 9]) two ∧
    (setBmaxs (.text (.ok [.fin 5, .fin 9])) two).2.bmaxs = some [.fin 5, .fin 9] := by decide +kernel

/-- **C88 (what the lower bounds are).** A text of as many finite numbers as there are features is accepted; the lower bounds are
then these numbers without their digits after the point, the rest is as before, and the condition is impossible if it was so or if a lower
bound is above its upper bound now. -/
theorem C88_truncated_mins {c : Cond} {fs : List Feature} (hs : Shows c fs) {qs : List Rat} (hl : qs.length = fs.length) :
    ∃ (d : Cond) (zs : List Int), setBmins (.text (.ok (qs.map .fin))) c = (.ok (), d) ∧ List.Forall₂ CutOff qs zs ∧
      Shows d (List.zipWith (fun f (z : Int) => { f with lo := .fin z }) fs zs) ∧
      (d.impossible = true ↔
        c.impossible = true ∨ ∃ f ∈ List.zipWith (fun f (z : Int) => { f with lo := .fin z }) fs zs, Inverted f) := by
  have hlen := Shows.length hs
  obtain ⟨h1, h2, h3, h4⟩ := hs
  have hb : Arg.bounds (.text (.ok (qs.map .fin))) = .ok (qs.map fun q => Num.fin (Num.trunc q : Int)) := bounds_text qs
  obtain ⟨e1, e2, e3, e4⟩ := put_lo hl
  rcases setBmins_cases (.text (.ok (qs.map .fin))) c h4 with ⟨e, he⟩ | ⟨v, hv, _, hr⟩
  · exfalso
    have hne : ¬ (c.length > 0 ∧ c.length ≠ (qs.map fun q => Num.fin (Num.trunc q : Int)).length) := by
      rw [List.length_map]; omega
    rw [setBmins, Py.bind_run, Py.ofExcept_run, hb] at he
    simp only [Py.bind_run, Py.get_run, hne, if_false, Py.pure_run, Py.modify_run, checkImpossible, need, h4, Py.ofExcept_run] at he
    split at he <;> cases he
  · rw [hb] at hv
    cases hv
    refine ⟨_, qs.map Num.trunc, hr, ?_, ⟨h1.trans (congrArg some e1), h2.trans (congrArg some e2), ?_, ?_⟩, ?_⟩
    · rw [List.forall₂_map_right_iff]
      exact List.forall₂_same.2 fun q _ => cutOff_trunc q
    · exact congrArg some e3
    · exact h4.trans (congrArg some e4)
    · simp only [Bool.or_eq_true]
      rw [e3, e4, someInverted_map]
      simp [Inverted]

/-- `"[0.5, -1.5]"` -/
example : Shows two [⟨"a", 0, .fin (-1), .inf⟩, ⟨"b", 2, .fin 1, .fin 3⟩] ∧
    (setBmins (.text (.ok [.fin (1 / 2), .fin (-3 / 2)])) two).2.bmins = some [.fin 0, .fin (-1)] :=
  ⟨⟨rfl, rfl, rfl, rfl⟩, by decide +kernel⟩

/-- **C88 (what the upper bounds are).** A text of as many finite numbers as there are features is accepted; the upper bounds are
then these numbers without their digits after the point, the rest is as before, and the condition is impossible if it was so or if a lower
bound is above its upper bound now. -/
theorem C88_truncated_maxs {c : Cond} {fs : List Feature} (hs : Shows c fs) {qs : List Rat} (hl : qs.length = fs.length) :
    ∃ (d : Cond) (zs : List Int), setBmaxs (.text (.ok (qs.map .fin))) c = (.ok (), d) ∧ List.Forall₂ CutOff qs zs ∧
      Shows d (List.zipWith (fun f (z : Int) => { f with hi := .fin z }) fs zs) ∧
      (d.impossible = true ↔
        c.impossible = true ∨ ∃ f ∈ List.zipWith (fun f (z : Int) => { f with hi := .fin z }) fs zs, Inverted f) := by
  have hlen := Shows.length hs
  obtain ⟨h1, h2, h3, h4⟩ := hs
  have hb : Arg.bounds (.text (.ok (qs.map .fin))) = .ok (qs.map fun q => Num.fin (Num.trunc q : Int)) := bounds_text qs
  obtain ⟨e1, e2, e3, e4⟩ := put_hi hl
  rcases setBmaxs_cases (.text (.ok (qs.map .fin))) c h3 with ⟨e, he⟩ | ⟨v, hv, _, hr⟩
  · exfalso
    have hne : ¬ (c.length > 0 ∧ c.length ≠ (qs.map fun q => Num.fin (Num.trunc q : Int)).length) := by
      rw [List.length_map]; omega
    rw [setBmaxs, Py.bind_run, Py.ofExcept_run, hb] at he
    simp only [Py.bind_run, Py.get_run, hne, if_false, Py.pure_run, Py.modify_run, checkImpossible, need, h3, Py.ofExcept_run] at he
    split at he <;> cases he
  · rw [hb] at hv
    cases hv
    refine ⟨_, qs.map Num.trunc, hr, ?_, ⟨h1.trans (congrArg some e1), h2.trans (congrArg some e2), ?_, ?_⟩, ?_⟩
    · rw [List.forall₂_map_right_iff]
      exact List.forall₂_same.2 fun q _ => cutOff_trunc q
    · exact h3.trans (congrArg some e3)
    · exact congrArg some e4
    · simp only [Bool.or_eq_true]
      rw [e3, e4, someInverted_map]
      simp [Inverted]

/-- `"[-2.5, 2.9]"`: the first feature is impossible now -/
example : (setBmaxs (.text (.ok [.fin (-5 / 2), .fin (29 / 10)])) two).2.bmaxs = some [.fin (-2), .fin 2] ∧
    (setBmaxs (.text (.ok [.fin (-5 / 2), .fin (29 / 10)])) two).2.impossible = true := by decide +kernel

/-- **C88 (rejected texts).** A text which is no literal raises the exception of `ast.literal_eval`, one with an infinite number
`OverflowError`, one with NaN `ValueError`, one with another number of values than there are features `IndexError`; the condition is as
before. -/
theorem C88_rejected (c : Cond) :
    (∀ e : Err, setBmins (.text (.error e)) c = (.error e, c) ∧ setBmaxs (.text (.error e)) c = (.error e, c)) ∧
    (∀ (qs : List Rat) (v : Num) (t : List Num), v = .inf ∨ v = .ninf →
      setBmins (.text (.ok (qs.map .fin ++ v :: t))) c = (.error .overflowError, c) ∧
      setBmaxs (.text (.ok (qs.map .fin ++ v :: t))) c = (.error .overflowError, c)) ∧
    (∀ (qs : List Rat) (t : List Num), setBmins (.text (.ok (qs.map .fin ++ .nan :: t))) c = (.error .valueError, c) ∧
      setBmaxs (.text (.ok (qs.map .fin ++ .nan :: t))) c = (.error .valueError, c)) ∧
    (∀ (fs : List Feature) (qs : List Rat), Shows c fs → fs ≠ [] → qs.length ≠ fs.length →
      setBmins (.text (.ok (qs.map .fin))) c = (.error .indexError, c) ∧
      setBmaxs (.text (.ok (qs.map .fin))) c = (.error .indexError, c)) := by
  refine ⟨fun e => ⟨rfl, rfl⟩, fun qs v t hv => ?_, fun qs t => ?_, fun fs qs hs h0 hl => ?_⟩
  · have hb : Arg.bounds (.text (.ok (qs.map .fin ++ v :: t))) = .error .overflowError := mapM_toInt_infinite hv
    constructor
    · rw [setBmins, Py.bind_run, Py.ofExcept_run, hb]
    · rw [setBmaxs, Py.bind_run, Py.ofExcept_run, hb]
  · have hb : Arg.bounds (.text (.ok (qs.map .fin ++ .nan :: t))) = .error .valueError := mapM_toInt_nan
    constructor
    · rw [setBmins, Py.bind_run, Py.ofExcept_run, hb]
    · rw [setBmaxs, Py.bind_run, Py.ofExcept_run, hb]
  · have hb : Arg.bounds (.text (.ok (qs.map .fin))) = .ok (qs.map fun q => Num.fin (Num.trunc q : Int)) := bounds_text qs
    have hlen := Shows.length hs
    have hpos := List.length_pos_iff.2 h0
    have hne : c.length > 0 ∧ c.length ≠ (qs.map fun q => Num.fin (Num.trunc q : Int)).length := by
      rw [List.length_map]; omega
    constructor
    · rw [setBmins, Py.bind_run, Py.ofExcept_run, hb]
      simp only [Py.bind_run, Py.get_run, if_pos hne, Py.throw_run]
    · rw [setBmaxs, Py.bind_run, Py.ofExcept_run, hb]
      simp only [Py.bind_run, Py.get_run, if_pos hne, Py.throw_run]

/-- `"[0.5, 1e999]"`, `"[1]"` -/
example : setBmins (.text (.ok [.fin (1 / 2), .inf])) two = (.error .overflowError, two) ∧
    setBmaxs (.text (.ok [.fin 1])) two = (.error .indexError, two) := by decide +kernel

/-- **C88 (names and indexes).** A text of names or of indexes does what the list does. -/
theorem C88_names_indexes (c : Cond) (ns : List String) (js : List Int) :
    setNames (.text (.ok ns)) c = setNames (.list ns) c ∧ setIndexes (.text (.ok js)) c = setIndexes (.list js) c :=
  ⟨rfl, rfl⟩

/-- `"['u', 'v']"`, `"[4, 5]"` -/
example : (setNames (.text (.ok ["u", "v"])) two).2.names = some ["u", "v"] ∧
    (setIndexes (.text (.ok [4, 5])) two).2.indexes = some [4, 5] := by decide +kernel

/-- **C88 is false (fractions)**: assigned as texts the bounds 0.5 and 2.5 are other bounds than as lists: 0.2 is in, 2.4 is out. -/
theorem C88_fraction_false :
    ∃ c : Cond, build "index" [⟨"a", 0, .fin 0, .fin 5⟩] true = .ok c ∧
      evaluate (setBmaxs (.list [.fin (5 / 2)]) (setBmins (.list [.fin (1 / 2)]) c).2).2 ⟨1, [[.fin (1 / 5)], [.fin (12 / 5)]]⟩ = .ok [0, 1] ∧
      evaluate (setBmaxs (.text (.ok [.fin (5 / 2)])) (setBmins (.text (.ok [.fin (1 / 2)])) c).2).2 ⟨1, [[.fin (1 / 5)], [.fin (12 / 5)]]⟩ =
        .ok [1, 0] :=
  ⟨one, one_built, by decide +kernel, by decide +kernel⟩

end Verif.BoundTextProps
