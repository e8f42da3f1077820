import Verif.ThresholdLemmas

/-!
# Properties of thresholds (C16)
-/

namespace Verif.ThresholdProps

open Verif Thresholds Spec

/-- **C16 (unlisted).** An attribute without limits is accepted. -/
theorem C16_unlisted (M : Math) (getattr : String → Except Err Attr) (key : String) (limits : Limits)
    (h : ∀ p ∈ limits, p.1 ≠ key) : call M getattr key limits = (.ok true, limits) := by
  have : Dict.get? limits key = none := get?_none.2 h
  simp [call, Py.bind_run, this]

example : ∀ p ∈ ([("coverage", [("min", .num (.fin (1 / 10)))])] : Limits), p.1 ≠ "std" := by simp

/-- **C16 (absent).** An attribute which is `None`, or a method, is accepted. -/
theorem C16_absent (M : Math) (getattr : String → Except Err Attr) (key : String) (limits : Limits)
    (h : getattr key = .ok .none ∨ getattr key = .ok .callable) : call M getattr key limits = (.ok true, limits) := by
  cases hk : Dict.get? limits key with
  | none => simp [call, Py.bind_run, hk]
  | some th => rcases h with h | h <;> simp [call, Py.bind_run, hk, h]

example : (fun s => if s = "std" then Except.ok Attr.none else .error Err.attributeError) "std" = .ok .none := by simp

/-- **C16, partial.** The value of an attribute (changed by the function named under "arg", if any) is accepted exactly when
it satisfies all limits of this attribute, and the limits are not modified.  Missing: NaN, for which this is false
(`C16_nan_false`). -/
theorem C16_accepts_partial {M : Math} {getattr : String → Except Err Attr} {key : String} {limits : Limits}
    {th : Dict Lim} {v : Attr} {x : Num} (hk : Dict.get? limits key = some th) (hv : getattr key = .ok v)
    (hn : v ≠ .none) (hc : v ≠ .callable) (hx : Measured M th v x) (hx' : x ≠ .nan)
    (hl : ∀ p ∈ th, p.1 ≠ "arg" → ∃ m, LimitIs getattr p.2 m ∧ m ≠ .nan) :
    ∃ b, call M getattr key limits = (.ok b, limits) ∧
      (b = true ↔ ∀ name l m, Dict.get? th name = some l → LimitIs getattr l m → Satisfies name m x) := by
  obtain ⟨r, hr, hget⟩ := resolveAll_ok (fun p hp hpa => (hl p hp hpa).imp fun m h => h.1)
  refine ⟨accepts x r, by simp [call, Py.bind_run, hk, hv, hn, hc, measured_of hx, hr, verdict_num], ?_⟩
  have nn : ∀ name, name ≠ "arg" → ∀ m, Dict.get? r name = some m → m ≠ .nan := by
    intro name hna m hm
    obtain ⟨l, h1, h2⟩ := (hget name hna m).1 hm
    obtain ⟨m', h3, h4⟩ := hl (name, l) (get?_mem h1) hna
    exact LimitIs.unique h2 h3 ▸ h4
  rw [accepts_iff hx' (nn "min" (by decide)) (nn "max" (by decide))]
  constructor
  · rintro ⟨h1, h2, h3, h4⟩ name l m hn' hm
    have pick : ∀ s, s ≠ "arg" → name = s → Dict.get? r s = some m := by
      rintro s hs rfl
      exact (hget name hs m).2 ⟨l, hn', hm⟩
    exact ⟨fun e => h1 m (pick "min" (by decide) e), fun e => h2 m (pick "max" (by decide) e),
      fun e => h3 m (pick "equal" (by decide) e), fun e => h4 m (pick "different" (by decide) e)⟩
  · intro h
    have pick : ∀ s, s ≠ "arg" → ∀ m, Dict.get? r s = some m → Satisfies s m x := by
      intro s hs m hm
      obtain ⟨l, h1, h2⟩ := (hget s hs m).1 hm
      exact h s l m h1 h2
    exact ⟨fun m hm => (pick "min" (by decide) m hm).1 rfl, fun m hm => (pick "max" (by decide) m hm).2.1 rfl,
      fun m hm => (pick "equal" (by decide) m hm).2.2.1 rfl, fun m hm => (pick "different" (by decide) m hm).2.2.2 rfl⟩

/-- Limits for the examples: `{"prediction": {"arg": "abs", "min": 2, "max": "std"}}`. -/
def someLimits : Limits := [("prediction", [("arg", .str "abs"), ("min", .num (.fin 2)), ("max", .str "std")])]

/-- A rule with prediction -3 and standard deviation 5. -/
def someRule (s : String) : Except Err Attr :=
  if s = "prediction" then .ok (.num (.fin (-3))) else if s = "std" then .ok (.num (.fin 5)) else .error .attributeError

/-- Any functions will do. -/
def someMath : Math := ⟨fun _ => .error .valueError, .ok, .ok, fun _ => "", fun _ => .error .valueError⟩

example : Dict.get? someLimits "prediction" = some [("arg", .str "abs"), ("min", .num (.fin 2)), ("max", .str "std")] ∧
    someRule "prediction" = .ok (.num (.fin (-3))) ∧
    Measured someMath [("arg", .str "abs"), ("min", .num (.fin 2)), ("max", .str "std")] (.num (.fin (-3))) (.fin 3) ∧
    (∀ p ∈ [("arg", Lim.str "abs"), ("min", .num (.fin 2)), ("max", .str "std")], p.1 ≠ "arg" →
      ∃ m, LimitIs someRule p.2 m ∧ m ≠ .nan) ∧
    call someMath someRule "prediction" someLimits = (.ok true, someLimits) := by
  refine ⟨rfl, rfl, .inr ⟨"abs", rfl, .inl ⟨rfl, .fin (-3), rfl, by decide +kernel⟩⟩, ?_, Prod.ext (by decide +kernel) rfl⟩
  intro p hp hpa
  simp only [List.mem_cons, List.not_mem_nil, or_false] at hp
  rcases hp with rfl | rfl | rfl
  · exact absurd rfl hpa
  · exact ⟨_, .inl rfl, by simp⟩
  · exact ⟨.fin 5, .inr ⟨"std", rfl, rfl⟩, by simp⟩

/-- **C16 (other limits).** When a limit is neither a number nor the name of an attribute whose value is a number, no
answer is given: the check raises an exception. -/
theorem C16_bad_limit {M : Math} {getattr : String → Except Err Attr} {key : String} {limits : Limits} {th : Dict Lim}
    {v : Attr} (hk : Dict.get? limits key = some th) (hv : getattr key = .ok v) (hn : v ≠ .none) (hc : v ≠ .callable)
    (hl : ∃ p ∈ th, p.1 ≠ "arg" ∧ ∀ m, ¬ LimitIs getattr p.2 m) : ∃ e, call M getattr key limits = (.error e, limits) := by
  obtain ⟨e, he⟩ := resolveAll_error hl
  simp only [call, Py.bind_run, Py.get_run, hk, Py.ofExcept_run, hv, hn, hc, or_self, if_false]
  cases hm : measured M th v with
  | error e' => exact ⟨e', rfl⟩
  | ok a => exact ⟨e, by simp [he]⟩

example : ∃ p ∈ [("min", Lim.str "sign")], p.1 ≠ "arg" ∧
    ∀ m, ¬ LimitIs (fun s => if s = "sign" then .ok (.str "+") else .ok (.num (.fin 1))) p.2 m := by
  refine ⟨_, List.mem_singleton.2 rfl, by decide, ?_⟩
  rintro m (h | ⟨s, h1, h2⟩)
  · cases h
  · cases h1; simp at h2

/-- **C16 (unknown function).** When what is written under "arg" is not one of the six function names, a number for instance, no answer is
given: the check raises `ValueError`. -/
theorem C16_unknown_arg {M : Math} {getattr : String → Except Err Attr} {key : String} {limits : Limits} {th : Dict Lim}
    {v : Attr} {a : Lim} (hk : Dict.get? limits key = some th) (hv : getattr key = .ok v) (hn : v ≠ .none) (hc : v ≠ .callable)
    (ha : Dict.get? th "arg" = some a)
    (hu : ∀ name ∈ ["abs", "sqrt", "exp", "log", "str", "int"], a ≠ .str name) :
    call M getattr key limits = (.error .valueError, limits) := by
  have hm : measured M th v = .error .valueError := by
    unfold measured
    rw [ha]
    cases a with
    | num x => rfl
    | other => rfl
    | str name =>
      have h : ∀ n ∈ ["abs", "sqrt", "exp", "log", "str", "int"], name ≠ n := fun n hn e => hu n hn (by rw [e])
      simp only [List.forall_mem_cons, List.not_mem_nil, false_imp_iff, implies_true, and_true] at h
      obtain ⟨h1, h2, h3, h4, h5, h6⟩ := h
      show applyArg M name v = _
      unfold applyArg
      rw [if_neg h1, if_neg h2, if_neg h3, if_neg h4, if_neg h5, if_neg h6]
  simp [call, Py.bind_run, hk, hv, hn, hc, hm]

example : ∀ a ∈ [Lim.num (.fin 2), .str "absolute"], ∀ name ∈ ["abs", "sqrt", "exp", "log", "str", "int"], a ≠ .str name := by decide

/-- **C16 (texts).** An attribute whose value is a text, such as the class a rule predicts, can not be limited in a useful way: with a
minimum or a maximum the check raises `TypeError`; with `equal` every text is rejected, since limits are numbers; otherwise every
text is accepted. -/
theorem C16_text {M : Math} {getattr : String → Except Err Attr} {key : String} {limits : Limits} {th : Dict Lim} {v : Attr}
    {s : String} (hk : Dict.get? limits key = some th) (hv : getattr key = .ok v) (hn : v ≠ .none) (hc : v ≠ .callable)
    (hs : MeasuredText M th v s) (hl : ∀ p ∈ th, p.1 ≠ "arg" → ∃ m, LimitIs getattr p.2 m) :
    ((∃ p ∈ th, p.1 = "min" ∨ p.1 = "max") → call M getattr key limits = (.error .typeError, limits)) ∧
      ((∀ p ∈ th, p.1 ≠ "min" ∧ p.1 ≠ "max") →
        ∃ b, call M getattr key limits = (.ok b, limits) ∧ (b = true ↔ ∀ p ∈ th, p.1 ≠ "equal")) := by
  obtain ⟨r, hr, -⟩ := resolveAll_ok hl
  have e : call M getattr key limits = (verdict (.str s) r, limits) := by
    simp [call, Py.bind_run, hk, hv, hn, hc, measured_text hs, hr]
  have some_iff : ∀ name, (Dict.get? th name).isSome = true ↔ ∃ p ∈ th, p.1 = name := by
    intro name
    rw [Option.isSome_iff_ne_none, ne_eq, get?_none]
    simp
  rw [e, verdict_text, resolveAll_isSome (by decide) hr, resolveAll_isSome (by decide) hr]
  constructor
  · rintro ⟨p, hp, h⟩
    rw [if_pos]
    exact h.imp (fun h => (some_iff _).2 ⟨p, hp, h⟩) fun h => (some_iff _).2 ⟨p, hp, h⟩
  · intro h
    rw [if_neg]
    · refine ⟨_, rfl, ?_⟩
      have := resolveAll_isSome (name := "equal") (by decide) hr
      rw [Option.isNone_iff_eq_none, ← Option.not_isSome_iff_eq_none, this, Option.not_isSome_iff_eq_none, get?_none]
    · rw [some_iff, some_iff]
      rintro (⟨p, hp, h'⟩ | ⟨p, hp, h'⟩)
      · exact (h p hp).1 h'
      · exact (h p hp).2 h'

/-- A rule which predicts the class "cat" and has coverage 1/2 -/
example : let g : String → Except Err Attr := fun s => if s = "prediction" then .ok (.str "cat") else .ok (.num (.fin (1 / 2)))
    MeasuredText someMath [("equal", .str "coverage")] (.str "cat") "cat" ∧
    (∀ p ∈ [("equal", Lim.str "coverage")], p.1 ≠ "arg" → ∃ m, LimitIs g p.2 m) ∧
    call someMath g "prediction" [("prediction", [("equal", .str "coverage")])] = (.ok false, [("prediction", [("equal", .str "coverage")])]) ∧
    call someMath g "prediction" [("prediction", [("min", .str "coverage")])] = (.error .typeError, [("prediction", [("min", .str "coverage")])]) := by
  refine ⟨.inl ⟨rfl, rfl⟩, ?_, Prod.ext (by decide +kernel) rfl, Prod.ext (by decide +kernel) rfl⟩
  intro p hp _
  rw [List.mem_singleton.1 hp]
  exact ⟨.fin (1 / 2), .inr ⟨"coverage", rfl, rfl⟩⟩

/-- **C16 (NaN).** A value which is NaN is accepted unless there is a limit `equal`: no minimum and no maximum rejects it. -/
theorem C16_nan {M : Math} {getattr : String → Except Err Attr} {key : String} {limits : Limits} {th : Dict Lim} {v : Attr}
    (hk : Dict.get? limits key = some th) (hv : getattr key = .ok v) (hn : v ≠ .none) (hc : v ≠ .callable)
    (hx : Measured M th v .nan) (hl : ∀ p ∈ th, p.1 ≠ "arg" → ∃ m, LimitIs getattr p.2 m) :
    ∃ b, call M getattr key limits = (.ok b, limits) ∧ (b = true ↔ ∀ p ∈ th, p.1 ≠ "equal") := by
  obtain ⟨r, hr, -⟩ := resolveAll_ok hl
  refine ⟨_, by simp [call, Py.bind_run, hk, hv, hn, hc, measured_of hx, hr, verdict_nan]; rfl, ?_⟩
  have := resolveAll_isSome (name := "equal") (by decide) hr
  rw [Option.isNone_iff_eq_none, ← Option.not_isSome_iff_eq_none, this, Option.not_isSome_iff_eq_none, get?_none]

example : let g : String → Except Err Attr := fun _ => .ok (.num .nan)
    Measured someMath [("min", .num (.fin 1)), ("max", .num (.fin 0))] (.num .nan) .nan ∧
    (∀ p ∈ [("min", Lim.num (.fin 1)), ("max", .num (.fin 0))], p.1 ≠ "arg" → ∃ m, LimitIs g p.2 m) ∧
    call someMath g "std" [("std", [("min", .num (.fin 1)), ("max", .num (.fin 0))])] =
      (.ok true, [("std", [("min", .num (.fin 1)), ("max", .num (.fin 0))])]) := by
  refine ⟨.inl ⟨rfl, rfl⟩, ?_, Prod.ext (by decide +kernel) rfl⟩
  intro p hp _
  simp only [List.mem_cons, List.not_mem_nil, or_false] at hp
  rcases hp with rfl | rfl <;> exact ⟨_, .inl rfl⟩

/-- **C16 (limits which are NaN).** A minimum or a maximum which is NaN, for instance because it is the standard deviation of a rule with one
activated point, accepts every number; so does `different`; `equal` accepts none.  The other limits count as ever. -/
theorem C16_nan_limit {M : Math} {getattr : String → Except Err Attr} {key : String} {limits : Limits}
    {th : Dict Lim} {v : Attr} {x : Num} (hk : Dict.get? limits key = some th) (hv : getattr key = .ok v)
    (hn : v ≠ .none) (hc : v ≠ .callable) (hx : Measured M th v x) (hx' : x ≠ .nan)
    (hl : ∀ p ∈ th, p.1 ≠ "arg" → ∃ m, LimitIs getattr p.2 m) :
    ∃ b, call M getattr key limits = (.ok b, limits) ∧
      (b = true ↔ ∀ name l m, Dict.get? th name = some l → LimitIs getattr l m →
        (m ≠ .nan → Satisfies name m x) ∧ (m = .nan → name ≠ "equal")) := by
  obtain ⟨r, hr, hget⟩ := resolveAll_ok hl
  refine ⟨accepts x r, by simp [call, Py.bind_run, hk, hv, hn, hc, measured_of hx, hr, verdict_num], ?_⟩
  have beq_nan : x.beq .nan = false := by cases x <;> rfl
  rw [accepts_all_iff hx']
  constructor
  · rintro ⟨h1, h2, h3, h4⟩ name l m hn' hm
    have pick : ∀ s, s ≠ "arg" → name = s → Dict.get? r s = some m := by
      rintro s hs rfl
      exact (hget name hs m).2 ⟨l, hn', hm⟩
    refine ⟨fun hm => ⟨fun e => h1 m (pick "min" (by decide) e) hm, fun e => h2 m (pick "max" (by decide) e) hm,
      fun e => h3 m (pick "equal" (by decide) e), fun e => h4 m (pick "different" (by decide) e)⟩, ?_⟩
    rintro rfl e
    have := h3 _ (pick "equal" (by decide) e)
    rw [beq_nan] at this
    cases this
  · intro h
    have pick : ∀ s, s ≠ "arg" → ∀ m, Dict.get? r s = some m → (m ≠ .nan → Satisfies s m x) ∧ (m = .nan → s ≠ "equal") := by
      intro s hs m hm
      obtain ⟨l, h1, h2⟩ := (hget s hs m).1 hm
      exact h s l m h1 h2
    refine ⟨fun m hm hne => ((pick "min" (by decide) m hm).1 hne).1 rfl, fun m hm hne => ((pick "max" (by decide) m hm).1 hne).2.1 rfl,
      fun m hm => ?_, fun m hm => ?_⟩
    · obtain ⟨ha, hb⟩ := pick "equal" (by decide) m hm
      exact (ha fun e => hb e rfl).2.2.1 rfl
    · by_cases e : m = .nan
      · rw [e]; exact beq_nan
      · exact ((pick "different" (by decide) m hm).1 e).2.2.2 rfl

example : let g : String → Except Err Attr := fun s => if s = "std" then .ok (.num .nan) else .ok (.num (.fin 3))
    let th : Dict Lim := [("max", .str "std"), ("min", .num (.fin 2))]
    Measured someMath th (.num (.fin 3)) (.fin 3) ∧ (∀ p ∈ th, p.1 ≠ "arg" → ∃ m, LimitIs g p.2 m) ∧
    call someMath g "prediction" [("prediction", th)] = (.ok true, [("prediction", th)]) := by
  refine ⟨.inl ⟨rfl, rfl⟩, ?_, Prod.ext (by decide +kernel) rfl⟩
  intro p hp _
  simp only [List.mem_cons, List.not_mem_nil, or_false] at hp
  rcases hp with rfl | rfl
  · exact ⟨.nan, .inr ⟨"std", rfl, rfl⟩⟩
  · exact ⟨_, .inl rfl⟩

/-- **C16 (configuration).** Checking never modifies the limits, also when it raises. -/
theorem C16_unchanged (M : Math) (getattr : String → Except Err Attr) (key : String) (limits : Limits) :
    (call M getattr key limits).2 = limits := by
  unfold call
  simp only [Py.bind_run, Py.get_run]
  cases hk : Dict.get? limits key with
  | none => simp
  | some th =>
    cases hv : getattr key with
    | error e => simp [Py.bind_run, hv]
    | ok v =>
      by_cases hn : v = .callable ∨ v = .none
      · simp [Py.bind_run, hv, hn]
      · cases hm : measured M th v with
        | error e => simp [Py.bind_run, hv, hn, hm]
        | ok w => cases hr : resolveAll getattr th <;> simp [Py.bind_run, hv, hn, hm, hr]

example : call someMath someRule "prediction" [("prediction", [("min", .str "nothing")])] =
    (.error .attributeError, [("prediction", [("min", .str "nothing")])]) := Prod.ext (by decide +kernel) rfl

/-- **C16 (default).** When a file is found, coverage always has a minimum: the one of the file, else 0.05; everything else is
as in the file.  When no file is found there are no limits. -/
theorem C16_default_coverage (l : Limits) :
    (∀ c m, Dict.get? l "coverage" = some c → Dict.get? c "min" = some m → make (some l) = l) ∧
    (∀ c, Dict.get? l "coverage" = some c → Dict.get? c "min" = none →
      ∃ c', Dict.get? (make (some l)) "coverage" = some c' ∧ Dict.get? c' "min" = some (.num (.fin (1 / 20))) ∧
        ∀ k, k ≠ "min" → Dict.get? c' k = Dict.get? c k) ∧
    (Dict.get? l "coverage" = none →
      ∃ c', Dict.get? (make (some l)) "coverage" = some c' ∧ Dict.get? c' "min" = some (.num (.fin (1 / 20))) ∧
        ∀ k, k ≠ "min" → Dict.get? c' k = none) ∧
    (∀ k, k ≠ "coverage" → Dict.get? (make (some l)) k = Dict.get? l k) ∧ make none = [] := by
  refine ⟨?_, ?_, ?_, ?_, rfl⟩
  · intro c m h1 h2; simp [make, h1, h2]
  · intro c h1 h2
    exact ⟨Dict.set c "min" (.num fivePercent), by simp [make, h1, h2, get?_set_same], by simp [get?_set_same, fivePercent],
      fun k hk => get?_set_other _ _ hk⟩
  · intro h1
    refine ⟨[("min", .num fivePercent)], by simp [make, h1, get?_set_same], by simp [Dict.get?, fivePercent], ?_⟩
    intro k hk
    simp [Dict.get?, Ne.symm hk]
  · intro k hk
    unfold make
    split
    · next h => cases h
    · next h =>
      cases h
      split
      · exact get?_set_other _ _ hk
      · split
        · exact get?_set_other _ _ hk
        · rfl

example : Dict.get? (make (some [("std", [("max", .num (.fin 2))])])) "coverage" =
    some [("min", .num (.fin (1 / 20)))] := by decide +kernel

/-- **C16 is false of NaN**: a rule whose coverage is NaN passes the minimum of coverage. -/
theorem C16_nan_false :
    ∃ (M : Math) (getattr : String → Except Err Attr) (limits : Limits) (th : Dict Lim) (m : Num),
      Dict.get? limits "coverage" = some th ∧ getattr "coverage" = .ok (.num .nan) ∧ Measured M th (.num .nan) .nan ∧
      Dict.get? th "min" = some (.num m) ∧ ¬ Satisfies "min" m .nan ∧
      call M getattr "coverage" limits = (.ok true, limits) := by
  refine ⟨someMath, fun _ => .ok (.num .nan), make (some []), [("min", .num (.fin (1 / 20)))], .fin (1 / 20), rfl, rfl,
    .inl ⟨rfl, rfl⟩, rfl, ?_, Prod.ext (by decide +kernel) rfl⟩
  intro h
  have := h.1 rfl
  simp [Num.le] at this

end Verif.ThresholdProps
