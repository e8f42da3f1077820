import Verif.RepeatLemmas
import Verif.CodecLemmas
import Verif.FigureProps

/-!
# C76: repeating every point leaves the fitted rule as it is
-/

namespace Verif.RepeatProps

open Verif Rule Spec RFun Repeat RuleStatProps

/-- The activation vectors of two fits with features -/
theorem uses_fits {E : Env} {k : Nat} {xs xs' : Xs} {y y' : List β} (h : Repeated k xs y xs' y') {ys ys' : List Label} {force : Bool}
    {kw : Kw} {r r1 r2 : Rule} (hx : xs.length ≠ 0) (hx' : xs'.length ≠ 0) (h1 : fit E ys (some xs) force kw r = (.ok (), r1))
    (h2 : fit E ys' (some xs') force kw r = (.ok (), r2)) :
    ∃ u u' : List Bool, Uses E r (some xs) (arr u) ∧ Uses E r (some xs') (arr u') ∧ Pairs k u y u' y' := by
  obtain ⟨a, _, _, ha, -, -, -⟩ := fit_steps (show Runs r (some xs) from hx) h1
  obtain ⟨b, _, _, hb, -, -, -⟩ := fit_steps (show Runs r (some xs') from hx') h2
  obtain ⟨v, hv, -⟩ := calcActivation_uses ha hx
  obtain ⟨v', hv', -⟩ := calcActivation_uses hb hx'
  obtain ⟨u, u', rfl, rfl, hp⟩ := uses_both h hv hv'
  exact ⟨u, u', hv, hv', hp⟩

theorem points {k : Nat} (hk : 0 < k) {xs xs' : Xs} {y y' : List β} (h : Repeated k xs y xs' y') (hx : xs.length ≠ 0) : xs'.length ≠ 0 := by
  have := (pairs_of h).left.length_eq
  rw [copies_length] at this
  cases xs <;> cases xs' <;> simp_all [Xs.length, RowOrder.rowsOf] <;> omega

/-- **C76 (coverage).**  Fitting a rule to data in which every point occurs `k` times, in whatever order, gives it the same coverage
as fitting it to the data where every point occurs once. -/
theorem C76_coverage {E : Env} {k : Nat} (hk : 0 < k) {xs xs' : Xs} {y y' : List Label} (h : Repeated k xs y xs' y') {force : Bool} {kw : Kw}
    {r r1 r2 : Rule} (hx : xs.length ≠ 0) (h1 : fit E y (some xs) force kw r = (.ok (), r1))
    (h2 : fit E y' (some xs') force kw r = (.ok (), r2)) : r2.getCoverage = r1.getCoverage := by
  have hx' := points hk h hx
  obtain ⟨u, u', hu, hu', hp⟩ := uses_fits h hx hx' h1 h2
  have hne : u ≠ [] := by
    rintro rfl
    have := (pairs_of h).1
    have h3 := hp.1
    cases xs <;> simp_all [Xs.length, RowOrder.rowsOf]
  have hne' : u' ≠ [] := by
    rintro rfl
    have := hp.left.length_eq
    rw [copies_length] at this
    have : 0 < k * u.length := Nat.mul_pos hk (List.length_pos_iff.2 hne)
    simp_all
  rw [FigureProps.C37_fit hx h1 hu hne, FigureProps.C37_fit hx' h2 hu' hne', hp.left.length_eq, hp.left.count_eq, copies_length, copies_count]
  have hk' : (k : Rat) ≠ 0 := by exact_mod_cast hk.ne'
  push_cast
  rw [mul_div_mul_left _ _ hk']

/-- **C76 (regression).**  It also predicts the same, with the same sign. -/
theorem C76_regression {E : Env} {k : Nat} (hk : 0 < k) {xs xs' : Xs} {y y' : List (Option Rat)} (h : Repeated k xs y xs' y') {force : Bool}
    {kw : Kw} {r r1 r2 : Rule} (hE : E.kind = .regression) (hx : xs.length ≠ 0) (h1 : fit E (targets y) (some xs) force kw r = (.ok (), r1))
    (h2 : fit E (targets y') (some xs') force kw r = (.ok (), r2)) (hg : r1.good = true ∧ r2.good = true ∨ force = true) :
    r2.prediction = r1.prediction ∧ r2.sign = r1.sign := by
  have hx' := points hk h hx
  obtain ⟨u, u', hu, hu', hp⟩ := uses_fits h hx hx' h1 h2
  have hk' : (k : Rat) ≠ 0 := by exact_mod_cast hk.ne'
  have e : (present (activated u' y')).Perm (copies k (present (activated u y))) := by
    unfold present
    rw [← copies_filterMap]
    exact hp.activated.filterMap _
  obtain ⟨a1, a2⟩ := C19_prediction hE (show Runs r (some xs) from hx) hu hp.1.symm h1 (hg.imp_left And.left)
  obtain ⟨b1, b2⟩ := C19_prediction hE (show Runs r (some xs') from hx') hu' hp.2.1.symm h2 (hg.imp_left And.right)
  by_cases hn : present (activated u y) = []
  · have hn' : present (activated u' y') = [] := by
      rw [hn] at e
      simpa [copies] using e
    obtain ⟨p, q⟩ := a2 hn
    obtain ⟨p', q'⟩ := b2 hn'
    rw [p, p', q, q']
    exact ⟨rfl, rfl⟩
  · have hn' : present (activated u' y') ≠ [] := by
      intro e'
      rw [e'] at e
      exact hn ((copies_nil hk).1 e.nil_eq.symm)
    obtain ⟨m, p, hm, -, -, s1, s2⟩ := a1 hn
    obtain ⟨m', p', hm', -, -, s1', s2'⟩ := b1 hn'
    have hpos : ((present (activated u y)).length : Rat) ≠ 0 := by simpa using hn
    rw [e.length_eq, e.sum_eq, copies_length, copies_sum, ← hm] at hm'
    push_cast at hm'
    have hmm : m' = m := by
      have : (k : Rat) * (present (activated u y)).length * (m' - m) = 0 := by linarith
      rcases mul_eq_zero.1 this with h | h
      · exact absurd h (mul_ne_zero hk' hpos)
      · linarith
    subst hmm
    refine ⟨by rw [p, p'], ?_⟩
    rcases lt_or_ge m' 0 with h | h
    · rw [s1 h, s1' h]
    · rw [s2 h, s2' h]

/-- **C76 (classes).**  A classification rule gets the same frequencies of classes, hence predicts the same class. -/
theorem C76_classes {E : Env} {k : Nat} (hk : 0 < k) {xs xs' : Xs} {y y' : List Label} (h : Repeated k xs y xs' y') {force : Bool}
    {kw : Kw} {r r1 r2 : Rule} (hE : E.kind = .classification) (hx : xs.length ≠ 0) (ht : SameType y)
    (h1 : fit E y (some xs) force kw r = (.ok (), r1))
    (h2 : fit E y' (some xs') force kw r = (.ok (), r2)) (hg : r1.good = true ∧ r2.good = true ∨ force = true) :
    r2.prediction = r1.prediction ∧ r2.getPrediction E = r1.getPrediction E := by
  have hx' := points hk h hx
  obtain ⟨u, u', hu, hu', hp⟩ := uses_fits h hx hx' h1 h2
  have hk' : (k : Rat) ≠ 0 := by exact_mod_cast hk.ne'
  have sub : ∀ c ∈ activated u y, c ∈ y := by
    intro c hc
    obtain ⟨q, hq, rfl⟩ := List.mem_map.1 hc
    exact (List.of_mem_zip (List.mem_of_mem_filter hq)).2
  have hm : ∀ c, c ∈ activated u' y' ↔ c ∈ activated u y := fun c => by rw [hp.activated.mem_iff, mem_copies hk]
  have ht1 : SameType (activated u y) := ht.imp (fun h c hc => h c (sub c hc)) fun h c hc => h c (sub c hc)
  have ht2 : SameType (activated u' y') := ht1.imp (fun h c hc => h c ((hm c).1 hc)) fun h c hc => h c ((hm c).1 hc)
  obtain ⟨p, e1, s1, m1, f1, -⟩ := C20_frequencies hE (show Runs r (some xs) from hx) hu hp.1.symm ht1 h1 (hg.imp_left And.left)
  obtain ⟨p', e2, s2, m2, f2, -⟩ := C20_frequencies hE (show Runs r (some xs') from hx') hu' hp.2.1.symm ht2 h2 (hg.imp_left And.right)
  have hfreq : ∀ c, frequency c (activated u' y') = frequency c (activated u y) := by
    intro c
    unfold frequency
    rw [hp.activated.length_eq, hp.activated.count_eq, copies_length, copies_count]
    push_cast
    rw [mul_div_mul_left _ _ hk']
  have hasym : ∀ a b : Label, ClassLt a b → ClassLt b a → False := by
    intro a b h h'
    cases h with
    | num h => cases h' with | num h' => exact lt_asymm h h'
    | text h => cases h' with | text h' => exact String.lt_asymm h h'
  have nodup : ∀ {q : List (Label × Rat)}, (q.map (·.1)).Pairwise ClassLt → (q.map (·.1)).Nodup := fun h =>
    h.imp fun {a b} hab (e : a = b) => by
      subst e
      exact hab.irrefl
  have names : p'.map (·.1) = p.map (·.1) := by
    refine List.Perm.eq_of_pairwise (le := ClassLt) (fun a b _ _ h h' => (hasym a b h h').elim) s2 s1 ?_
    rw [List.perm_ext_iff_of_nodup (nodup s2) (nodup s1)]
    intro c
    rw [m1, m2, hm]
  have full : ∀ {q : List (Label × Rat)} {l : List Label}, (∀ x ∈ q, x.2 = frequency x.1 l) → q = (q.map (·.1)).map fun c => (c, frequency c l) := by
    intro q l hq
    rw [List.map_map]
    have : q.map id = q.map ((fun c => (c, frequency c l)) ∘ fun x => x.1) := List.map_congr_left fun x hx => Prod.ext rfl (hq x hx)
    rwa [List.map_id] at this
  have hpp : p' = p := by
    rw [full fun x hx => (f2 x hx).1, full fun x hx => (f1 x hx).1, names]
    simp only [hfreq]
  subst hpp
  refine ⟨by rw [e1, e2], ?_⟩
  unfold getPrediction
  rw [e1, e2]

/-- **C76 (standard deviation).**  The standard deviation changes, since the sum of squares is divided by the number of points minus
one: of `n` targets, each occurring `k` times, it is the root of the variance multiplied by `k (n - 1) / (k n - 1)`. -/
theorem C76_std {E : Env} {k : Nat} (hk : 0 < k) {xs xs' : Xs} {y y' : List (Option Rat)} (h : Repeated k xs y xs' y') {force : Bool}
    {kw : Kw} {r r1 r2 : Rule} (hE : E.kind = .regression) (hx : xs.length ≠ 0) (h1 : fit E (targets y) (some xs) force kw r = (.ok (), r1))
    (h2 : fit E (targets y') (some xs') force kw r = (.ok (), r2)) (hg : r1.good = true ∧ r2.good = true ∨ force = true)
    {u : List Bool} (hu : r.evaluateActivation E xs = .ok (arr u)) (hn : 2 ≤ (present (activated u y)).length) :
    r1.std = .num (E.sqrt (.fin (varianceOf (present (activated u y))))) ∧
      r2.std = .num (E.sqrt (.fin (varianceOf (present (activated u y)) *
        (k * ((present (activated u y)).length - 1) / (k * (present (activated u y)).length - 1))))) := by
  have hx' := points hk h hx
  obtain ⟨v, v', hv, hv', hp⟩ := uses_fits h hx hx' h1 h2
  have ev : v = u := by
    have : arr v = arr u := Except.ok.inj ((show r.evaluateActivation E xs = .ok (arr v) from hv).symm.trans hu)
    exact Codec.arr_injective this
  subst ev
  have hpres : (present (activated v' y')).Perm (copies k (present (activated v y))) := by
    unfold present
    rw [← copies_filterMap]
    exact hp.activated.filterMap _
  have std : ∀ {xs : Xs} {y : List (Option Rat)} {r' : Rule} {w : List Bool}, xs.length ≠ 0 → Uses E r (some xs) (arr w) → y.length = w.length →
      fit E (targets y) (some xs) force kw r = (.ok (), r') → (r'.good = true ∨ force = true) → 2 ≤ (present (activated w y)).length →
      r'.std = .num (E.sqrt (.fin (varianceOf (present (activated w y))))) := by
    intro xs y r' w hx hu hl h hg hn
    obtain ⟨z, ys, m, var, hz, hys, -, hvar, hd⟩ := fit_regression hE (show Runs r (some xs) from hx) h hg
    have ez : z = arr w := Except.ok.inj ((show r.evaluateActivation E xs = .ok z from hz).symm.trans hu)
    subst ez
    rw [targets, numbers_ofOption] at hys
    cases hys
    have hle : (present (activated w y)).length ≤ (activated w y).length := List.length_filterMap_le _ _
    rw [conditionalVar_spec hl, if_neg (by omega), if_neg (by omega)] at hvar
    cases hvar
    exact congrArg Rule.std hd
  refine ⟨std hx hv hp.1.symm h1 (hg.imp_left And.left) hn, ?_⟩
  have hn' : 2 ≤ (present (activated v' y')).length := by
    rw [hpres.length_eq, copies_length]
    nlinarith
  rw [std hx' hv' hp.2.1.symm h2 (hg.imp_left And.right) hn']
  congr 3
  have hk' : (k : Rat) ≠ 0 := by exact_mod_cast hk.ne'
  have hmean : meanOf (present (activated v' y')) = meanOf (present (activated v y)) := by
    unfold meanOf
    rw [hpres.sum_eq, hpres.length_eq, copies_sum, copies_length]
    push_cast
    rw [mul_div_mul_left _ _ hk']
  unfold varianceOf
  rw [hmean, (hpres.map _).sum_eq, hpres.length_eq, copies_map, copies_sum, copies_length]
  have h1 : ((present (activated v y)).length : Rat) - 1 ≠ 0 := by
    have : (2 : Rat) ≤ (present (activated v y)).length := by exact_mod_cast hn
    linarith
  push_cast
  field_simp

/-- **C76 (errors).**  Mean squared and mean absolute errors, and the success rate, of predictions and targets which all occur `k` times -/
theorem C76_errors {k : Nat} (hk : 0 < k) {pred pred' y y' : List (Option Rat)} (hl : pred.length = y.length) (hl' : pred'.length = y'.length)
    (h : (pred'.zip y').Perm (copies k (pred.zip y))) :
    mse (pred'.map Num.ofOption) (y'.map Num.ofOption) = mse (pred.map Num.ofOption) (y.map Num.ofOption) ∧
      mae (pred'.map Num.ofOption) (y'.map Num.ofOption) = mae (pred.map Num.ofOption) (y.map Num.ofOption) := by
  have hb : (both pred' y').Perm (copies k (both pred y)) := by
    unfold both
    rw [← copies_filterMap]
    exact h.filterMap _
  have hk' : (k : Rat) ≠ 0 := by exact_mod_cast hk.ne'
  have key : ∀ (f : Rat × Rat → Rat) {q q' : Rat}, both pred y ≠ [] → q * (both pred y).length = ((both pred y).map f).sum →
      q' * (both pred' y').length = ((both pred' y').map f).sum → q' = q := by
    intro f q q' hne hq hq'
    have hpos : ((both pred y).length : Rat) ≠ 0 := by simpa using hne
    rw [hb.length_eq, (hb.map f).sum_eq, copies_map, copies_length, copies_sum, ← hq] at hq'
    push_cast at hq'
    have : (k : Rat) * (both pred y).length * (q' - q) = 0 := by linarith
    rcases mul_eq_zero.1 this with h | h
    · exact absurd h (mul_ne_zero hk' hpos)
    · linarith
  have hnil : both pred' y' = [] ↔ both pred y = [] := by
    rw [← copies_nil hk (l := both pred y)]
    exact ⟨fun e => by rw [e] at hb; exact hb.nil_eq.symm, fun e => by rw [e] at hb; exact hb.eq_nil⟩
  obtain ⟨a1, a2, -⟩ := MeasureProps.C33_mse pred y
  obtain ⟨b1, b2, -⟩ := MeasureProps.C33_mse pred' y'
  obtain ⟨c1, c2, -⟩ := MeasureProps.C33_mae pred y
  obtain ⟨d1, d2, -⟩ := MeasureProps.C33_mae pred' y'
  by_cases hne : both pred y = []
  · exact ⟨by rw [a2 hl hne, b2 hl' (hnil.2 hne)], by rw [c2 hl hne, d2 hl' (hnil.2 hne)]⟩
  · have hne' : both pred' y' ≠ [] := fun e => hne (hnil.1 e)
    obtain ⟨q, e, hq, -⟩ := a1 hl hne
    obtain ⟨q', e', hq', -⟩ := b1 hl' hne'
    obtain ⟨t, g, ht, -⟩ := c1 hl hne
    obtain ⟨t', g', ht', -⟩ := d1 hl' hne'
    exact ⟨by rw [e, e', key _ hne hq hq'], by rw [g, g', key _ hne ht ht']⟩

/-- **C76 (success rate).** -/
theorem C76_success_rate {k : Nat} (hk : 0 < k) {p : Label} {y y' : List Label} (h : y'.Perm (copies k y)) :
    successRate p y' = successRate p y := by
  have hk' : (k : Rat) ≠ 0 := by exact_mod_cast hk.ne'
  rw [RowOrder.successRate_order h]
  unfold successRate
  rw [copies_length, copies_filter, copies_length]
  by_cases h0 : y.length = 0
  · simp [h0]
  · rw [if_neg h0, if_neg (by positivity)]
    push_cast
    rw [mul_div_mul_left _ _ hk']

/-- Twice the four points of `someXs`, in another order -/
def twiceXs : Xs :=
  match RuleProps.someXs with
  | .arr m => .arr ⟨m.ncols, m.rows.reverse ++ m.rows⟩
  | .frame f => .frame ⟨f.columns, f.rows.reverse ++ f.rows⟩

theorem twice {β : Type} {a b c d : β} : Repeated 2 RuleProps.someXs [a, b, c, d] twiceXs [d, c, b, a, a, b, c, d] := by
  refine ⟨rfl, rfl, rfl, ?_⟩
  show List.Perm (([_, _, _, _] : List (List Num × β)).reverse ++ [_, _, _, _]) ([_, _, _, _] ++ ([_, _, _, _] ++ []))
  rw [List.append_nil]
  exact (List.reverse_perm _).append_right _

example :
    let E := RuleProps.someEnv .regression
    let r := (make E RuleProps.someCond none).2
    let y : List (Option Rat) := [some (-1), none, some 10, some (-3)]
    let y' : List (Option Rat) := [some (-3), some 10, none, some (-1), some (-1), none, some 10, some (-3)]
    let f := fit E (targets y) (some RuleProps.someXs) false {} r
    let g := fit E (targets y') (some twiceXs) false {} r
    f.1 = .ok () ∧ g.1 = .ok () ∧ f.2.good = true ∧ g.2.good = true ∧ g.2.prediction = .label (.num (.fin (-2))) ∧
      g.2.prediction = f.2.prediction ∧ g.2.sign = f.2.sign := by
  intro E r y y' f g
  have h1 : f.1 = .ok () := by decide +kernel
  have h2 : g.1 = .ok () := by decide +kernel
  have h3 : f.2.good = true := by decide +kernel
  have h4 : g.2.good = true := by decide +kernel
  exact ⟨h1, h2, h3, h4, by decide +kernel, C76_regression (by decide) twice rfl (by decide +kernel) (Prod.ext h1 rfl) (Prod.ext h2 rfl)
    (.inl ⟨h3, h4⟩)⟩

/-- The variance of -1 and -3 is 2, that of -1, -1, -3 and -3 is 4/3. -/
example :
    let E := RuleProps.someEnv .regression
    let r := (make E RuleProps.someCond none).2
    let y : List (Option Rat) := [some (-1), none, some 10, some (-3)]
    r.evaluateActivation E RuleProps.someXs = .ok (arr [true, true, false, true]) ∧
      varianceOf (present (activated [true, true, false, true] y)) = 2 ∧
      varianceOf (present (activated [true, true, false, true] y)) * ((2 : Nat) * ((2 : Nat) - 1) / ((2 : Nat) * (2 : Nat) - 1)) = 4 / 3 := by
  refine ⟨?_, ?_, ?_⟩ <;> decide +kernel

example :
    let E := RuleProps.someEnv .classification
    let r := (make E RuleProps.someCond none).2
    let y : List Label := [.text "b", .text "a", .text "c", .text "b"]
    let y' : List Label := [.text "b", .text "c", .text "a", .text "b", .text "b", .text "a", .text "c", .text "b"]
    let f := fit E y (some RuleProps.someXs) false {} r
    let g := fit E y' (some twiceXs) false {} r
    f.1 = .ok () ∧ g.1 = .ok () ∧ f.2.good = true ∧ g.2.good = true ∧ g.2.prediction = .probs [(.text "a", 1 / 3), (.text "b", 2 / 3)] ∧
      g.2.prediction = f.2.prediction ∧ g.2.getCoverage = f.2.getCoverage := by
  intro E r y y' f g
  have h1 : f.1 = .ok () := by decide +kernel
  have h2 : g.1 = .ok () := by decide +kernel
  have h3 : f.2.good = true := by decide +kernel
  have h4 : g.2.good = true := by decide +kernel
  exact ⟨h1, h2, h3, h4, by decide +kernel,
    (C76_classes (by decide) twice rfl (by decide +kernel) (.inr (by simp [y])) (Prod.ext h1 rfl) (Prod.ext h2 rfl) (.inl ⟨h3, h4⟩)).1,
    C76_coverage (by decide) twice (by decide +kernel) (Prod.ext h1 rfl) (Prod.ext h2 rfl)⟩

example : mse ([some 1, none, some 1, none].map Num.ofOption) ([some 3, some 2, some 3, some 2].map Num.ofOption) = .ok (.fin 4) ∧
    mse ([some 1, none].map Num.ofOption) ([some 3, some 2].map Num.ofOption) = .ok (.fin 4) ∧
    successRate (.text "a") (copies 2 [.text "a", .text "b", .text "a"]) = .fin (2 / 3) := by
  decide +kernel

end Verif.RepeatProps
