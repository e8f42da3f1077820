import Verif.RoundedVoteSpec
import Verif.RoundedLemmas
import Verif.ClassVoteLemmas

/-!
# Lemmas about predictions computed with rounding
-/

namespace Verif.Rounded

open Spec

variable {A : Machine} {α : Type} {n : Nat}

/-! ## Vectors -/

theorem act_eq {rules : List (Voter α)} (h : Ballot A n rules) {v : Voter α} (hv : v ∈ rules) :
    v.act = (List.range n).map fun i => if v.on i then 1 else 0 := by
  apply List.ext_getElem
  · simp [h.length v hv]
  · intro i h1 h2
    have hb := h.binary v hv v.act[i] (List.getElem_mem h1)
    simp only [List.getElem_map, List.getElem_range, Voter.on, List.getElem?_eq_getElem h1]
    rcases hb with hb | hb <;> simp [hb]

theorem scaled_act {rules : List (Voter α)} (h : Ballot A n rules) {v : Voter α} (hv : v ∈ rules) (x : Rat) :
    scaled A v.act x = (List.range n).map fun i => if v.on i then A.fl x else 0 := by
  rw [scaled, act_eq h hv, List.map_map]
  apply List.map_congr_left
  intro i _
  simp only [Function.comp]
  split <;> simp [fl_zero]

theorem weightOf_wt {v : Voter α} : weightOf v.weight = if v.wt = 0 then none else some v.wt := by
  cases hw : v.weight with
  | none => simp [weightOf, Voter.wt, hw]
  | some x => simp [weightOf, Voter.wt, hw]

theorem wt_nonneg {rules : List (Voter α)} (h : Ballot A n rules) {v : Voter α} (hv : v ∈ rules) : 0 ≤ v.wt := by
  cases hw : v.weight with
  | none => simp [Voter.wt, hw]
  | some x => simpa [Voter.wt, hw] using (h.weight v hv x hw).1

theorem wt_float {rules : List (Voter α)} (h : Ballot A n rules) {v : Voter α} (hv : v ∈ rules) : A.fl v.wt = v.wt := by
  cases hw : v.weight with
  | none => simp [Voter.wt, hw, fl_zero]
  | some x => simpa [Voter.wt, hw] using (h.weight v hv x hw).2

theorem Ballot.tail {v : Voter α} {rules : List (Voter α)} (h : Ballot A n (v :: rules)) : Ballot A n rules :=
  ⟨h.points, fun v hv => h.length v (by simp [hv]), fun v hv => h.binary v (by simp [hv]), fun v hv => h.weight v (by simp [hv])⟩

/-- What a rule adds at a point -/
def termAt (A : Machine) (i : Nat) (v : Voter Rat) : Rat := if v.on i then A.fl (v.pred * v.wt) else 0

/-- The weight it adds -/
def wtAt (i : Nat) (v : Voter α) : Rat := if v.on i then v.wt else 0

theorem inOrder_append (fl : Rat → Rat) {l : List Rat} (h : l ≠ []) (x : Rat) : inOrder fl (l ++ [x]) = fl (inOrder fl l + x) := by
  cases l with
  | nil => exact absurd rfl h
  | cons y l => simp [inOrder]

/-- Zero is missing. -/
def toOpt (s : Rat) : Option Rat := if s = 0 then none else some s

theorem toOpt_getD (s : Rat) : (toOpt s).getD 0 = s := by
  unfold toOpt; split <;> simp_all

/-- The state of the loop after the rules `done` -/
def stateOf (A : Machine) (n : Nat) (done : List (Voter Rat)) : List (Option Rat) × List Rat :=
  ((List.range n).map fun i => toOpt (inOrder A.fl (done.map (termAt A i))), (List.range n).map fun i => inOrder A.fl (done.map (wtAt i)))

theorem step_ignored {v : Voter Rat} (hw : v.wt = 0) (acc) : weightedStep A acc v = .ok acc := by
  simp [weightedStep, weightOf_wt, hw]

theorem length_ne {rules : List (Voter α)} (h : Ballot A n rules) {v : Voter α} (hv : v ∈ rules) : ¬ v.act.length = 0 := by
  rw [h.length v hv]; exact h.points.ne'

theorem step_first {rules : List (Voter Rat)} (h : Ballot A n rules) {v : Voter Rat} (hv : v ∈ rules) (hp : A.fl v.pred = v.pred)
    (hp0 : v.pred ≠ 0) (hw : v.wt ≠ 0) : weightedStep A none v = .ok (some (stateOf A n [v])) := by
  unfold weightedStep
  rw [weightOf_wt, if_neg hw]
  simp only
  rw [if_neg (length_ne h hv), scaled_act h hv, wt_float h hv]
  simp only [stateOf, List.map_cons, List.map_nil, inOrder, List.foldl_nil]
  congr 3
  rw [act_eq h hv, List.map_map]
  apply List.map_congr_left
  intro i _
  simp only [Function.comp, termAt]
  cases v.on i
  · simp [toOpt]
  · have : A.fl (v.pred * v.wt) ≠ 0 := by rw [ne_eq, fl_eq_zero]; exact mul_ne_zero hp0 hw
    simp [toOpt, this, hp]

theorem step_next {rules : List (Voter Rat)} (h : Ballot A n rules) {v : Voter Rat} (hv : v ∈ rules) (hp : A.fl v.pred = v.pred)
    (hw : v.wt ≠ 0) {done : List (Voter Rat)} (hd : done ≠ []) :
    weightedStep A (some (stateOf A n done)) v = .ok (some (stateOf A n (done ++ [v]))) := by
  unfold weightedStep
  rw [weightOf_wt, if_neg hw]
  simp only
  rw [if_neg (length_ne h hv), scaled_act h hv, scaled_act h hv, wt_float h hv, hp]
  have h1 : accumulate A (stateOf A n done).1 (((List.range n).map fun i => if v.on i then v.pred else 0).map fun q => A.fl (q * v.wt)) =
      .ok (stateOf A n (done ++ [v])).1 := by
    unfold accumulate
    rw [if_neg, if_pos (by simp [stateOf])]
    · simp only [stateOf, List.map_map]
      rw [Vote.zipWith_range]
      congr 1
      apply List.map_congr_left
      intro i _
      simp only [toOpt_getD, List.map_append, List.map_cons, List.map_nil, Function.comp]
      rw [inOrder_append _ (by simpa using hd)]
      have : A.fl ((if v.on i = true then v.pred else 0) * v.wt) = termAt A i v := by
        unfold termAt; split <;> simp [fl_zero]
      rw [this]
      rfl
    · simp only [stateOf, List.any_map, List.any_eq_true, not_exists, not_and, decide_eq_true_eq, Function.comp]
      intro i _ e
      unfold toOpt at e
      split at e
      · cases e
      · next h0 => exact h0 (Option.some.inj e)
  have h2 : addTo A (stateOf A n done).2 ((List.range n).map fun i => if v.on i then v.wt else 0) = .ok (stateOf A n (done ++ [v])).2 := by
    unfold addTo
    rw [if_pos (by simp [stateOf])]
    simp only [stateOf]
    rw [Vote.zipWith_range]
    congr 1
    apply List.map_congr_left
    intro i _
    simp only [List.map_append, List.map_cons, List.map_nil]
    rw [inOrder_append _ (by simpa using hd)]
    rfl
  show (do
    let cum ← accumulate A (stateOf A n done).1 _
    let cumW ← addTo A (stateOf A n done).2 _
    Except.ok (some (cum, cumW))) = _
  rw [h1, h2]
  rfl

/-- The rules which have a weight -/
def weighty (rules : List (Voter α)) : List (Voter α) := rules.filter fun v => v.wt ≠ 0

theorem loop_next {rules : List (Voter Rat)} (h : Ballot A n rules) (hp : ∀ v ∈ rules, A.fl v.pred = v.pred) {done : List (Voter Rat)}
    (hd : done ≠ []) : rules.foldlM (weightedStep A) (some (stateOf A n done)) = .ok (some (stateOf A n (done ++ weighty rules))) := by
  induction rules generalizing done with
  | nil => simp [weighty]; rfl
  | cons v rules ih =>
    rw [List.foldlM_cons]
    by_cases hw : v.wt = 0
    · rw [step_ignored hw]
      have : weighty (v :: rules) = weighty rules := by simp [weighty, hw]
      rw [this]
      exact ih h.tail (fun v hv => hp v (by simp [hv])) hd
    · rw [step_next h (by simp) (hp v (by simp)) hw hd]
      have : weighty (v :: rules) = v :: weighty rules := by simp [weighty, hw]
      rw [this]
      have := ih h.tail (fun v hv => hp v (by simp [hv])) (done := done ++ [v]) (by simp)
      rw [List.append_assoc, List.singleton_append] at this
      exact this

theorem loop_all {rules : List (Voter Rat)} (h : Ballot A n rules) (hp : ∀ v ∈ rules, A.fl v.pred = v.pred)
    (hp0 : ∀ v, rules.find? (fun v => v.wt ≠ 0) = some v → v.pred ≠ 0) (hne : weighty rules ≠ []) :
    rules.foldlM (weightedStep A) none = .ok (some (stateOf A n (weighty rules))) := by
  induction rules with
  | nil => exact absurd rfl hne
  | cons v rules ih =>
    rw [List.foldlM_cons]
    by_cases hw : v.wt = 0
    · rw [step_ignored hw]
      have e : weighty (v :: rules) = weighty rules := by simp [weighty, hw]
      rw [e] at hne ⊢
      exact ih h.tail (fun v hv => hp v (by simp [hv])) (fun v hv => hp0 v (by simpa [hw] using hv)) hne
    · rw [step_first h (by simp) (hp v (by simp)) (hp0 v (by simp [hw])) hw]
      have e : weighty (v :: rules) = [v] ++ weighty rules := by simp [weighty, hw]
      rw [e]
      exact loop_next h.tail (fun v hv => hp v (by simp [hv])) (by simp)

/-- The prediction, in terms of rounded sums -/
theorem weightedRegressor_eq {rules : List (Voter Rat)} (h : Ballot A n rules) (hp : ∀ v ∈ rules, A.fl v.pred = v.pred)
    (hp0 : ∀ v, rules.find? (fun v => v.wt ≠ 0) = some v → v.pred ≠ 0) (hne : weighty rules ≠ []) :
    weightedRegressor A rules = .ok ((List.range n).map fun i =>
      quotient A (toOpt (inOrder A.fl ((weighty rules).map (termAt A i)))) (inOrder A.fl ((weighty rules).map (wtAt i)))) := by
  have h0 : rules.length ≠ 0 := by
    intro e
    rw [List.length_eq_zero_iff] at e
    subst e
    exact hne rfl
  unfold weightedRegressor
  rw [if_neg h0, loop_all h hp hp0 hne]
  simp only [bind, Except.bind]
  rw [if_pos (by simp [stateOf])]
  simp only [stateOf]
  rw [Vote.zipWith_range]

/-! ## Sums over active rules -/

theorem overActive_map (rules : List (Voter α)) (f : Voter α → Rat) (i : Nat) :
    overActive rules f i = (rules.map fun v => if v.on i then f v else 0).sum := by
  induction rules with
  | nil => rfl
  | cons v rules ih =>
    simp only [overActive] at ih ⊢
    rw [List.map_cons, List.sum_cons, ← ih]
    cases hv : v.on i <;> simp [hv]

/-- Rules which add nothing can be left out. -/
theorem overActive_filter (rules : List (Voter α)) (f : Voter α → Rat) (i : Nat) (p : Voter α → Bool)
    (h : ∀ v ∈ rules, p v = false → v.on i = true → f v = 0) : overActive (rules.filter p) f i = overActive rules f i := by
  rw [overActive_map, overActive_map]
  induction rules with
  | nil => rfl
  | cons v rules ih =>
    rw [List.map_cons, List.sum_cons, ← ih fun v hv => h v (by simp [hv])]
    cases hp : p v
    · rw [List.filter_cons_of_neg (by simp [hp])]
      have := h v (by simp) hp
      split
      · rw [this (by assumption), zero_add]
      · rw [zero_add]
    · rw [List.filter_cons_of_pos hp, List.map_cons, List.sum_cons]

theorem adds_error {ι : Type} {z : List ι} {f g : ι → Rat} {d : Nat} {s : Rat} (h : AddsUp A.fl d (z.map f) s)
    (hfg : ∀ i ∈ z, |f i - g i| ≤ A.u * |g i|) :
    |s - (z.map g).sum| ≤ ((1 + A.u) ^ z.length - 1) * (z.map fun i => |g i|).sum := by
  have hu := A.u_nonneg
  have he := h.error
  rw [List.map_map] at he
  have hlt := h.lt
  rw [List.length_map] at hlt
  have hG : 0 ≤ (z.map fun i => |g i|).sum := by
    apply List.sum_nonneg
    rw [List.forall_mem_map]
    exact fun i _ => abs_nonneg _
  have k1 : ∀ z : List ι, (∀ i ∈ z, |f i - g i| ≤ A.u * |g i|) → |(z.map f).sum - (z.map g).sum| ≤ A.u * (z.map fun i => |g i|).sum ∧
      (z.map (abs ∘ f)).sum ≤ (1 + A.u) * (z.map fun i => |g i|).sum := by
    intro z
    induction z with
    | nil => simp
    | cons i z ih =>
      intro hz
      have h1 := hz i (by simp)
      obtain ⟨h2, h3⟩ := ih fun j hj => hz j (by simp [hj])
      simp only [List.map_cons, List.sum_cons, Function.comp] at h3 ⊢
      constructor
      · rw [show f i + (z.map f).sum - (g i + (z.map g).sum) = (f i - g i) + ((z.map f).sum - (z.map g).sum) by ring]
        exact (abs_add_le _ _).trans (by linarith)
      · have := abs_add_le (f i - g i) (g i)
        rw [sub_add_cancel] at this
        linarith
  obtain ⟨h1, h2⟩ := k1 z hfg
  set G := (z.map fun i => |g i|).sum
  have hP : (1 + A.u) ^ d * (1 + A.u) ≤ (1 + A.u) ^ z.length := by
    rw [← pow_succ]
    exact pow_le_pow_right₀ (by linarith) hlt
  have h3 := one_le_growth (A := A) d
  have h4 := abs_add_le (s - (z.map f).sum) ((z.map f).sum - (z.map g).sum)
  rw [sub_add_sub_cancel] at h4
  have h5 : ((1 + A.u) ^ d - 1) * (z.map (abs ∘ f)).sum ≤ ((1 + A.u) ^ d - 1) * ((1 + A.u) * G) := by
    have : 0 ≤ (1 + A.u) ^ d - 1 := by linarith
    gcongr
  nlinarith

theorem quotient_error {s' w' S W T g : Rat} (hW : 0 < W) (hS : |S| ≤ T) (hg0 : 0 ≤ g) (hg : 2 * g ≤ 1) (hs : |s' - S| ≤ g * T)
    (hw : |w' - W| ≤ g * W) : 0 < w' ∧ |A.fl (s' / w') - S / W| ≤ (4 * g + 3 * A.u) * (T / W) := by
  have hu := A.u_nonneg
  have hT : 0 ≤ T := (abs_nonneg S).trans hS
  have hw2 : W / 2 ≤ w' := by nlinarith [(abs_le.1 hw).1]
  have hw' : 0 < w' := by linarith
  refine ⟨hw', ?_⟩
  have h1 : |s' / w' - S / W| ≤ 4 * g * (T / W) := by
    have e : s' / w' - S / W = ((s' - S) + (S / W) * (W - w')) / w' := by
      field_simp
      ring
    rw [e, abs_div, abs_of_pos hw', div_le_iff₀ hw']
    have h2 : |S / W * (W - w')| ≤ g * T := by
      rw [abs_mul, abs_div, abs_of_pos hW, abs_sub_comm]
      calc |S| / W * |w' - W| ≤ T / W * (g * W) := by gcongr
        _ = g * T := by field_simp
    have h3 := abs_add_le (s' - S) (S / W * (W - w'))
    have h4 : 2 * g * T ≤ 4 * g * (T / W) * w' := by
      have : 4 * g * (T / W) * (W / 2) = 2 * g * T := by field_simp; ring
      rw [← this]
      gcongr
    linarith
  have h5 : |S / W| ≤ T / W := by
    rw [abs_div, abs_of_pos hW]
    gcongr
  have h6 : |s' / w'| ≤ 3 * (T / W) := by
    have := abs_add_le (s' / w' - S / W) (S / W)
    rw [sub_add_cancel] at this
    have hTW : 0 ≤ T / W := by positivity
    nlinarith
  have h7 := A.close (s' / w')
  have h8 := abs_add_le (A.fl (s' / w') - s' / w') (s' / w' - S / W)
  rw [sub_add_sub_cancel] at h8
  have h9 : A.u * |s' / w'| ≤ A.u * (3 * (T / W)) := by gcongr
  nlinarith

/-- The prediction at one point -/
theorem vote_error {z : List (Voter Rat)} {i d d' k : Nat} {s w : Rat} (hs : AddsUp A.fl d (z.map (termAt A i)) s)
    (hw : AddsUp A.fl d' (z.map (wtAt i)) w) (hz : z.length ≤ k) (hwt : ∀ v ∈ z, 0 ≤ v.wt) (hpos : 0 < overActive z Voter.wt i)
    (hu : 4 * (k : Rat) * A.u ≤ 1) :
    0 < w ∧ |A.fl (s / w) - weightedMean z i| ≤ 11 * k * A.u * weightedSize z i := by
  have hu0 := A.u_nonneg
  have hk : 1 ≤ k := by
    have := hs.lt
    rw [List.length_map] at this
    omega
  have hk' : (1 : Rat) ≤ k := by exact_mod_cast hk
  have e1 : overActive z (fun v => v.wt * v.pred) i = (z.map fun v => if v.on i then v.pred * v.wt else 0).sum := by
    rw [overActive_map]
    congr 1
    apply List.map_congr_left
    intro v _
    rw [mul_comm]
  have e2 : overActive z (fun v => v.wt * |v.pred|) i = (z.map fun v => |if v.on i then v.pred * v.wt else 0|).sum := by
    rw [overActive_map]
    congr 1
    apply List.map_congr_left
    intro v hv
    split
    · rw [abs_mul, abs_of_nonneg (hwt v hv), mul_comm]
    · simp
  have e3 : overActive z Voter.wt i = (z.map (wtAt i)).sum := by rw [overActive_map]; rfl
  have e4 : overActive z Voter.wt i = (z.map fun v => |wtAt i v|).sum := by
    rw [e3]
    congr 1
    apply List.map_congr_left
    intro v hv
    rw [abs_of_nonneg]
    unfold wtAt
    split
    · exact hwt v hv
    · exact le_refl _
  have hg : (1 + A.u) ^ z.length - 1 ≤ 2 * k * A.u := by
    have h1 : (1 + A.u) ^ z.length ≤ (1 + A.u) ^ k := pow_le_pow_right₀ (by linarith) hz
    have h2 := growth hu0 (n := k) (by nlinarith)
    linarith
  have a1 := adds_error (g := fun v : Voter Rat => if v.on i then v.pred * v.wt else 0) hs (by
    intro v _
    unfold termAt
    split
    · exact A.close _
    · simp)
  have a2 := adds_error (g := wtAt i) hw (by
    intro v _
    rw [sub_self, abs_zero]
    exact mul_nonneg hu0 (abs_nonneg _))
  rw [← e1, ← e2] at a1
  rw [← e3, ← e4] at a2
  have hT : 0 ≤ overActive z (fun v => v.wt * |v.pred|) i := by
    rw [e2]
    apply List.sum_nonneg
    rw [List.forall_mem_map]
    exact fun _ _ => abs_nonneg _
  have hST : |overActive z (fun v => v.wt * v.pred) i| ≤ overActive z (fun v => v.wt * |v.pred|) i := by
    rw [e1, e2]
    have := abs_sum_le (z.map fun v => if v.on i then v.pred * v.wt else 0)
    rwa [List.map_map] at this
  obtain ⟨q1, q2⟩ := quotient_error (A := A) (g := 2 * k * A.u) hpos hST (by positivity) (by linarith)
    (a1.trans (by gcongr)) (a2.trans (by gcongr))
  refine ⟨q1, q2.trans ?_⟩
  rw [weightedSize]
  have : 0 ≤ overActive z (fun v => v.wt * |v.pred|) i / overActive z Voter.wt i := by positivity
  have h3 : 4 * (2 * k * A.u) + 3 * A.u ≤ 11 * k * A.u := by nlinarith
  gcongr

theorem wtAt_nonneg {z : List (Voter α)} (hwt : ∀ v ∈ z, 0 ≤ v.wt) (i : Nat) : ∀ x ∈ z.map (wtAt i), 0 ≤ x := by
  rw [List.forall_mem_map]
  intro v hv
  unfold wtAt
  split
  · exact hwt v hv
  · exact le_refl _

theorem weighty_ne {rules : List (Voter α)} (h : ∃ v ∈ rules, v.wt ≠ 0) : weighty rules ≠ [] := by
  obtain ⟨v, hv, hw⟩ := h
  exact List.ne_nil_of_mem (List.mem_filter.2 ⟨hv, by simpa using hw⟩)

theorem weighty_wt (rules : List (Voter α)) (i : Nat) : overActive (weighty rules) Voter.wt i = overActive rules Voter.wt i :=
  overActive_filter _ _ _ _ fun v _ h _ => by simpa using h

theorem weighty_mean (rules : List (Voter Rat)) (i : Nat) : weightedMean (weighty rules) i = weightedMean rules i := by
  unfold weightedMean
  rw [weighty_wt, weighty, overActive_filter _ _ _ _ fun v _ h _ => by
    have : v.wt = 0 := by simpa using h
    rw [this, zero_mul]]

theorem weighty_size (rules : List (Voter Rat)) (i : Nat) : weightedSize (weighty rules) i = weightedSize rules i := by
  unfold weightedSize
  rw [weighty_wt, weighty, overActive_filter _ _ _ _ fun v _ h _ => by
    have : v.wt = 0 := by simpa using h
    rw [this, zero_mul]]

/-- Without weight, no active rule has a weight. -/
theorem no_weight {z : List (Voter α)} (hwt : ∀ v ∈ z, 0 ≤ v.wt) {i : Nat} (h0 : overActive z Voter.wt i = 0) :
    ∀ v ∈ z, v.on i = true → v.wt = 0 := by
  intro v hv ho
  rw [overActive_map] at h0
  have hle := List.single_le_sum (l := z.map fun v => if v.on i then v.wt else 0) (by
    rw [List.forall_mem_map]
    intro v hv
    split
    · exact hwt v hv
    · exact le_refl _) _ (List.mem_map_of_mem hv)
  rw [h0, if_pos ho] at hle
  exact le_antisymm hle (hwt v hv)

theorem exists_active {z : List (Voter α)} (hwt : ∀ v ∈ z, 0 ≤ v.wt) {i : Nat} (hpos : 0 < overActive z Voter.wt i) :
    ∃ v ∈ z, v.on i = true ∧ v.wt ≠ 0 := by
  by_contra hn
  push Not at hn
  have : overActive z Voter.wt i = 0 := by
    rw [overActive_map]
    apply List.sum_eq_zero
    rw [List.forall_mem_map]
    intro v hv
    split
    · next ho => exact hn v hv ho
    · rfl
  exact hpos.ne' this

theorem sum_weights_zero {z : List (Voter α)} {d i : Nat} {w : Rat} (hw : AddsUp A.fl d (z.map (wtAt i)) w) (hwt : ∀ v ∈ z, 0 ≤ v.wt)
    (h0 : overActive z Voter.wt i = 0) : w = 0 := by
  rw [hw.eq_zero (.inl (wtAt_nonneg hwt i)), List.forall_mem_map]
  intro v hv
  unfold wtAt
  split
  · next ho => exact no_weight hwt h0 v hv ho
  · rfl

theorem sum_terms_zero {z : List (Voter Rat)} {d i : Nat} {s : Rat} (hs : AddsUp A.fl d (z.map (termAt A i)) s)
    (hwt : ∀ v ∈ z, 0 ≤ v.wt) (h0 : overActive z Voter.wt i = 0) : s = 0 := by
  have hall : ∀ x ∈ z.map (termAt A i), x = 0 := by
    rw [List.forall_mem_map]
    intro v hv
    unfold termAt
    split
    · next ho => rw [no_weight hwt h0 v hv ho, mul_zero, fl_zero]
    · rfl
  rw [hs.eq_zero (.inl fun x hx => (hall x hx).ge)]
  exact hall

/-! ## The stacked sums -/

theorem getElem?_act {rules : List (Voter α)} (h : Ballot A n rules) {v : Voter α} (hv : v ∈ rules) {i : Nat} (hi : i < n) :
    v.act[i]? = some (if v.on i then 1 else 0) := by
  conv_lhs => rw [act_eq h hv]
  rw [List.getElem?_map, List.getElem?_range hi]
  rfl

theorem productCell_eq {rules : List (Voter Rat)} (h : Ballot A n rules) {v : Voter Rat} (hv : v ∈ rules) (hp : A.fl v.pred = v.pred)
    {i : Nat} (hi : i < n) : productCell A i v = termAt A i v := by
  unfold productCell termAt
  rw [getElem?_act h hv hi, weightOf_wt]
  by_cases hw : v.wt = 0
  · rw [if_pos hw, hw, mul_zero, fl_zero]
    simp
  · rw [if_neg hw]
    cases ho : v.on i
    · simp
    · simp [hp, wt_float h hv]

theorem weightCell_eq {rules : List (Voter Rat)} (h : Ballot A n rules) {v : Voter Rat} (hv : v ∈ rules)
    {i : Nat} (hi : i < n) : weightCell A i v = wtAt i v := by
  unfold weightCell wtAt
  rw [getElem?_act h hv hi, weightOf_wt]
  by_cases hw : v.wt = 0
  · rw [if_pos hw, hw]
    simp
  · rw [if_neg hw]
    cases ho : v.on i
    · simp [fl_zero]
    · simp [wt_float h hv]

theorem kept_false {rules : List (Voter α)} (h : Ballot A n rules) {v : Voter α} (hv : v ∈ rules) {i : Nat} (hi : i < n)
    (hk : kept v = false) (ho : v.on i = true) : v.wt = 0 := by
  by_contra hw
  unfold kept at hk
  rw [weightOf_wt, if_neg hw] at hk
  have ha := getElem?_act h hv hi
  rw [ho, if_pos rfl] at ha
  have : v.act.any (fun a => a ≠ 0) = true := List.any_eq_true.2 ⟨1, List.mem_of_getElem? ha, by simp⟩
  rw [this] at hk
  simp at hk

theorem weightedRegressorStacked_eq {rules : List (Voter Rat)} (h : Ballot A n rules) (hp : ∀ v ∈ rules, A.fl v.pred = v.pred)
    (hne : rules.filter kept ≠ []) :
    weightedRegressorStacked A n rules = .ok ((List.range n).map fun i =>
      quotient A (some (A.sum ((rules.filter kept).map (termAt A i)))) (A.sum ((rules.filter kept).map (wtAt i)))) := by
  unfold weightedRegressorStacked
  rw [if_neg (by simpa using hne)]
  congr 1
  apply List.map_congr_left
  intro i hi
  rw [List.mem_range] at hi
  congr 2
  · congr 1
    apply List.map_congr_left
    intro v hv
    exact productCell_eq h (List.mem_of_mem_filter hv) (hp v (List.mem_of_mem_filter hv)) hi
  · apply List.map_congr_left
    intro v hv
    exact weightCell_eq h (List.mem_of_mem_filter hv) hi

/-! ## Classes -/

/-- The total of class `k` at point `i`, as it is computed from the rules `done` -/
def tally (A : Machine) (done : List (Voter Label)) (k : Label) (i : Nat) : Rat :=
  inOrder A.fl ((done.filter fun v => v.pred = k).map (wtAt i))

theorem tally_same {done : List (Voter Label)} {v : Voter Label} {i : Nat} (h : ∃ w ∈ done, w.pred = v.pred) :
    tally A (done ++ [v]) v.pred i = A.fl (tally A done v.pred i + wtAt i v) := by
  unfold tally
  rw [List.filter_append, List.filter_cons_of_pos (by simp), List.filter_nil, List.map_append, List.map_cons, List.map_nil,
    inOrder_append]
  obtain ⟨w, hw, e⟩ := h
  intro hn
  rw [List.map_eq_nil_iff, List.filter_eq_nil_iff] at hn
  exact hn w hw (by simp [e])

theorem tally_first {done : List (Voter Label)} {v : Voter Label} {i : Nat} (h : ¬ ∃ w ∈ done, w.pred = v.pred) :
    tally A (done ++ [v]) v.pred i = wtAt i v := by
  unfold tally
  rw [List.filter_append, List.filter_cons_of_pos (by simp), List.filter_nil, List.filter_eq_nil_iff.2]
  · rfl
  · intro w hw
    simp only [decide_eq_true_eq]
    exact fun e => h ⟨w, hw, e⟩

theorem tally_other {done : List (Voter Label)} {v : Voter Label} {k : Label} {i : Nat} (h : v.pred ≠ k) :
    tally A (done ++ [v]) k i = tally A done k i := by
  unfold tally
  rw [List.filter_append, List.filter_cons_of_neg (by simp [h]), List.filter_nil, List.append_nil]

/-- The table holds the totals of the rules `done`. -/
structure Tallies (A : Machine) (t : List (Label × List Rat)) (done : List (Voter Label)) (n : Nat) : Prop where
  nodup : (t.map (·.1)).Nodup
  mem : ∀ k, k ∈ t.map (·.1) ↔ ∃ v ∈ done, v.pred = k
  row : ∀ x ∈ t, x.2 = (List.range n).map (tally A done x.1)

theorem addRow_tallies {t : List (Label × List Rat)} {done : List (Voter Label)} (h : Tallies A t done n)
    (hd : ∀ v ∈ done, IsClass v.pred) {v : Voter Label} (hv : IsClass v.pred) :
    ∃ t', addRow A t v.pred ((List.range n).map fun i => wtAt i v) = .ok t' ∧ Tallies A t' (done ++ [v]) n := by
  have hcls : ∀ k ∈ t.map (·.1), IsClass k := by
    intro k hk
    obtain ⟨s, hs, rfl⟩ := (h.mem k).1 hk
    exact hd s hs
  have key : ∀ t : List (Label × List Rat), (t.map (·.1)).Nodup → (∀ k ∈ t.map (·.1), IsClass k) →
      (∀ k ∈ t.map (·.1), ∃ w ∈ done, w.pred = k) → (∀ x ∈ t, x.2 = (List.range n).map (tally A done x.1)) →
      ∃ t', addRow A t v.pred ((List.range n).map fun i => wtAt i v) = .ok t' ∧
        t'.map (·.1) = (if v.pred ∈ t.map (·.1) then t.map (·.1) else t.map (·.1) ++ [v.pred]) ∧
        ∀ x ∈ t', (x.1 ∈ t.map (·.1) ∧ x.2 = (List.range n).map (tally A (done ++ [v]) x.1)) ∨
          (x.1 = v.pred ∧ v.pred ∉ t.map (·.1) ∧ x.2 = (List.range n).map fun i => wtAt i v) := by
    intro t
    induction t with
    | nil =>
      intro _ _ _ _
      exact ⟨_, rfl, by simp, by simp⟩
    | cons x t ih =>
      intro hn hc hm hrow
      obtain ⟨k, u⟩ := x
      have hu : u = (List.range n).map (tally A done k) := hrow (k, u) (by simp)
      unfold addRow
      rw [if_neg (by rw [hu]; simp)]
      rw [List.map_cons, List.nodup_cons] at hn
      by_cases e : k = v.pred
      · rw [if_pos ((RFun.eq_iff (hc k (by simp)) hv).2 e)]
        refine ⟨_, rfl, by simp [e], ?_⟩
        intro y hy
        rcases List.mem_cons.1 hy with rfl | hy
        · refine .inl ⟨by simp, ?_⟩
          simp only
          rw [hu, Vote.zipWith_range]
          apply List.map_congr_left
          intro i _
          rw [e, tally_same]
          exact e ▸ hm k (by simp)
        · refine .inl ⟨by simp only [List.map_cons, List.mem_cons]; exact .inr (List.mem_map_of_mem hy), ?_⟩
          rw [hrow y (by simp [hy])]
          apply List.map_congr_left
          intro i _
          rw [tally_other]
          intro e'
          exact hn.1 (by simp only [e, e']; exact List.mem_map_of_mem hy)
      · rw [if_neg fun h => e ((RFun.eq_iff (hc k (by simp)) hv).1 h)]
        obtain ⟨t', h1, h2, h3⟩ := ih hn.2 (fun k hk => hc k (by simp [hk])) (fun k hk => hm k (by simp [hk]))
          (fun y hy => hrow y (by simp [hy]))
        rw [h1]
        have e' : (v.pred ∈ ((k, u) :: t).map (·.1)) ↔ v.pred ∈ t.map (·.1) := by
          rw [List.map_cons, List.mem_cons]
          exact ⟨fun h => h.elim (fun h => absurd h.symm e) id, .inr⟩
        refine ⟨(k, u) :: t', rfl, ?_, ?_⟩
        · rw [List.map_cons, h2]
          by_cases hin : v.pred ∈ t.map (·.1)
          · rw [if_pos hin, if_pos (e'.2 hin), List.map_cons]
          · rw [if_neg hin, if_neg fun h => hin (e'.1 h), List.map_cons, List.cons_append]
        · intro y hy
          rcases List.mem_cons.1 hy with rfl | hy
          · refine .inl ⟨by simp, ?_⟩
            simp only
            rw [hu]
            apply List.map_congr_left
            intro i _
            rw [tally_other fun h => e h.symm]
          · rcases h3 y hy with ⟨ha, hb⟩ | ⟨ha, hb, hc⟩
            · exact .inl ⟨by rw [List.map_cons]; exact List.mem_cons_of_mem _ ha, hb⟩
            · exact .inr ⟨ha, fun h => hb (e'.1 h), hc⟩
  obtain ⟨t', h1, h2, h3⟩ := key t h.nodup hcls (fun k hk => (h.mem k).1 hk) h.row
  refine ⟨t', h1, ?_, ?_, ?_⟩
  · rw [h2]
    split
    · exact h.nodup
    · next hnot =>
      rw [List.nodup_append]
      refine ⟨h.nodup, by simp, ?_⟩
      intro a h' b hb' e
      rw [List.mem_singleton] at hb'
      subst hb'; subst e
      exact hnot h'
  · intro k
    have : (∃ s ∈ done ++ [v], s.pred = k) ↔ (∃ s ∈ done, s.pred = k) ∨ v.pred = k := by
      constructor
      · rintro ⟨s, hs, e⟩
        rcases List.mem_append.1 hs with hs | hs
        · exact .inl ⟨s, hs, e⟩
        · rw [List.mem_singleton] at hs
          exact .inr (hs ▸ e)
      · rintro (⟨s, hs, e⟩ | e)
        · exact ⟨s, by simp [hs], e⟩
        · exact ⟨v, by simp, e⟩
    rw [this, ← h.mem, h2]
    split
    · next hin => exact ⟨.inl, fun h' => h'.elim id fun e => e ▸ hin⟩
    · rw [List.mem_append, List.mem_singleton]
      exact ⟨fun h' => h'.imp_right Eq.symm, fun h' => h'.imp_right Eq.symm⟩
  · intro x hx
    rcases h3 x hx with ⟨_, hb⟩ | ⟨ha, hnot, hb⟩
    · exact hb
    · rw [hb]
      apply List.map_congr_left
      intro i _
      rw [ha, tally_first fun hex => hnot ((h.mem _).2 hex)]

/-- The rules which are heard: with a weight, and active somewhere -/
def audible (rules : List (Voter α)) : List (Voter α) := rules.filter fun v => v.wt ≠ 0 ∧ Rule.nones v.act ≠ 0

theorem class_tallies {rules : List (Voter Label)} (h : Ballot A n rules) (hc : ∀ v ∈ rules, IsClass v.pred) {done : List (Voter Label)}
    (hd : ∀ v ∈ done, IsClass v.pred) {t : List (Label × List Rat)} (ht : Tallies A t done n) :
    ∃ t', rules.foldlM (classStep A) t = .ok t' ∧ Tallies A t' (done ++ audible rules) n := by
  induction rules generalizing done t with
  | nil => exact ⟨t, rfl, by simpa [audible] using ht⟩
  | cons v rules ih =>
    have hc' : ∀ v ∈ rules, IsClass v.pred := fun v hv => hc v (by simp [hv])
    rw [List.foldlM_cons]
    by_cases hh : v.wt ≠ 0 ∧ Rule.nones v.act ≠ 0
    · have e : audible (v :: rules) = v :: audible rules := by
        unfold audible; rw [List.filter_cons_of_pos]; simpa using hh
      obtain ⟨t', h1, h2⟩ := addRow_tallies ht hd (hc v (by simp))
      have hstep : classStep A t v = .ok t' := by
        unfold classStep
        rw [weightOf_wt, if_neg hh.1]
        simp only
        rw [if_neg hh.2, scaled_act h (by simp), wt_float h (by simp)]
        exact h1
      rw [hstep, e]
      have := ih h.tail hc' (done := done ++ [v]) (by
        intro s hs
        rcases List.mem_append.1 hs with hs | hs
        · exact hd s hs
        · rw [List.mem_singleton] at hs
          exact hs ▸ hc v (by simp)) h2
      rw [List.append_assoc, List.singleton_append] at this
      exact this
    · have e : audible (v :: rules) = audible rules := by
        unfold audible; rw [List.filter_cons_of_neg]; simpa using hh
      have hstep : classStep A t v = .ok t := by
        unfold classStep
        rw [weightOf_wt]
        by_cases h0 : v.wt = 0
        · rw [if_pos h0]
        · rw [if_neg h0]
          simp only
          rw [if_pos]
          by_contra h1
          exact hh ⟨h0, h1⟩
      rw [hstep, e]
      exact ih h.tail hc' hd ht

theorem columns_tallies {t : List (Label × List Rat)} {done : List (Voter Label)} (h : Tallies A t done n) (hne : t ≠ []) :
    Vote.columns (t.map fun p => (p.1, p.2.map Num.fin)) =
      (List.range n).map fun i => (t.map (·.1)).map fun k => (k, Num.fin (tally A done k i)) := by
  match t, hne with
  | (k, u) :: t, _ =>
    have hu : u.length = n := by
      have := h.row (k, u) (by simp)
      simp only at this
      rw [this]
      simp
    rw [List.map_cons]
    unfold Vote.columns
    simp only
    rw [List.length_map, hu]
    refine List.map_congr_left fun i hi => ?_
    show ((((k, u) :: t).map fun p => (p.1, p.2.map Num.fin)).map fun p => (p.1, (p.2[i]?).getD Num.nan)) = _
    rw [List.map_map, List.map_map]
    refine List.map_congr_left fun x hx => Prod.ext rfl ?_
    simp only [h.row x hx, List.getElem?_map, List.getElem?_range (List.mem_range.1 hi), Option.map_some,
      Option.getD_some, Function.comp_apply]

theorem weightedClassifier_eq {rules : List (Voter Label)} (h : Ballot A n rules) (hc : ∀ v ∈ rules, IsClass v.pred)
    (hh : audible rules ≠ []) :
    ∃ ks : List Label, ks.Nodup ∧ ks ≠ [] ∧ (∀ k, k ∈ ks ↔ ∃ v ∈ audible rules, v.pred = k) ∧
      weightedClassifier A rules = .ok ((List.range n).map fun i =>
        Vote.decideClass (ks.map fun k => (k, Num.fin (tally A (audible rules) k i)))) := by
  obtain ⟨t, h1, h2⟩ := class_tallies h hc (done := []) (by simp) (t := []) ⟨by simp, by simp, by simp⟩
  rw [List.nil_append] at h2
  obtain ⟨v, hv⟩ := List.exists_mem_of_ne_nil _ hh
  have ht : t ≠ [] := by
    rintro rfl
    have := (h2.mem v.pred).2 ⟨v, hv, rfl⟩
    simp at this
  have hne : rules.length ≠ 0 := by
    intro h0
    rw [List.length_eq_zero_iff] at h0
    subst h0
    exact hh rfl
  refine ⟨t.map (·.1), h2.nodup, by simpa using ht, h2.mem, ?_⟩
  unfold weightedClassifier
  rw [if_neg hne, h1]
  simp only [bind, Except.bind]
  rw [if_neg (by simpa using ht), columns_tallies h2 ht, List.map_map]
  rfl

/-- With totals which are not negative, the class with the greatest total wins. -/
theorem decideClass_iff {ks : List Label} (hn : ks.Nodup) (hne : ks ≠ []) {f : Label → Rat} (h0 : ∀ k, 0 ≤ f k)
    (habs : ∀ k, k ∉ ks → f k = 0) (hcls : ∀ k ∈ ks, IsClass k) :
    let r := Vote.decideClass (ks.map fun k => (k, Num.fin (f k)))
    (∀ k, 0 < f k → (∀ k', k' ≠ k → f k' < f k) → r = k) ∧
    ((r = .num .nan ∧ ∀ k, 0 < f k → ∃ k', k' ≠ k ∧ f k ≤ f k') ∨ (0 < f r ∧ ∀ k', k' ≠ r → f k' < f r)) := by
  have hwin : ∀ k, 0 < f k → (∀ k', k' ≠ k → f k' < f k) → Vote.decideClass (ks.map fun k => (k, Num.fin (f k))) = k := by
    intro k hk hall
    have hin : k ∈ ks := by
      by_contra hin
      exact hk.ne' (habs k hin)
    exact Vote.decideClass_wins hn hin hk.ne' fun k' _ hne => hall k' hne
  refine ⟨hwin, ?_⟩
  by_cases hex : ∃ k, 0 < f k ∧ ∀ k', k' ≠ k → f k' < f k
  · obtain ⟨k, hk, hall⟩ := hex
    rw [hwin k hk hall]
    exact .inr ⟨hk, hall⟩
  · left
    push Not at hex
    refine ⟨Vote.decideClass_none hn hne fun k _ hk0 => ?_, hex⟩
    have hk : 0 < f k := lt_of_le_of_ne (h0 k) (Ne.symm hk0)
    obtain ⟨k', hne', hle⟩ := hex k hk
    refine ⟨k', ?_, hne', hle⟩
    by_contra hin
    rw [habs k' hin] at hle
    linarith

theorem nones_on {rules : List (Voter α)} (h : Ballot A n rules) {v : Voter α} (hv : v ∈ rules) {i : Nat} (hi : i < n)
    (ho : v.on i = true) : Rule.nones v.act ≠ 0 := by
  have ha := getElem?_act h hv hi
  rw [ho, if_pos rfl] at ha
  unfold Rule.nones
  rw [ne_eq, List.length_eq_zero_iff, List.filter_eq_nil_iff]
  exact fun hall => hall 1 (List.mem_of_getElem? ha) (by simp)

/-- The totals of the rules which are heard -/
theorem total_audible {rules : List (Voter Label)} (h : Ballot A n rules) {i : Nat} (hi : i < n) (k : Label) :
    (((audible rules).filter fun v => v.pred = k).map (wtAt i)).sum = total rules k i := by
  unfold total
  have e : (audible rules).filter (fun v => v.pred = k) =
      (rules.filter fun v => v.pred = k).filter fun v => v.wt ≠ 0 ∧ Rule.nones v.act ≠ 0 := by
    unfold audible
    rw [List.filter_filter, List.filter_filter]
    exact List.filter_congr fun v _ => Bool.and_comm _ _
  rw [e, ← overActive_filter (p := fun v => v.wt ≠ 0 ∧ Rule.nones v.act ≠ 0), overActive_map]
  · rfl
  · intro v hv hf ho
    have hv := List.mem_of_mem_filter hv
    have := nones_on h hv hi ho
    by_contra h0
    simp [h0, this] at hf

theorem tally_error {rules : List (Voter Label)} (h : Ballot A n rules) {i : Nat} (hi : i < n) (k : Label)
    (hu : 2 * (rules.length : Rat) * A.u ≤ 1) :
    |tally A (audible rules) k i - total rules k i| ≤ 2 * rules.length * A.u * total rules k i := by
  have hu0 := A.u_nonneg
  rw [← total_audible h hi]
  have hmem : ∀ v ∈ (audible rules).filter fun v => v.pred = k, 0 ≤ v.wt := fun v hv =>
    wt_nonneg h (List.mem_of_mem_filter (List.mem_of_mem_filter hv))
  have hlen : ((audible rules).filter fun v => v.pred = k).length ≤ rules.length :=
    (List.length_filter_le _ _).trans (List.length_filter_le _ _)
  unfold tally
  generalize (audible rules).filter (fun v => v.pred = k) = z at hmem hlen
  by_cases hz : z = []
  · subst hz
    simp [inOrder]
  · obtain ⟨d, hd⟩ := inOrder_adds A.fl (z.map (wtAt i)) (by simpa using hz)
    have a := adds_error (g := wtAt i) hd (by
      intro v _
      rw [sub_self, abs_zero]
      exact mul_nonneg hu0 (abs_nonneg _))
    have e : (z.map fun v => |wtAt i v|) = z.map (wtAt i) := by
      apply List.map_congr_left
      intro v hv
      exact abs_of_nonneg (wtAt_nonneg hmem i _ (List.mem_map_of_mem hv))
    rw [e] at a
    refine a.trans ?_
    have h1 : (1 + A.u) ^ z.length ≤ (1 + A.u) ^ rules.length := pow_le_pow_right₀ (by linarith) hlen
    have h2 := growth hu0 (n := rules.length) (by nlinarith)
    have h3 : 0 ≤ (z.map (wtAt i)).sum := List.sum_nonneg (wtAt_nonneg hmem i)
    have h4 : (1 + A.u) ^ z.length - 1 ≤ 2 * rules.length * A.u := by linarith
    gcongr

/-- Totals of integers are exact. -/
theorem tally_integers {N : Int} (hN : ∀ m : Int, |m| ≤ N → A.fl m = m) {rules : List (Voter Label)} (h : Ballot A n rules)
    (hint : ∀ v ∈ rules, ∃ m : Int, v.wt = m) (hsum : (rules.map Voter.wt).sum ≤ N) {i : Nat} (hi : i < n) (k : Label) :
    tally A (audible rules) k i = total rules k i := by
  rw [← total_audible h hi]
  have hsub : ((audible rules).filter fun v => v.pred = k).Sublist rules := List.filter_sublist.trans List.filter_sublist
  unfold tally
  generalize (audible rules).filter (fun v => v.pred = k) = z at hsub
  have hz0 : ∀ v ∈ z, 0 ≤ v.wt := fun v hv => wt_nonneg h (hsub.subset hv)
  by_cases hz : z = []
  · subst hz
    rfl
  · obtain ⟨d, hd⟩ := inOrder_adds A.fl (z.map (wtAt i)) (by simpa using hz)
    refine (hd.integers hN ?_ ?_).1
    · rw [List.forall_mem_map]
      intro v hv
      unfold wtAt
      split
      · exact hint v (hsub.subset hv)
      · exact ⟨0, by simp⟩
    · rw [List.map_map]
      have h1 : (z.map (abs ∘ wtAt i)).sum ≤ (z.map Voter.wt).sum := by
        apply List.sum_le_sum
        intro v hv
        simp only [Function.comp, wtAt]
        split
        · rw [abs_of_nonneg (hz0 v hv)]
        · rw [abs_zero]; exact hz0 v hv
      have h2 : (z.map Voter.wt).sum ≤ (rules.map Voter.wt).sum := by
        apply (hsub.map _).sum_le_sum
        rw [List.forall_mem_map]
        exact fun v hv => wt_nonneg h hv
      exact h1.trans (h2.trans hsum)

theorem audible_ne {rules : List (Voter α)} (h : Ballot A n rules) (hw : ∃ v ∈ rules, v.wt ≠ 0 ∧ ∃ i < n, v.on i) : audible rules ≠ [] := by
  obtain ⟨v, hv, hw, i, hi, ho⟩ := hw
  exact List.ne_nil_of_mem (List.mem_filter.2 ⟨hv, by simpa using ⟨hw, nones_on h hv hi ho⟩⟩)

theorem total_nonneg {rules : List (Voter Label)} (h : Ballot A n rules) (i : Nat) (k : Label) : 0 ≤ total rules k i := by
  unfold total overActive
  apply List.sum_nonneg
  rw [List.forall_mem_map]
  intro v hv
  exact wt_nonneg h (List.mem_of_mem_filter (List.mem_of_mem_filter hv))

end Verif.Rounded
