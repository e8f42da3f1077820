import Verif.StackVoteLemmas

/-!
# Means of active rules
-/

namespace Verif.Vote

open Verif Spec

theorem activeSum_cons (r : Rule) (l : List Rule) (on : Rule → Nat → Bool) (f : Rule → Rat) (i : Nat) :
    activeSum (r :: l) on f i = (if on r i then f r else 0) + activeSum l on f i := by
  rw [← activeSum_single, ← activeSum_append]; rfl

/-- Rules without a weight do not count. -/
theorem activeSum_voters {rules : List Rule} {wt f : Rule → Rat} (hf : ∀ r ∈ rules, wt r = 0 → f r = 0) (on : Rule → Nat → Bool)
    (i : Nat) : activeSum (voters rules wt) on f i = activeSum rules on f i := by
  induction rules with
  | nil => rfl
  | cons r rules ih =>
    have ih := ih fun s hs => hf s (by simp [hs])
    unfold voters at ih ⊢
    by_cases h0 : wt r = 0
    · rw [List.filter_cons_of_neg (by simp [h0]), ih, activeSum_cons, hf r (by simp) h0]
      simp
    · rw [List.filter_cons_of_pos (by simp [h0]), activeSum_cons, activeSum_cons, ih]

theorem activeSum_nonneg {rules : List Rule} {wt : Rule → Rat} (h : ∀ r ∈ rules, 0 ≤ wt r) (on : Rule → Nat → Bool) (i : Nat) :
    0 ≤ activeSum rules on wt i := by
  unfold activeSum
  refine List.sum_nonneg fun x hx => ?_
  obtain ⟨r, hr, rfl⟩ := List.mem_map.1 hx
  exact h r (List.mem_of_mem_filter hr)

theorem activeSum_gt {rules : List Rule} {wt p : Rule → Rat} {on : Rule → Nat → Bool} {i : Nat} {m : Rat}
    (h : ∀ r ∈ rules, 0 ≤ wt r) (hm : ∀ r ∈ rules, on r i = true → wt r ≠ 0 → m < p r) :
    m * activeSum rules on wt i ≤ activeSum rules on (fun r => p r * wt r) i ∧
    (activeSum rules on wt i ≠ 0 → m * activeSum rules on wt i < activeSum rules on (fun r => p r * wt r) i) := by
  induction rules with
  | nil => simp [activeSum]
  | cons r rules ih =>
    obtain ⟨h1, h2⟩ := ih (fun s hs => h s (by simp [hs])) fun s hs => hm s (by simp [hs])
    rw [activeSum_cons, activeSum_cons]
    cases ho : on r i with
    | false => simpa using ⟨h1, h2⟩
    | true =>
      simp only [if_true]
      by_cases h0 : wt r = 0
      · simpa [h0] using ⟨h1, h2⟩
      · have hlt : m * wt r < p r * wt r :=
          mul_lt_mul_of_pos_right (hm r (by simp) ho h0) (lt_of_le_of_ne (h r (by simp)) (Ne.symm h0))
        constructor
        · linarith [mul_add m (wt r) (activeSum rules on wt i)]
        · intro _
          linarith [mul_add m (wt r) (activeSum rules on wt i)]

theorem activeSum_lt {rules : List Rule} {wt p : Rule → Rat} {on : Rule → Nat → Bool} {i : Nat} {m : Rat}
    (h : ∀ r ∈ rules, 0 ≤ wt r) (hm : ∀ r ∈ rules, on r i = true → wt r ≠ 0 → p r < m) (h0 : activeSum rules on wt i ≠ 0) :
    activeSum rules on (fun r => p r * wt r) i < m * activeSum rules on wt i := by
  have hneg : activeSum rules on (fun r => (- p r) * wt r) i = - activeSum rules on (fun r => p r * wt r) i := by
    clear h hm h0
    induction rules with
    | nil => simp [activeSum]
    | cons r rules ih =>
      rw [activeSum_cons, activeSum_cons, ih]
      cases on r i <;> simp; ring
  have := (activeSum_gt (p := fun r => - p r) (m := -m) h (fun r hr ho hw => by simpa using hm r hr ho hw)).2 h0
  rw [hneg] at this
  linarith

theorem activeSum_null {rules : List Rule} {wt p : Rule → Rat} {on : Rule → Nat → Bool} {i : Nat}
    (h : ∀ r ∈ rules, 0 ≤ wt r) (h0 : activeSum rules on wt i = 0) : activeSum rules on (fun r => p r * wt r) i = 0 := by
  induction rules with
  | nil => rfl
  | cons r rules ih =>
    have hs : ∀ s ∈ rules, 0 ≤ wt s := fun s hs => h s (by simp [hs])
    have h1 := activeSum_nonneg hs on i
    have h2 := h r (by simp)
    rw [activeSum_cons] at h0 ⊢
    cases ho : on r i with
    | false =>
      rw [ho] at h0
      simp only [Bool.false_eq_true, if_false, zero_add] at h0 ⊢
      exact ih hs h0
    | true =>
      rw [ho] at h0
      simp only [if_true] at h0 ⊢
      have h3 : wt r = 0 := by linarith
      rw [h3, ih hs (by linarith)]
      simp

theorem div_zero_zero : Num.div (.fin 0) (.fin 0) = .nan := by rfl

/-- The quotient is a weighted mean. -/
theorem weightedMean_div {rules : List Rule} {wt p : Rule → Rat} {on : Rule → Nat → Bool} (i : Nat) (h : ∀ r ∈ rules, 0 ≤ wt r) :
    IsWeightedMean rules on p wt i
      (Num.div (.fin (activeSum rules on (fun r => p r * wt r) i)) (.fin (activeSum rules on wt i))) := by
  constructor
  · intro h0
    refine ⟨activeSum rules on (fun r => p r * wt r) i / activeSum rules on wt i, by simp [Num.div, h0], div_mul_cancel₀ _ h0, ?_, ?_⟩
    · by_contra hc
      push Not at hc
      have := (activeSum_gt h hc).2 h0
      rw [div_mul_cancel₀ _ h0] at this
      exact lt_irrefl _ this
    · by_contra hc
      push Not at hc
      have := activeSum_lt h hc h0
      rw [div_mul_cancel₀ _ h0] at this
      exact lt_irrefl _ this
  · intro h0
    have hN := activeSum_null (p := p) h h0
    rw [h0, hN]
    rfl

theorem activeSum_one (rules : List Rule) (on : Rule → Nat → Bool) (i : Nat) :
    activeSum rules on (fun _ => 1) i = activeCount rules on i := by
  simp [activeSum, activeCount]

theorem mean_div {rules : List Rule} {p : Rule → Rat} {on : Rule → Nat → Bool} (i : Nat) :
    IsMean rules on p i (Num.div (.fin (activeSum rules on p i)) (.fin (activeCount rules on i))) := by
  have := weightedMean_div (rules := rules) (wt := fun _ => 1) (p := p) (on := on) i fun _ _ => zero_le_one
  unfold IsWeightedMean at this
  simp only [activeSum_one, mul_one, ne_eq, Nat.cast_eq_zero, one_ne_zero, not_false_eq_true, true_and] at this
  exact this

/-- Where the loop does not lose the sum -/
theorem cumulated_div {rules : List Rule} {on : Rule → Nat → Bool} {f : Rule → Rat} {i : Nat} {D : Rat}
    (hD : D = 0 → activeSum rules on f i = 0)
    (h : D ≠ 0 → activeSum rules on f i ≠ 0 ∨ rules.length = 1 ∧ ∀ r ∈ rules, on r i = true) :
    Num.div (cumulated rules on f i) (.fin D) = Num.div (.fin (activeSum rules on f i)) (.fin D) := by
  by_cases h0 : D = 0
  · rw [hD h0, h0]
    match rules, hD h0 with
    | [r], hs =>
      rw [activeSum_single] at hs
      simp only [cumulated]
      cases ho : on r i with
      | false => rfl
      | true => rw [ho] at hs; simp at hs; simp [hs]
    | [], _ => rfl
    | r :: r' :: rest, hs => simp only [cumulated, hs, if_true]; rfl
  · rcases h h0 with h | ⟨h1, h2⟩
    · match rules, h with
      | [r], hs =>
        rw [activeSum_single] at hs ⊢
        simp only [cumulated]
        cases ho : on r i with
        | false => rw [ho] at hs; simp at hs
        | true => simp
      | [], hs => simp [activeSum] at hs
      | r :: r' :: rest, hs => simp [cumulated, hs]
    · obtain ⟨r, rfl⟩ := List.length_eq_one_iff.1 h1
      rw [activeSum_single, if_pos (h2 r (by simp))]
      simp only [cumulated]
      rw [if_pos (h2 r (by simp))]

/-- No zero in front -/
theorem safe_not_zero {rules : List Rule} {on : Rule → Nat → Bool} {p wt : Rule → Rat} {n : Nat}
    (h : (voters rules wt).length = 1 ∨ ((∀ i < n, activeSum rules on wt i ≠ 0 → activeSum rules on (fun r => p r * wt r) i ≠ 0) ∧
      ∀ r rest, voters rules wt = r :: rest → p r ≠ 0)) :
    2 ≤ (voters rules wt).length → ¬ ZeroFirst (voters rules wt) on (fun r => p r * wt r) n := by
  rintro h2 ⟨r, rest, e, h0, -⟩
  rcases h with h | ⟨-, h⟩
  · omega
  · have hr : r ∈ voters rules wt := by rw [e]; simp
    have : wt r ≠ 0 := by simpa using (List.mem_filter.1 hr).2
    exact (mul_ne_zero (h r rest e) this) h0

theorem safe_div {rules : List Rule} {on : Rule → Nat → Bool} {p wt : Rule → Rat} {n i : Nat} (hi : i < n)
    (hpos : ∀ r ∈ rules, 0 ≤ wt r)
    (h : (voters rules wt).length = 1 ∨ ((∀ i < n, activeSum rules on wt i ≠ 0 → activeSum rules on (fun r => p r * wt r) i ≠ 0) ∧
      ∀ r rest, voters rules wt = r :: rest → p r ≠ 0)) :
    Num.div (cumulated (voters rules wt) on (fun r => p r * wt r) i) (.fin (activeSum (voters rules wt) on wt i)) =
      Num.div (.fin (activeSum rules on (fun r => p r * wt r) i)) (.fin (activeSum rules on wt i)) := by
  have e1 := activeSum_voters (rules := rules) (wt := wt) (f := wt) (fun _ _ h => h) on i
  have e2 := activeSum_voters (rules := rules) (wt := wt) (f := fun r => p r * wt r) (fun _ _ h => by simp [h]) on i
  rw [cumulated_div, e1, e2]
  · intro h0
    rw [e2]
    rw [e1] at h0
    exact activeSum_null hpos h0
  · intro h0
    rcases h with h | ⟨h, -⟩
    · refine .inr ⟨h, ?_⟩
      obtain ⟨r, hr⟩ := List.length_eq_one_iff.1 h
      rw [hr] at h0 ⊢
      rw [activeSum_single] at h0
      intro s hs
      rw [List.mem_singleton] at hs
      subst hs
      by_contra ho
      rw [if_neg ho] at h0
      exact h0 rfl
    · rw [e2]
      rw [e1] at h0
      exact .inl (h i hi h0)

end Verif.Vote
