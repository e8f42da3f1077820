import Verif.RuleProps

/-!
# Lemmas for `RuleStatProps.lean`
-/

namespace Verif.RuleStatProps

open Verif Rule Spec RFun

/-- A target vector with missing values, as the code receives it. -/
def targets (y : List (Option Rat)) : List Label := y.map fun q => .num (Num.ofOption q)

/-- What the two theorems about the predicted class share. -/
theorem predicted {E : Env} {y : List Label} {xs : Option Xs} {force : Bool} {kw : Kw} {r r' : Rule} {u : List Bool}
    (hk : E.kind = .classification) (hx : Runs r xs) (hu : Uses E r xs (arr u)) (hl : y.length = u.length)
    (ht : SameType (activated u y))
    (h : fit E y xs force kw r = (.ok (), r')) (hg : r'.good = true ∨ force = true)
    (hlt : ∀ p, Frequencies p (activated u y) → ∀ a ∈ p, ∀ b ∈ p, probaLt E.floatStr a b = true ↔ a.2 < b.2) :
    ∃ c, r'.getPrediction E = .ok (some c) ∧ c ∈ activated u y ∧
      (∀ d ∈ activated u y, frequency d (activated u y) ≤ frequency c (activated u y)) ∧
      ∀ d ∈ activated u y, ClassLt d c → frequency d (activated u y) < frequency c (activated u y) := by
  obtain ⟨v, p, hv, hp, hd⟩ := fit_classification hk hx h hg
  have ev : v = arr u := by
    cases xs with
    | some x => exact Except.ok.inj (hv.symm.trans hu)
    | none => exact Option.some.inj (hv.symm.trans hu)
  subst ev
  have hne : activated u y ≠ [] := by
    intro e
    simp [classProbabilities, extract_arr hl, e, bind, Except.bind, counter] at hp
  obtain ⟨p', hp', hf⟩ := classProbabilities_spec hl ht hne
  rw [hp] at hp'
  cases hp'
  obtain ⟨c, hc, h1, h2, h3⟩ := bestClass_frequencies hf hne (hlt p hf)
  refine ⟨c, ?_, h1, h2, h3⟩
  have e : r'.prediction = .probs p := congrArg Rule.prediction hd
  simp [getPrediction, e, hc, Except.map]

/-- `n` points of class "a" and one of class "b". -/
def skewed (n : Nat) : List Label := List.replicate n (.text "a") ++ [.text "b"]

/-- All points are activated. -/
def allPoints (n : Nat) : List Bool := List.replicate (n + 1) true

theorem activated_true {α} (l : List α) : activated (List.replicate l.length true) l = l := by
  induction l with
  | nil => rfl
  | cons a l ih =>
    simp only [activated, List.length_cons, List.replicate_succ, List.zip_cons_cons] at ih ⊢
    rw [List.filter_cons_of_pos rfl, List.map_cons, ih]

theorem skewed_length (n : Nat) : (skewed n).length = n + 1 := by simp [skewed]

theorem activated_skewed (n : Nat) : activated (allPoints n) (skewed n) = skewed n := by
  have := activated_true (skewed n)
  rwa [skewed_length] at this

theorem skewed_count (n : Nat) : (skewed n).count (.text "a") = n ∧ (skewed n).count (.text "b") = 1 := by
  constructor
  · rw [skewed, List.count_append, List.count_replicate_self, List.count_singleton]
    simp
  · rw [skewed, List.count_append, List.count_replicate, List.count_singleton]
    simp

theorem skewed_probabilities {n : Nat} (hn : 0 < n) : classProbabilities (arr (allPoints n)) (skewed n) =
    .ok [(.text "a", (n : Rat) / (n + 1 : Nat)), (.text "b", (1 : Nat) / (n + 1 : Nat))] := by
  have ht : SameType (activated (allPoints n) (skewed n)) := by
    rw [activated_skewed]
    right
    intro c hc
    simp only [skewed, List.mem_append, List.mem_replicate, List.mem_singleton] at hc
    rcases hc with ⟨-, rfl⟩ | rfl
    · exact ⟨_, rfl⟩
    · exact ⟨_, rfl⟩
  obtain ⟨p, hp, hf⟩ := classProbabilities_spec (u := allPoints n) (y := skewed n) (by rw [skewed_length]; simp [allPoints]) ht
    (by rw [activated_skewed]; simp [skewed])
  rw [activated_skewed] at hf
  rw [hp]
  have hm : ∀ c, c ∈ skewed n ↔ c = .text "a" ∨ c = .text "b" := by
    intro c
    simp [skewed, hn.ne']
  have perm : (p.map (·.1)).Perm [.text "a", .text "b"] := by
    rw [List.perm_ext_iff_of_nodup hf.nodup (by simp)]
    intro c
    rw [hf.mem, hm]
    simp
  have h2 : (p.map (·.1)).length = 2 := perm.length_eq
  obtain ⟨x, y, rfl⟩ := List.length_eq_two.1 ((List.length_map (fun x : Label × Rat => x.1)).symm.trans h2)
  have hs := hf.sorted
  simp only [List.map_cons, List.map_nil, List.pairwise_cons, List.mem_singleton, forall_eq, List.not_mem_nil,
    false_implies, implies_true, List.Pairwise.nil, and_true] at hs
  have mx := perm.mem_iff.1 (show x.1 ∈ _ by simp)
  have my := perm.mem_iff.1 (show y.1 ∈ _ by simp)
  have fx := hf.freq x (by simp)
  have fy := hf.freq y (by simp)
  obtain ⟨x1, x2⟩ := x
  obtain ⟨y1, y2⟩ := y
  simp only [List.mem_cons, List.not_mem_nil, or_false] at mx my hs fx fy
  have hx : x1 = .text "a" := by
    rcases mx with rfl | rfl
    · rfl
    · rcases my with rfl | rfl
      · cases hs with | text h => exact absurd h (by decide)
      · exact hs.irrefl.elim
  have hy : y1 = .text "b" := by
    subst hx
    rcases my with rfl | rfl
    · exact hs.irrefl.elim
    · rfl
  subst hx hy
  rw [frequency, skewed_length] at fx fy
  rw [(skewed_count n).1] at fx
  rw [(skewed_count n).2] at fy
  rw [fx, fy]

end Verif.RuleStatProps
