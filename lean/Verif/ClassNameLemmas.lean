import Verif.RuleStatProps
import Verif.MeasureProps
import Verif.PredictProps
import Verif.CriterionProps

/-!
# Lemmas for `ClassNameProps.lean`
-/

namespace Verif.ClassNames

open Verif Spec Vote RuleSet RuleSetProps VoteProps

/-- Other names for the classes in `l`: different classes keep different names. -/
def NewNames (f : Label → Label) (l : List Label) : Prop := ∀ a ∈ l, ∀ b ∈ l, f a = f b → a = b

/-- A prediction under its new name; nothing stays nothing. -/
def renamed (f : Label → Label) (l : Label) : Label := if l = .num .nan then .num .nan else f l

theorem activated_map {α β} (f : α → β) (u : List Bool) (y : List α) : activated u (y.map f) = (activated u y).map f := by
  induction u generalizing y with
  | nil => rfl
  | cons b u ih =>
    cases y with
    | nil => rfl
    | cons t y =>
      have := ih y
      unfold activated at this ⊢
      cases b <;> simp [this]

theorem count_map {f : Label → Label} {l : List Label} {c : Label} (h : ∀ a ∈ l, f a = f c → a = c) : (l.map f).count (f c) = l.count c := by
  induction l with
  | nil => rfl
  | cons a l ih =>
    rw [List.map_cons, List.count_cons, List.count_cons, ih fun a ha => h a (List.mem_cons_of_mem _ ha)]
    by_cases e : a = c
    · subst e
      simp
    · have : f a ≠ f c := fun e' => e (h a (List.mem_cons_self ..) e')
      simp [e, this]

theorem frequency_map {f : Label → Label} {l : List Label} {c : Label} (h : ∀ a ∈ l, f a = f c → a = c) :
    frequency (f c) (l.map f) = frequency c l := by
  unfold frequency
  rw [count_map h, List.length_map]

/-- The rules of two rulesets correspond: `g r` is active where `r` is, and predicts the same class under its new name. -/
structure SameRules (f : Label → Label) (l l' : List Rule) (g : Rule → Rule) (on on' : Rule → Nat → Bool) (c c' : Rule → Label) : Prop where
  rules : l' = l.map g
  on : ∀ r ∈ l, on' (g r) = on r
  pred : ∀ r ∈ l, c' (g r) = f (c r)
  names : NewNames f (l.map c)

variable {f : Label → Label} {l l' : List Rule} {g : Rule → Rule} {on on' : Rule → Nat → Bool} {c c' : Rule → Label} {wt wt' : Rule → Rat}

theorem SameRules.votes (h : SameRules f l l' g on on' c c') (hw : ∀ r ∈ l, wt' (g r) = wt r) {k : Label} (hk : k ∈ l.map c) (i : Nat) :
    Spec.votes l' on' c' wt' (f k) i = Spec.votes l on c wt k i := by
  obtain ⟨q, hq, rfl⟩ := List.mem_map.1 hk
  unfold Spec.votes
  rw [h.rules, List.filter_map, List.map_map]
  have e : (l.filter ((fun r => decide (on' r i = true ∧ c' r = f (c q))) ∘ g)) = l.filter fun r => decide (on r i = true ∧ c r = c q) := by
    refine List.filter_congr fun r hr => ?_
    simp only [Function.comp, h.on r hr, h.pred r hr]
    congr 1
    refine propext (and_congr_right fun _ => ⟨fun e => ?_, fun e => by rw [e]⟩)
    exact h.names _ (List.mem_map_of_mem hr) _ (List.mem_map_of_mem hq) e
  rw [e]
  congr 1
  exact List.map_congr_left fun r hr => hw r (List.mem_filter.1 hr).1

theorem votes_mem {k : Label} {i : Nat} (h : 0 < Spec.votes l on c wt k i) : k ∈ l.map c := by
  by_contra hk
  have : (l.filter fun r => decide (on r i = true ∧ c r = k)) = [] := by
    rw [List.filter_eq_nil_iff]
    intro r hr
    simp only [decide_eq_true_eq, not_and]
    rintro - rfl
    exact hk (List.mem_map_of_mem hr)
  unfold Spec.votes at h
  rw [this] at h
  exact lt_irrefl _ h

theorem votes_nonneg (hpos : ∀ r ∈ l, 0 ≤ wt r) (k : Label) (i : Nat) : 0 ≤ Spec.votes l on c wt k i := by
  unfold Spec.votes
  refine List.sum_nonneg ?_
  intro x hx
  obtain ⟨r, hr, rfl⟩ := List.mem_map.1 hx
  exact hpos r (List.mem_filter.1 hr).1

theorem SameRules.wins (h : SameRules f l l' g on on' c c') (hw : ∀ r ∈ l, wt' (g r) = wt r) (k' : Label) (i : Nat) :
    Wins l' on' c' wt' k' i ↔ ∃ k, Wins l on c wt k i ∧ k' = f k := by
  have back : ∀ k ∈ l'.map c', ∃ q ∈ l.map c, k = f q := by
    intro k hk
    obtain ⟨r, hr, rfl⟩ := List.mem_map.1 hk
    rw [h.rules] at hr
    obtain ⟨q, hq, rfl⟩ := List.mem_map.1 hr
    exact ⟨c q, List.mem_map_of_mem hq, h.pred q hq⟩
  have zero : ∀ {l : List Rule} {on : Rule → Nat → Bool} {c : Rule → Label} {wt : Rule → Rat} {k : Label}, k ∉ l.map c → Spec.votes l on c wt k i = 0 := by
    intro l on c wt k hk
    have : (l.filter fun r => decide (on r i = true ∧ c r = k)) = [] := by
      rw [List.filter_eq_nil_iff]
      intro r hr
      simp only [decide_eq_true_eq, not_and]
      rintro - rfl
      exact hk (List.mem_map_of_mem hr)
    unfold Spec.votes
    rw [this]
    rfl
  constructor
  · rintro ⟨h1, h2⟩
    obtain ⟨k, hk, rfl⟩ := back k' (votes_mem h1)
    rw [h.votes hw hk] at h1 h2
    refine ⟨k, ⟨h1, fun q hq => ?_⟩, rfl⟩
    by_cases hm : q ∈ l.map c
    · rw [← h.votes hw hm]
      exact h2 (f q) fun e => hq (h.names _ hm _ hk e)
    · rw [zero hm]
      exact h1
  · rintro ⟨k, ⟨h1, h2⟩, rfl⟩
    have hk := votes_mem h1
    unfold Wins
    rw [h.votes hw hk]
    refine ⟨h1, fun q hq => ?_⟩
    by_cases hm : q ∈ l'.map c'
    · obtain ⟨p, hp, rfl⟩ := back q hm
      rw [h.votes hw hp]
      exact h2 p fun e => hq (by rw [e])
    · rw [zero hm]
      exact h1

/-- Of two votes, the second is the first with new names. -/
theorem SameRules.vote (h : SameRules f l l' g on on' c c') (hw : ∀ r ∈ l, wt' (g r) = wt r) (hc : ∀ r ∈ l, IsClass (c r)) {n : Nat} {a a' : List Label}
    (ha : IsVote l on c wt n a) (ha' : IsVote l' on' c' wt' n a') : a' = a.map (renamed f) := by
  refine List.ext_getElem? fun i => ?_
  rw [List.getElem?_map]
  by_cases hi : i < n
  · by_cases hk : ∃ k, Wins l on c wt k i
    · obtain ⟨k, hk⟩ := hk
      rw [(ha.2 i hi).1 k hk, (ha'.2 i hi).1 (f k) ((h.wins hw _ i).2 ⟨k, hk, rfl⟩), Option.map_some, renamed, if_neg]
      rintro rfl
      obtain ⟨r, hr, e⟩ := List.mem_map.1 (votes_mem hk.1)
      have := hc r hr
      rw [e] at this
      rcases this with ⟨q, e⟩ | ⟨s, e⟩ <;> cases e
    · have h1 : ∀ k, ¬ Wins l on c wt k i := fun k hw => hk ⟨k, hw⟩
      have h2 : ∀ k, ¬ Wins l' on' c' wt' k i := by
        intro k hk'
        obtain ⟨q, hq, -⟩ := (h.wins hw _ i).1 hk'
        exact h1 q hq
      rw [(ha.2 i hi).2 h1, (ha'.2 i hi).2 h2]
      rfl
  · rw [List.getElem?_eq_none (l := a) (by rw [ha.1]; omega), List.getElem?_eq_none (l := a') (by rw [ha'.1]; omega)]
    rfl

/-- Right predictions, and predictions, are counted alike under the new names. -/
theorem counts_renamed {p y : List Label} (hp : ∀ q ∈ p, IsClass q ∨ q = .num .nan) (hy : ∀ t ∈ y, IsClass t) (hf : ∀ q, IsClass q → IsClass (f q))
    (hn : NewNames f (p ++ y)) (u : List Bool) :
    (activated u ((p.map (renamed f)).zip (y.map f))).countP (fun x => x.1 = x.2) = (activated u (p.zip y)).countP (fun x => x.1 = x.2) ∧
      (activated u (p.map (renamed f))).countP (fun q => q ≠ .num .nan) = (activated u p).countP (fun q => q ≠ .num .nan) := by
  have hnan : ∀ q, IsClass q → q ≠ .num .nan := by
    rintro q (⟨x, rfl⟩ | ⟨s, rfl⟩) e <;> cases e
  constructor
  · rw [List.zip_map, activated_map, List.countP_map]
    refine List.countP_congr fun x hx => ?_
    have hx := RuleSetProps.activated_mem hx
    obtain ⟨a, b⟩ := x
    obtain ⟨h1, h2⟩ := List.of_mem_zip hx
    simp only [Function.comp, Prod.map, decide_eq_true_eq]
    unfold renamed
    by_cases e : a = .num .nan
    · subst e
      rw [if_pos rfl]
      exact ⟨fun e => absurd e.symm (hnan _ (hf _ (hy _ h2))), fun e => absurd e.symm (hnan _ (hy _ h2))⟩
    · rw [if_neg e]
      exact ⟨fun e => hn _ (List.mem_append_left _ h1) _ (List.mem_append_right _ h2) e, fun e => by rw [e]⟩
  · rw [activated_map, List.countP_map]
    refine List.countP_congr fun x hx => ?_
    have hx := RuleSetProps.activated_mem hx
    simp only [Function.comp, decide_eq_true_eq]
    unfold renamed
    by_cases e : x = .num .nan
    · subst e
      rw [if_pos rfl]
    · rw [if_neg e]
      exact ⟨fun _ => e, fun _ => hnan _ (hf _ ((hp x hx).resolve_right e))⟩

end Verif.ClassNames
