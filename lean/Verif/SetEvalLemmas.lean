import Verif.SetEval
import Verif.SetEvalSpec
import Verif.StackedSetLemmas
import Verif.ConditionProps

/-!
# Lemmas about rulesets evaluated on features
-/

namespace Verif.RuleSet

open Verif Vote Spec

variable {R : RsEnv}

theorem rule_evaluate {c : Cond} {xs : Xs} (h : TalksAbout c xs) :
    Rule.evaluate c xs = .ok ((pointsOf xs).map fun r => flag (Selects c xs r)) := by
  obtain ⟨hr, fs, hs, hc⟩ := h
  have e : ∀ r, Selects c xs r ↔ InBoxOf fs xs r := by
    intro r
    constructor
    · rintro ⟨gs, hg, h⟩
      rw [Cond.Shows.unique hs hg]
      exact h
    · exact fun h => ⟨fs, hs, h⟩
  cases xs with
  | arr m =>
    simp only [e]
    exact ConditionProps.C11_evaluate hr hs hc
  | frame x =>
    simp only [e]
    exact ConditionProps.C11_evaluate_named hr hs hc.1 hc.2

theorem evaluateActivation_ok {E : Env} {r : Rule} {xs : Xs} {v : List Nat} (h : r.evaluateActivation E xs = .ok v)
    (hc : TalksAbout r.cond xs) : v = (pointsOf xs).map fun p => flag (Selects r.cond xs p) := by
  unfold Rule.evaluateActivation at h
  rw [rule_evaluate hc] at h
  simp only [bind, Except.bind] at h
  split at h
  · cases h
  · cases h
    rfl

/-- A vector of decisions about points -/
theorem flags_vec {α} (l : List α) (P : α → Prop) :
    l.map (fun r => flag (P r)) = vec l.length fun i => open Classical in decide (∃ r, l[i]? = some r ∧ P r) := by
  unfold vec
  apply List.ext_getElem?
  intro i
  rw [List.getElem?_map, List.getElem?_map]
  by_cases hi : i < l.length
  · rw [List.getElem?_range hi, List.getElem?_eq_getElem hi]
    have : (∃ r, l[i]? = some r ∧ P r) ↔ P l[i] := by simp [List.getElem?_eq_getElem hi]
    simp only [Option.map_some, flag]
    classical
    by_cases hp : P l[i]
    · rw [if_pos hp, if_pos (decide_eq_true (this.2 hp))]
    · rw [if_neg hp, if_neg fun h => hp (this.1 (of_decide_eq_true h))]
  · rw [List.getElem?_eq_none (l := l) (by omega), List.getElem?_eq_none (l := List.range _) (by simp; omega)]
    rfl

/-- Decisions about the points by several rules -/
theorem any_flags {α β} (l : List α) (ms : List β) (P : β → α → Prop) :
    (vec l.length fun i => (ms.map fun m => l.map fun r => flag (P m r)).any fun v => isOne v i) =
      l.map fun r => flag (∃ m ∈ ms, P m r) := by
  unfold vec
  apply List.ext_getElem?
  intro i
  rw [List.getElem?_map, List.getElem?_map]
  by_cases hi : i < l.length
  · rw [List.getElem?_range hi, List.getElem?_eq_getElem hi]
    simp only [Option.map_some, List.any_map]
    congr 1
    have : (ms.any ((fun v => isOne v i) ∘ fun m => l.map fun r => flag (P m r))) = true ↔ ∃ m ∈ ms, P m l[i] := by
      rw [List.any_eq_true]
      simp [isOne, List.getElem?_eq_getElem hi, flag]
    by_cases hp : ∃ m ∈ ms, P m l[i]
    · rw [if_pos (this.2 hp)]
      unfold flag
      rw [if_pos hp]
    · rw [if_neg fun h => hp (this.1 h)]
      unfold flag
      rw [if_neg hp]
  · rw [List.getElem?_eq_none (l := l) (by omega), List.getElem?_eq_none (l := List.range _) (by simp; omega)]
    rfl

theorem activations_ok {rules : List Member} {xs : Xs} {acts : List (List Nat)}
    (hc : ∀ m ∈ rules, TalksAbout m.rule.cond xs)
    (h : (rules.mapM fun m : Member => m.rule.evaluateActivation (R.ofKind m.kind) xs) = .ok acts) :
    acts = rules.map fun m => (pointsOf xs).map fun p => flag (Selects m.rule.cond xs p) := by
  have := mapM_eq_ok h
  clear h
  induction this with
  | nil => rfl
  | cons h _ ih =>
    rw [evaluateActivation_ok h (hc _ (by simp)), ih fun m hm => hc m (by simp [hm])]
    rfl

/-- What `multi_logical_or` gives is what the union gives. -/
theorem multiOr_unionAll {acts : List (List Nat)} {u : List Nat} (h : multiOr R acts = .ok u) : unionAll R acts = .ok u := by
  unfold unionAll
  rw [h]

theorem decisions_vec {xs : Xs} {rules : List Member} :
    ∀ v ∈ rules.map fun m => (pointsOf xs).map fun p => flag (Selects m.rule.cond xs p), ∃ f, v = vec (pointsOf xs).length f := by
  intro v hv
  obtain ⟨m, -, rfl⟩ := List.mem_map.1 hv
  exact ⟨_, flags_vec _ _⟩

theorem union_decisions {rules : List Member} {xs : Xs} {u : List Nat}
    (h : unionAll R (rules.map fun m => (pointsOf xs).map fun p => flag (Selects m.rule.cond xs p)) = .ok u) :
    u = (pointsOf xs).map fun p => flag (∃ m ∈ rules, Selects m.rule.cond xs p) := by
  rw [unionAll_vec decisions_vec h]
  exact any_flags (pointsOf xs) rules fun m p => Selects m.rule.cond xs p

theorem evaluate_ok {s : RuleSet} {xs : Xs} {v : List Nat} (hc : ∀ m ∈ s.rules, TalksAbout m.rule.cond xs)
    (h : evaluate R s xs = .ok v) : v = (pointsOf xs).map fun p => flag (∃ m ∈ s.rules, Selects m.rule.cond xs p) := by
  unfold evaluate at h
  split at h
  · cases h
  simp only [bind, Except.bind] at h
  split at h
  · cases h
  rename_i acts ha
  rw [activations_ok hc ha] at h
  exact union_decisions (multiOr_unionAll h)

theorem evaluateSelf_given {rules : List Member} {xs : Xs} {a : Option (List Nat)} (hne : rules ≠ [])
    (hc : ∀ m ∈ rules, TalksAbout m.rule.cond xs) (h : evaluateSelf R (some xs) rules = .ok a) :
    a = some ((pointsOf xs).map fun p => flag (∃ m ∈ rules, Selects m.rule.cond xs p)) := by
  unfold evaluateSelf at h
  rw [if_neg fun e => hne (List.length_eq_zero_iff.1 e)] at h
  cases ha : rules.mapM fun m : Member => m.rule.evaluateActivation (R.ofKind m.kind) xs with
  | error e =>
    simp only [activations, ha, Except.map, bind, Except.bind] at h
    cases h
  | ok acts =>
    simp only [activations, ha, Except.map, bind, Except.bind] at h
    have hu := any_flags (pointsOf xs) rules fun m p => Selects m.rule.cond xs p
    rw [activations_ok hc ha] at h
    split at h
    · rename_i hx
      cases hx
    · rename_i v hx
      split at h
      · cases h
      cases h
      rw [← hu, Option.some.inj hx]
      obtain ⟨f, hf⟩ := decisions_vec (xs := xs) (rules := rules) v (by rw [Option.some.inj hx]; simp)
      simp only [List.any_cons, List.any_nil, Bool.or_false]
      rw [hf, vec_isOne]
    · rename_i l _ hx
      cases hx
      split at h
      · cases h
      rename_i u hu'
      cases h
      rw [union_decisions hu']

theorem multiOr_total (hm : ∀ l, R.multi l = .ok ()) {acts : List (List Nat)} (hne : acts ≠ []) {n : Nat}
    (hl : ∀ v ∈ acts, v.length = n) : ∃ u, multiOr R acts = .ok u := by
  cases acts with
  | nil => exact absurd rfl hne
  | cons a rest =>
    unfold multiOr
    simp only [hm, bind, Except.bind]
    rw [if_neg]
    · exact ⟨_, rfl⟩
    · intro h
      obtain ⟨b, hb, e⟩ := List.any_eq_true.1 h
      rw [decide_eq_true_eq] at e
      exact e ((hl b (by simp [hb])).trans (hl a (by simp)).symm)

theorem mapM_total {α β} {f : α → Except Err β} {g : α → β} {l : List α} (h : ∀ a ∈ l, f a = .ok (g a)) :
    l.mapM f = .ok (l.map g) := by
  induction l with
  | nil => rfl
  | cons a l ih =>
    rw [List.mapM_cons, h a (by simp), ih fun a ha => h a (by simp [ha])]
    rfl

theorem evaluate_total {s : RuleSet} {xs : Xs} (hm : ∀ l, R.multi l = .ok ()) (hs : ∀ v, R.env.store v = .ok ())
    (hne : s.rules ≠ []) (hc : ∀ m ∈ s.rules, TalksAbout m.rule.cond xs) : ∃ v, evaluate R s xs = .ok v := by
  have : (s.rules.mapM fun m : Member => m.rule.evaluateActivation (R.ofKind m.kind) xs) =
      .ok (s.rules.map fun m => (pointsOf xs).map fun p => flag (Selects m.rule.cond xs p)) := by
    apply mapM_total
    intro m hm
    unfold Rule.evaluateActivation
    rw [rule_evaluate (hc m hm)]
    simp only [bind, Except.bind, show (R.ofKind m.kind).store = R.env.store from rfl, hs]
  unfold evaluate
  rw [if_neg fun e => hne (List.length_eq_zero_iff.1 e)]
  simp only [this, bind, Except.bind]
  apply multiOr_total hm (n := (pointsOf xs).length)
  · simpa using hne
  · intro v hv
    obtain ⟨m, -, rfl⟩ := List.mem_map.1 hv
    simp

theorem pointsOf_length (xs : Xs) : (pointsOf xs).length = xs.length := by cases xs <;> rfl

/-- What `calc_activation` does, with and without stacked activations -/
theorem calcActivation_done {xs : Xs} {s s' : RuleSet} (hx : xs.length ≠ 0) (h : calcActivation R xs s = (.ok (), s')) :
    s.rules ≠ [] ∧ EachDone R (fun E => Rule.calcActivation E (some xs)) s.rules s'.rules ∧
      evaluateSelf R none s'.rules = .ok s'.act ∧
      (s.stack = true → evaluateStacked R none s'.rules = .ok s'.stacked) ∧ (s.stack = false → s'.stacked = s.stacked) := by
  unfold calcActivation at h
  rw [Py.bind_ok (Py.get_run _)] at h
  split at h
  · simp at h
  rename_i hne
  obtain ⟨_, s1, h1, h⟩ := Py.bind_eq_ok h
  obtain ⟨la, hla, rfl⟩ := forRules_ok h1
  obtain ⟨_, s2, h2, h⟩ := Py.bind_eq_ok h
  obtain ⟨a, ha, rfl⟩ := recomputeSelf_ok h2
  refine ⟨fun e => hne (by rw [e]; rfl), ?_⟩
  rcases whenSet_ok h with ⟨e, rfl⟩ | ⟨e, h⟩
  · have e : s.stack = false := e
    exact ⟨hla, ha, (fun e' => by rw [e] at e'; cases e'), fun _ => rfl⟩
  · have e : s.stack = true := e
    obtain ⟨c, hc, rfl⟩ := recomputeStacked_ok h
    exact ⟨hla, ha, fun _ => hc, (fun e' => by rw [e] at e'; cases e')⟩

/-- The rule has the condition of the other, and its activation marks the points which it selects. -/
def Activated (xs : Xs) (m m' : Member) : Prop :=
  m'.kind = m.kind ∧ m'.rule.cond = m.rule.cond ∧
    m'.rule.act = some ((pointsOf xs).map fun p => flag (Selects m.rule.cond xs p))

theorem each_activated {xs : Xs} {l l' : List Member} (hx : xs.length ≠ 0) (hc : ∀ m ∈ l, TalksAbout m.rule.cond xs)
    (h : EachDone R (fun E => Rule.calcActivation E (some xs)) l l') : List.Forall₂ (Activated xs) l l' := by
  unfold EachDone at h
  induction h with
  | nil => exact .nil
  | @cons m m' l l' hm _ ih =>
    refine .cons ?_ (ih fun m hm => hc m (by simp [hm]))
    obtain ⟨e1, e2⟩ := hm
    obtain ⟨v, hv, hd⟩ := Rule.calcActivation_ok e2 hx
    have h1 := congrArg Rule.cond hd
    have h2 := congrArg Rule.act hd
    refine ⟨e1, h1, ?_⟩
    rw [← evaluateActivation_ok hv (hc m (by simp))]
    exact h2

theorem activated_points {xs : Xs} {l l' : List Member} (h : List.Forall₂ (Activated xs) l l') :
    ∀ m ∈ l', HasPoints (pointsOf xs).length m := by
  induction h with
  | nil => simp
  | cons h _ ih =>
    intro m hm
    rcases List.mem_cons.1 hm with rfl | hm
    · exact ⟨_, by rw [h.2.2, flags_vec]⟩
    · exact ih m hm

theorem activated_acts {xs : Xs} {l l' : List Member} (h : List.Forall₂ (Activated xs) l l') :
    l'.map (fun m => m.rule.act.getD []) = l.map fun m => (pointsOf xs).map fun p => flag (Selects m.rule.cond xs p) := by
  induction h with
  | nil => rfl
  | cons h _ ih =>
    rw [List.map_cons, List.map_cons, ih, h.2.2]
    rfl

theorem activated_texts {xs : Xs} {l l' : List Member} (h : List.Forall₂ (Activated xs) l l') :
    l'.map (fun m => R.condStr m.rule.cond) = l.map fun m => R.condStr m.rule.cond := by
  induction h with
  | nil => rfl
  | cons h _ ih => rw [List.map_cons, List.map_cons, ih, h.2.1]

theorem activated_columns {xs : Xs} {l l' : List Member} (h : List.Forall₂ (Activated xs) l l') :
    columnsOf R l' = l.map fun m => (R.condStr m.rule.cond, (pointsOf xs).map fun p => flag (Selects m.rule.cond xs p)) := by
  unfold columnsOf
  induction h with
  | nil => rfl
  | cons h _ ih =>
    rw [List.map_cons, List.map_cons, ih, h.2.1, h.2.2]
    rfl

end Verif.RuleSet
