import Verif.OrderLemmas

/-!
# Lemmas about rulesets: when sorting succeeds, sorting by an attribute
-/

namespace Verif.RuleSet

open Verif Vote

variable {R : RsEnv}

/-! ## Success -/

theorem featuresCount_of {byName : Bool} {m : Member} (h : 0 < Spec.featureNumber byName m) :
    featuresCount byName m = .ok (Spec.featureNumber byName m) := by
  unfold Spec.featureNumber at h ⊢
  unfold featuresCount
  cases byName with
  | true =>
    simp only [if_true] at h ⊢
    cases hn : m.rule.cond.names with
    | none => simp [hn] at h
    | some l => rfl
  | false =>
    simp only [Bool.false_eq_true, if_false] at h ⊢
    cases hn : m.rule.cond.indexes with
    | none => simp [hn] at h
    | some l => rfl

theorem boundsOf_of {m : Member} (h1 : m.rule.cond.bmins ≠ none) (h2 : m.rule.cond.bmaxs ≠ none) :
    boundsOf m = .ok (Spec.boundsOf m) := by
  unfold boundsOf Spec.boundsOf
  cases e1 : m.rule.cond.bmins with
  | none => exact absurd e1 h1
  | some lo =>
    cases e2 : m.rule.cond.bmaxs with
    | none => exact absurd e2 h2
    | some hi => rfl

theorem le_foldl_max (l : List Nat) (a : Nat) : a ≤ l.foldl Nat.max a ∧ ∀ n ∈ l, n ≤ l.foldl Nat.max a := by
  induction l generalizing a with
  | nil => simp
  | cons b l ih =>
    rw [List.foldl_cons]
    obtain ⟨h1, h2⟩ := ih (Nat.max a b)
    have ha : a ≤ Nat.max a b := Nat.le_max_left _ _
    have hb : b ≤ Nat.max a b := Nat.le_max_right _ _
    refine ⟨by omega, ?_⟩
    intro n hn
    rcases List.mem_cons.1 hn with rfl | hn
    · omega
    · exact h2 n hn

theorem mem_groupTexts {reverse : Bool} {l : List Tagged} (h0 : ∀ p ∈ l, 0 < p.2.1) {p : Tagged} (hp : p ∈ l) :
    p.1 ∈ groupTexts R reverse l := by
  unfold groupTexts
  simp only
  rw [List.mem_flatMap]
  have hfind : ∃ q ∈ l, q.1 = p.1 ∧ countOf l p.1 = q.2.1 := by
    unfold countOf
    cases h : l.find? fun q => q.1 = p.1 with
    | none =>
      rw [List.find?_eq_none] at h
      exact absurd (h p hp) (by simp)
    | some q =>
      have e := List.find?_some h
      simp only [decide_eq_true_eq] at e
      exact ⟨q, List.mem_of_find?_eq_some h, e, rfl⟩
  obtain ⟨q, hq, -, hc⟩ := hfind
  refine ⟨countOf l p.1, ?_, ?_⟩
  · rw [List.mem_map]
    have := (le_foldl_max (l.map (·.2.1)) 1).2 q.2.1 (List.mem_map_of_mem hq)
    have h0 := h0 q hq
    refine ⟨countOf l p.1 - 1, ?_, by omega⟩
    rw [List.mem_range]
    omega
  · rw [(sortTexts_perm _ _).mem_iff, List.mem_filter]
    refine ⟨?_, by simp [countOf]⟩
    rw [(R.strings_perm _).mem_iff, List.mem_dedup]
    exact List.mem_map_of_mem hp

theorem sortRules_succeeds {byName reverse : Bool} {l : List Member} (h : ∀ m ∈ l, Spec.Sortable byName m) :
    ∃ l', sortRules R byName reverse l = .ok l' := by
  unfold sortRules
  rw [mapM_ok fun m hm => featuresCount_of (h m hm).1]
  simp only [bind, Except.bind]
  have htag : List.zipWith (fun m n => (featuresText R byName m, n, m)) l (l.map (Spec.featureNumber byName)) =
      l.map fun m => (Spec.featureText R byName m, Spec.featureNumber byName m, m) := by
    rw [List.zipWith_map_right, List.zipWith_self]
    rfl
  rw [htag]
  rw [if_neg]
  · rw [mapM_ok (g := fun t => (((l.map fun m => (Spec.featureText R byName m, Spec.featureNumber byName m, m)).filter
      fun p => p.1 = t).map (·.2.2)).map Spec.boundsOf |>.zip (((l.map fun m => (Spec.featureText R byName m,
        Spec.featureNumber byName m, m)).filter fun p => p.1 = t).map (·.2.2)) |> sortByKey listLt |>.map (·.2))]
    · exact ⟨_, rfl⟩
    · intro t _
      unfold sortGroup
      rw [mapM_ok (g := Spec.boundsOf)]
      · rfl
      · intro m hm
        obtain ⟨p, hp, rfl⟩ := List.mem_map.1 hm
        obtain ⟨hp, -⟩ := List.mem_filter.1 hp
        obtain ⟨m', hm', rfl⟩ := List.mem_map.1 hp
        exact boundsOf_of (h m' hm').2.1 (h m' hm').2.2
  · simp only [List.any_eq_true, decide_eq_true_eq, not_exists, not_and, not_not]
    intro p hp
    refine mem_groupTexts ?_ hp
    intro q hq
    obtain ⟨m, hm, rfl⟩ := List.mem_map.1 hq
    exact (h m hm).1

theorem selectColumns_succeeds {l l' : List Member} (hp : l'.Perm l) (hd : Spec.DifferentTexts R l) :
    selectColumns (Spec.columnsOf R l) (l'.map fun m => R.condStr m.rule.cond) = .ok (Spec.columnsOf R l') := by
  have : ∃ c, selectColumns (Spec.columnsOf R l) (l'.map fun m => R.condStr m.rule.cond) = .ok c := by
    unfold selectColumns
    rw [if_neg]
    · exact ⟨_, rfl⟩
    · simp only [List.any_eq_true, Bool.not_eq_true', List.any_eq_false, not_exists, not_and]
      intro t ht hn
      obtain ⟨m, hm, rfl⟩ := List.mem_map.1 ht
      have hm := hp.mem_iff.1 hm
      have := hn (R.condStr m.rule.cond, m.rule.act.getD []) (List.mem_map_of_mem (f := fun m : Member =>
        (R.condStr m.rule.cond, m.rule.act.getD [])) hm)
      simp at this
  obtain ⟨c, hc⟩ := this
  rw [hc, selectColumns_columnsOf hp hd hc]

/-- `sort` when the new order can be computed -/
theorem sort_of {c : Option String} {reverse : Bool} {s : RuleSet} {rules : List Member} (hne : s.rules ≠ [])
    (h : sortedRules R c reverse s = .ok rules)
    (hs : s.stack = true → s.stacked = some (Spec.columnsOf R s.rules) ∧ Spec.DifferentTexts R s.rules) :
    sort R c reverse s =
      (.ok (), { s with rules, stacked := if s.stack then some (Spec.columnsOf R rules) else s.stacked }) := by
  unfold sort
  rw [Py.bind_ok (Py.get_run s), if_neg fun e => hne (List.length_eq_zero_iff.1 e)]
  rw [Py.bind_ok (a := rules) (s' := s) (by rw [Py.ofExcept_run, h]), Py.bind_ok (Py.modify_run _ _)]
  unfold stackIf
  rw [Py.bind_ok (Py.get_run _)]
  cases hb : s.stack with
  | false => simp
  | true =>
    obtain ⟨h1, h2⟩ := hs hb
    simp only [if_true]
    unfold reorderStacked
    rw [Py.bind_ok (Py.get_run _)]
    simp only [h1]
    rw [Py.bind_ok (a := Spec.columnsOf R rules) (by rw [Py.ofExcept_run, selectColumns_succeeds (sortedRules_perm h) h2]),
      Py.modify_run]

/-! ## By an attribute -/

/-- The number an attribute is -/
def numberOf (R : RsEnv) (a : String) (m : Member) : Num :=
  match m.rule.getattr (R.ofKind m.kind) a with
  | .ok (.num x) => x
  | _ => .nan

theorem numberOf_eq {a : String} {m : Member} {x : Num} (h : Spec.HasNumber R a m x) : numberOf R a m = x := by
  unfold numberOf
  unfold Spec.HasNumber at h
  rw [h]

/-- The order for an attribute -/
def CriterionLe (R : RsEnv) (a : String) (reverse : Bool) (m m' : Member) : Prop :=
  if reverse then Spec.value (numberOf R a m') ≤ Spec.value (numberOf R a m)
  else Spec.value (numberOf R a m) ≤ Spec.value (numberOf R a m')

noncomputable instance (a : String) (reverse : Bool) : DecidableRel (CriterionLe R a reverse) :=
  fun _ _ => Classical.propDecidable _

instance (a : String) (reverse : Bool) : Std.Total (CriterionLe R a reverse) := ⟨fun m m' => by
  unfold CriterionLe
  cases reverse
  · simpa using le_total _ _
  · simpa using le_total _ _⟩

instance (a : String) (reverse : Bool) : IsTrans Member (CriterionLe R a reverse) := ⟨fun m m' m'' h h' => by
  unfold CriterionLe at *
  cases reverse
  · simp only [Bool.false_eq_true, if_false] at *
    exact le_trans h h'
  · simp only [if_true] at *
    exact le_trans h' h⟩

theorem sortedRules_criterion {a : String} {reverse : Bool} {s : RuleSet} {l : List Member}
    (hx : ∀ m ∈ s.rules, ∃ x, Spec.HasNumber R a m x ∧ x ≠ .nan) (h : sortedRules R (some a) reverse s = .ok l) :
    l = s.rules.insertionSort (CriterionLe R a reverse) := by
  unfold sortedRules at h
  simp only at h
  split at h
  · rename_i e
    cases h
    rw [e]
    rfl
  rename_i m0 rest e0
  have hx0 := e0 ▸ hx
  obtain ⟨x0, hx0, -⟩ := hx0 m0 (by simp)
  unfold Spec.HasNumber at hx0
  rw [hx0] at h
  simp only at h
  simp only [bind, Except.bind] at h
  split at h
  · cases h
  rename_i keys hk
  replace hk := mapM_eq_ok hk
  unfold sortByCriterion at h
  split at h
  · injection h with h
    subst h
    have hz := forall₂_zip hk
    have hs : (keys.zip s.rules).map (·.2) = s.rules := zip_map_snd hk.length_eq.symm
    unfold sortByKey
    refine Eq.trans (List.map_insertionSort (s := CriterionLe R a reverse) _ _ _ ?_) (by rw [hs])
    intro p hp q hq
    obtain ⟨x, hx1, hx2⟩ := hx p.2 (List.of_mem_zip hp).2
    obtain ⟨y, hy1, hy2⟩ := hx q.2 (List.of_mem_zip hq).2
    have ep := hz p hp
    have eq := hz q hq
    rw [Spec.HasNumber] at hx1 hy1
    rw [hx1] at ep
    rw [hy1] at eq
    injection ep with ep
    injection eq with eq
    unfold CriterionLe
    rw [numberOf_eq hx1, numberOf_eq hy1, ← ep, ← eq]
    cases reverse with
    | true =>
      simp only [attrLt, if_true]
      rw [← not_lt, ← value_lt hx2 hy2, Bool.not_eq_true]
    | false =>
      simp only [attrLt, Bool.false_eq_true, if_false]
      rw [← not_lt, ← value_lt hy2 hx2, Bool.not_eq_true]
  · cases h

/-- The text of an attribute -/
def textOf (R : RsEnv) (a : String) (m : Member) : String :=
  match m.rule.getattr (R.ofKind m.kind) a with
  | .ok (.str t) => t
  | _ => ""

theorem textOf_eq {a : String} {m : Member} {t : String} (h : Spec.HasText R a m t) : textOf R a m = t := by
  unfold textOf
  unfold Spec.HasText at h
  rw [h]

/-- The order for an attribute which is a text -/
def TextLe (R : RsEnv) (a : String) (reverse : Bool) (m m' : Member) : Prop :=
  if reverse then textOf R a m' ≤ textOf R a m else textOf R a m ≤ textOf R a m'

noncomputable instance (a : String) (reverse : Bool) : DecidableRel (TextLe R a reverse) :=
  fun _ _ => Classical.propDecidable _

instance (a : String) (reverse : Bool) : Std.Total (TextLe R a reverse) := ⟨fun m m' => by
  unfold TextLe
  cases reverse
  · simpa using le_total _ _
  · simpa using le_total _ _⟩

instance (a : String) (reverse : Bool) : IsTrans Member (TextLe R a reverse) := ⟨fun m m' m'' h h' => by
  unfold TextLe at *
  cases reverse
  · simp only [Bool.false_eq_true, if_false] at *
    exact le_trans h h'
  · simp only [if_true] at *
    exact le_trans h' h⟩

theorem sortedRules_text {a : String} {reverse : Bool} {s : RuleSet} {l : List Member}
    (hx : ∀ m ∈ s.rules, ∃ t, Spec.HasText R a m t) (h : sortedRules R (some a) reverse s = .ok l) :
    l = s.rules.insertionSort (TextLe R a reverse) := by
  unfold sortedRules at h
  simp only at h
  split at h
  · rename_i e
    cases h
    rw [e]
    rfl
  rename_i m0 rest e0
  have hx0 := e0 ▸ hx
  obtain ⟨x0, hx0⟩ := hx0 m0 (by simp)
  unfold Spec.HasText at hx0
  rw [hx0] at h
  simp only at h
  simp only [bind, Except.bind] at h
  split at h
  · cases h
  rename_i keys hk
  replace hk := mapM_eq_ok hk
  unfold sortByCriterion at h
  split at h
  · injection h with h
    subst h
    have hz := forall₂_zip hk
    have hs : (keys.zip s.rules).map (·.2) = s.rules := zip_map_snd hk.length_eq.symm
    unfold sortByKey
    refine Eq.trans (List.map_insertionSort (s := TextLe R a reverse) _ _ _ ?_) (by rw [hs])
    intro p hp q hq
    obtain ⟨x, hx1⟩ := hx p.2 (List.of_mem_zip hp).2
    obtain ⟨y, hy1⟩ := hx q.2 (List.of_mem_zip hq).2
    have ep := hz p hp
    have eq := hz q hq
    rw [Spec.HasText] at hx1 hy1
    rw [hx1] at ep
    rw [hy1] at eq
    injection ep with ep
    injection eq with eq
    unfold TextLe
    rw [textOf_eq hx1, textOf_eq hy1, ← ep, ← eq]
    cases reverse with
    | true =>
      simp only [attrLt, if_true]
      rw [← not_lt, decide_eq_false_iff_not]
    | false =>
      simp only [attrLt, Bool.false_eq_true, if_false]
      rw [← not_lt, decide_eq_false_iff_not]
  · cases h

/-- Elements which are related to each other keep their order. -/
theorem insertionSort_stable {α} {r : α → α → Prop} [DecidableRel r] (p : α → Bool) (l : List α)
    (h : ∀ a b, p a = true → p b = true → r a b) : (l.insertionSort r).filter p = l.filter p := by
  have h1 : (l.filter p).Sublist (l.insertionSort r) := by
    apply List.sublist_insertionSort _ List.filter_sublist
    rw [List.pairwise_filter]
    exact List.pairwise_of_forall fun a b ha hb => h a b ha hb
  have h2 := h1.filter p
  rw [List.filter_filter] at h2
  simp only [Bool.and_self] at h2
  refine (h2.eq_of_length ?_).symm
  exact ((List.perm_insertionSort r l).filter p).length_eq.symm

/-- The values of an attribute which all elements have -/
theorem mapM_values {α β} {f : α → Except Err β} {l : List α} (h : ∀ a ∈ l, ∃ b, f a = .ok b) :
    ∃ r, l.mapM f = .ok r ∧ List.Forall₂ (fun a b => f a = .ok b) l r := by
  have : ∃ r, l.mapM f = .ok r := by
    induction l with
    | nil => exact ⟨[], rfl⟩
    | cons a l ih =>
      obtain ⟨b, hb⟩ := h a (.head _)
      obtain ⟨r, hr⟩ := ih fun x hx => h x (.tail _ hx)
      exact ⟨b :: r, by simp only [List.mapM_cons, hb, hr, bind, Except.bind, pure, Except.pure]⟩
  obtain ⟨r, hr⟩ := this
  exact ⟨r, hr, mapM_eq_ok hr⟩

theorem forall₂_left {α β} {P : α → β → Prop} {l : List α} {r : List β} (h : List.Forall₂ P l r) {a : α} (ha : a ∈ l) :
    ∃ b ∈ r, P a b := by
  induction h with
  | nil => cases ha
  | cons hp _ ih =>
    rcases List.mem_cons.1 ha with rfl | ha
    · exact ⟨_, List.mem_cons_self, hp⟩
    · obtain ⟨b, hb, hab⟩ := ih ha
      exact ⟨b, List.mem_cons_of_mem _ hb, hab⟩

end Verif.RuleSet
