import Verif.SliceLemmas
import Verif.SortProps

/-!
# Lemmas on `==`, the check of duplicates and slices of rulesets
-/

namespace Verif.RuleSetProps

open Verif Spec Vote RuleSet

theorem forall₂_exists_left {α β} {p : α → β → Prop} {l : List α} {r : List β} (h : List.Forall₂ p l r) {a : α} (ha : a ∈ l) :
    ∃ b ∈ r, p a b := by
  induction h with
  | nil => cases ha
  | cons h _ ih =>
    rcases List.mem_cons.1 ha with rfl | ha
    · exact ⟨_, .head _, h⟩
    · obtain ⟨b, hb, hp⟩ := ih ha
      exact ⟨b, .tail _ hb, hp⟩

theorem forall₂_exists_right {α β} {p : α → β → Prop} {l : List α} {r : List β} (h : List.Forall₂ p l r) {b : β} (hb : b ∈ r) :
    ∃ a ∈ l, p a b := by
  obtain ⟨a, ha, hp⟩ := forall₂_exists_left h.flip hb
  exact ⟨a, ha, hp⟩

theorem eq_keys {R : RsEnv} {s o : RuleSet} {b : Bool} (h : RuleSet.eq R s o = .ok b) :
    b = true ↔ (∀ m ∈ s.rules, ∃ m' ∈ o.rules, SameKey R.hasher m m') ∧
      (∀ m' ∈ o.rules, ∃ m ∈ s.rules, SameKey R.hasher m m') := by
  unfold RuleSet.eq at h
  simp only [bind, Except.bind] at h
  split at h
  · cases h
  rename_i ks hs
  split at h
  · cases h
  rename_i ko ho
  cases h
  replace hs := mapM_eq_ok hs
  replace ho := mapM_eq_ok ho
  have left : ∀ {l l' : List Member} {ks ks' : List (Int × Int)},
      List.Forall₂ (fun m k => setKey R.hasher m = .ok k) l ks → List.Forall₂ (fun m k => setKey R.hasher m = .ok k) l' ks' →
      ((∀ k ∈ ks, k ∈ ks') ↔ ∀ m ∈ l, ∃ m' ∈ l', SameKey R.hasher m m') := by
    intro l l' ks ks' h h'
    constructor
    · intro hk m hm
      obtain ⟨k, hkm, e⟩ := forall₂_exists_left h hm
      obtain ⟨m', hm', e'⟩ := forall₂_exists_right h' (hk k hkm)
      exact ⟨m', hm', k, e, e'⟩
    · intro hm k hk
      obtain ⟨m, hm1, e⟩ := forall₂_exists_right h hk
      obtain ⟨m', hm', k1, e1, e2⟩ := hm m hm1
      obtain ⟨k2, hk2, e3⟩ := forall₂_exists_left h' hm'
      rw [e] at e1
      rw [e3] at e2
      cases e1
      cases e2
      exact hk2
  rw [Bool.and_eq_true, List.all_eq_true, List.all_eq_true]
  simp only [decide_eq_true_eq]
  rw [left hs ho, left ho hs]
  constructor
  · rintro ⟨h1, h2⟩
    exact ⟨h1, fun m hm => (h2 m hm).imp fun m' h => ⟨h.1, h.2.symm⟩⟩
  · rintro ⟨h1, h2⟩
    exact ⟨h1, fun m hm => (h2 m hm).imp fun m' h => ⟨h.1, h.2.symm⟩⟩


theorem mapM_exists {α β} {f : α → Except Err β} {l : List α} (h : ∀ a ∈ l, ∃ b, f a = .ok b) : ∃ r, l.mapM f = .ok r := by
  induction l with
  | nil => exact ⟨[], rfl⟩
  | cons a l ih =>
    obtain ⟨b, hb⟩ := h a (.head _)
    obtain ⟨r, hr⟩ := ih fun x hx => h x (.tail _ hx)
    exact ⟨b :: r, by simp only [List.mapM_cons, hb, hr, bind, Except.bind, pure, Except.pure]⟩

/-- `==` succeeds when the rules have hashes. -/
theorem eq_succeeds {R : RsEnv} {s o : RuleSet} (hs : ∀ m ∈ s.rules, ∃ k, setKey R.hasher m = .ok k)
    (ho : ∀ m ∈ o.rules, ∃ k, setKey R.hasher m = .ok k) : ∃ b, RuleSet.eq R s o = .ok b := by
  obtain ⟨ks, h1⟩ := mapM_exists hs
  obtain ⟨ko, h2⟩ := mapM_exists ho
  unfold RuleSet.eq
  rw [h1, h2]
  exact ⟨_, rfl⟩

theorem sameText_iff {R : RsEnv} {byName : Bool} {m m' : Member} {t t' : String} (hT : TextsTellApart R)
    (h : ruleText R byName m = .ok t) (h' : ruleText R byName m' = .ok t') : t = t' ↔ SameRule R byName m m' := by
  have hd : decide (0 < (if byName then ["a"] else [] : List String).length) = byName := by cases byName <;> rfl
  have hc : contains R { blank false with rules := [m'], names := if byName then ["a"] else [] } m = .ok (decide (t ∈ [t'])) := by
    unfold contains
    simp only [gt_iff_lt, hd, List.mapM_cons, List.mapM_nil, h, h', bind, Except.bind, pure, Except.pure]
  have := C34_contains_partial hT hc
  simp only [hd] at this
  rw [decide_eq_true_eq, List.mem_singleton] at this
  rw [this]
  simp

theorem appendAll_checked (R : RsEnv) (b : Bool) (rules : List Member) :
    appendAll { R with checkDuplicated := b } rules = appendAll R rules := by
  induction rules with
  | nil => rfl
  | cons m l ih =>
    unfold appendAll
    rw [ih]
    rfl

theorem computeSelf_checked (R : RsEnv) (b : Bool) : computeSelf { R with checkDuplicated := b } none = computeSelf R none := rfl

theorem computeStacked_checked (R : RsEnv) (b : Bool) :
    computeStacked { R with checkDuplicated := b } none = computeStacked R none := rfl

theorem indexesOf_checked (R : RsEnv) (b : Bool) (l : List String) :
    indexesOf { R with checkDuplicated := b } l = indexesOf R l := rfl

theorem reindexRules_checked (R : RsEnv) (b : Bool) (rules : List Member) :
    reindexRules { R with checkDuplicated := b } rules = reindexRules R rules := by
  induction rules with
  | nil => rfl
  | cons m l ih =>
    unfold reindexRules
    simp only [ih, indexesOf_checked]

theorem setFeaturesIndexes_checked (R : RsEnv) (b : Bool) :
    setFeaturesIndexes { R with checkDuplicated := b } = setFeaturesIndexes R := by
  unfold setFeaturesIndexes
  simp only [reindexRules_checked, indexesOf_checked]

theorem bind_assoc_run {σ α β γ} (m : Py σ α) (f : α → Py σ β) (g : β → Py σ γ) : m >>= (fun a => f a >>= g) = m >>= f >>= g := by
  funext s
  simp only [Py.bind_run]
  rcases m s with ⟨_ | _, _⟩ <;> rfl

/-- The check of duplicates comes after everything else. -/
theorem init_checked (R : RsEnv) (rules : List Member) (compute : Bool) :
    init R rules compute = (do init { R with checkDuplicated := false } rules compute; checkIf R : Py RuleSet Unit) := by
  unfold init
  rw [appendAll_checked R false, setFeaturesIndexes_checked R false, computeStacked_checked R false]
  simp only [← bind_assoc_run]
  rfl

/-- Construction with the check of duplicates: construction without it, then the check -/
theorem make_checked {R : RsEnv} {rules : List Member} {compute stack : Bool} :
    make { R with checkDuplicated := true } rules compute stack =
      (do
        let s ← make { R with checkDuplicated := false } rules compute stack
        checkDuplicatedRules R (decide (s.names.length > 0)) s.rules
        pure s) := by
  unfold make
  rw [init_checked { R with checkDuplicated := true }, Py.bind_run]
  simp only
  rcases init { R with checkDuplicated := false } rules compute (blank stack) with ⟨_ | _, s⟩
  · rfl
  · have e : checkIf { R with checkDuplicated := true } s = (checkDuplicatedRules R (decide (s.names.length > 0)) s.rules, s) := rfl
    simp only [e, bind, Except.bind]
    rcases checkDuplicatedRules R (decide (s.names.length > 0)) s.rules with _ | _ <;> rfl

theorem nodup_texts {R : RsEnv} {byName : Bool} {rules : List Member} {l : List String} (hT : TextsTellApart R)
    (h : List.Forall₂ (fun m t => ruleText R byName m = .ok t) rules l) :
    l.Nodup ↔ rules.Pairwise fun a b => ¬ SameRule R byName a b := by
  induction h with
  | nil => simp
  | @cons m t rules l h hr ih =>
    rw [List.nodup_cons, List.pairwise_cons, ih]
    refine and_congr ?_ Iff.rfl
    constructor
    · intro hn m' hm' hs
      obtain ⟨t', ht', e⟩ := forall₂_exists_left hr hm'
      exact hn (((sameText_iff hT h e).2 hs) ▸ ht')
    · intro hn ht
      obtain ⟨m', hm', e⟩ := forall₂_exists_right hr ht
      exact hn m' hm' ((sameText_iff hT h e).1 rfl)

/-- The rules at positions which are all in the list -/
theorem mapM_getItem {l : List Member} {ps : List Int} (h : ∀ p ∈ ps, 0 ≤ p ∧ p < l.length) :
    ∃ rs, ps.mapM (getItem l) = .ok rs ∧ List.Forall₂ (fun p m => l[p]? = some m) (ps.map Int.toNat) rs := by
  induction ps with
  | nil => exact ⟨[], rfl, .nil⟩
  | cons p ps ih =>
    obtain ⟨h0, h1⟩ := h p (.head _)
    obtain ⟨rs, hr, hf⟩ := ih fun x hx => h x (.tail _ hx)
    have hp : p.toNat < l.length := by omega
    refine ⟨l[p.toNat] :: rs, ?_, .cons (List.getElem?_eq_getElem hp) hf⟩
    have : getItem l p = .ok l[p.toNat] := by
      unfold getItem
      rw [if_neg (by omega), if_neg (by omega), List.getElem?_eq_getElem hp]
    simp only [List.mapM_cons, this, hr, bind, Except.bind, pure, Except.pure]

end Verif.RuleSetProps
