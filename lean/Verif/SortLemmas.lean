import Verif.RuleSetMake
import Mathlib.Data.List.Sort
import Mathlib.Data.List.Perm.Basic

/-!
# Lemmas about rulesets: sorting
-/

namespace Verif.RuleSet

open Verif Vote Spec

variable {R : RsEnv}

theorem mapM_eq_ok {α β} {f : α → Except Err β} {l : List α} {r : List β} (h : l.mapM f = .ok r) :
    List.Forall₂ (fun a b => f a = .ok b) l r := by
  induction l generalizing r with
  | nil =>
    rw [List.mapM_nil] at h
    cases h
    exact .nil
  | cons a l ih =>
    rw [List.mapM_cons] at h
    simp only [bind, Except.bind] at h
    split at h
    · cases h
    rename_i b hb
    split at h
    · cases h
    rename_i bs hbs
    simp only [pure, Except.pure] at h
    cases h
    exact .cons hb (ih hbs)

theorem zip_map_snd {α β} {l : List α} {r : List β} (h : l.length = r.length) : (l.zip r).map (·.2) = r := by
  rw [← List.unzip_snd, List.unzip_zip h]

theorem sortByKey_perm {κ α} (lt : κ → κ → Bool) (l : List (κ × α)) : (sortByKey lt l).Perm l := List.perm_insertionSort _ _

theorem sortGroup_perm {l l' : List Member} (h : sortGroup l = .ok l') : l'.Perm l := by
  unfold sortGroup at h
  simp only [bind, Except.bind] at h
  split at h
  · cases h
  rename_i keys hk
  cases h
  have := (sortByKey_perm listLt (keys.zip l)).map (·.2)
  rwa [zip_map_snd (mapM_eq_ok hk).length_eq.symm] at this

theorem sortTexts_perm (b : Bool) (l : List String) : (sortTexts b l).Perm l := by
  unfold sortTexts
  split
  · exact List.perm_insertionSort _ _
  · exact List.perm_insertionSort _ _

/-- Putting together the groups of a list -/
theorem flatMap_groups {α κ} [DecidableEq κ] (key : α → κ) {keys : List κ} (hd : keys.Nodup) (l : List α)
    (h : ∀ a ∈ l, key a ∈ keys) : (keys.flatMap fun k => l.filter fun a => key a = k).Perm l := by
  induction l with
  | nil => simp
  | cons a l ih =>
    obtain ⟨k1, k2, e⟩ := List.append_of_mem (h a (by simp))
    have hk := ih fun b hb => h b (by simp [hb])
    rw [e] at hd hk ⊢
    rw [List.nodup_append, List.nodup_cons] at hd
    have n1 : ∀ k ∈ k1, key a ≠ k := fun k hk e' => hd.2.2 k hk (key a) (by simp) e'.symm
    have n2 : ∀ k ∈ k2, key a ≠ k := fun k hk e' => hd.2.1.1 (e' ▸ hk)
    have f1 : (k1.flatMap fun k => (a :: l).filter fun a => key a = k) = k1.flatMap fun k => l.filter fun a => key a = k := by
      apply List.flatMap_congr
      intro k hk
      rw [List.filter_cons_of_neg]
      simpa using n1 k hk
    have f2 : (k2.flatMap fun k => (a :: l).filter fun a => key a = k) = k2.flatMap fun k => l.filter fun a => key a = k := by
      apply List.flatMap_congr
      intro k hk
      rw [List.filter_cons_of_neg]
      simpa using n2 k hk
    rw [List.flatMap_append, List.flatMap_cons] at hk ⊢
    rw [f1, f2, List.filter_cons_of_pos (by simp)]
    refine List.perm_middle.trans ?_
    exact hk.cons a

/-- The texts of the groups are different. -/
theorem groupTexts_nodup (b : Bool) (l : List Tagged) : (groupTexts R b l).Nodup := by
  unfold groupTexts
  simp only
  rw [List.nodup_flatMap]
  have hd : (R.strings (l.map (·.1))).Nodup := (R.strings_perm _).nodup_iff.2 (List.nodup_dedup _)
  refine ⟨fun n _ => ((sortTexts_perm _ _).nodup_iff).2 (hd.filter _), ?_⟩
  apply List.Nodup.pairwise_of_forall_ne
  · exact (List.nodup_range).map (fun a b h => by simpa using h)
  · intro n _ n' _ hne
    simp only [Function.onFun]
    intro t h1 h2
    have h1 := (List.mem_filter.1 ((sortTexts_perm _ _).mem_iff.1 h1)).2
    have h2 := (List.mem_filter.1 ((sortTexts_perm _ _).mem_iff.1 h2)).2
    simp only [decide_eq_true_eq] at h1 h2
    exact hne (h1.symm.trans h2)

theorem zipWith_tagged {f : Member → String} {rules : List Member} {counts : List Nat} (h : rules.length = counts.length) :
    (List.zipWith (fun m n => (f m, n, m)) rules counts).map (·.2.2) = rules := by
  induction rules generalizing counts with
  | nil => simp
  | cons m rules ih =>
    cases counts with
    | nil => simp at h
    | cons n counts => simp only [List.zipWith_cons_cons, List.map_cons, ih (by simpa using h)]

theorem forall₂_flatten_perm {α} {l l' : List (List α)} (h : List.Forall₂ List.Perm l l') : l.flatten.Perm l'.flatten := by
  induction h with
  | nil => exact .nil
  | cons h _ ih => simpa only [List.flatten_cons] using h.append ih

/-- Sorting without criterion keeps the rules. -/
theorem sortRules_perm {byName reverse : Bool} {l l' : List Member} (h : sortRules R byName reverse l = .ok l') : l'.Perm l := by
  unfold sortRules at h
  simp only [bind, Except.bind] at h
  split at h
  · cases h
  rename_i counts hc
  split at h
  · cases h
  rename_i hm
  split at h
  · cases h
  rename_i groups hg
  cases h
  have hlen := (mapM_eq_ok hc).length_eq
  simp only [List.any_eq_true, decide_eq_true_eq, not_exists, not_and, not_not] at hm
  have hp := flatMap_groups (key := fun p : Tagged => p.1) (groupTexts_nodup (R := R) reverse _) _ hm
  have hp' := hp.map (·.2.2)
  rw [zipWith_tagged hlen] at hp'
  refine List.Perm.trans ?_ hp'
  rw [List.map_flatMap, List.flatMap_def]
  apply forall₂_flatten_perm
  have := mapM_eq_ok hg
  rw [List.forall₂_map_right_iff]
  exact this.flip.imp fun a b h => sortGroup_perm h

theorem sortByCriterion_perm {reverse : Bool} {l : List (Thresholds.Attr × Member)} {l' : List Member}
    (h : sortByCriterion reverse l = .ok l') : l'.Perm (l.map (·.2)) := by
  unfold sortByCriterion at h
  split at h
  · cases h
    exact (sortByKey_perm _ _).map _
  · cases h

theorem sortedRules_perm {c : Option String} {reverse : Bool} {s : RuleSet} {l : List Member}
    (h : sortedRules R c reverse s = .ok l) : l.Perm s.rules := by
  unfold sortedRules at h
  cases c with
  | none => exact sortRules_perm h
  | some a =>
    simp only at h
    split at h
    · rename_i e
      cases h
      rw [e]
    · split at h
      · cases h
      · cases h
      · simp only [bind, Except.bind] at h
        split at h
        · cases h
        rename_i keys hk
        have := sortByCriterion_perm h
        rwa [zip_map_snd (mapM_eq_ok hk).length_eq.symm] at this

/-- What `sort` does when it does not raise -/
theorem sort_ok {c : Option String} {reverse : Bool} {s s' : RuleSet} (h : sort R c reverse s = (.ok (), s')) :
    (s.rules = [] ∧ s' = s) ∨ ∃ rules, sortedRules R c reverse s = .ok rules ∧
      ((s.stack = false ∧ s' = { s with rules }) ∨
        s.stack = true ∧ ∃ c c', s.stacked = some c ∧ selectColumns c (rules.map fun m => R.condStr m.rule.cond) = .ok c' ∧
          s' = { s with rules, stacked := some c' }) := by
  unfold sort at h
  rw [Py.bind_ok (Py.get_run s)] at h
  split at h
  · rename_i he
    simp only [Py.pure_run] at h
    cases h
    exact Or.inl ⟨List.length_eq_zero_iff.1 he, rfl⟩
  · obtain ⟨rules, s1, h1, h⟩ := Py.bind_eq_ok h
    simp only [Py.ofExcept_run] at h1
    obtain ⟨e1, e2⟩ := Prod.mk.inj h1
    subst e2
    rw [Py.bind_ok (Py.modify_run _ _)] at h
    refine Or.inr ⟨rules, e1, ?_⟩
    rcases stackIf_ok h with ⟨b, rfl⟩ | ⟨b, h⟩
    · exact Or.inl ⟨b, rfl⟩
    · refine Or.inr ⟨b, ?_⟩
      unfold reorderStacked at h
      rw [Py.bind_ok (Py.get_run _)] at h
      cases hc : s.stacked with
      | none => simp [hc] at h
      | some c =>
        simp only [hc] at h
        obtain ⟨c', s2, h2, h⟩ := Py.bind_eq_ok h
        simp only [Py.ofExcept_run] at h2
        obtain ⟨e3, e4⟩ := Prod.mk.inj h2
        subst e4
        simp only [Py.modify_run] at h
        cases h
        exact ⟨c, c', rfl, e3, rfl⟩

end Verif.RuleSet
