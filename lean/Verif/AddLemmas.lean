import Verif.StackedLemmas
import Verif.ConditionAnd

/-!
# Lemmas about rulesets: adding rulesets, the features of a ruleset
-/

namespace Verif.RuleSet

open Verif Vote Spec

variable {R : RsEnv}

/-! ## Sets of rules -/

theorem firsts_mem {κ α} [DecidableEq κ] {l : List (κ × α)} {p : κ × α} (h : p ∈ l) : ∃ q ∈ firsts l, q.1 = p.1 := by
  induction l with
  | nil => cases h
  | cons a l ih =>
    unfold firsts
    rcases List.mem_cons.1 h with rfl | h
    · exact ⟨p, by simp, rfl⟩
    · obtain ⟨q, hq, e⟩ := ih h
      by_cases ha : q.1 = a.1
      · exact ⟨a, by simp, ha ▸ e⟩
      · exact ⟨q, by simp [hq, ha], e⟩

theorem firsts_pairwise {κ α} [DecidableEq κ] (l : List (κ × α)) : (firsts l).Pairwise fun p q => p.1 ≠ q.1 := by
  induction l with
  | nil => exact .nil
  | cons a l ih =>
    unfold firsts
    refine .cons ?_ (ih.filter _)
    intro q hq e
    have := (List.mem_filter.1 hq).2
    simp only [ne_eq, decide_not, Bool.not_eq_eq_eq_not, Bool.not_true, decide_eq_false_iff_not] at this
    exact this e.symm

/-- Same hashes -/
def SameKey (H : Cond.Hasher) (m m' : Member) : Prop := ∃ k, setKey H m = .ok k ∧ setKey H m' = .ok k

theorem SameKey.symm {H : Cond.Hasher} {m m' : Member} (h : SameKey H m m') : SameKey H m' m := by
  obtain ⟨k, h1, h2⟩ := h
  exact ⟨k, h2, h1⟩

theorem SameKey.eq {H : Cond.Hasher} {m m' : Member} (h : SameKey H m m') :
    Cond.eq H m.rule.cond m'.rule.cond = .ok true := by
  obtain ⟨k, h1, h2⟩ := h
  unfold setKey at h1 h2
  unfold Cond.eq
  simp only [bind, Except.bind] at h1 h2 ⊢
  split at h1
  · cases h1
  split at h1
  · cases h1
  rename_i e1
  cases h1
  split at h2
  · cases h2
  split at h2
  · cases h2
  rename_i e2
  cases h2
  simp only [decide_true]

theorem forall₂_zip {α β} {p : α → β → Prop} {l : List α} {r : List β} (h : List.Forall₂ p l r) :
    ∀ x ∈ r.zip l, p x.2 x.1 := by
  induction h with
  | nil => intro x hx; cases hx
  | cons h _ ih =>
    intro x hx
    rw [List.zip_cons_cons] at hx
    rcases List.mem_cons.1 hx with rfl | hx
    · exact h
    · exact ih x hx

/-- What `list(set(rules))` makes -/
theorem setOf_ok {l l' : List Member} (h : setOf R l = .ok l') :
    (∀ m ∈ l', m ∈ l) ∧ (∀ m ∈ l, ∃ m' ∈ l', SameKey R.hasher m' m) ∧
      l'.Pairwise fun m m' => ¬ SameKey R.hasher m m' := by
  refine ⟨fun m hm => setOf_mem h hm, ?_⟩
  unfold setOf at h
  simp only [bind, Except.bind] at h
  split at h
  · cases h
  rename_i keys hk
  cases h
  have hk := mapM_eq_ok hk
  have hz := forall₂_zip hk
  constructor
  · intro m hm
    have : m ∈ (keys.zip l).map (·.2) := by rwa [zip_map_snd hk.length_eq.symm]
    obtain ⟨p, hp, rfl⟩ := List.mem_map.1 this
    obtain ⟨q, hq, e⟩ := firsts_mem hp
    refine ⟨q.2, (R.order_perm _).mem_iff.2 (List.mem_map_of_mem hq), p.1, ?_, hz p hp⟩
    rw [← e]
    exact hz q ((firsts_sublist _).subset hq)
  · rw [(R.order_perm _).pairwise_iff fun h hk => h hk.symm]
    rw [List.pairwise_map]
    refine List.Pairwise.imp_of_mem ?_ (firsts_pairwise (keys.zip l))
    rintro p q hp hq hne ⟨k, h1, h2⟩
    rw [hz p ((firsts_sublist _).subset hp)] at h1
    rw [hz q ((firsts_sublist _).subset hq)] at h2
    exact hne (Except.ok.inj (h1.trans h2.symm))

/-- Rules whose conditions require the same of the same features have the same hashes. -/
theorem sameKey_of_same (H : Cond.Hasher) {m m' : Member} {fs gs : List Feature} (hf : (fs.map (·.name)).Nodup)
    (hg : (gs.map (·.name)).Nodup) (hc : Shows m.rule.cond fs) (hc' : Shows m'.rule.cond gs) (h : SameRequirements fs gs) :
    SameKey H m m' := by
  have hp : (fs.map fun f => (f.name, f.lo, f.hi)).Perm (gs.map fun f => (f.name, f.lo, f.hi)) := by
    rw [List.perm_ext_iff_of_nodup (Cond.triples_nodup hf) (Cond.triples_nodup hg)]
    rintro ⟨n, lo, hi⟩
    have := h n lo hi
    simpa [List.mem_map, Prod.ext_iff] using this
  have hh : ∀ x : Int, H.frozenset (x :: (fs.map fun f => (f.name, f.lo, f.hi)).dedup.map fun x : String × Num × Num => H.tuple [H.str x.1, H.num x.2.1, H.num x.2.2]) =
      H.frozenset (x :: (gs.map fun f => (f.name, f.lo, f.hi)).dedup.map fun x : String × Num × Num => H.tuple [H.str x.1, H.num x.2.1, H.num x.2.2]) := by
    intro x
    apply H.frozenset_perm
    apply List.Perm.cons
    apply List.Perm.map
    exact hp.dedup
  unfold SameKey setKey ruleHash Cond.hash
  simp only [Cond.toHash_shows hc, Cond.toHash_shows hc', bind, Except.bind, hh]
  exact ⟨_, rfl, rfl⟩

/-! ## Features -/

/-- The features `l` of a ruleset are those of the rules. -/
def Collects {α} (rules : List Member) (get : Member → Option (List α)) (l : List α) : Prop :=
  l.Nodup ∧ ∀ i, i ∈ l ↔ ∃ m ∈ rules, ∃ li, get m = some li ∧ i ∈ li

theorem Collects.nil {α} (get : Member → Option (List α)) : Collects [] get [] := ⟨.nil, by simp⟩

theorem Collects.add {α} [DecidableEq α] {rules rules' : List Member} {get : Member → Option (List α)} {l l' l'' : List α}
    (h : Collects rules get l) (h' : ∀ i, i ∈ l' ↔ ∃ m ∈ rules', ∃ li, get m = some li ∧ i ∈ li)
    (hp : l''.Perm (l ++ l').dedup) : Collects (rules ++ rules') get l'' := by
  refine ⟨hp.nodup_iff.2 (List.nodup_dedup _), ?_⟩
  intro i
  rw [hp.mem_iff, List.mem_dedup, List.mem_append, h.2, h']
  simp only [List.mem_append, or_and_right, exists_or]

theorem Collects.perm {α} {rules rules' : List Member} {get : Member → Option (List α)} {l : List α}
    (h : Collects rules get l) (hp : rules'.Perm rules) : Collects rules' get l := by
  refine ⟨h.1, fun i => ?_⟩
  rw [h.2]
  simp only [hp.mem_iff]

theorem Collects.addIndexes {rules rules' : List Member} {l : List Int}
    (hn : ∀ m ∈ rules', m.rule.cond.indexes ≠ none)
    (h : Collects rules (fun m => m.rule.cond.indexes) l) :
    Collects (rules ++ rules') (fun m => m.rule.cond.indexes) (addIndexes R l rules') := by
  induction rules' generalizing rules l with
  | nil => simpa [RuleSet.addIndexes] using h
  | cons m rest ih =>
    obtain ⟨li, hli⟩ := Option.ne_none_iff_exists'.1 (hn m (by simp))
    have := ih (rules := rules ++ [m]) (fun x hx => hn x (by simp [hx]))
      (h.add (rules' := [m]) (l' := li) (by simp [hli]) (R.ints_perm _))
    rw [List.append_assoc] at this
    unfold RuleSet.addIndexes
    rw [hli]
    exact this

theorem allNames_mem {rules : List Member} {l : List String} (h : allNames rules = .ok l) :
    ∀ i, i ∈ l ↔ ∃ m ∈ rules, ∃ li, m.rule.cond.names = some li ∧ i ∈ li := by
  unfold allNames at h
  cases hm : rules.mapM fun m => Cond.need m.rule.cond.names with
  | error e => rw [hm] at h; cases h
  | ok ls =>
    rw [hm] at h
    cases h
    have := mapM_eq_ok hm
    clear hm
    induction this with
    | nil => simp
    | @cons m na rules ls hx _ ih =>
      intro i
      have hx : m.rule.cond.names = some na := by
        cases hn : m.rule.cond.names with
        | none => rw [hn] at hx; cases hx
        | some x => rw [hn] at hx; cases hx; rfl
      rw [List.flatten_cons, List.mem_append, ih]
      simp [hx]

/-- The features of a ruleset which has been constructed -/
theorem Made.indexes_collect {rules : List Member} {compute stack : Bool} {s : RuleSet} (hA : R.allIndexes = [])
    (h : Made R rules compute stack s) : Collects s.rules (fun m => m.rule.cond.indexes) s.indexes := by
  obtain ⟨e1, e2⟩ := h.noIndexes hA
  rw [e1, e2]
  exact Collects.addIndexes (rules := []) (fun m hm => (h.features m hm).1) (.nil _)

theorem Made.names_collect {rules : List Member} {compute stack : Bool} {s : RuleSet}
    (h : Made R rules compute stack s) : Collects s.rules (fun m => m.rule.cond.names) s.names := by
  obtain ⟨l, hl, e⟩ := h.names
  have hm := allNames_mem hl
  have hsame : ∀ i, (∃ m ∈ s.rules, ∃ li, m.rule.cond.names = some li ∧ i ∈ li) ↔
      ∃ m ∈ rules, ∃ li, m.rule.cond.names = some li ∧ i ∈ li := by
    intro i
    have := h.same
    generalize s.rules = l' at this
    clear h hm hl
    induction this with
    | nil => simp
    | cons h _ ih =>
      obtain ⟨-, idx, e⟩ := h
      simp only [List.mem_cons, exists_eq_or_imp, ih, e]
  rw [e]
  refine ⟨(R.strings_perm _).nodup_iff.2 (List.nodup_dedup _), fun i => ?_⟩
  rw [(R.strings_perm _).mem_iff, List.mem_dedup, hm, hsame]

/-- After any history -/
theorem Built.names_collect {P : Member → Prop} {b : Bool} {s : RuleSet} (h : Built R P b s) :
    Collects s.rules (fun m => m.rule.cond.names) s.names := by
  have one : ∀ {m : Member} {s s' : RuleSet}, Collects s.rules (fun m => m.rule.cond.names) s.names →
      RuleSet.iaddRule R m s = (.ok (), s') → Collects s'.rules (fun m => m.rule.cond.names) s'.names := by
    intro m s s' ih h
    obtain ⟨idx, na, a, c, -, en, -, -, -, -, -, rfl⟩ := iaddRule_ok h
    exact ih.add (rules' := [m]) (l' := na) (by simp [en]) (R.strings_perm _)
  induction h with
  | empty => exact .nil _
  | make hp h => exact (make_ok h).names_collect
  | iaddRule _ hm h ih => exact one ih h
  | append _ hm h ih =>
    obtain ⟨s1, h1, rfl⟩ := append_update h
    have := one ih h1
    exact this
  | iaddSet _ ho h ih1 ih2 =>
    obtain ⟨a, c, -, -, -, -, -, rfl⟩ := iaddSet_ok h
    exact ih1.add ih2.2 (R.strings_perm _)
  | addRule hs hm h ih => exact (make_ok h).names_collect
  | addSet hs ho h ih1 ih2 =>
    unfold RuleSet.addSet at h
    simp only [bind, Except.bind] at h
    split at h
    · cases h
    exact (make_ok h).names_collect
  | @setRules s rules s' _ hp h ih =>
    unfold RuleSet.setRules at h
    rw [Py.bind_ok (Py.get_run s)] at h
    obtain ⟨t, s1, h1, h⟩ := Py.bind_eq_ok h
    simp only [Py.ofExcept_run] at h1
    obtain ⟨e1, e2⟩ := Prod.mk.inj h1
    subst e2
    simp only [Py.modify_run] at h
    cases h
    exact (make_ok e1).names_collect
  | sort _ h ih =>
    rcases sort_ok h with ⟨-, rfl⟩ | ⟨rules, hr, ⟨hs, rfl⟩ | ⟨hs, c, c', hc, hc', rfl⟩⟩
    · exact ih
    · exact ih.perm (sortedRules_perm hr)
    · exact ih.perm (sortedRules_perm hr)

theorem Built.indexes_collect (hA : R.allIndexes = []) {P : Member → Prop} {b : Bool} {s : RuleSet} (h : Built R P b s) :
    Collects s.rules (fun m => m.rule.cond.indexes) s.indexes := by
  have one : ∀ {m : Member} {s s' : RuleSet}, Collects s.rules (fun m => m.rule.cond.indexes) s.indexes →
      RuleSet.iaddRule R m s = (.ok (), s') → Collects s'.rules (fun m => m.rule.cond.indexes) s'.indexes := by
    intro m s s' ih h
    obtain ⟨idx, na, a, c, ei, -, -, -, -, -, -, rfl⟩ := iaddRule_ok h
    exact ih.add (rules' := [m]) (l' := idx) (by simp [ei]) (R.ints_perm _)
  induction h with
  | empty => exact .nil _
  | make hp h => exact (make_ok h).indexes_collect hA
  | iaddRule _ hm h ih => exact one ih h
  | append _ hm h ih =>
    obtain ⟨s1, h1, rfl⟩ := append_update h
    have := one ih h1
    exact this
  | iaddSet _ ho h ih1 ih2 =>
    obtain ⟨a, c, -, -, -, -, -, rfl⟩ := iaddSet_ok h
    exact ih1.add ih2.2 (R.ints_perm _)
  | addRule hs hm h ih => exact (make_ok h).indexes_collect hA
  | addSet hs ho h ih1 ih2 =>
    unfold RuleSet.addSet at h
    simp only [bind, Except.bind] at h
    split at h
    · cases h
    exact (make_ok h).indexes_collect hA
  | @setRules s rules s' _ hp h ih =>
    unfold RuleSet.setRules at h
    rw [Py.bind_ok (Py.get_run s)] at h
    obtain ⟨t, s1, h1, h⟩ := Py.bind_eq_ok h
    simp only [Py.ofExcept_run] at h1
    obtain ⟨e1, e2⟩ := Prod.mk.inj h1
    subst e2
    simp only [Py.modify_run] at h
    cases h
    have := (make_ok e1).indexes_collect hA
    exact this
  | sort _ h ih =>
    rcases sort_ok h with ⟨-, rfl⟩ | ⟨rules, hr, ⟨hs, rfl⟩ | ⟨hs, c, c', hc, hc', rfl⟩⟩
    · exact ih
    · exact ih.perm (sortedRules_perm hr)
    · exact ih.perm (sortedRules_perm hr)

/-! ## The counter of features -/

/-- One more occurrence -/
def bump (acc : List (String × Nat)) (x : String) : List (String × Nat) :=
  if acc.any (fun p => p.1 = x) then acc.map (fun p => if p.1 = x then (p.1, p.2 + 1) else p) else acc ++ [(x, 1)]

/-- The counter is right about the texts seen so far. -/
def Counts (l : List String) (acc : List (String × Nat)) : Prop :=
  (acc.map (·.1)).Nodup ∧ ∀ x k, (x, k) ∈ acc ↔ k = l.count x ∧ 0 < k

theorem Counts.bump {l : List String} {acc : List (String × Nat)} (h : Counts l acc) (x : String) :
    Counts (l ++ [x]) (bump acc x) := by
  unfold RuleSet.bump
  split
  · rename_i ha
    simp only [List.any_eq_true, decide_eq_true_eq] at ha
    obtain ⟨⟨x', k'⟩, hm, e⟩ := ha
    simp only at e
    subst e
    refine ⟨?_, fun y k => ?_⟩
    · have : (acc.map fun p => if p.1 = x' then (p.1, p.2 + 1) else p).map (·.1) = acc.map (·.1) := by
        rw [List.map_map]
        apply List.map_congr_left
        intro p _
        simp only [Function.comp_apply]
        split <;> rfl
      rw [this]
      exact h.1
    · rw [List.mem_map, List.count_append]
      constructor
      · rintro ⟨⟨z, j⟩, hz, e⟩
        have := (h.2 z j).1 hz
        simp only at e
        split at e
        · rename_i hzx
          cases e
          subst hzx
          rw [this.1]
          simp
        · rename_i hzx
          cases e
          rw [List.count_singleton, if_neg (by simpa using fun e => hzx e.symm)]
          exact this
      · rintro ⟨hk, h0⟩
        by_cases hy : y = x'
        · subst hy
          refine ⟨(y, l.count y), ?_, by simp [hk]⟩
          have := (h.2 y k').1 hm
          rw [← this.1]
          exact hm
        · rw [List.count_singleton, if_neg (by simpa using fun e => hy e.symm)] at hk
          refine ⟨(y, k), (h.2 y k).2 ⟨hk, h0⟩, ?_⟩
          simp only
          rw [if_neg hy]
  · rename_i ha
    simp only [List.any_eq_true, decide_eq_true_eq, not_exists, not_and] at ha
    have hx : l.count x = 0 := by
      by_contra hne
      exact ha (x, l.count x) ((h.2 x _).2 ⟨rfl, Nat.pos_of_ne_zero hne⟩) rfl
    refine ⟨?_, fun y k => ?_⟩
    · rw [List.map_append, List.nodup_append]
      refine ⟨h.1, by simp, ?_⟩
      rintro a hm b hb rfl
      obtain ⟨p, hp, rfl⟩ := List.mem_map.1 hm
      simp only [List.map_cons, List.map_nil, List.mem_singleton] at hb
      exact ha p hp hb
    · rw [List.mem_append, h.2, List.count_append]
      by_cases hy : y = x
      · subst hy
        simp [hx]
        omega
      · rw [List.count_singleton, if_neg (by simpa using fun e => hy e.symm)]
        simp [hy]

theorem mostCommon_counts (l : List String) : Counts l (mostCommon l) ∧ (mostCommon l).Pairwise fun a b => b.2 ≤ a.2 := by
  have key : ∀ (done todo : List String) (acc : List (String × Nat)), Counts done acc →
      Counts (done ++ todo) (todo.foldl bump acc) := by
    intro done todo
    induction todo generalizing done with
    | nil => intro acc h; simpa using h
    | cons x todo ih =>
      intro acc h
      have := ih (done ++ [x]) _ (h.bump x)
      simpa using this
  have h0 : Counts [] [] := ⟨.nil, by simp⟩
  have := key [] l [] h0
  rw [List.nil_append] at this
  have e : mostCommon l = (l.foldl bump []).insertionSort fun a b => b.2 ≤ a.2 := rfl
  rw [e]
  have hp := List.perm_insertionSort (fun a b : String × Nat => b.2 ≤ a.2) (l.foldl bump [])
  refine ⟨⟨(hp.map _).nodup_iff.2 this.1, fun x k => ?_⟩, ?_⟩
  · rw [hp.mem_iff]
    exact this.2 x k
  · have : Std.Total fun a b : String × Nat => b.2 ≤ a.2 := ⟨fun a b => Nat.le_total _ _⟩
    have : IsTrans (String × Nat) fun a b => b.2 ≤ a.2 := ⟨fun a b c h h' => Nat.le_trans h' h⟩
    exact List.pairwise_insertionSort _ _

end Verif.RuleSet
