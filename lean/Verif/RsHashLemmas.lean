import Verif.RsHash
import Verif.SetProps

/-!
# Lemmas on the hash of rulesets
-/

namespace Verif.RuleSetProps

open Verif Spec RuleSet

theorem triples_ok {l : List Member} (hl : ∀ m ∈ l, Reach m.rule.cond) :
    ∃ t, triples l = .ok t ∧ ∀ n lo hi, (n, lo, hi) ∈ t ↔ ∃ m ∈ l, ∃ fs, Shows m.rule.cond fs ∧
      ∃ f ∈ fs, f.name = n ∧ f.lo = lo ∧ f.hi = hi := by
  induction l with
  | nil => exact ⟨[], rfl, by simp⟩
  | cons m l ih =>
    obtain ⟨t, ht, hm⟩ := ih fun x hx => hl x (.tail _ hx)
    obtain ⟨fs, hf⟩ := Cond.reach_regular (hl m (.head _))
    refine ⟨(fs.map fun f => (f.name, f.lo, f.hi)) ++ t, ?_, ?_⟩
    · simp only [triples, Cond.toHash_shows hf.shows, ht, bind, Except.bind]
    · intro n lo hi
      rw [List.mem_append, hm]
      constructor
      · rintro (h | ⟨m', hm', h⟩)
        · obtain ⟨f, hfm, e⟩ := List.mem_map.1 h
          cases e
          exact ⟨m, .head _, fs, hf.shows, f, hfm, rfl, rfl, rfl⟩
        · exact ⟨m', .tail _ hm', h⟩
      · rintro ⟨m', hm', gs, hgs, f, hfm, rfl, rfl, rfl⟩
        rcases List.mem_cons.1 hm' with rfl | hm'
        · have := Cond.Shows.unique hgs hf.shows
          subst this
          exact Or.inl (List.mem_map.2 ⟨f, hfm, rfl⟩)
        · exact Or.inr ⟨m', hm', gs, hgs, f, hfm, rfl, rfl, rfl⟩

/-- The hash depends only on what is required by some rule. -/
theorem hash_same (H : Cond.Hasher) {s o : RuleSet} (hs : ∀ m ∈ s.rules, Reach m.rule.cond)
    (ho : ∀ m ∈ o.rules, Reach m.rule.cond)
    (h : ∀ n lo hi, (∃ m ∈ s.rules, ∃ fs, Shows m.rule.cond fs ∧ ∃ f ∈ fs, f.name = n ∧ f.lo = lo ∧ f.hi = hi) ↔
      ∃ m ∈ o.rules, ∃ fs, Shows m.rule.cond fs ∧ ∃ f ∈ fs, f.name = n ∧ f.lo = lo ∧ f.hi = hi) :
    ∃ k, RuleSet.hash H s = .ok k ∧ RuleSet.hash H o = .ok k := by
  obtain ⟨t, ht, hm⟩ := triples_ok hs
  obtain ⟨u, hu, hn⟩ := triples_ok ho
  have hp : t.dedup.Perm u.dedup := by
    rw [List.perm_ext_iff_of_nodup (List.nodup_dedup _) (List.nodup_dedup _)]
    rintro ⟨n, lo, hi⟩
    rw [List.mem_dedup, List.mem_dedup, hm, hn, h]
  have e1 : RuleSet.hash H s = .ok (H.frozenset (H.str "rs" :: t.dedup.map fun x => H.tuple [H.str x.1, H.num x.2.1, H.num x.2.2])) := by
    simp only [RuleSet.hash, ht, bind, Except.bind]
  refine ⟨_, e1, ?_⟩
  simp only [RuleSet.hash, hu, bind, Except.bind]
  rw [H.frozenset_perm _ _ (List.Perm.cons _ (hp.map _))]

end Verif.RuleSetProps
