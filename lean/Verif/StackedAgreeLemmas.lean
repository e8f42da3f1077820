import Verif.StackedSetLemmas
import Verif.FitProps

/-!
# Both fits of a ruleset
-/

namespace Verif.RuleSetProps

open Verif Vote Spec RuleSet

/-- Both fits of a ruleset: `l1` and `l2` are its rules after the plain and after the stacked fit, before any is dropped. -/
theorem fits_agree {R : RsEnv} {k : Kind} {y : List Label} {xs : Option Xs} {kw : Rule.Kw} {s s1 s2 : RuleSet} {d1 d2 : List Member}
    (hc : CanAgree R k y xs s) (hd : DifferentRules R.hasher s.rules) (hne : s.rules ≠ [])
    (h1 : fit R y xs false kw s = (.ok d1, s1)) (h2 : fitStacked R y xs kw s = (.ok d2, s2)) :
    ∃ l1 l2 ns, EachDone R (fun E => Rule.fit E y xs false kw) s.rules l1 ∧ BothFits R y xs kw s s2 d2 l1 l2 ns ∧
      List.Forall₂ (SameMember R) l1 l2 ∧ d1 = l1.filter (fun m => !m.rule.good) ∧ s1.rules = l1.filter (fun m => m.rule.good) ∧
      s2.rules = (l2.zipIdx.filter fun p => ns[p.2]? = some 0).map (·.1) ∧
      AfterFit R { s with rules := l1 } (decide (d1 ≠ [])) xs.isSome s1 ∧ s1.trainSize = .num (.fin y.length) := by
  have hx : Fits s xs := by
    obtain ⟨m0, hm0⟩ := List.exists_mem_of_ne_nil _ hne
    have := hc.runs m0 hm0
    refine ⟨fun x e => ?_, fun e => ⟨m0, hm0, ?_⟩⟩
    · rw [e] at this; exact this
    · rw [e] at this; exact this
  have hsize : s1.trainSize = .num (.fin y.length) := by
    rcases fit_ok h1 with ⟨-, -, h | h | ⟨h, h'⟩⟩ | ⟨l, s1', hl, ha, rfl, rfl⟩
    · rw [Option.any_eq_true] at h
      obtain ⟨x, hx1, hx2⟩ := h
      exact absurd (by simpa using hx2) (hx.1 x hx1)
    · exact absurd h hne
    · obtain ⟨m, hm, hf⟩ := hx.2 h
      rw [h' m hm] at hf
      cases hf
    · rfl
  obtain ⟨l1, e1, e2, e3, e4⟩ := fit_through hx hne h1
  obtain ⟨l2, ns, hb⟩ := both_fits hc.extra hc.type hc.kinds hc.runs hc.comparable hc.texts hc.stacked hne e1 h2
  have hd1 : DifferentRules R.hasher l1 := different_map (eachDone_cond (fun E => Rule.leaves_fit E y xs false kw) e1) hd
  rw [stays_different hd1] at e3
  have hsame : List.Forall₂ (SameMember R) l1 l2 := by
    rw [List.forall₂_iff_get]
    refine ⟨hb.len1.trans hb.len2.symm, fun i hi1 hi2 => ?_⟩
    have l1' := hb.len1
    have l3' := hb.len3
    obtain ⟨g1, g2, -, -, g3, -⟩ := hb.same i (s.rules[i]'(by omega)) l1[i] l2[i] (ns[i]'(by omega)) (by simp) (by simp) (by simp) (by simp)
    refine ⟨g2.trans g1.symm, ?_⟩
    have g1' : (l1.get ⟨i, hi1⟩).kind = s.rules[i].kind := g1
    rw [g1']
    exact g3
  have hd2 : DifferentRules R.hasher l2 := by
    refine different_map ?_ hd1
    clear hb hd1 e1 e2 e3 e4
    induction hsame with
    | nil => rfl
    | cons h _ ih => rw [List.map_cons, List.map_cons, ih, h.2.cond]
  refine ⟨l1, l2, ns, e1, hb, hsame, e2, e3, ?_, e4, hsize⟩
  have hget : ∀ p ∈ l2.zipIdx, l2[p.2]? = some p.1 := by
    intro p hp
    obtain ⟨a, i⟩ := p
    exact List.mk_mem_zipIdx_iff_getElem?.1 hp
  have hn : ∀ p ∈ l2.zipIdx, (ns[p.2]? = some 0 ↔ p ∉ dropList l2 ns) := by
    intro p hp
    have e := hget p hp
    have hlt : p.2 < l2.length := (List.getElem?_eq_some_iff.1 e).1
    have l2' := hb.len2
    have l3' := hb.len3
    rw [mem_dropList, List.getElem?_eq_getElem (by omega : p.2 < ns.length)]
    simp only [e, Option.some.injEq, true_and, not_exists, not_and]
    constructor
    · rintro h n rfl
      omega
    · intro h
      have := h _ rfl
      omega
  rcases hb.kept with ⟨he, hr, -, -⟩ | ⟨he, hr, -, -⟩
  · rw [hr]
    rw [List.filter_eq_self.2]
    · simp [List.zipIdx_map_fst]
    · intro p hp
      rw [decide_eq_true_eq, hn p hp, he]
      exact List.not_mem_nil
  · rw [keepRules_ok hr]
    congr 1
    apply List.filter_congr
    intro p hp
    rw [decide_eq_decide, hn p hp]
    constructor
    · intro h hm
      exact h ⟨p, hm, .inl rfl⟩
    · rintro h ⟨d, hdm, hd' | hd'⟩
      · obtain ⟨n, g1, g2, g3⟩ := mem_dropList.1 hdm
        have := hget p hp
        rw [← hd', g1] at this
        have e : d = p := Prod.ext (Option.some.inj this) hd'
        exact h (e ▸ hdm)
      · obtain ⟨n, g1, g2, g3⟩ := mem_dropList.1 hdm
        have g4 := hget p hp
        unfold DifferentRules at hd2
        rw [List.pairwise_iff_getElem] at hd2
        obtain ⟨i1, i2⟩ := List.getElem?_eq_some_iff.1 g1
        obtain ⟨j1, j2⟩ := List.getElem?_eq_some_iff.1 g4
        rcases lt_trichotomy p.2 d.2 with hlt | heq | hlt
        · have := hd2 p.2 d.2 j1 i1 hlt
          rw [i2, j2] at this
          exact this hd'
        · have : d = p := by
            rw [heq, g1] at g4
            exact Prod.ext (Option.some.inj g4) heq.symm
          exact h (this ▸ hdm)
        · have := hd2 d.2 p.2 i1 j1 hlt
          rw [i2, j2] at this
          exact this (condEq_symm hd')

/-- Which rules are kept and returned by the stacked fit -/
theorem fits_rules {R : RsEnv} {k : Kind} {y : List Label} {xs : Option Xs} {kw : Rule.Kw} {s s1 s2 : RuleSet} {d1 d2 : List Member}
    (hc : CanAgree R k y xs s) (hd : DifferentRules R.hasher s.rules) (hne : s.rules ≠ [])
    (h1 : fit R y xs false kw s = (.ok d1, s1)) (h2 : fitStacked R y xs kw s = (.ok d2, s2)) :
    ∃ l1 l2 ns, EachDone R (fun E => Rule.fit E y xs false kw) s.rules l1 ∧ BothFits R y xs kw s s2 d2 l1 l2 ns ∧
      List.Forall₂ (SameMember R) l1 l2 ∧ d1 = l1.filter (fun m => !m.rule.good) ∧ s1.rules = l1.filter (fun m => m.rule.good) ∧
      (l2.filter fun m => m.rule.good).Sublist s2.rules ∧ s2.rules.Sublist l2 ∧
      (∀ m ∈ d2, m ∈ l2 ∧ m.rule.good = false) ∧ (∀ m ∈ l2, m ∈ s2.rules ∨ m ∈ d2) ∧
      AfterFit R { s with rules := l1 } (decide (d1 ≠ [])) xs.isSome s1 ∧ s2.trainSize = s1.trainSize := by
  obtain ⟨l1, l2, ns, e1, hb, e2, e6, e3, e4, e7, e5⟩ := fits_agree hc hd hne h1 h2
  have l1' := hb.len1
  have l2' := hb.len2
  have l3' := hb.len3
  have hbad : ∀ (j : Nat) m2 n, l2[j]? = some m2 → ns[j]? = some n → 0 < n → m2.rule.good = false := by
    intro j m2 n g1 g2 hn
    have hj := (List.getElem?_eq_some_iff.1 g1).1
    exact (hb.same j (s.rules[j]'(by omega)) (l1[j]'(by omega)) m2 n (by simp) (by simp) g1 g2).2.2.2.2.2 hn
  have hz : l2 = l2.zipIdx.map (·.1) := (List.zipIdx_map_fst 0 l2).symm
  refine ⟨l1, l2, ns, e1, hb, e2, e6, e3, ?_, ?_, ?_, ?_, e7, hb.size.trans e5.symm⟩
  · rw [e4]
    conv_lhs => rw [hz]
    rw [List.filter_map]
    refine List.Sublist.map _ ?_
    have e : (l2.zipIdx.filter ((fun m : Member => m.rule.good) ∘ fun p => p.1)) =
        (l2.zipIdx.filter fun p => ns[p.2]? = some 0).filter ((fun m : Member => m.rule.good) ∘ fun p => p.1) := by
      rw [List.filter_filter]
      apply List.filter_congr
      rintro ⟨m, j⟩ hp
      have hj := List.mk_mem_zipIdx_iff_getElem?.1 hp
      have hj' := (List.getElem?_eq_some_iff.1 hj).1
      have hn : ns[j]? = some (ns[j]'(by omega)) := by simp
      show m.rule.good = (m.rule.good && decide (ns[j]? = some 0))
      cases hg : m.rule.good with
      | false => rfl
      | true =>
        rw [Bool.true_and]
        symm
        rw [decide_eq_true_eq, hn]
        by_contra h0
        have := hbad j m _ hj hn (by
          have : ns[j]'(by omega) ≠ 0 := fun e => h0 (by rw [e])
          omega)
        rw [hg] at this
        cases this
    rw [e]
    exact List.filter_sublist
  · rw [e4]
    conv_rhs => rw [hz]
    exact List.Sublist.map _ List.filter_sublist
  · intro m hm
    rw [hb.dropped, List.mem_map] at hm
    obtain ⟨p, hp, rfl⟩ := hm
    obtain ⟨n, g1, g2, g3⟩ := mem_dropList.1 hp
    exact ⟨List.mem_of_getElem? g1, hbad _ _ _ g1 g2 g3⟩
  · intro m hm
    obtain ⟨j, hj⟩ := List.mem_iff_getElem?.1 hm
    have hj' := (List.getElem?_eq_some_iff.1 hj).1
    have hn : ns[j]? = some (ns[j]'(by omega)) := by simp
    by_cases h0 : ns[j]'(by omega) = 0
    · left
      rw [e4, List.mem_map]
      refine ⟨(m, j), List.mem_filter.2 ⟨List.mk_mem_zipIdx_iff_getElem?.2 hj, ?_⟩, rfl⟩
      rw [decide_eq_true_eq, hn, h0]
    · right
      rw [hb.dropped, List.mem_map]
      exact ⟨(m, j), mem_dropList.2 ⟨_, hj, hn, by omega⟩, rfl⟩

theorem forall2_filter {α β : Type} {r : α → β → Prop} {p : α → Bool} {q : β → Bool} (hpq : ∀ a b, r a b → p a = q b) {l : List α}
    {l' : List β} (h : List.Forall₂ r l l') : List.Forall₂ r (l.filter p) (l'.filter q) := by
  induction h with
  | nil => exact .nil
  | @cons a b l l' hab _ ih =>
    rw [List.filter_cons, List.filter_cons, hpq a b hab]
    split
    · exact .cons hab ih
    · exact ih

theorem same_own {R : RsEnv} {l l' : List Member} (h : List.Forall₂ (SameMember R) l l') :
    l'.map (fun m => (m.rule.cond, m.rule.act)) = l.map fun m => (m.rule.cond, m.rule.act) := by
  induction h with
  | nil => rfl
  | cons h _ ih => rw [List.map_cons, List.map_cons, ih, h.2.cond, h.2.act]

end Verif.RuleSetProps
