import Verif.ConditionAnd

/-!
# What the intersection of two conditions selects
-/

namespace Verif

open Spec Cond

theorem and_box {by_ : String} (hb : by_ = "index" ∨ by_ = "name") {a b c : Cond} {as bs : List Feature}
    (ha : Regular a as) (hbr : Regular b bs) (hc : Cond.and by_ a b = .ok c) :
    ∃ cs, Regular c cs ∧ ¬ Disagree as bs ∧ (∀ i, (∃ f ∈ cs, f.index = i) ↔ (∃ f ∈ as, f.index = i) ∨ ∃ f ∈ bs, f.index = i) ∧
      (∀ n, (∃ f ∈ cs, f.name = n) ↔ (∃ f ∈ as, f.name = n) ∨ ∃ f ∈ bs, f.name = n) ∧
      (NoNaN as → NoNaN bs → ∀ val : Feature → Num,
        (∀ f g : Feature, f.name = g.name → f.index = g.index → val f = val g) →
        ((∀ f ∈ cs, Within f.lo f.hi (val f)) ↔
          (∀ f ∈ as, Within f.lo f.hi (val f)) ∧ ∀ f ∈ bs, Within f.lo f.hi (val f))) ∧
      (NoNaN as → NoNaN bs → NoNaN cs) ∧
      (NoNaN as → NoNaN bs → ((∃ f ∈ as, Inverted f) ∨ ∃ f ∈ bs, Inverted f) → ∃ f ∈ cs, Inverted f) := by
  rcases and_regular hb ha hbr with ⟨-, he⟩ | ⟨hd, d, rest, hd', hrest, hr⟩
  · rw [hc] at he; cases he
  rw [hc] at hd'
  cases hd'
  refine ⟨_, hr, hd, ?_⟩
  have hpa := sortF_perm by_ as
  have hpc := sortF_perm by_ (merged (sortF by_ as) bs ++ rest)
  have hmem : ∀ f, f ∈ sortF by_ as ↔ f ∈ as := fun f => hpa.mem_iff
  have hrest' : rest.Perm (others (sortF by_ as) bs) := by
    have : others as bs = others (sortF by_ as) bs := by
      unfold others
      apply List.filter_congr
      intro b _
      rw [decide_eq_decide, not_iff_not, (hpa.map _).mem_iff]
    rw [← this]; exact hrest
  have hres : ∀ g, g ∈ rest ↔ g ∈ bs ∧ g.name ∉ as.map (·.name) := by
    intro g; rw [hrest.mem_iff]; simp [others]
  have hshared : ∀ f ∈ as, ∀ g ∈ bs, f.name = g.name → f.index = g.index := by
    intro f hf g hg e
    by_contra hne
    exact hd ⟨f, hf, g, hg, .inl ⟨e, hne⟩⟩
  have hmergedMem : ∀ f, f ∈ merged (sortF by_ as) bs ↔ ∃ f0 ∈ as, (if f0.name ∈ bs.map (·.name) then
      { f0 with lo := f0.lo.max (partner bs f0).lo, hi := f0.hi.min (partner bs f0).hi } else f0) = f := by
    intro f; unfold merged; simp only [List.mem_map, hmem]
  refine ⟨?_, ?_, ?_, ?_, ?_⟩
  · intro i
    have h1 : (∃ f ∈ merged (sortF by_ as) bs, f.index = i) ↔ ∃ f ∈ as, f.index = i := by
      have := merged_index (sortF by_ as) bs
      have h2 : i ∈ (merged (sortF by_ as) bs).map (·.index) ↔ i ∈ as.map (·.index) := by
        rw [this, (hpa.map _).mem_iff]
      simpa [List.mem_map] using h2
    constructor
    · rintro ⟨f, hf, e⟩
      rcases List.mem_append.1 (hpc.mem_iff.1 hf) with h | h
      · exact .inl (h1.1 ⟨f, h, e⟩)
      · exact .inr ⟨f, ((hres f).1 h).1, e⟩
    · rintro (h | ⟨g, hg, e⟩)
      · obtain ⟨f, hf, e⟩ := h1.2 h
        exact ⟨f, hpc.mem_iff.2 (List.mem_append_left _ hf), e⟩
      · by_cases hn : g.name ∈ as.map (·.name)
        · obtain ⟨f, hf, en⟩ := List.mem_map.1 hn
          have h2 := hshared f hf g hg en
          obtain ⟨f', hf', e'⟩ := h1.2 ⟨f, hf, h2.trans e⟩
          exact ⟨f', hpc.mem_iff.2 (List.mem_append_left _ hf'), e'⟩
        · exact ⟨g, hpc.mem_iff.2 (List.mem_append_right _ ((hres g).2 ⟨hg, hn⟩)), e⟩
  · intro n
    have h1 : (∃ f ∈ merged (sortF by_ as) bs, f.name = n) ↔ ∃ f ∈ as, f.name = n := by
      have := merged_names (sortF by_ as) bs
      have h2 : n ∈ (merged (sortF by_ as) bs).map (·.name) ↔ n ∈ as.map (·.name) := by
        rw [this, (hpa.map _).mem_iff]
      simpa [List.mem_map] using h2
    constructor
    · rintro ⟨f, hf, e⟩
      rcases List.mem_append.1 (hpc.mem_iff.1 hf) with h | h
      · exact .inl (h1.1 ⟨f, h, e⟩)
      · exact .inr ⟨f, ((hres f).1 h).1, e⟩
    · rintro (h | ⟨g, hg, e⟩)
      · obtain ⟨f, hf, e⟩ := h1.2 h
        exact ⟨f, hpc.mem_iff.2 (List.mem_append_left _ hf), e⟩
      · by_cases hn : g.name ∈ as.map (·.name)
        · obtain ⟨f, hf, en⟩ := List.mem_map.1 hn
          obtain ⟨f', hf', e'⟩ := h1.2 ⟨f, hf, en.trans e⟩
          exact ⟨f', hpc.mem_iff.2 (List.mem_append_left _ hf'), e'⟩
        · exact ⟨g, hpc.mem_iff.2 (List.mem_append_right _ ((hres g).2 ⟨hg, hn⟩)), e⟩
  · intro hna hnb val hval
    have := merged_box (as := sortF by_ as) (bs := bs) (rest := rest) (val := val)
      (fun f hf g hg e => hval f g e (hshared f ((hmem f).1 hf) g hg e)) hval hbr.names_nodup
      (fun f hf => hna f ((hmem f).1 hf)) hnb hrest'
    simp only [hmem] at this
    rw [← this]
    simp only [hpc.mem_iff]
  · intro hna hnb f hf
    rcases List.mem_append.1 (hpc.mem_iff.1 hf) with h | h
    · obtain ⟨f0, hf0, rfl⟩ := (hmergedMem f).1 h
      by_cases hn : f0.name ∈ bs.map (·.name)
      · have hp := partner_mem hn
        rw [if_pos hn]
        exact ⟨Num.max_ne_nan (hna f0 hf0).1 (hnb _ hp.1).1, Num.min_ne_nan (hna f0 hf0).2 (hnb _ hp.1).2⟩
      · rw [if_neg hn]; exact hna f0 hf0
    · exact hnb f ((hres f).1 h).1
  · intro hna hnb hor
    -- an inverted feature of an operand is still inverted
    have inv : ∀ f0 ∈ as, f0.name ∈ bs.map (·.name) → (Inverted f0 ∨ Inverted (partner bs f0)) →
        Inverted { f0 with lo := f0.lo.max (partner bs f0).lo, hi := f0.hi.min (partner bs f0).hi } := by
      intro f0 hf0 hn hi
      have hp := partner_mem hn
      have n1 := hna f0 hf0
      have n2 := hnb _ hp.1
      unfold Inverted at hi ⊢
      rw [← Num.not_le_iff_lt (Num.max_ne_nan n1.1 n2.1) (Num.min_ne_nan n1.2 n2.2)]
      simp only [Num.max_le n1.1 n2.1, Num.le_min n1.2 n2.2]
      rcases hi with hi | hi
      · rw [← Num.not_le_iff_lt n1.1 n1.2] at hi; simp [hi]
      · rw [← Num.not_le_iff_lt n2.1 n2.2] at hi; simp [hi]
    rcases hor with ⟨f0, hf0, hi⟩ | ⟨g, hg, hi⟩
    · by_cases hn : f0.name ∈ bs.map (·.name)
      · exact ⟨_, hpc.mem_iff.2 (List.mem_append_left _ ((hmergedMem _).2 ⟨f0, hf0, if_pos hn⟩)),
          inv f0 hf0 hn (.inl hi)⟩
      · exact ⟨f0, hpc.mem_iff.2 (List.mem_append_left _ ((hmergedMem _).2 ⟨f0, hf0, if_neg hn⟩)), hi⟩
    · by_cases hn : g.name ∈ as.map (·.name)
      · obtain ⟨f0, hf0, e⟩ := List.mem_map.1 hn
        have hfb : f0.name ∈ bs.map (·.name) := by
          rw [show f0.name = g.name from e]; exact List.mem_map_of_mem (f := (·.name)) hg
        have hp := partner_mem hfb
        have : partner bs f0 = g := eq_of_name hbr.names_nodup hp.1 hg (by rw [hp.2]; exact e)
        exact ⟨_, hpc.mem_iff.2 (List.mem_append_left _ ((hmergedMem _).2 ⟨f0, hf0, if_pos hfb⟩)),
          inv f0 hf0 hfb (.inr (this ▸ hi))⟩
      · exact ⟨g, hpc.mem_iff.2 (List.mem_append_right _ ((hres g).2 ⟨hg, hn⟩)), hi⟩

/-- Evaluation of a regular condition which succeeds, as a membership test. -/
theorem evaluate_ok_eq {c : Cond} {fs : List Feature} (h : Regular c fs) {xs : Mat} {r : List Nat}
    (he : evaluate c xs = .ok r) : r = xs.rows.map fun row => flag (InBox fs xs.ncols row) := by
  cases hi : c.impossible with
  | false =>
    by_cases hr : ∀ f ∈ fs, InRange xs.ncols f.index
    · rw [evaluate_shows h.shows h.imp' hr] at he; cases he; rfl
    · push Not at hr
      rw [evaluate_out_of_range h.shows hi hr] at he; cases he
  | true =>
    rw [evaluate_impossible hi] at he
    cases he
    obtain ⟨f, hf, hlt⟩ := h.imp' hi
    symm
    rw [List.eq_replicate_iff]
    refine ⟨by simp, ?_⟩
    intro b hb
    obtain ⟨row, -, rfl⟩ := List.mem_map.1 hb
    have : ¬ InBox fs xs.ncols row := fun h => inverted_fails hlt _ (h f hf)
    simp [flag, this]

theorem evaluateFrame_ok_eq {c : Cond} {fs : List Feature} (h : Regular c fs) {xs : Frame} {r : List Nat}
    (he : evaluateFrame c xs = .ok r) : r = xs.rows.map fun row => flag (InBoxNamed fs xs.columns row) := by
  cases hi : c.impossible with
  | false =>
    by_cases hne : fs = []
    · subst hne
      rw [evaluateFrame_none h.shows hi] at he; cases he
    by_cases hr : ∀ f ∈ fs, f.name ∈ xs.columns
    · rw [evaluateFrame_shows h.shows h.imp' hne hr] at he; cases he; rfl
    · push Not at hr
      rw [evaluateFrame_missing h.shows hi hr] at he; cases he
  | true =>
    rw [evaluateFrame_impossible hi] at he
    cases he
    obtain ⟨f, hf, hlt⟩ := h.imp' hi
    symm
    rw [List.eq_replicate_iff]
    refine ⟨by simp, ?_⟩
    intro b hb
    obtain ⟨row, -, rfl⟩ := List.mem_map.1 hb
    have : ¬ InBoxNamed fs xs.columns row := fun h => inverted_fails hlt _ (h f hf)
    simp [flag, this]

theorem flag_and {ρ} (rows : List ρ) (P Q R : ρ → Prop) (h : ∀ r, R r ↔ P r ∧ Q r) :
    (rows.map fun r => flag (R r)) = List.zipWith (· * ·) (rows.map fun r => flag (P r)) (rows.map fun r => flag (Q r)) := by
  rw [List.zipWith_map, List.zipWith_self]
  apply List.map_congr_left
  intro r _
  unfold flag
  by_cases h1 : P r <;> by_cases h2 : Q r <;> simp [h, h1, h2]

end Verif
