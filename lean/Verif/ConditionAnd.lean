import Verif.ConditionLemmas
import Mathlib.Data.List.Induction

/-!
# Lemmas about `&`, about assignments, and the invariant of conditions
-/

namespace Verif

open Spec

namespace Cond

theorem idxOf_get {fs : List Feature} (hn : (fs.map (·.name)).Nodup) {f : Feature} (hf : f ∈ fs) :
    fs[(fs.map (·.name)).idxOf f.name]? = some f := by
  obtain ⟨i, hi, rfl⟩ := List.getElem_of_mem hf
  have h1 : (fs.map (·.name)).idxOf ((fs.map (·.name))[i]'(by simpa using hi)) = i :=
    hn.idxOf_getElem i (by simpa using hi)
  simp only [List.getElem_map] at h1
  rw [h1]
  simp

theorem item_idxOf {α} {fs : List Feature} (hn : (fs.map (·.name)).Nodup) {f : Feature} (hf : f ∈ fs) (g : Feature → α) :
    item (fs.map g) ((fs.map (·.name)).idxOf f.name) = .ok (g f) := by
  simp [item, idxOf_get hn hf]

theorem mapM_items {α β} {l : List β} {pos : β → Nat} {vals : List α} {v : β → α}
    (h : ∀ b ∈ l, item vals (pos b) = .ok (v b)) : (l.map pos).mapM (item vals) = .ok (l.map v) := by
  induction l with
  | nil => rfl
  | cons b t ih =>
    simp only [List.map_cons, List.mapM_cons]
    rw [h b (by simp), ih fun b hb => h b (by simp [hb])]
    rfl

/-- Same name, when there is one. -/
def partner (bs : List Feature) (f : Feature) : Feature := (bs.find? fun g => g.name == f.name).getD f

theorem partner_mem {bs : List Feature} {f : Feature} (h : f.name ∈ bs.map (·.name)) :
    partner bs f ∈ bs ∧ (partner bs f).name = f.name := by
  unfold partner
  cases hf : bs.find? fun g => g.name == f.name with
  | none =>
    exfalso
    obtain ⟨g, hg, e⟩ := List.mem_map.1 h
    simpa [e] using List.find?_eq_none.1 hf g hg
  | some g =>
    refine ⟨List.mem_of_find?_eq_some hf, ?_⟩
    have := List.find?_some hf
    simpa using this

theorem eq_of_name {fs : List Feature} (hn : (fs.map (·.name)).Nodup) {f g : Feature} (hf : f ∈ fs) (hg : g ∈ fs)
    (h : f.name = g.name) : f = g := by
  have h1 := idxOf_get hn hf
  rw [h, idxOf_get hn hg] at h1
  exact (Option.some.inj h1).symm

theorem set_idxOf {α} {fs : List Feature} (hn : (fs.map (·.name)).Nodup) {f : Feature} (hf : f ∈ fs) (g : Feature → α)
    (v : α) : (fs.map g).set ((fs.map (·.name)).idxOf f.name) v = fs.map fun x => if x = f then v else g x := by
  apply List.ext_getElem?
  intro i
  rw [List.getElem?_set]
  by_cases h : (fs.map (·.name)).idxOf f.name = i
  · have h1 := idxOf_get hn hf
    have h2 : i < fs.length := by
      rw [h] at h1
      exact (List.getElem?_eq_some_iff.1 h1).1
    rw [h] at h1
    have h3 : fs[i] = f := (List.getElem?_eq_some_iff.1 h1).2
    simp [h, h2, h3]
  · simp only [h, if_false, List.getElem?_map]
    cases h1 : fs[i]? with
    | none => rfl
    | some x =>
      have : x ≠ f := by
        rintro rfl
        apply h
        obtain ⟨hi, rfl⟩ := List.getElem?_eq_some_iff.1 h1
        have h2 := hn.idxOf_getElem i (by simpa using hi)
        simpa using h2
      simp [this]

theorem assign_map {α} {fs : List Feature} (hn : (fs.map (·.name)).Nodup) (v : Feature → α) :
    ∀ (cf : List Feature), (∀ f ∈ cf, f ∈ fs) → ∀ (g : Feature → α),
    assign (fs.map g) (cf.map fun f => (fs.map (·.name)).idxOf f.name) (cf.map v) =
      fs.map fun x => if x ∈ cf then v x else g x
  | [], _, g => by simp [assign]
  | f :: cf, hc, g => by
    have ih := assign_map hn v cf (fun f hf => hc f (by simp [hf])) (fun x => if x = f then v f else g x)
    unfold assign at ih ⊢
    simp only [List.map_cons, List.zip_cons_cons, List.foldl_cons]
    rw [set_idxOf hn (hc f (by simp)), ih]
    apply List.map_congr_left
    intro x _
    by_cases h1 : x ∈ cf
    · simp [h1]
    · by_cases h2 : x = f <;> simp [h1, h2]

theorem without_map {α} {bs : List Feature} (hn : (bs.map (·.name)).Nodup) (g : Feature → α) {common : List String}
    (hc : ∀ n ∈ common, n ∈ bs.map (·.name)) :
    without (bs.map g) (common.map fun n => (bs.map (·.name)).idxOf n) =
      (bs.filter fun b => decide (b.name ∉ common)).map g := by
  unfold without
  rw [List.zipIdx_map, List.filter_map, List.map_map]
  have h1 : (bs.zipIdx.filter ((fun p : α × Nat => decide (p.2 ∉ common.map fun n => (bs.map (·.name)).idxOf n)) ∘
      Prod.map g id)) = bs.zipIdx.filter ((fun b => decide (b.name ∉ common)) ∘ Prod.fst) := by
    apply List.filter_congr
    rintro ⟨b, i⟩ hb
    have hbi : bs[i]? = some b := by
      have := List.mem_zipIdx_iff_getElem?.1 hb
      simpa using this
    simp only [Function.comp_apply, Prod.map_apply, id_eq, decide_eq_decide, not_iff_not, List.mem_map]
    obtain ⟨hi, hbe⟩ := List.getElem?_eq_some_iff.1 hbi
    have hidx : (bs.map (·.name)).idxOf b.name = i := by
      have h2 := hn.idxOf_getElem i (by simpa using hi)
      simp only [List.getElem_map, hbe] at h2
      exact h2
    constructor
    · rintro ⟨n, hn1, hn2⟩
      obtain ⟨b', hb', rfl⟩ := List.mem_map.1 (hc n hn1)
      have h3 := idxOf_get hn hb'
      rw [hn2, hbi] at h3
      cases h3
      exact hn1
    · intro h
      exact ⟨b.name, h, hidx⟩
  rw [h1]
  have h2 : ((fun x : α × Nat => x.1) ∘ Prod.map g id) = g ∘ (Prod.fst : Feature × Nat → Feature) := rfl
  rw [h2, ← List.map_map, ← List.filter_map]
  rw [List.zipIdx_map_fst]

/-- The features of the intersection, before the final sort. -/
def merged (as bs : List Feature) : List Feature :=
  (as.map fun f => if f.name ∈ bs.map (·.name) then
      { f with lo := f.lo.max (partner bs f).lo, hi := f.hi.min (partner bs f).hi } else f)

/-- The features of the second operand which the first one does not have. -/
def others (as bs : List Feature) : List Feature := bs.filter fun b => decide (b.name ∉ as.map (·.name))

theorem merged_names (as bs : List Feature) : (merged as bs).map (·.name) = as.map (·.name) := by
  unfold merged
  rw [List.map_map]
  apply List.map_congr_left
  intro f _
  simp only [Function.comp_apply]
  split <;> rfl

theorem merged_index (as bs : List Feature) : (merged as bs).map (·.index) = as.map (·.index) := by
  unfold merged
  rw [List.map_map]
  apply List.map_congr_left
  intro f _
  simp only [Function.comp_apply]
  split <;> rfl

theorem nodup_filter_map {α β} {f : α → β} {p : α → Bool} {l : List α} (h : (l.map f).Nodup) :
    ((l.filter p).map f).Nodup :=
  h.sublist (List.filter_sublist.map f)

/-- What `&` computes for conditions which satisfy the invariant: an `IndexError` when they disagree on the pairing of
names and columns, and otherwise the condition with the merged features. -/
theorem and_regular {by_ : String} (hb : by_ = "index" ∨ by_ = "name") {a b : Cond} {as bs : List Feature}
    (ha : Regular a as) (hbr : Regular b bs) :
    (Disagree as bs ∧ Cond.and by_ a b = .error .indexError) ∨
    (¬ Disagree as bs ∧ ∃ (c : Cond) (rest : List Feature), Cond.and by_ a b = .ok c ∧
      rest.Perm (others as bs) ∧
      Regular c (sortF by_ (merged (sortF by_ as) bs ++ rest))) := by
  obtain ⟨clone, hclone⟩ := initFeat_ok (s := true) hb ha.names_nodup ha.idx_nodup
  have hcr := (initFeat_regular hclone).1
  simp only [if_true] at hcr
  have hperm := sortF_perm by_ as
  generalize hsa : sortF by_ as = sa at hcr hperm
  have e0 : initTyped by_ a.indexes a.bmins a.bmaxs a.names = .ok clone := by
    rw [ha.shows.1, ha.shows.2.1, ha.shows.2.2.1, ha.shows.2.2.2, initTyped_features, hclone]
  have hmem : ∀ f, f ∈ sa ↔ f ∈ as := fun f => hperm.mem_iff
  have hdis : Disagree as bs ↔ Disagree sa bs := by
    unfold Disagree; simp only [hmem]
  have hoth : others as bs = others sa bs := by
    unfold others
    apply List.filter_congr
    intro b _
    rw [decide_eq_decide, (hperm.map _).mem_iff]
  rw [hdis, hoth]
  -- common features
  let cf := sa.filter fun f => decide (f.name ∈ bs.map (·.name))
  have hcf : ∀ f ∈ cf, f ∈ sa ∧ f.name ∈ bs.map (·.name) := by
    intro f hf; simpa [cf] using hf
  have hcommon : (sa.map (·.name)).filter (fun n => decide (n ∈ bs.map (·.name))) = cf.map (·.name) := by
    rw [List.filter_map]; rfl
  have hcommonMem : ∀ n, n ∈ bs.map (·.name) → (n ∈ cf.map (·.name) ↔ n ∈ sa.map (·.name)) := by
    intro n hn
    rw [← hcommon, List.mem_filter]
    simp only [hn, decide_true, and_true]
  have hothers : (bs.filter fun b => decide (b.name ∉ cf.map (·.name))) = others sa bs := by
    unfold others
    apply List.filter_congr
    intro b hb
    rw [decide_eq_decide, not_iff_not]
    exact hcommonMem _ (List.mem_map_of_mem hb)
  have hposS : (cf.map (·.name)).map (fun n => (sa.map (·.name)).idxOf n) =
      cf.map fun f => (sa.map (·.name)).idxOf f.name := by simp [List.map_map, Function.comp_def]
  have hposO : (cf.map (·.name)).map (fun n => (bs.map (·.name)).idxOf n) =
      cf.map fun f => (bs.map (·.name)).idxOf f.name := by simp [List.map_map, Function.comp_def]
  have getS : ∀ {α : Type} (g : Feature → α),
      (cf.map fun f => (sa.map (·.name)).idxOf f.name).mapM (item (sa.map g)) = .ok (cf.map g) := by
    intro α g
    exact mapM_items fun f hf => item_idxOf hcr.names_nodup (hcf f hf).1 g
  have getO : ∀ {α : Type} (g : Feature → α),
      (cf.map fun f => (bs.map (·.name)).idxOf f.name).mapM (item (bs.map g)) =
        .ok (cf.map fun f => g (partner bs f)) := by
    intro α g
    apply mapM_items
    intro f hf
    have hp := partner_mem (hcf f hf).2
    have := item_idxOf hbr.names_nodup hp.1 g
    rw [hp.2] at this
    exact this
  have hon : ((others sa bs).map (·.name)).Nodup := nodup_filter_map hbr.names_nodup
  have hoi : ((others sa bs).map (·.index)).Nodup := nodup_filter_map hbr.idx_nodup
  -- the last step
  have final : ∀ (rest : List Feature), rest.Perm (others sa bs) →
      (∀ f ∈ sa, ∀ g ∈ bs, f.name = g.name → f.index = g.index) →
      (Disagree sa bs ∧ ¬ (sa.map (·.index) ++ rest.map (·.index)).Nodup) ∨
      (¬ Disagree sa bs ∧ (sa.map (·.index) ++ rest.map (·.index)).Nodup ∧
        ∃ c, initTyped by_ (some (sa.map (·.index) ++ rest.map (·.index)))
            (some ((merged sa bs).map (·.lo) ++ rest.map (·.lo)))
            (some ((merged sa bs).map (·.hi) ++ rest.map (·.hi)))
            (some (sa.map (·.name) ++ rest.map (·.name))) = .ok c ∧
          Regular c (sortF by_ (merged sa bs ++ rest))) := by
    intro rest hr hag
    have hrm : ∀ g, g ∈ rest ↔ g ∈ bs ∧ g.name ∉ sa.map (·.name) := by
      intro g; rw [hr.mem_iff]; simp [others]
    have hri : (rest.map (·.index)).Nodup := (hr.map _).nodup_iff.2 hoi
    have hrn : (rest.map (·.name)).Nodup := (hr.map _).nodup_iff.2 hon
    by_cases hd : (sa.map (·.index) ++ rest.map (·.index)).Nodup
    · right
      refine ⟨?_, hd, ?_⟩
      · rintro ⟨f, hf, g, hg, ⟨h1, h2⟩ | ⟨h1, h2⟩⟩
        · exact h2 (hag f hf g hg h1)
        · by_cases hgn : g.name ∈ sa.map (·.name)
          · obtain ⟨f', hf', e⟩ := List.mem_map.1 hgn
            have h3 := hag f' hf' g hg e
            have : f = f' := by
              have hnd := hcr.idx_nodup
              exact List.inj_on_of_nodup_map hnd hf hf' (by rw [h2, h3])
            exact h1 (this ▸ e)
          · have hgr : g ∈ rest := (hrm g).2 ⟨hg, hgn⟩
            have := List.disjoint_of_nodup_append hd (List.mem_map_of_mem (f := (·.index)) hf)
            apply this
            rw [h2]
            exact List.mem_map_of_mem (f := (·.index)) hgr
      · have hname : ((merged sa bs ++ rest).map (·.name)).Nodup := by
          rw [List.map_append, merged_names]
          refine List.Nodup.append hcr.names_nodup hrn ?_
          intro n h1 h2
          obtain ⟨g, hg, rfl⟩ := List.mem_map.1 h2
          exact ((hrm g).1 hg).2 h1
        have hidx : ((merged sa bs ++ rest).map (·.index)).Nodup := by
          rw [List.map_append, merged_index]; exact hd
        obtain ⟨c, hc⟩ := initFeat_ok (s := true) hb hname hidx
        refine ⟨c, ?_, by simpa using (initFeat_regular hc).1⟩
        rw [← hc, ← initTyped_features]
        simp only [List.map_append, merged_names, merged_index]
    · left
      refine ⟨?_, hd⟩
      rw [List.nodup_append] at hd
      simp only [hcr.idx_nodup, hri, true_and, not_forall] at hd
      obtain ⟨i, hi, j, hj, hij⟩ := hd
      obtain ⟨f, hf, rfl⟩ := List.mem_map.1 hi
      obtain ⟨g, hg, rfl⟩ := List.mem_map.1 hj
      have hg' := (hrm g).1 hg
      refine ⟨f, hf, g, hg'.1, .inr ⟨?_, by simpa using hij⟩⟩
      intro e
      exact hg'.2 (e ▸ List.mem_map_of_mem (f := (·.name)) hf)
  unfold Cond.and
  simp only [e0, bind, Except.bind, need, hcr.shows.1, hcr.shows.2.1, hcr.shows.2.2.1, hcr.shows.2.2.2,
    hbr.shows.1, hbr.shows.2.1, hbr.shows.2.2.1, hbr.shows.2.2.2, hcommon, hposS, hposO, getS, getO]
  by_cases hlen : (cf.map (·.name)).length > 0
  · simp only [hlen, if_true]
    by_cases hag : cf.map (·.index) = cf.map fun f => (partner bs f).index
    · have hag' : ∀ f ∈ sa, ∀ g ∈ bs, f.name = g.name → f.index = g.index := by
        intro f hf g hg e
        have hfc : f ∈ cf := by
          simp only [cf, List.mem_filter, hf, true_and, decide_eq_true_eq]
          rw [e]; exact List.mem_map_of_mem (f := (·.name)) hg
        have hp := partner_mem (hcf f hfc).2
        have : partner bs f = g := eq_of_name hbr.names_nodup hp.1 hg (by rw [hp.2, e])
        have h2 := List.map_inj_left.1 hag f hfc
        rw [h2, this]
      obtain ⟨restc, hrestc⟩ := initFeat_ok (s := true) hb hon hoi
      have hrr := (initFeat_regular hrestc).1
      simp only [if_true] at hrr
      have hrest : initTyped by_ (some (without (bs.map (·.index)) (cf.map fun f => (bs.map (·.name)).idxOf f.name)))
          (some (without (bs.map (·.lo)) (cf.map fun f => (bs.map (·.name)).idxOf f.name)))
          (some (without (bs.map (·.hi)) (cf.map fun f => (bs.map (·.name)).idxOf f.name)))
          (some ((bs.map (·.name)).filter fun n => decide (n ∉ cf.map (·.name)))) = .ok restc := by
        have hw : ∀ {α : Type} (g : Feature → α),
            without (bs.map g) (cf.map fun f => (bs.map (·.name)).idxOf f.name) = (others sa bs).map g := by
          intro α g
          rw [← hposO, without_map hbr.names_nodup g, hothers]
          intro n hn
          obtain ⟨f, hf, rfl⟩ := List.mem_map.1 hn
          exact (hcf f hf).2
        rw [hw, hw, hw, List.filter_map]
        have : ((fun n => decide (n ∉ cf.map (·.name))) ∘ fun x : Feature => x.name) =
            fun b : Feature => decide (b.name ∉ cf.map (·.name)) := rfl
        rw [this, hothers, initTyped_features, hrestc]
      simp only [hag, ne_eq, not_true_eq_false, if_false, hrest, hrr.shows.1, hrr.shows.2.1, hrr.shows.2.2.1,
        hrr.shows.2.2.2]
      have hlo : assign (sa.map (·.lo)) (cf.map fun f => (sa.map (·.name)).idxOf f.name)
          (List.zipWith Num.max (cf.map (·.lo)) (cf.map fun f => (partner bs f).lo)) =
          (merged sa bs).map (·.lo) := by
        rw [List.zipWith_map, List.zipWith_self, assign_map hcr.names_nodup (fun f => f.lo.max (partner bs f).lo) cf
          (fun f hf => (hcf f hf).1)]
        unfold merged
        rw [List.map_map]
        apply List.map_congr_left
        intro f hf
        have : f ∈ cf ↔ f.name ∈ bs.map (·.name) := by simp only [cf, List.mem_filter, hf, true_and, decide_eq_true_eq]
        simp only [this, Function.comp_apply]
        split <;> rfl
      have hhi : assign (sa.map (·.hi)) (cf.map fun f => (sa.map (·.name)).idxOf f.name)
          (List.zipWith Num.min (cf.map (·.hi)) (cf.map fun f => (partner bs f).hi)) =
          (merged sa bs).map (·.hi) := by
        rw [List.zipWith_map, List.zipWith_self, assign_map hcr.names_nodup (fun f => f.hi.min (partner bs f).hi) cf
          (fun f hf => (hcf f hf).1)]
        unfold merged
        rw [List.map_map]
        apply List.map_congr_left
        intro f hf
        have : f ∈ cf ↔ f.name ∈ bs.map (·.name) := by simp only [cf, List.mem_filter, hf, true_and, decide_eq_true_eq]
        simp only [this, Function.comp_apply]
        split <;> rfl
      rw [hlo, hhi]
      rcases final (sortF by_ (others sa bs)) (sortF_perm _ _) hag' with ⟨hd, hnd⟩ | ⟨hd, hnd, c, hc, hreg⟩
      · exact .inl ⟨hd, by simp only [hnd, not_false_eq_true, if_true]⟩
      · refine .inr ⟨hd, c, _, ?_, sortF_perm _ _, hreg⟩
        simp only [hnd, not_true_eq_false, if_false, hc]
    · left
      refine ⟨?_, by simp only [ne_eq, hag, not_false_eq_true, if_true]⟩
      have : ∃ f ∈ cf, f.index ≠ (partner bs f).index := by
        by_contra hcon
        push Not at hcon
        exact hag (List.map_congr_left hcon)
      obtain ⟨f, hf, hne⟩ := this
      have hp := partner_mem (hcf f hf).2
      exact ⟨f, (hcf f hf).1, partner bs f, hp.1, .inl ⟨hp.2.symm, hne⟩⟩
  · simp only [hlen, if_false, hbr.shows.1, hbr.shows.2.1, hbr.shows.2.2.1, hbr.shows.2.2.2]
    have hcf0 : cf = [] := by
      cases hc : cf with
      | nil => rfl
      | cons x t => simp [hc] at hlen
    have hno : ∀ f ∈ sa, f.name ∉ bs.map (·.name) := by
      intro f hf h
      have : f ∈ cf := by simp only [cf, List.mem_filter, hf, true_and, decide_eq_true_eq]; exact h
      rw [hcf0] at this; cases this
    have hm : merged sa bs = sa := by
      unfold merged
      conv_rhs => rw [← List.map_id sa]
      apply List.map_congr_left
      intro f hf
      simp [show ¬ f.name ∈ bs.map (·.name) from hno f hf, -List.mem_map]
    have ho : others sa bs = bs := by
      unfold others
      apply List.filter_eq_self.2
      intro g hg
      simp only [decide_eq_true_eq]
      intro h
      obtain ⟨f, hf, e⟩ := List.mem_map.1 h
      exact hno f hf (e ▸ List.mem_map_of_mem (f := (·.name)) hg)
    rcases final bs (by rw [ho]) (fun f hf g hg e => absurd (e ▸ List.mem_map_of_mem (f := (·.name)) hg) (hno f hf)) with
      ⟨hd, hnd⟩ | ⟨hd, hnd, c, hc, hreg⟩
    · exact .inl ⟨hd, by simp only [hnd, not_false_eq_true, if_true]⟩
    · refine .inr ⟨hd, c, bs, ?_, by rw [ho], hreg⟩
      rw [hm] at hc
      simp only [hnd, not_true_eq_false, if_false, hc]

/-! ## Assignments -/

theorem Shows.unique {c : Cond} {fs gs : List Feature} (h : Shows c fs) (h' : Shows c gs) : fs = gs := by
  obtain ⟨h1, h2, h3, h4⟩ := h
  obtain ⟨k1, k2, k3, k4⟩ := h'
  rw [h1] at k1; rw [h2] at k2; rw [h3] at k3; rw [h4] at k4
  simp only [Option.some.injEq] at k1 k2 k3 k4
  clear h1 h2 h3 h4
  induction fs generalizing gs with
  | nil => cases gs <;> simp_all
  | cons f fs ih =>
    cases gs with
    | nil => simp at k1
    | cons g gs =>
      simp only [List.map_cons, List.cons.injEq] at k1 k2 k3 k4
      rw [ih k1.2 k2.2 k3.2 k4.2]
      cases f; cases g; simp_all

/-- An assignment to `features_indexes`: rejected without effect, or done. -/
theorem setIndexes_cases (a : Arg Int) (c : Cond) :
    (∃ e, setIndexes a c = (.error e, c)) ∨
    ∃ v, a.value = .ok v ∧ v.Nodup ∧ (0 < c.length → c.length = v.length) ∧
      setIndexes a c = (.ok (), { c with indexes := some v }) := by
  cases hv : a.value with
  | error e => exact .inl ⟨e, by simp [setIndexes, Py.bind_run, hv]⟩
  | ok v =>
    by_cases hn : v.Nodup
    · by_cases hl : c.length > 0 ∧ c.length ≠ v.length
      · refine .inl ⟨.indexError, ?_⟩
        simp [setIndexes, Py.bind_run, hv, hn, hl.1, hl.2]
      · refine .inr ⟨v, rfl, hn, fun h => ?_, ?_⟩
        · by_contra hne
          exact hl ⟨h, hne⟩
        · simp only [setIndexes, Py.bind_run, Py.ofExcept_run, hv, hn, not_true_eq_false, if_false, hl, Py.get_run,
            Py.pure_run, Py.modify_run]
    · refine .inl ⟨.duplicatedFeatures, ?_⟩
      simp [setIndexes, Py.bind_run, hv, hn]

/-- An assignment to `features_names`: rejected without effect, or done. -/
theorem setNames_cases (a : Arg String) (c : Cond) :
    (∃ e, setNames a c = (.error e, c)) ∨
    ∃ v, a.value = .ok v ∧ v.Nodup ∧ (0 < c.length → c.length = v.length) ∧
      setNames a c = (.ok (), { c with names := some v }) := by
  cases hv : a.value with
  | error e => exact .inl ⟨e, by simp [setNames, Py.bind_run, hv]⟩
  | ok v =>
    by_cases hn : v.Nodup
    · by_cases hl : c.length > 0 ∧ c.length ≠ v.length
      · refine .inl ⟨.indexError, ?_⟩
        simp [setNames, Py.bind_run, hv, hn, hl.1, hl.2]
      · refine .inr ⟨v, rfl, hn, fun h => ?_, ?_⟩
        · by_contra hne
          exact hl ⟨h, hne⟩
        · simp only [setNames, Py.bind_run, Py.ofExcept_run, hv, hn, not_true_eq_false, if_false, hl, Py.get_run,
            Py.pure_run, Py.modify_run]
    · refine .inl ⟨.duplicatedFeatures, ?_⟩
      simp [setNames, Py.bind_run, hv, hn]

/-- An assignment to `bmins` of a condition which has upper bounds: rejected without effect, or done. -/
theorem setBmins_cases (a : Arg Num) (c : Cond) {hi : List Num} (hh : c.bmaxs = some hi) :
    (∃ e, setBmins a c = (.error e, c)) ∨
    ∃ v, a.bounds = .ok v ∧ (0 < c.length → c.length = v.length) ∧
      setBmins a c = (.ok (), { c with bmins := some v, impossible := c.impossible || someInverted v hi }) := by
  cases hv : a.bounds with
  | error e => exact .inl ⟨e, by simp [setBmins, Py.bind_run, hv]⟩
  | ok v =>
    by_cases hl : c.length > 0 ∧ c.length ≠ v.length
    · refine .inl ⟨.indexError, ?_⟩
      simp [setBmins, Py.bind_run, hv, hl.1, hl.2]
    · refine .inr ⟨v, rfl, fun h => ?_, ?_⟩
      · by_contra hne
        exact hl ⟨h, hne⟩
      · simp only [setBmins, Py.bind_run, Py.ofExcept_run, hv, hl, Py.get_run, if_false, Py.pure_run, Py.modify_run,
          checkImpossible, need, hh]
        cases hi : someInverted v hi <;> simp

/-- An assignment to `bmaxs` of a condition which has lower bounds: rejected without effect, or done. -/
theorem setBmaxs_cases (a : Arg Num) (c : Cond) {lo : List Num} (hh : c.bmins = some lo) :
    (∃ e, setBmaxs a c = (.error e, c)) ∨
    ∃ v, a.bounds = .ok v ∧ (0 < c.length → c.length = v.length) ∧
      setBmaxs a c = (.ok (), { c with bmaxs := some v, impossible := c.impossible || someInverted lo v }) := by
  cases hv : a.bounds with
  | error e => exact .inl ⟨e, by simp [setBmaxs, Py.bind_run, hv]⟩
  | ok v =>
    by_cases hl : c.length > 0 ∧ c.length ≠ v.length
    · refine .inl ⟨.indexError, ?_⟩
      simp [setBmaxs, Py.bind_run, hv, hl.1, hl.2]
    · refine .inr ⟨v, rfl, fun h => ?_, ?_⟩
      · by_contra hne
        exact hl ⟨h, hne⟩
      · simp only [setBmaxs, Py.bind_run, Py.ofExcept_run, hv, hl, Py.get_run, if_false, Py.pure_run, Py.modify_run,
          checkImpossible, need, hh]
        cases hi : someInverted lo v <;> simp

theorem setIndexes_regular {c : Cond} {fs : List Feature} (h : Regular c fs) (hl : 0 < c.length) (a : Arg Int) :
    ∃ gs, Regular (setIndexes a c).2 gs := by
  rcases setIndexes_cases a c with ⟨e, he⟩ | ⟨v, -, hn, hlen, he⟩
  · rw [he]; exact ⟨fs, h⟩
  · rw [he]
    have h1 := hlen hl
    rw [Shows.length h.shows] at h1
    obtain ⟨gs, e1, e2, e3, e4⟩ := features_of_lists (na := fs.map (·.name)) (idx := v) (lo := fs.map (·.lo))
      (hi := fs.map (·.hi)) (by simp [h1]) (by simp) (by simp)
    refine ⟨gs, ⟨?_, ?_, ?_, ?_⟩, e1 ▸ h.names_nodup, e2 ▸ hn, ?_⟩
    · simpa [← e1] using h.shows.1
    · simpa using e2
    · simpa [← e3] using h.shows.2.2.1
    · simpa [← e4] using h.shows.2.2.2
    · show c.impossible = _
      rw [h.imp, ← someInverted_map, ← someInverted_map, e3, e4]

theorem setNames_regular {c : Cond} {fs : List Feature} (h : Regular c fs) (hl : 0 < c.length) (a : Arg String) :
    ∃ gs, Regular (setNames a c).2 gs := by
  rcases setNames_cases a c with ⟨e, he⟩ | ⟨v, -, hn, hlen, he⟩
  · rw [he]; exact ⟨fs, h⟩
  · rw [he]
    have h1 := hlen hl
    rw [Shows.length h.shows] at h1
    obtain ⟨gs, e1, e2, e3, e4⟩ := features_of_lists (na := v) (idx := fs.map (·.index)) (lo := fs.map (·.lo))
      (hi := fs.map (·.hi)) (by simp [h1]) (by simp [h1]) (by simp [h1])
    refine ⟨gs, ⟨?_, ?_, ?_, ?_⟩, e1 ▸ hn, e2 ▸ h.idx_nodup, ?_⟩
    · simpa using e1
    · simpa [← e2] using h.shows.2.1
    · simpa [← e3] using h.shows.2.2.1
    · simpa [← e4] using h.shows.2.2.2
    · show c.impossible = _
      rw [h.imp, ← someInverted_map, ← someInverted_map, e3, e4]

theorem setBmins_regular {c : Cond} {fs : List Feature} (h : Regular c fs) (hl : 0 < c.length)
    (hi : c.impossible = false) (a : Arg Num) : ∃ gs, Regular (setBmins a c).2 gs := by
  rcases setBmins_cases a c h.shows.2.2.2 with ⟨e, he⟩ | ⟨v, -, hlen, he⟩
  · rw [he]; exact ⟨fs, h⟩
  · rw [he]
    have h1 := hlen hl
    rw [Shows.length h.shows] at h1
    obtain ⟨gs, e1, e2, e3, e4⟩ := features_of_lists (na := fs.map (·.name)) (idx := fs.map (·.index)) (lo := v)
      (hi := fs.map (·.hi)) (by simp) (by simp [h1]) (by simp)
    refine ⟨gs, ⟨?_, ?_, ?_, ?_⟩, e1 ▸ h.names_nodup, e2 ▸ h.idx_nodup, ?_⟩
    · simpa [← e1] using h.shows.1
    · simpa [← e2] using h.shows.2.1
    · simpa using e3
    · simpa [← e4] using h.shows.2.2.2
    · show (c.impossible || someInverted v (fs.map (·.hi))) = _
      rw [hi, Bool.false_or, e3, e4, someInverted_map]

theorem setBmaxs_regular {c : Cond} {fs : List Feature} (h : Regular c fs) (hl : 0 < c.length)
    (hi : c.impossible = false) (a : Arg Num) : ∃ gs, Regular (setBmaxs a c).2 gs := by
  rcases setBmaxs_cases a c h.shows.2.2.1 with ⟨e, he⟩ | ⟨v, -, hlen, he⟩
  · rw [he]; exact ⟨fs, h⟩
  · rw [he]
    have h1 := hlen hl
    rw [Shows.length h.shows] at h1
    obtain ⟨gs, e1, e2, e3, e4⟩ := features_of_lists (na := fs.map (·.name)) (idx := fs.map (·.index))
      (lo := fs.map (·.lo)) (hi := v) (by simp) (by simp) (by simp [h1])
    refine ⟨gs, ⟨?_, ?_, ?_, ?_⟩, e1 ▸ h.names_nodup, e2 ▸ h.idx_nodup, ?_⟩
    · simpa [← e1] using h.shows.1
    · simpa [← e2] using h.shows.2.1
    · simpa [← e3] using h.shows.2.2.1
    · simpa using e4
    · show (c.impossible || someInverted (fs.map (·.lo)) v) = _
      rw [hi, Bool.false_or, e3, e4, someInverted_map]

theorem normalize_regular {c : Cond} {fs : List Feature} (h : Regular c fs) :
    ∃ gs, Regular (normalizeIndexes c).2 gs := by
  have he : normalizeIndexes c =
      (.ok (), { c with indexes := some ((List.range fs.length).map Int.ofNat) }) := by
    simp [normalizeIndexes, Py.bind_run, need, h.shows.2.1]
  rw [he]
  obtain ⟨gs, e1, e2, e3, e4⟩ := features_of_lists (na := fs.map (·.name)) (idx := (List.range fs.length).map Int.ofNat)
    (lo := fs.map (·.lo)) (hi := fs.map (·.hi)) (by simp) (by simp) (by simp)
  refine ⟨gs, ⟨?_, ?_, ?_, ?_⟩, e1 ▸ h.names_nodup, e2 ▸ ?_, ?_⟩
  · simpa [← e1] using h.shows.1
  · simpa using e2
  · simpa [← e3] using h.shows.2.2.1
  · simpa [← e4] using h.shows.2.2.2
  · exact List.nodup_range.map (fun a b hab => Int.ofNat.inj hab)
  · show c.impossible = _
    rw [h.imp, ← someInverted_map, ← someInverted_map, e3, e4]

/-- Every condition a user can obtain satisfies the invariant. -/
theorem reach_regular {c : Cond} (h : Reach c) : ∃ fs, Regular c fs := by
  induction h with
  | init h => obtain ⟨fs, hf⟩ := init_ok h; exact ⟨_, (initFeat_regular hf).1⟩
  | and hb _ _ h iha ihb =>
    obtain ⟨as, ha⟩ := iha
    obtain ⟨bs, hb'⟩ := ihb
    rcases and_regular hb ha hb' with ⟨-, he⟩ | ⟨-, d, rest, hd, -, hr⟩
    · rw [h] at he; cases he
    · rw [h] at hd; cases hd; exact ⟨_, hr⟩
  | sort _ h ih => obtain ⟨fs, hf⟩ := ih; exact ⟨_, hf.sort h⟩
  | setIndexes a _ hl ih => obtain ⟨fs, hf⟩ := ih; exact setIndexes_regular hf hl a
  | setNames a _ hl ih => obtain ⟨fs, hf⟩ := ih; exact setNames_regular hf hl a
  | setBmins a _ hl hi ih => obtain ⟨fs, hf⟩ := ih; exact setBmins_regular hf hl hi a
  | setBmaxs a _ hl hi ih => obtain ⟨fs, hf⟩ := ih; exact setBmaxs_regular hf hl hi a
  | normalize _ ih => obtain ⟨fs, hf⟩ := ih; exact normalize_regular hf

/-- The merged features accept exactly the values both operands accept. -/
theorem merged_box {as bs rest : List Feature} {val : Feature → Num}
    (hval : ∀ f ∈ as, ∀ g ∈ bs, f.name = g.name → val f = val g)
    (hval' : ∀ f f' : Feature, f.name = f'.name → f.index = f'.index → val f = val f')
    (hbn : (bs.map (·.name)).Nodup)
    (hna : ∀ f ∈ as, f.lo ≠ .nan ∧ f.hi ≠ .nan) (hnb : ∀ f ∈ bs, f.lo ≠ .nan ∧ f.hi ≠ .nan)
    (hr : rest.Perm (others as bs)) :
    (∀ f ∈ merged as bs ++ rest, Within f.lo f.hi (val f)) ↔
      (∀ f ∈ as, Within f.lo f.hi (val f)) ∧ ∀ f ∈ bs, Within f.lo f.hi (val f) := by
  have key : ∀ f ∈ as, f.name ∈ bs.map (·.name) → ∀ x,
      (Within (f.lo.max (partner bs f).lo) (f.hi.min (partner bs f).hi) x ↔
        Within f.lo f.hi x ∧ Within (partner bs f).lo (partner bs f).hi x) := by
    intro f hf hn x
    have hp := partner_mem hn
    have h1 := hna f hf
    have h2 := hnb _ hp.1
    rw [← passes_iff ⟨"", 0, f.lo.max (partner bs f).lo, f.hi.min (partner bs f).hi⟩, ← passes_iff f,
      ← passes_iff (partner bs f)]
    simp only [passes, Num.max_le h1.1 h2.1, Num.le_min h1.2 h2.2, Bool.and_eq_true]
    tauto
  constructor
  · intro h
    have ha : ∀ f ∈ as, Within f.lo f.hi (val f) ∧ (f.name ∈ bs.map (·.name) →
        Within (partner bs f).lo (partner bs f).hi (val f)) := by
      intro f hf
      by_cases hn : f.name ∈ bs.map (·.name)
      · have := h { f with lo := f.lo.max (partner bs f).lo, hi := f.hi.min (partner bs f).hi } (by
          apply List.mem_append_left
          unfold merged
          exact List.mem_map.2 ⟨f, hf, by rw [if_pos hn]⟩)
        have e2 : val { f with lo := f.lo.max (partner bs f).lo, hi := f.hi.min (partner bs f).hi } = val f :=
          hval' _ _ rfl rfl
        rw [e2] at this
        replace this := (key f hf hn _).1 this
        exact ⟨this.1, fun _ => this.2⟩
      · have := h f (by
          apply List.mem_append_left
          unfold merged
          exact List.mem_map.2 ⟨f, hf, by rw [if_neg hn]⟩)
        exact ⟨this, fun hn' => absurd hn' hn⟩
    refine ⟨fun f hf => (ha f hf).1, fun g hg => ?_⟩
    by_cases hn : g.name ∈ as.map (·.name)
    · obtain ⟨f, hf, e⟩ := List.mem_map.1 hn
      have hfb : f.name ∈ bs.map (·.name) := by
        rw [show f.name = g.name from e]; exact List.mem_map_of_mem (f := (·.name)) hg
      have h2 := (ha f hf).2 hfb
      have hp := partner_mem hfb
      have : partner bs f = g := eq_of_name hbn hp.1 hg (by rw [hp.2]; exact e)
      rw [this, hval f hf g hg e] at h2
      exact h2
    · exact h g (List.mem_append_right _ (hr.mem_iff.2 (by simp only [others, List.mem_filter, hg, true_and]; simpa using hn)))
  · rintro ⟨ha, hb⟩ f hf
    rcases List.mem_append.1 hf with hf | hf
    · unfold merged at hf
      obtain ⟨f0, hf0, rfl⟩ := List.mem_map.1 hf
      by_cases hn : f0.name ∈ bs.map (·.name)
      · have hp := partner_mem hn
        have e2 : val { f0 with lo := f0.lo.max (partner bs f0).lo, hi := f0.hi.min (partner bs f0).hi } = val f0 :=
          hval' _ _ rfl rfl
        rw [if_pos hn]
        rw [e2]
        refine (key f0 hf0 hn _).2 ⟨ha f0 hf0, ?_⟩
        rw [hval f0 hf0 _ hp.1 hp.2.symm]
        exact hb _ hp.1
      · rw [if_neg hn]; exact ha f0 hf0
    · have := hr.mem_iff.1 hf
      exact hb f (List.mem_filter.1 this).1

/-! ## Order of the features -/

theorem sortF_index_sorted (fs : List Feature) :
    (sortF "index" fs).Pairwise fun a b => a.index ≤ b.index := by
  have : Std.Total fun a b : Feature => a.index ≤ b.index := ⟨fun a b => le_total _ _⟩
  have : IsTrans Feature fun a b : Feature => a.index ≤ b.index := ⟨fun a b c => le_trans⟩
  simpa [sortF] using List.pairwise_insertionSort (fun a b : Feature => a.index ≤ b.index) fs

theorem sortF_name_sorted {by_ : String} (hb : by_ ≠ "index") (fs : List Feature) :
    (sortF by_ fs).Pairwise fun a b => a.name ≤ b.name := by
  have : Std.Total fun a b : Feature => a.name ≤ b.name := ⟨fun a b => String.le_total _ _⟩
  have : IsTrans Feature fun a b : Feature => a.name ≤ b.name := ⟨fun a b c => String.le_trans⟩
  simpa [sortF, hb] using List.pairwise_insertionSort (fun a b : Feature => a.name ≤ b.name) fs

theorem eq_of_index {fs : List Feature} (hn : (fs.map (·.index)).Nodup) {f g : Feature} (hf : f ∈ fs) (hg : g ∈ fs)
    (h : f.index = g.index) : f = g :=
  List.inj_on_of_nodup_map hn hf hg h

/-- Sorting forgets the order in which the features were given. -/
theorem sortF_congr (by_ : String) {fs gs : List Feature} (h : fs.Perm gs) (hn : (fs.map (·.name)).Nodup)
    (hi : (fs.map (·.index)).Nodup) : sortF by_ fs = sortF by_ gs := by
  have hp : (sortF by_ fs).Perm (sortF by_ gs) := (sortF_perm by_ fs).trans (h.trans (sortF_perm by_ gs).symm)
  by_cases hb : by_ = "index"
  · subst hb
    refine hp.eq_of_pairwise ?_ (sortF_index_sorted fs) (sortF_index_sorted gs)
    intro a b ha hb h1 h2
    exact eq_of_index hi ((sortF_perm _ _).mem_iff.1 ha) (h.mem_iff.2 ((sortF_perm _ _).mem_iff.1 hb)) (by omega)
  · refine hp.eq_of_pairwise ?_ (sortF_name_sorted hb fs) (sortF_name_sorted hb gs)
    intro a b ha hb h1 h2
    exact eq_of_name hn ((sortF_perm _ _).mem_iff.1 ha) (h.mem_iff.2 ((sortF_perm _ _).mem_iff.1 hb))
      (String.le_antisymm h1 h2)

theorem initFeat_perm (by_ : String) {fs gs : List Feature} (h : fs.Perm gs) :
    initFeat by_ fs true = initFeat by_ gs true := by
  have hn := (h.map (·.name)).nodup_iff
  have hi := (h.map (·.index)).nodup_iff
  by_cases h1 : (fs.map (·.index)).Nodup
  · by_cases h2 : (fs.map (·.name)).Nodup
    · by_cases hb : by_ = "index" ∨ by_ = "name" ∨ fs.length ≤ 1
      · have main : ∀ {ks : List Feature}, ks.Perm fs → ∃ c, initFeat by_ ks true = .ok c ∧ Shows c (sortF by_ fs) ∧
            c.impossible = fs.any fun f => f.hi.lt f.lo := by
          intro ks hk
          have k1 := (hk.map (·.index)).nodup_iff.2 h1
          have k2 := (hk.map (·.name)).nodup_iff.2 h2
          obtain ⟨c, hc, hs, hci⟩ := sort_shows (by_ := by_)
            (c := { indexes := some (ks.map (·.index)), bmins := some (ks.map (·.lo)), bmaxs := some (ks.map (·.hi)),
                    names := some (ks.map (·.name)), impossible := ks.any fun f => f.hi.lt f.lo })
            (fs := ks) ⟨rfl, rfl, rfl, rfl⟩ (by rw [hk.length_eq]; exact hb)
          refine ⟨c, ?_, ?_, ?_⟩
          · unfold initFeat
            simp only [k1, k2, not_true_eq_false, if_false, if_true]
            exact hc
          · rw [sortF_congr by_ hk.symm h2 h1]; exact hs
          · rw [hci]; exact any_perm hk
        obtain ⟨c, hc, hs, hci⟩ := main (List.Perm.refl fs)
        obtain ⟨d, hd, hds, hdi⟩ := main h.symm
        rw [hc, hd]
        congr 1
        obtain ⟨c1, c2, c3, c4⟩ := hs
        obtain ⟨d1, d2, d3, d4⟩ := hds
        cases c; cases d
        simp_all
      · have : ∀ {ks : List Feature}, ks.Perm fs → initFeat by_ ks true = .error .valueError := by
          intro ks hk
          have k1 := (hk.map (·.index)).nodup_iff.2 h1
          have k2 := (hk.map (·.name)).nodup_iff.2 h2
          have hl := hk.length_eq
          push Not at hb
          have h3 : 1 < ks.length := by omega
          unfold initFeat
          simp [k1, k2, Cond.sort, Cond.length, hb.1, hb.2.1, h3]
        rw [this (List.Perm.refl fs), this h.symm]
    · simp [initFeat, h1, h2, ← hi, ← hn]
  · simp [initFeat, h1, ← hi]

theorem InBox_perm {fs gs : List Feature} (h : fs.Perm gs) (n : Nat) (r : List Num) : InBox fs n r ↔ InBox gs n r := by
  unfold InBox; simp only [h.mem_iff]

theorem InBoxNamed_perm {fs gs : List Feature} (h : fs.Perm gs) (cs : List String) (r : List Num) :
    InBoxNamed fs cs r ↔ InBoxNamed gs cs r := by
  unfold InBoxNamed; simp only [h.mem_iff]

theorem Regular.imp' {c : Cond} {fs : List Feature} (h : Regular c fs) :
    c.impossible = true → ∃ f ∈ fs, f.hi.lt f.lo = true := by
  rw [h.imp]; simp

theorem evaluate_impossible {c : Cond} (h : c.impossible = true) (xs : Mat) :
    evaluate c xs = .ok (List.replicate xs.rows.length 0) := by simp [evaluate, h]

theorem evaluateFrame_impossible {c : Cond} (h : c.impossible = true) (xs : Frame) :
    evaluateFrame c xs = .ok (List.replicate xs.rows.length 0) := by simp [evaluateFrame, h]

theorem evaluate_perm {c d : Cond} {fs gs : List Feature} (hc : Regular c fs) (hd : Regular d gs) (h : fs.Perm gs)
    (xs : Mat) : evaluate c xs = evaluate d xs := by
  have himp : c.impossible = d.impossible := by rw [hc.imp, hd.imp, any_perm h]
  by_cases hr : ∀ f ∈ fs, InRange xs.ncols f.index
  · rw [evaluate_shows hc.shows hc.imp' hr, evaluate_shows hd.shows hd.imp' (fun f hf => hr f (h.mem_iff.2 hf))]
    congr 1
    apply List.map_congr_left
    intro r _
    rw [InBox_perm h]
  · cases hi : c.impossible with
    | true => rw [evaluate_impossible hi, evaluate_impossible (himp ▸ hi)]
    | false =>
      push Not at hr
      rw [evaluate_out_of_range hc.shows hi hr, evaluate_out_of_range hd.shows (himp ▸ hi)]
      obtain ⟨f, hf, hn⟩ := hr
      exact ⟨f, h.mem_iff.1 hf, hn⟩

theorem evaluateFrame_none {c : Cond} (h : Shows c []) (hi : c.impossible = false) (xs : Frame) :
    evaluateFrame c xs = .error .attributeError := by
  unfold evaluateFrame
  simp only [hi, Bool.false_eq_true, if_false, h.1, need, List.map_nil, List.any_nil, bind, Except.bind]
  rfl

theorem evaluateFrame_perm {c d : Cond} {fs gs : List Feature} (hc : Regular c fs) (hd : Regular d gs) (h : fs.Perm gs)
    (xs : Frame) : evaluateFrame c xs = evaluateFrame d xs := by
  have himp : c.impossible = d.impossible := by rw [hc.imp, hd.imp, any_perm h]
  cases hi : c.impossible with
  | true => rw [evaluateFrame_impossible hi, evaluateFrame_impossible (himp ▸ hi)]
  | false =>
    by_cases hne : fs = []
    · subst hne
      have := h.nil_eq
      subst this
      rw [evaluateFrame_none hc.shows hi, evaluateFrame_none hd.shows (himp ▸ hi)]
    by_cases hr : ∀ f ∈ fs, f.name ∈ xs.columns
    · have hne' : gs ≠ [] := by rintro rfl; exact hne h.eq_nil
      rw [evaluateFrame_shows hc.shows hc.imp' hne hr,
        evaluateFrame_shows hd.shows hd.imp' hne' (fun f hf => hr f (h.mem_iff.2 hf))]
      congr 1
      apply List.map_congr_left
      intro r _
      rw [InBoxNamed_perm h]
    · push Not at hr
      rw [evaluateFrame_missing hc.shows hi hr, evaluateFrame_missing hd.shows (himp ▸ hi)]
      obtain ⟨f, hf, hn⟩ := hr
      exact ⟨f, h.mem_iff.1 hf, hn⟩

/-! ## Equality -/

theorem toHash_shows {c : Cond} {fs : List Feature} (h : Shows c fs) :
    c.toHash = .ok (fs.map fun f => (f.name, f.lo, f.hi)) := by
  unfold toHash
  simp only [h.1, h.2.2.1, h.2.2.2, need, bind, Except.bind]
  have : ∀ (post pre : List Feature), fs = pre ++ post →
      ((post.map (·.name)).zipIdx pre.length).mapM (fun p => item (fs.map (·.lo)) p.2 >>= fun lo =>
        item (fs.map (·.hi)) p.2 >>= fun hi => Except.ok (p.1, lo, hi)) = Except.ok (ε := Err) (post.map fun f => (f.name, f.lo, f.hi)) := by
    intro post
    induction post with
    | nil => intros; rfl
    | cons f post ih =>
      intro pre hfs
      have hf : fs[pre.length]? = some f := by rw [hfs]; simp
      have h2 := ih (pre ++ [f]) (by rw [hfs]; simp)
      simp only [List.length_append, List.length_singleton] at h2
      simp only [List.map_cons, List.zipIdx_cons, List.mapM_cons, item, List.getElem?_map, hf, Option.map_some]
      simp only [item, List.getElem?_map] at h2
      rw [h2]
      rfl
  simpa [bind, Except.bind] using this fs [] rfl

theorem triples_nodup {fs : List Feature} (h : (fs.map (·.name)).Nodup) :
    (fs.map fun f => (f.name, f.lo, f.hi)).Nodup := by
  apply List.Nodup.of_map (f := fun x : String × Num × Num => x.1)
  simpa [List.map_map, Function.comp_def] using h

/-- The hash of the triple of a feature. -/
def tripleHash (H : Hasher) (f : Feature) : Int := H.tuple [H.str f.name, H.num f.lo, H.num f.hi]

theorem hash_regular {c : Cond} {fs : List Feature} (h : Regular c fs) (H : Hasher) :
    c.hash H = .ok (H.frozenset (H.str "c" :: fs.map (tripleHash H))) := by
  unfold Cond.hash
  simp only [toHash_shows h.shows, bind, Except.bind, (triples_nodup h.names_nodup).dedup, List.map_map]
  rfl

/-! ## Histories of assignments -/

theorem setStep {c : Cond} {fs : List Feature} (h : Shows c fs) (hn : (fs.map (·.name)).Nodup)
    (hx : (fs.map (·.index)).Nodup) (hl : 0 < fs.length)
    (hi : (fs.any fun f => f.hi.lt f.lo) = true → c.impossible = true) (o : SetOp) :
    ∃ gs, Shows (o.run c).2 gs ∧ (gs.map (·.name)).Nodup ∧ (gs.map (·.index)).Nodup ∧ gs.length = fs.length ∧
      (o.run c).2.impossible = (c.impossible || gs.any fun f => f.hi.lt f.lo) := by
  have same : ∃ gs, Shows c gs ∧ (gs.map (·.name)).Nodup ∧ (gs.map (·.index)).Nodup ∧ gs.length = fs.length ∧
      c.impossible = (c.impossible || gs.any fun f => f.hi.lt f.lo) := by
    refine ⟨fs, h, hn, hx, rfl, ?_⟩
    cases hc : c.impossible
    · cases ha : fs.any fun f => f.hi.lt f.lo
      · rfl
      · rw [hi ha] at hc; cases hc
    · rfl
  have hlc : 0 < c.length := by rw [Shows.length h]; exact hl
  have absorb : ∀ {lo hi' : List Num}, lo = fs.map (·.lo) → hi' = fs.map (·.hi) →
      c.impossible = (c.impossible || someInverted lo hi') := by
    rintro _ _ rfl rfl
    rw [someInverted_map]
    cases hc : c.impossible
    · cases ha : fs.any fun f => f.hi.lt f.lo
      · rfl
      · rw [hi ha] at hc; cases hc
    · rfl
  cases o with
  | indexes a =>
    rcases setIndexes_cases a c with ⟨e, he⟩ | ⟨v, -, hnv, hlen, he⟩
    · simp only [SetOp.run, he]; exact same
    · have h1 := hlen hlc
      rw [Shows.length h] at h1
      obtain ⟨gs, e1, e2, e3, e4⟩ := features_of_lists (na := fs.map (·.name)) (idx := v) (lo := fs.map (·.lo))
        (hi := fs.map (·.hi)) (by simp [h1]) (by simp) (by simp)
      simp only [SetOp.run, he]
      refine ⟨gs, ⟨by simpa [← e1] using h.1, by simpa using e2, by simpa [← e3] using h.2.2.1,
        by simpa [← e4] using h.2.2.2⟩, e1 ▸ hn, e2 ▸ hnv, by simpa using (congrArg List.length e1).symm, ?_⟩
      rw [← someInverted_map, ← e3, ← e4]
      exact absorb rfl rfl
  | names a =>
    rcases setNames_cases a c with ⟨e, he⟩ | ⟨v, -, hnv, hlen, he⟩
    · simp only [SetOp.run, he]; exact same
    · have h1 := hlen hlc
      rw [Shows.length h] at h1
      obtain ⟨gs, e1, e2, e3, e4⟩ := features_of_lists (na := v) (idx := fs.map (·.index)) (lo := fs.map (·.lo))
        (hi := fs.map (·.hi)) (by simp [h1]) (by simp [h1]) (by simp [h1])
      simp only [SetOp.run, he]
      refine ⟨gs, ⟨by simpa using e1, by simpa [← e2] using h.2.1, by simpa [← e3] using h.2.2.1,
        by simpa [← e4] using h.2.2.2⟩, e1 ▸ hnv, e2 ▸ hx, by simpa using (congrArg List.length e2).symm, ?_⟩
      rw [← someInverted_map, ← e3, ← e4]
      exact absorb rfl rfl
  | bmins a =>
    rcases setBmins_cases a c h.2.2.2 with ⟨e, he⟩ | ⟨v, -, hlen, he⟩
    · simp only [SetOp.run, he]; exact same
    · have h1 := hlen hlc
      rw [Shows.length h] at h1
      obtain ⟨gs, e1, e2, e3, e4⟩ := features_of_lists (na := fs.map (·.name)) (idx := fs.map (·.index)) (lo := v)
        (hi := fs.map (·.hi)) (by simp) (by simp [h1]) (by simp)
      simp only [SetOp.run, he]
      refine ⟨gs, ⟨by simpa [← e1] using h.1, by simpa [← e2] using h.2.1, by simpa using e3,
        by simpa [← e4] using h.2.2.2⟩, e1 ▸ hn, e2 ▸ hx, by simpa using (congrArg List.length e2).symm, ?_⟩
      rw [← someInverted_map, ← e3, ← e4]
  | bmaxs a =>
    rcases setBmaxs_cases a c h.2.2.1 with ⟨e, he⟩ | ⟨v, -, hlen, he⟩
    · simp only [SetOp.run, he]; exact same
    · have h1 := hlen hlc
      rw [Shows.length h] at h1
      obtain ⟨gs, e1, e2, e3, e4⟩ := features_of_lists (na := fs.map (·.name)) (idx := fs.map (·.index))
        (lo := fs.map (·.lo)) (hi := v) (by simp) (by simp) (by simp [h1])
      simp only [SetOp.run, he]
      refine ⟨gs, ⟨by simpa [← e1] using h.1, by simpa [← e2] using h.2.1, by simpa [← e3] using h.2.2.1,
        by simpa using e4⟩, e1 ▸ hn, e2 ▸ hx, by simpa using (congrArg List.length e2).symm, ?_⟩
      rw [← someInverted_map, ← e3, ← e4]

theorem afterSets_shows {c : Cond} {fs : List Feature} (hr : Regular c fs) (hl : 0 < fs.length) (ops : List SetOp) :
    ∃ gs, Shows (afterSets c ops) gs ∧ (gs.map (·.name)).Nodup ∧ (gs.map (·.index)).Nodup ∧ gs.length = fs.length ∧
      ((afterSets c ops).impossible = true ↔
        ∃ k ≤ ops.length, ∃ ks, Shows (afterSets c (ops.take k)) ks ∧ ∃ f ∈ ks, Inverted f) := by
  induction ops using List.reverseRecOn with
  | nil =>
    refine ⟨fs, hr.shows, hr.names_nodup, hr.idx_nodup, rfl, ?_⟩
    constructor
    · intro h
      exact ⟨0, Nat.le_refl _, fs, hr.shows, hr.imp' h⟩
    · rintro ⟨k, hk, ks, hs, f, hf, hi⟩
      have := Shows.unique hr.shows (by simpa [afterSets] using hs)
      subst this
      show c.impossible = true
      rw [hr.imp]
      simp only [List.any_eq_true]
      exact ⟨f, hf, hi⟩
  | append_singleton ops o ih =>
    obtain ⟨gs, h1, h2, h3, h4, h5⟩ := ih
    obtain ⟨ks, k1, k2, k3, k4, k5⟩ := setStep h1 h2 h3 (by omega) (fun ha => h5.2 ⟨ops.length, Nat.le_refl _, gs, by
      simpa using h1, by simpa [Inverted] using ha⟩) o
    have he : afterSets c (ops ++ [o]) = (o.run (afterSets c ops)).2 := by simp [afterSets, List.foldl_append]
    refine ⟨ks, he ▸ k1, k2, k3, by omega, ?_⟩
    rw [he, k5, Bool.or_eq_true, h5]
    constructor
    · rintro (⟨k, hk, r⟩ | h)
      · exact ⟨k, by simp; omega, by rw [List.take_append_of_le_length hk]; exact r⟩
      · refine ⟨(ops ++ [o]).length, Nat.le_refl _, ks, by rw [List.take_length, he]; exact k1, ?_⟩
        simpa [Inverted] using h
    · rintro ⟨k, hk, ks', hs, f, hf, hi⟩
      by_cases hk' : k ≤ ops.length
      · left
        rw [List.take_append_of_le_length hk'] at hs
        exact ⟨k, hk', ks', hs, f, hf, hi⟩
      · right
        have : k = (ops ++ [o]).length := by simp at hk ⊢; omega
        rw [this, List.take_length, he] at hs
        have := Shows.unique k1 hs
        subst this
        simp only [List.any_eq_true]
        exact ⟨f, hf, hi⟩

/-! ## Filling an empty condition -/

/-- Each list is missing or is the one of the features `fs`. -/
structure Filling (fs : List Feature) (c : Cond) : Prop where
  names : c.names = none ∨ c.names = some (fs.map (·.name))
  indexes : c.indexes = none ∨ c.indexes = some (fs.map (·.index))
  bmins : c.bmins = none ∨ c.bmins = some (fs.map (·.lo))
  bmaxs : c.bmaxs = none ∨ c.bmaxs = some (fs.map (·.hi))
  imp : c.impossible = (c.bmins.isSome && c.bmaxs.isSome && fs.any fun f => f.hi.lt f.lo)

theorem Filling.length {fs : List Feature} {c : Cond} (h : Filling fs c) : ¬ (c.length > 0 ∧ c.length ≠ fs.length) := by
  unfold Cond.length
  obtain ⟨h1, h2, h3, h4, -⟩ := h
  rcases h1 with h1 | h1 <;> rcases h2 with h2 | h2 <;> rcases h3 with h3 | h3 <;> rcases h4 with h4 | h4 <;>
    simp [h1, h2, h3, h4]

theorem checkImpossible_run (c : Cond) : (checkImpossible c).2 =
    { c with impossible := c.impossible || (match c.bmins, c.bmaxs with | some lo, some hi => someInverted lo hi | _, _ => false) } := by
  simp only [checkImpossible, Py.bind_run, Py.get_run]
  cases h1 : c.bmins with
  | none => simp [need, ← h1]
  | some lo =>
    cases h2 : c.bmaxs with
    | none => simp [need, ← h1, ← h2]
    | some hi =>
      simp only [need, Py.ofExcept_run]
      cases h3 : someInverted lo hi <;> simp [← h1, ← h2]

theorem Filling.setNames {fs : List Feature} {c : Cond} (h : Filling fs c) (hn : (fs.map (·.name)).Nodup) :
    (setNames (.list (fs.map (·.name))) c).2 = { c with names := some (fs.map (·.name)) } := by
  have hl := h.length
  simp only [Cond.setNames, Py.bind_run, Py.ofExcept_run, Arg.value, hn, not_true_eq_false, if_false, List.length_map, hl, Py.get_run,
    Py.pure_run, Py.modify_run]

theorem Filling.setIndexes {fs : List Feature} {c : Cond} (h : Filling fs c) (hn : (fs.map (·.index)).Nodup) :
    (setIndexes (.list (fs.map (·.index))) c).2 = { c with indexes := some (fs.map (·.index)) } := by
  have hl := h.length
  simp only [Cond.setIndexes, Py.bind_run, Py.ofExcept_run, Arg.value, hn, not_true_eq_false, if_false, List.length_map, hl, Py.get_run,
    Py.pure_run, Py.modify_run]

theorem Filling.setBmins {fs : List Feature} {c : Cond} (h : Filling fs c) :
    (setBmins (.list (fs.map (·.lo))) c).2 = (checkImpossible { c with bmins := some (fs.map (·.lo)) }).2 := by
  have hl := h.length
  simp only [Cond.setBmins, Py.bind_run, Py.ofExcept_run, Arg.bounds, if_false, List.length_map, hl, Py.get_run,
    Py.pure_run, Py.modify_run]

theorem Filling.setBmaxs {fs : List Feature} {c : Cond} (h : Filling fs c) :
    (setBmaxs (.list (fs.map (·.hi))) c).2 = (checkImpossible { c with bmaxs := some (fs.map (·.hi)) }).2 := by
  have hl := h.length
  simp only [Cond.setBmaxs, Py.bind_run, Py.ofExcept_run, Arg.bounds, if_false, List.length_map, hl, Py.get_run,
    Py.pure_run, Py.modify_run]

/-- The four assignments which fill a condition -/
def filler (fs : List Feature) : Fin 4 → SetOp
  | 0 => .names (.list (fs.map (·.name)))
  | 1 => .indexes (.list (fs.map (·.index)))
  | 2 => .bmins (.list (fs.map (·.lo)))
  | 3 => .bmaxs (.list (fs.map (·.hi)))

theorem filler_injective (fs : List Feature) : Function.Injective (filler fs) := by
  let num : SetOp → Fin 4 := fun
    | .names _ => 0
    | .indexes _ => 1
    | .bmins _ => 2
    | .bmaxs _ => 3
  have h : ∀ k, num (filler fs k) = k := fun k => by match k with | 0 | 1 | 2 | 3 => rfl
  exact fun a b e => by rw [← h a, ← h b, e]

/-- Which lists there are -/
def present (c : Cond) : Fin 4 → Bool
  | 0 => c.names.isSome
  | 1 => c.indexes.isSome
  | 2 => c.bmins.isSome
  | 3 => c.bmaxs.isSome

theorem Filling.step {fs : List Feature} {c : Cond} (h : Filling fs c) (hn : (fs.map (·.name)).Nodup)
    (hi : (fs.map (·.index)).Nodup) (k : Fin 4) :
    Filling fs ((filler fs k).run c).2 ∧ ∀ j, present ((filler fs k).run c).2 j = (present c j || j == k) := by
  have key := h
  obtain ⟨h1, h2, h3, h4, h5⟩ := h
  match k with
  | 0 =>
    simp only [filler, SetOp.run, key.setNames hn]
    exact ⟨⟨.inr rfl, h2, h3, h4, h5⟩, fun j => by match j with | 0 | 1 | 2 | 3 => simp [present]⟩
  | 1 =>
    simp only [filler, SetOp.run, key.setIndexes hi]
    exact ⟨⟨h1, .inr rfl, h3, h4, h5⟩, fun j => by match j with | 0 | 1 | 2 | 3 => simp [present]⟩
  | 2 =>
    simp only [filler, SetOp.run, key.setBmins, checkImpossible_run]
    refine ⟨⟨h1, h2, .inr rfl, h4, ?_⟩, fun j => by match j with | 0 | 1 | 2 | 3 => simp [present]⟩
    rcases h3 with h3 | h3 <;> rcases h4 with h4 | h4 <;> simp [h3, h4, h5, someInverted_map]
  | 3 =>
    simp only [filler, SetOp.run, key.setBmaxs, checkImpossible_run]
    refine ⟨⟨h1, h2, h3, .inr rfl, ?_⟩, fun j => by match j with | 0 | 1 | 2 | 3 => simp [present]⟩
    rcases h3 with h3 | h3 <;> rcases h4 with h4 | h4 <;> simp [h3, h4, h5, someInverted_map]

theorem Filling.run {fs : List Feature} (hn : (fs.map (·.name)).Nodup) (hi : (fs.map (·.index)).Nodup) (ks : List (Fin 4)) :
    ∀ {c : Cond}, Filling fs c →
      Filling fs (afterSets c (ks.map (filler fs))) ∧ ∀ j, present (afterSets c (ks.map (filler fs))) j = (present c j || decide (j ∈ ks)) := by
  induction ks with
  | nil => intro c h; exact ⟨h, fun j => by simp [afterSets]⟩
  | cons k t ih =>
    intro c h
    obtain ⟨h1, h2⟩ := h.step hn hi k
    obtain ⟨h3, h4⟩ := ih h1
    refine ⟨h3, fun j => (h4 j).trans ?_⟩
    rw [h2 j, Bool.or_assoc]
    congr 1
    by_cases e : j = k <;> simp [e]

end Cond

end Verif
