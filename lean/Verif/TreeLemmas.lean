import Verif.TreeSpec
import Verif.ConditionBox
import Verif.RuleSetLemmas
import Verif.CodecLemmas

/-!
# Lemmas about the rules of a decision tree
-/

namespace Verif

namespace Tree

open Spec Cond

theorem single_regular {by_ : String} (hb : by_ = "index" ∨ by_ = "name") (f : Int) (lo hi : Num) (name : String) :
    ∃ c, single by_ f lo hi name = .ok c ∧ Regular c [⟨name, f, lo, hi⟩] := by
  obtain ⟨c, hc⟩ := initFeat_ok (fs := [⟨name, f, lo, hi⟩]) (s := true) hb (by simp) (by simp)
  refine ⟨c, ?_, ?_⟩
  · have := initTyped_features by_ [⟨name, f, lo, hi⟩]
    rw [hc] at this
    exact this
  · have := (initFeat_regular hc).1
    rwa [if_pos rfl, sortF_short by_ (by simp)] at this

/-- `condition & new_condition` for a feature which the condition does not mention -/
theorem and_new {by_ : String} (hb : by_ = "index" ∨ by_ = "name") {c new : Cond} {fs : List Feature} {g : Feature}
    (hs : Shows c fs) (hn : (fs.map (·.name)).Nodup) (hi : (fs.map (·.index)).Nodup) (hg : Regular new [g])
    (h1 : ∀ f ∈ fs, f.name ≠ g.name) (h2 : ∀ f ∈ fs, f.index ≠ g.index) :
    ∃ d gs, Cond.and by_ c new = .ok d ∧ Regular d gs ∧ gs.Perm (g :: fs) := by
  have e : Cond.and by_ c new = Cond.and by_ { c with impossible := fs.any fun f => f.hi.lt f.lo } new := rfl
  rcases and_regular hb (a := { c with impossible := fs.any fun f => f.hi.lt f.lo }) (as := fs) ⟨hs, hn, hi, rfl⟩ hg with
    ⟨⟨f, hf, g', hg', h⟩, -⟩ | ⟨-, d, rest, hd, hrest, hr⟩
  · rw [List.mem_singleton] at hg'
    subst hg'
    rcases h with ⟨h, -⟩ | ⟨-, h⟩
    · exact absurd h (h1 f hf)
    · exact absurd h (h2 f hf)
  · refine ⟨d, _, by rw [e, hd], hr, ?_⟩
    have ho : others fs [g] = [g] := by
      unfold others
      rw [List.filter_cons_of_pos]
      · rfl
      · rw [decide_eq_true_eq, List.mem_map]
        rintro ⟨f, hf, e⟩
        exact h1 f hf e
    have hm : merged (sortF by_ fs) [g] = sortF by_ fs := by
      unfold merged
      conv_rhs => rw [← List.map_id (sortF by_ fs)]
      apply List.map_congr_left
      intro f hf
      rw [if_neg]
      · rfl
      · intro hmem
        simp only [List.map_cons, List.map_nil, List.mem_singleton] at hmem
        exact h1 f ((sortF_perm by_ fs).mem_iff.1 hf) hmem
    rw [ho] at hrest
    rw [hm]
    refine (sortF_perm by_ _).trans ?_
    refine ((sortF_perm by_ fs).append hrest).trans ?_
    exact List.perm_append_comm

theorem index_get {fs : List Feature} (hn : (fs.map (·.index)).Nodup) {f : Feature} (hf : f ∈ fs) :
    fs[(fs.map (·.index)).idxOf f.index]? = some f := by
  obtain ⟨i, hi, rfl⟩ := List.getElem_of_mem hf
  have h1 : (fs.map (·.index)).idxOf ((fs.map (·.index))[i]'(by simpa using hi)) = i :=
    hn.idxOf_getElem i (by simpa using hi)
  simp only [List.getElem_map] at h1
  rw [h1]
  simp

theorem item_index {α} {fs : List Feature} (hn : (fs.map (·.index)).Nodup) {f : Feature} (hf : f ∈ fs) (g : Feature → α) :
    item (fs.map g) ((fs.map (·.index)).idxOf f.index) = .ok (g f) := by
  simp [item, index_get hn hf]

theorem set_index {α} {fs : List Feature} (hn : (fs.map (·.index)).Nodup) {f : Feature} (hf : f ∈ fs) (g : Feature → α)
    (v : α) : (fs.map g).set ((fs.map (·.index)).idxOf f.index) v = fs.map fun x => if x.index = f.index then v else g x := by
  apply List.ext_getElem?
  intro i
  rw [List.getElem?_set]
  by_cases h : (fs.map (·.index)).idxOf f.index = i
  · have h1 := index_get hn hf
    have h2 : i < fs.length := by
      rw [h] at h1
      exact (List.getElem?_eq_some_iff.1 h1).1
    rw [h] at h1
    have h3 : fs[i] = f := (List.getElem?_eq_some_iff.1 h1).2
    simp [h, h2, h3]
  · simp only [h, if_false, List.getElem?_map]
    cases h1 : fs[i]? with
    | none => rfl
    | some x =>
      have : x.index ≠ f.index := by
        intro e
        apply h
        obtain ⟨hi, rfl⟩ := List.getElem?_eq_some_iff.1 h1
        have h2 := hn.idxOf_getElem i (by simpa using hi)
        simp only [List.getElem_map] at h2
        rw [← e, h2]
      simp [this]

/-! ## Bounds -/

theorem atLeast_max {a b : Num} (ha : a ≠ .nan) (hb : b ≠ .nan) (q : Rat) : AtLeast (Num.max a b) q ↔ AtLeast a q ∧ AtLeast b q := by
  cases a <;> cases b <;> simp_all [Num.max, Num.lt, Num.le, AtLeast]
  rename_i a b
  split_ifs with h <;> simp only [AtLeast]
  · constructor
    · intro hq; exact ⟨le_trans h.1 hq, hq⟩
    · exact fun h => h.2
  · constructor
    · intro hq
      refine ⟨hq, ?_⟩
      by_contra hc
      push Not at hc h
      exact absurd (h (le_of_lt (lt_of_le_of_lt hq hc))) (not_le.2 (lt_of_le_of_lt hq hc))
    · exact fun h => h.1

theorem atMost_min {a b : Num} (ha : a ≠ .nan) (hb : b ≠ .nan) (q : Rat) : AtMost (Num.min a b) q ↔ AtMost a q ∧ AtMost b q := by
  cases a <;> cases b <;> simp_all [Num.min, Num.lt, Num.le, AtMost]
  rename_i a b
  split_ifs with h <;> simp only [AtMost]
  · constructor
    · intro hq; exact ⟨le_trans hq h.1, hq⟩
    · exact fun h => h.2
  · constructor
    · intro hq
      refine ⟨hq, ?_⟩
      by_contra hc
      push Not at hc h
      exact absurd (h (le_of_lt (lt_of_lt_of_le hc hq))) (not_le.2 (lt_of_lt_of_le hc hq))
    · exact fun h => h.1

/-- A greater upper bound admits more. -/
theorem atMost_max {a b : Num} (ha : a ≠ .nan) {q : Rat} (h : AtMost b q) : AtMost (Num.max a b) q := by
  cases a <;> cases b <;> simp_all [Num.max, Num.lt, Num.le, AtMost]
  rename_i a b
  split_ifs with h'
  · exact h
  · push Not at h'
    rcases le_total a b with h1 | h1
    · exact le_trans h (h' h1)
    · exact le_trans h h1

theorem atMost_of_max {a b : Num} {q : Rat} (h : AtMost (Num.max a b) q) : AtMost a q ∨ AtMost b q := by
  unfold Num.max at h
  split at h
  · exact .inr h
  · exact .inl h

theorem atLeast_trans {a : Num} {p q : Rat} (h : AtLeast a p) (hq : p ≤ q) : AtLeast a q := by
  cases a <;> simp_all [AtLeast]
  exact le_trans h hq

theorem atMost_trans {a : Num} {p q : Rat} (h : AtMost a p) (hq : q ≤ p) : AtMost a q := by
  cases a <;> simp_all [AtMost]
  exact le_trans hq h

theorem max_ne_nan {a b : Num} (ha : a ≠ .nan) (hb : b ≠ .nan) : Num.max a b ≠ .nan := by
  unfold Num.max; split <;> assumption

theorem min_ne_nan {a b : Num} (ha : a ≠ .nan) (hb : b ≠ .nan) : Num.min a b ≠ .nan := by
  unfold Num.min; split <;> assumption

/-! ## The condition of a node -/

/-- What the condition `c` of a node, with features `fs`, has to do with the way `p` to this node -/
structure Inv (I : Input) (names : List String) (p : List Turn) (c : Cond) (fs : List Feature) : Prop where
  shows : Shows c fs
  idx : (fs.map (·.index)).Nodup
  named : ∀ f ∈ fs, ∃ k : Nat, f.index = k ∧ names[k]? = some f.name
  feats : ∀ k : Nat, (∃ f ∈ fs, f.index = k) ↔ ∃ t ∈ p, t.feature = k
  nums : NoNaN fs
  covers : ∀ x, InsideBounds I.xmins I.xmaxs x → (∀ t ∈ p, t.Admits x) →
    c.impossible = false ∧ ∀ f ∈ fs, Within f.lo f.hi (x f.index.toNat)
  lower : ∀ f ∈ fs, ∀ u ∈ p, f.index = u.feature → u.right = true → ∀ q, AtLeast f.lo q → u.threshold ≤ q
  upper : ∀ f ∈ fs, ∀ p1 u p2, p = p1 ++ u :: p2 → f.index = u.feature → u.right = false → u.Kept p2 →
    ∀ q, AtMost f.hi q → q ≤ u.threshold
  bounded : (∀ u ∈ p, u.Inside I.xmins I.xmaxs) → ∀ f ∈ fs, ∀ xl xh, I.xmins[f.index.toNat]? = some xl →
    I.xmaxs[f.index.toNat]? = some xh → ∀ q, (AtLeast f.lo q → AtLeast xl q) ∧ (AtMost f.hi q → AtMost xh q)

theorem Inv.names_nodup {I : Input} {names : List String} {p : List Turn} {c : Cond} {fs : List Feature} (h : Inv I names p c fs)
    (hn : names.Nodup) : (fs.map (·.name)).Nodup := by
  refine List.Nodup.map_on ?_ (List.Nodup.of_map _ h.idx)
  intro f hf g hg e
  obtain ⟨k, hk, hk'⟩ := h.named f hf
  obtain ⟨l, hl, hl'⟩ := h.named g hg
  refine eq_of_index h.idx hf hg ?_
  rw [hk, hl]
  obtain ⟨h1, h1'⟩ := List.getElem?_eq_some_iff.1 hk'
  obtain ⟨h2, h2'⟩ := List.getElem?_eq_some_iff.1 hl'
  have := (hn.getElem_inj_iff (hi := h1) (hj := h2)).1 (by rw [h1', h2', e])
  rw [this]

/-- At the root -/
theorem Inv.root (I : Input) (names : List String) :
    Inv I names [] { indexes := some [], bmins := some [], bmaxs := some [], names := some [], impossible := false } [] where
  shows := ⟨rfl, rfl, rfl, rfl⟩
  idx := by simp
  named := by simp
  feats := by simp
  nums := by intro f hf; cases hf
  covers := by simp
  lower := by simp
  upper := by simp
  bounded := by simp

theorem split_append {p p1 p2 : List Turn} {t u : Turn} (h : p ++ [t] = p1 ++ u :: p2) :
    (p = p1 ∧ t = u ∧ p2 = []) ∨ ∃ p3, p2 = p3 ++ [t] ∧ p = p1 ++ u :: p3 := by
  rcases List.eq_nil_or_concat p2 with rfl | ⟨p3, v, rfl⟩
  · left
    obtain ⟨h1, h2⟩ := List.append_inj' h rfl
    exact ⟨h1, by simpa using h2, rfl⟩
  · right
    rw [List.concat_eq_append, ← List.cons_append, ← List.append_assoc] at h
    obtain ⟨h1, h2⟩ := List.append_inj' h rfl
    have : t = v := by simpa using h2
    subst this
    exact ⟨p3, by rw [List.concat_eq_append], h1⟩

theorem kept_of_append {u t : Turn} {p : List Turn} (h : u.Kept (p ++ [t])) : u.Kept p := by
  rcases h with h | h
  · exact .inl h
  · exact .inr fun v hv => h v (List.mem_append_left _ hv)

theorem Inv.new {I : Input} {names : List String} {p : List Turn} {c d : Cond} {fs gs : List Feature} {t : Turn} {name : String}
    {lo hi : Num} (h : Inv I names p c fs) (hnew : ∀ u ∈ p, u.feature ≠ t.feature) (hname : names[t.feature]? = some name)
    (hd : Regular d gs) (hp : gs.Perm (⟨name, t.feature, lo, hi⟩ :: fs)) (hlo : lo ≠ .nan) (hhi : hi ≠ .nan)
    (hcov : ∀ x, InsideBounds I.xmins I.xmaxs x → t.Admits x → Within lo hi (x t.feature))
    (hlow : t.right = true → ∀ q, AtLeast lo q → t.threshold ≤ q) (hup : t.right = false → ∀ q, AtMost hi q → q ≤ t.threshold)
    (hbd : ∀ xl xh, I.xmins[t.feature]? = some xl → I.xmaxs[t.feature]? = some xh → AtLeast xl t.threshold → AtMost xh t.threshold →
      ∀ q, (AtLeast lo q → AtLeast xl q) ∧ (AtMost hi q → AtMost xh q)) :
    Inv I names (p ++ [t]) d gs := by
  have hmem : ∀ f, f ∈ gs ↔ f = ⟨name, t.feature, lo, hi⟩ ∨ f ∈ fs := fun f => by rw [hp.mem_iff, List.mem_cons]
  have hold : ∀ f ∈ fs, ∃ u ∈ p, f.index = u.feature := fun f hf => by
    obtain ⟨k, hk, -⟩ := h.named f hf
    obtain ⟨u, hu, e⟩ := (h.feats k).1 ⟨f, hf, hk⟩
    exact ⟨u, hu, by rw [hk, e]⟩
  refine ⟨hd.shows, hd.idx_nodup, ?_, ?_, ?_, ?_, ?_, ?_, ?_⟩
  · intro f hf
    rcases (hmem f).1 hf with rfl | hf
    · exact ⟨_, rfl, hname⟩
    · exact h.named f hf
  · intro k
    constructor
    · rintro ⟨f, hf, e⟩
      rcases (hmem f).1 hf with rfl | hf
      · exact ⟨t, by simp, Int.ofNat.inj e⟩
      · obtain ⟨u, hu, e'⟩ := (h.feats k).1 ⟨f, hf, e⟩
        exact ⟨u, by simp [hu], e'⟩
    · rintro ⟨u, hu, e⟩
      rcases List.mem_append.1 hu with hu | hu
      · obtain ⟨f, hf, e'⟩ := (h.feats k).2 ⟨u, hu, e⟩
        exact ⟨f, (hmem f).2 (.inr hf), e'⟩
      · rw [List.mem_singleton] at hu
        subst hu
        exact ⟨_, (hmem _).2 (.inl rfl), by rw [e]⟩
  · intro f hf
    rcases (hmem f).1 hf with rfl | hf
    · exact ⟨hlo, hhi⟩
    · exact h.nums f hf
  · intro x hx ha
    have h1 : ∀ f ∈ gs, Within f.lo f.hi (x f.index.toNat) := by
      intro f hf
      rcases (hmem f).1 hf with rfl | hf
      · exact hcov x hx (ha t (by simp))
      · exact (h.covers x hx fun u hu => ha u (by simp [hu])).2 f hf
    refine ⟨?_, h1⟩
    cases hi : d.impossible with
    | false => rfl
    | true =>
      obtain ⟨f, hf, hlt⟩ := hd.imp' hi
      exact absurd (h1 f hf) (inverted_fails hlt _)
  · intro f hf u hu e hr q hq
    rcases (hmem f).1 hf with rfl | hf
    · rcases List.mem_append.1 hu with hu | hu
      · exact absurd (Int.ofNat.inj e.symm) (hnew u hu)
      · rw [List.mem_singleton] at hu
        subst hu
        exact hlow hr q hq
    · rcases List.mem_append.1 hu with hu | hu
      · exact h.lower f hf u hu e hr q hq
      · rw [List.mem_singleton] at hu
        subst hu
        obtain ⟨v, hv, e'⟩ := hold f hf
        exact absurd (by rw [e'] at e; exact_mod_cast e) (hnew v hv)
  · intro f hf p1 u p2 hsplit e hr hk q hq
    rcases split_append hsplit with ⟨rfl, rfl, rfl⟩ | ⟨p3, rfl, rfl⟩
    · rcases (hmem f).1 hf with rfl | hf
      · exact hup hr q hq
      · obtain ⟨v, hv, e'⟩ := hold f hf
        exact absurd (by rw [e'] at e; exact_mod_cast e) (hnew v hv)
    · rcases (hmem f).1 hf with rfl | hf
      · exact absurd (Int.ofNat.inj e.symm) (hnew u (by simp))
      · exact h.upper f hf p1 u p3 rfl e hr (kept_of_append hk) q hq
  · intro hin f hf xl xh e1 e2
    rcases (hmem f).1 hf with rfl | hf
    · simp only [Int.toNat_natCast] at e1 e2
      exact hbd xl xh e1 e2 (hin t (by simp) xl xh e1 e2).1 (hin t (by simp) xl xh e1 e2).2
    · exact h.bounded (fun u hu => hin u (by simp [hu])) f hf xl xh e1 e2

theorem Inv.old {I : Input} {names : List String} {p : List Turn} {c d : Cond} {fs : List Feature} {t : Turn} {f0 : Feature}
    {lo hi : Num} (h : Inv I names p c fs) (hf0 : f0 ∈ fs) (ht : f0.index = t.feature)
    (hd : Shows d (fs.map fun f => if f.index = f0.index then { f with lo := lo, hi := hi } else f)) (himp : d.impossible = c.impossible)
    (hlo : lo ≠ .nan) (hhi : hi ≠ .nan)
    (hcov : ∀ x, InsideBounds I.xmins I.xmaxs x → t.Admits x → Within f0.lo f0.hi (x t.feature) → Within lo hi (x t.feature))
    (hlow : ∀ q, AtLeast lo q → AtLeast f0.lo q ∧ (t.right = true → t.threshold ≤ q))
    (hup : t.right = false → ∀ q, AtMost hi q → AtMost f0.hi q ∧ q ≤ t.threshold)
    (hbd : ∀ xl xh, I.xmins[t.feature]? = some xl → I.xmaxs[t.feature]? = some xh → AtLeast xl t.threshold → AtMost xh t.threshold →
      (∀ q, (AtLeast f0.lo q → AtLeast xl q) ∧ (AtMost f0.hi q → AtMost xh q)) →
      ∀ q, (AtLeast lo q → AtLeast xl q) ∧ (AtMost hi q → AtMost xh q)) :
    Inv I names (p ++ [t]) d (fs.map fun f => if f.index = f0.index then { f with lo := lo, hi := hi } else f) := by
  have hidx : (fs.map fun f => if f.index = f0.index then { f with lo := lo, hi := hi } else f).map (·.index) = fs.map (·.index) := by
    rw [List.map_map]
    apply List.map_congr_left
    intro f _
    simp only [Function.comp_apply]
    split <;> rfl
  have hmem : ∀ f, f ∈ (fs.map fun f => if f.index = f0.index then { f with lo := lo, hi := hi } else f) →
      (f = { f0 with lo := lo, hi := hi }) ∨ (f ∈ fs ∧ f.index ≠ f0.index) := by
    intro f hf
    obtain ⟨g, hg, rfl⟩ := List.mem_map.1 hf
    by_cases e : g.index = f0.index
    · left
      rw [if_pos e, eq_of_index h.idx hg hf0 e]
    · right
      rw [if_neg e]
      exact ⟨hg, e⟩
  refine ⟨hd, by rw [hidx]; exact h.idx, ?_, ?_, ?_, ?_, ?_, ?_, ?_⟩
  · intro f hf
    rcases hmem f hf with rfl | ⟨hf, -⟩
    · exact h.named f0 hf0
    · exact h.named f hf
  · intro k
    have : (∃ f ∈ (fs.map fun f => if f.index = f0.index then { f with lo := lo, hi := hi } else f), f.index = (k : Int)) ↔
        ∃ f ∈ fs, f.index = (k : Int) := by
      have := congrArg (fun l => (k : Int) ∈ l) hidx
      simpa only [List.mem_map (f := fun f : Feature => f.index), eq_iff_iff] using this
    rw [this, h.feats]
    constructor
    · rintro ⟨u, hu, e⟩
      exact ⟨u, by simp [hu], e⟩
    · rintro ⟨u, hu, e⟩
      rcases List.mem_append.1 hu with hu | hu
      · exact ⟨u, hu, e⟩
      · rw [List.mem_singleton] at hu
        subst hu
        exact (h.feats k).1 ⟨f0, hf0, by rw [ht, e]⟩
  · intro f hf
    rcases hmem f hf with rfl | ⟨hf, -⟩
    · exact ⟨hlo, hhi⟩
    · exact h.nums f hf
  · intro x hx ha
    obtain ⟨h1, h2⟩ := h.covers x hx fun u hu => ha u (by simp [hu])
    refine ⟨by rw [himp, h1], ?_⟩
    intro f hf
    rcases hmem f hf with rfl | ⟨hf, -⟩
    · have := h2 f0 hf0
      simp only [ht, Int.toNat_natCast] at this ⊢
      exact hcov x hx (ha t (by simp)) this
    · exact h2 f hf
  · intro f hf u hu e hr q hq
    rcases hmem f hf with rfl | ⟨hf, hne⟩
    · rcases List.mem_append.1 hu with hu | hu
      · exact h.lower f0 hf0 u hu e hr q (hlow q hq).1
      · rw [List.mem_singleton] at hu
        subst hu
        exact (hlow q hq).2 hr
    · rcases List.mem_append.1 hu with hu | hu
      · exact h.lower f hf u hu e hr q hq
      · rw [List.mem_singleton] at hu
        subst hu
        exact absurd (e.trans ht.symm) hne
  · intro f hf p1 u p2 hsplit e hr hk q hq
    rcases split_append hsplit with ⟨rfl, rfl, rfl⟩ | ⟨p3, rfl, rfl⟩
    · rcases hmem f hf with rfl | ⟨hf, hne⟩
      · exact (hup hr q hq).2
      · exact absurd (e.trans ht.symm) hne
    · rcases hmem f hf with rfl | ⟨hf, hne⟩
      · have htr : t.right = false := by
          rcases hk with hk | hk
          · rw [hr] at hk; cases hk
          · exact hk t (by simp) (by rw [ht] at e; exact_mod_cast e)
        exact h.upper f0 hf0 p1 u p3 rfl e hr (kept_of_append hk) q (hup htr q hq).1
      · exact h.upper f hf p1 u p3 rfl e hr (kept_of_append hk) q hq
  · intro hin f hf xl xh e1 e2
    rcases hmem f hf with rfl | ⟨hf, -⟩
    · have h0 := h.bounded (fun u hu => hin u (by simp [hu])) f0 hf0 xl xh e1 e2
      simp only [ht, Int.toNat_natCast] at e1 e2
      exact hbd xl xh e1 e2 (hin t (by simp) xl xh e1 e2).1 (hin t (by simp) xl xh e1 e2).2 h0
    · exact h.bounded (fun u hu => hin u (by simp [hu])) f hf xl xh e1 e2

/-- Where the visitor is: at the root without condition, or below it with the condition of the way to the node -/
def At (I : Input) (names : List String) (p : List Turn) (cond : Option Cond) : Prop :=
  (cond = none ∧ p = []) ∨ ∃ c fs, cond = some c ∧ Inv I names p c fs

theorem leftCond_ok {I : Input} {names : List String} {p : List Turn} {cond : Option Cond} {f : Nat} {a : Rat} {xmin xmax : Num}
    {name : String} {by_ : String} (hb : by_ = "index" ∨ by_ = "name") (hn : names.Nodup) (h : At I names p cond)
    (hname : names[f]? = some name) (h1 : I.xmins[f]? = some xmin) (h2 : I.xmaxs[f]? = some xmax) (hmin : xmin ≠ .nan) :
    ∃ d gs, leftCond by_ cond f xmin (.fin a) name = .ok d ∧ Inv I names (p ++ [⟨f, a, false⟩]) d gs := by
  obtain ⟨new, hnew, hreg⟩ := single_regular hb f xmin (.fin a) name
  have hcov : ∀ x, InsideBounds I.xmins I.xmaxs x → Turn.Admits ⟨f, a, false⟩ x → Within xmin (.fin a) (x f) := by
    rintro x hx ⟨q, e, hq⟩
    obtain ⟨q', e', h3, -⟩ := hx f xmin xmax h1 h2
    rw [e] at e'
    cases e'
    exact ⟨q, e, h3, hq⟩
  have hbd : ∀ xl xh, I.xmins[f]? = some xl → I.xmaxs[f]? = some xh → AtLeast xl a → AtMost xh a →
      ∀ q, (AtLeast xmin q → AtLeast xl q) ∧ (AtMost (.fin a) q → AtMost xh q) := by
    intro xl xh e1 _ _ h4 q
    rw [h1] at e1
    cases e1
    exact ⟨id, fun hq => atMost_trans h4 hq⟩
  unfold leftCond
  rw [hnew]
  simp only [bind, Except.bind]
  rcases h with ⟨rfl, rfl⟩ | ⟨c, fs, rfl, hI⟩
  · exact ⟨_, _, rfl, Inv.new (Inv.root I names) (by simp) hname hreg (.refl _) hmin (by simp) hcov (fun e => by cases e)
      (fun _ q hq => hq) hbd⟩
  · simp only [hI.shows.2.1, need]
    by_cases hmem : (f : Int) ∉ fs.map (·.index)
    · rw [if_pos hmem]
      have hno : ∀ u ∈ p, u.feature ≠ f := by
        intro u hu e
        obtain ⟨g, hg, e'⟩ := (hI.feats f).2 ⟨u, hu, e⟩
        exact hmem (List.mem_map.2 ⟨g, hg, e'⟩)
      obtain ⟨d, gs, hd, hr, hp⟩ := and_new hb hI.shows (hI.names_nodup hn) hI.idx hreg
        (by
          intro g hg e
          obtain ⟨k, hk, hk'⟩ := hI.named g hg
          obtain ⟨i1, e1⟩ := List.getElem?_eq_some_iff.1 hk'
          obtain ⟨i2, e2⟩ := List.getElem?_eq_some_iff.1 hname
          have := (hn.getElem_inj_iff (hi := i1) (hj := i2)).1 (by rw [e1, e2]; exact e)
          exact hmem (List.mem_map.2 ⟨g, hg, by rw [hk, this]⟩))
        (by
          intro g hg e
          exact hmem (List.mem_map.2 ⟨g, hg, e⟩))
      exact ⟨d, gs, hd, hI.new hno hname hr hp hmin (by simp) hcov (fun e => by cases e) (fun _ q hq => hq) hbd⟩
    · rw [if_neg hmem]
      rw [not_not] at hmem
      obtain ⟨f0, hf0, e0⟩ := List.mem_map.1 hmem
      simp only [hI.shows.2.2.2]
      rw [← e0, item_index hI.idx hf0]
      simp only []
      rw [set_index hI.idx hf0]
      refine ⟨_, _, rfl, Inv.old (lo := f0.lo) (hi := Num.min (.fin a) f0.hi) hI hf0 e0 ?_ rfl (hI.nums f0 hf0).1
        (min_ne_nan (by simp) (hI.nums f0 hf0).2) ?_ (fun q hq => ⟨hq, fun e => by cases e⟩) ?_ ?_⟩
      · refine ⟨?_, ?_, ?_, ?_⟩
        · rw [hI.shows.1, List.map_map]
          congr 1
          apply List.map_congr_left
          intro g _
          simp only [Function.comp_apply]; split <;> rfl
        · simp only [hI.shows.2.1, List.map_map]
          congr 1
          apply List.map_congr_left
          intro g _
          simp only [Function.comp_apply]; split <;> rfl
        · simp only [hI.shows.2.2.1, List.map_map]
          congr 1
          apply List.map_congr_left
          intro g hg
          simp only [Function.comp_apply]; split
          · rename_i e
            rw [eq_of_index hI.idx hg hf0 e]
          · rfl
        · simp only [List.map_map]
          congr 1
          apply List.map_congr_left
          intro g _
          simp only [Function.comp_apply]; split <;> rfl
      · rintro x hx ⟨q, e, hq⟩ ⟨q', e', h3, h4⟩
        rw [e] at e'
        cases e'
        exact ⟨q, e, h3, (atMost_min (by simp) (hI.nums f0 hf0).2 q).2 ⟨hq, h4⟩⟩
      · intro _ q hq
        obtain ⟨h3, h4⟩ := (atMost_min (by simp) (hI.nums f0 hf0).2 q).1 hq
        exact ⟨h4, h3⟩
      · intro xl xh _ _ _ _ h5 q
        exact ⟨(h5 q).1, fun hq => (h5 q).2 ((atMost_min (by simp) (hI.nums f0 hf0).2 q).1 hq).2⟩

theorem rightCond_ok {I : Input} {names : List String} {p : List Turn} {cond : Option Cond} {f : Nat} {a : Rat} {xmin xmax : Num}
    {name : String} {by_ : String} (hb : by_ = "index" ∨ by_ = "name") (hn : names.Nodup) (h : At I names p cond)
    (hname : names[f]? = some name) (h1 : I.xmins[f]? = some xmin) (h2 : I.xmaxs[f]? = some xmax) (hmax : xmax ≠ .nan) :
    ∃ d gs, rightCond by_ cond f xmax (.fin a) name = .ok d ∧ Inv I names (p ++ [⟨f, a, true⟩]) d gs := by
  obtain ⟨new, hnew, hreg⟩ := single_regular hb f (.fin a) xmax name
  have hcov : ∀ x, InsideBounds I.xmins I.xmaxs x → Turn.Admits ⟨f, a, true⟩ x → Within (.fin a) xmax (x f) := by
    rintro x hx ⟨q, e, hq⟩
    obtain ⟨q', e', -, h3⟩ := hx f xmin xmax h1 h2
    rw [e] at e'
    cases e'
    exact ⟨q, e, hq, h3⟩
  have hbd : ∀ xl xh, I.xmins[f]? = some xl → I.xmaxs[f]? = some xh → AtLeast xl a → AtMost xh a →
      ∀ q, (AtLeast (.fin a) q → AtLeast xl q) ∧ (AtMost xmax q → AtMost xh q) := by
    intro xl xh _ e2 h3 _ q
    rw [h2] at e2
    cases e2
    exact ⟨fun hq => atLeast_trans h3 hq, id⟩
  unfold rightCond
  rw [hnew]
  simp only [bind, Except.bind]
  rcases h with ⟨rfl, rfl⟩ | ⟨c, fs, rfl, hI⟩
  · exact ⟨_, _, rfl, Inv.new (Inv.root I names) (by simp) hname hreg (.refl _) (by simp) hmax hcov (fun _ q hq => hq)
      (fun e => by cases e) hbd⟩
  · simp only [hI.shows.2.1, need]
    by_cases hmem : (f : Int) ∉ fs.map (·.index)
    · rw [if_pos hmem]
      have hno : ∀ u ∈ p, u.feature ≠ f := by
        intro u hu e
        obtain ⟨g, hg, e'⟩ := (hI.feats f).2 ⟨u, hu, e⟩
        exact hmem (List.mem_map.2 ⟨g, hg, e'⟩)
      obtain ⟨d, gs, hd, hr, hp⟩ := and_new hb hI.shows (hI.names_nodup hn) hI.idx hreg
        (by
          intro g hg e
          obtain ⟨k, hk, hk'⟩ := hI.named g hg
          obtain ⟨i1, e1⟩ := List.getElem?_eq_some_iff.1 hk'
          obtain ⟨i2, e2⟩ := List.getElem?_eq_some_iff.1 hname
          have := (hn.getElem_inj_iff (hi := i1) (hj := i2)).1 (by rw [e1, e2]; exact e)
          exact hmem (List.mem_map.2 ⟨g, hg, by rw [hk, this]⟩))
        (by
          intro g hg e
          exact hmem (List.mem_map.2 ⟨g, hg, e⟩))
      exact ⟨d, gs, hd, hI.new hno hname hr hp (by simp) hmax hcov (fun _ q hq => hq) (fun e => by cases e) hbd⟩
    · rw [if_neg hmem]
      rw [not_not] at hmem
      obtain ⟨f0, hf0, e0⟩ := List.mem_map.1 hmem
      simp only [hI.shows.2.2.2, hI.shows.2.2.1]
      rw [← e0, item_index hI.idx hf0]
      simp only []
      rw [item_index hI.idx hf0]
      simp only []
      rw [set_index hI.idx hf0, set_index hI.idx hf0]
      refine ⟨_, _, rfl, Inv.old (lo := Num.max (.fin a) f0.lo) (hi := Num.max xmax f0.hi) hI hf0 e0 ?_ rfl
        (max_ne_nan (by simp) (hI.nums f0 hf0).1) (max_ne_nan hmax (hI.nums f0 hf0).2) ?_ ?_ (fun e => by cases e) ?_⟩
      · refine ⟨?_, ?_, ?_, ?_⟩
        · rw [hI.shows.1, List.map_map]
          congr 1
          apply List.map_congr_left
          intro g _
          simp only [Function.comp_apply]; split <;> rfl
        · simp only [hI.shows.2.1, List.map_map]
          congr 1
          apply List.map_congr_left
          intro g _
          simp only [Function.comp_apply]; split <;> rfl
        · simp only [List.map_map]
          congr 1
          apply List.map_congr_left
          intro g hg
          simp only [Function.comp_apply]; split <;> rfl
        · simp only [List.map_map]
          congr 1
          apply List.map_congr_left
          intro g _
          simp only [Function.comp_apply]; split <;> rfl
      · rintro x hx ⟨q, e, hq⟩ ⟨q', e', h3, h4⟩
        rw [e] at e'
        cases e'
        exact ⟨q, e, (atLeast_max (by simp) (hI.nums f0 hf0).1 q).2 ⟨hq, h3⟩, atMost_max hmax h4⟩
      · intro q hq
        obtain ⟨h3, h4⟩ := (atLeast_max (by simp) (hI.nums f0 hf0).1 q).1 hq
        exact ⟨h4, fun _ => h3⟩
      · intro xl xh _ e2 _ _ h5 q
        have e2' : I.xmaxs[f]? = some xh := e2
        rw [h2] at e2'
        cases e2'
        refine ⟨fun hq => (h5 q).1 ((atLeast_max (by simp) (hI.nums f0 hf0).1 q).1 hq).2, fun hq => ?_⟩
        rcases atMost_of_max hq with hq | hq
        · exact hq
        · exact (h5 q).2 hq

/-! ## The rules of the nodes -/

/-- The ruleset `s'` is `s` with new rules which have no activation. -/
structure Grown (k : Kind) (s : RuleSet) (new : List Member) (s' : RuleSet) : Prop where
  rules : s'.rules = s.rules ++ new
  kind : s'.ruleType = none ∨ s'.ruleType = some k
  act : s'.act = s.act
  stacked : s'.stacked = s.stacked
  stack : s'.stack = s.stack
  keeps : s.ruleType = some k → s'.ruleType = some k
  typed : new ≠ [] → s'.ruleType = some k

theorem Grown.refl {k : Kind} {s : RuleSet} (h : s.ruleType = none ∨ s.ruleType = some k) : Grown k s [] s :=
  ⟨by simp, h, rfl, rfl, rfl, id, fun h => absurd rfl h⟩

theorem Grown.trans {k : Kind} {s t u : RuleSet} {a b : List Member} (h : Grown k s a t) (h' : Grown k t b u) : Grown k s (a ++ b) u :=
  ⟨by rw [h'.rules, h.rules, List.append_assoc], h'.kind, h'.act.trans h.act, h'.stacked.trans h.stacked, h'.stack.trans h.stack,
    h'.keeps ∘ h.keeps, fun hab => by
      by_cases hb : b = []
      · exact h'.keeps (h.typed fun ha => hab (by rw [ha, hb, List.append_nil]))
      · exact h'.typed hb⟩

theorem append_grown {R : RsEnv} {m : Member} {s : RuleSet} {fs : List Feature} (hk : s.ruleType = none ∨ s.ruleType = some m.kind)
    (hs : Shows m.rule.cond fs) (ha : m.rule.act = none) :
    ∃ s', RuleSet.append R m true s = (.ok (), s') ∧ Grown m.kind s [m] s' := by
  have key : ∃ s', RuleSet.iaddRule R m s = (.ok (), s') ∧ Grown m.kind s [m] s' := by
    unfold RuleSet.iaddRule
    obtain ⟨s1, h1, e1⟩ : ∃ s1, RuleSet.pushRule m s = (.ok (), s1) ∧
        s1 = { s with ruleType := some m.kind, rules := s.rules ++ [m] } := by
      unfold RuleSet.pushRule
      rw [Py.bind_ok (Py.get_run s)]
      rcases hk with hk | hk
      · simp only [hk, Py.modify_run]
        exact ⟨_, rfl, rfl⟩
      · simp only [hk, if_true, Py.modify_run]
        exact ⟨_, rfl, rfl⟩
    rw [Py.bind_ok h1, hs.2.1, hs.1, ha]
    have h2 : RuleSet.noteIndexes R (some (fs.map (·.index))) s1 =
        (.ok (), { s1 with indexes := R.ints (s1.indexes ++ fs.map (·.index)) }) := rfl
    rw [Py.bind_ok h2]
    have h3 : ∀ t : RuleSet, RuleSet.noteNames R (some (fs.map (·.name))) t =
        (.ok (), { t with names := R.strings (t.names ++ fs.map (·.name)) }) := fun _ => rfl
    rw [Py.bind_ok (h3 _)]
    have h4 : ∀ t : RuleSet, RuleSet.updateIf R none t = (.ok (), t) := by
      intro t
      unfold RuleSet.updateIf
      rw [Py.bind_ok (Py.get_run t)]
      split <;> rfl
    rw [Py.bind_ok (h4 _)]
    have h5 : ∀ t : RuleSet, RuleSet.stackIf (RuleSet.stackRule R m.rule) t = (.ok (), t) := by
      intro t
      unfold RuleSet.stackIf RuleSet.stackRule
      rw [Py.bind_ok (Py.get_run t), ha]
      split <;> rfl
    rw [h5, e1]
    exact ⟨_, rfl, rfl, .inr rfl, rfl, rfl, rfl, fun _ => rfl, fun _ => rfl⟩
  obtain ⟨s', h', hg⟩ := key
  unfold RuleSet.append
  rw [Py.bind_ok (Py.get_run s)]
  simp only [if_true]
  rw [Py.bind_ok h', Py.modify_run]
  exact ⟨_, rfl, hg.rules, hg.kind, hg.act, hg.stacked, rfl, hg.keeps, hg.typed⟩

theorem zipIdx_mapM_item {names : List Label} : ∀ (v : List Rat) (k : Nat), v.length + k ≤ names.length →
    (v.zipIdx k).mapM (fun p => do
        let n ← Cond.item names p.2
        (Except.ok (n, p.1) : Except Err (Label × Rat))) = .ok ((names.drop k).zip v)
  | [], k, _ => by simp; rfl
  | q :: v, k, h => by
    simp only [List.length_cons] at h
    have hk : k < names.length := by omega
    have e : Cond.item names k = .ok names[k] := by simp [Cond.item, hk]
    rw [List.zipIdx_cons, List.mapM_cons, zipIdx_mapM_item v (k + 1) (by omega), List.drop_eq_getElem_cons hk, List.zip_cons_cons]
    simp only [e]
    rfl

theorem nodePrediction_ok {I : Input} {v : List Rat} (h : ValueFits I v) : nodePrediction I v = .ok (predictionOf I v) := by
  unfold nodePrediction predictionOf
  unfold ValueFits at h
  cases hk : I.kind with
  | regression =>
    simp only [hk] at h
    cases v with
    | nil => exact absurd rfl h
    | cons q v => rfl
  | classification =>
    simp only [hk] at h
    cases hc : I.classes with
    | none =>
      simp only []
      congr 2
      rw [List.zipIdx_eq_zip_range', ← List.range_eq_range']
      apply List.ext_getElem?
      intro i
      simp only [List.getElem?_map, List.getElem?_zip_eq_some, List.getElem?_zip_eq_some]
      rcases lt_or_ge i v.length with hi | hi
      · simp [List.zip, List.getElem?_zipWith, hi]
      · simp [List.zip, List.getElem?_zipWith, hi]
    | some names =>
      simp only []
      have := zipIdx_mapM_item (names := names) v 0 (by simpa using h names hc)
      rw [this]
      simp only [List.drop_zero]
      rfl

/-- A rule which was extracted describes a node: the way `e.1` to it and the value `e.2`. -/
structure Entry (I : Input) (names : List String) (e : List Turn × List Rat) (m : Member) : Prop where
  kind : m.kind = I.kind
  prediction : m.rule.prediction = predictionOf I e.2
  act : m.rule.act = none
  inv : ∃ fs, Inv I names e.1 m.rule.cond fs

theorem addRule_ok {R : RsEnv} {I : Input} {names : List String} {i : Nat} {c : Cond} {p : List Turn} {fs : List Feature} {v : List Rat}
    {s : RuleSet} (hk : s.ruleType = none ∨ s.ruleType = some I.kind) (hv : I.value[i]? = some v) (hf : ValueFits I v)
    (h : Inv I names p c fs) :
    ∃ s' m, addRule R I i c s = (.ok (), s') ∧ Grown I.kind s [m] s' ∧ Entry I names (p, v) m := by
  have e : Cond.pyItem I.value (i : Int) = .ok v := by
    obtain ⟨hi, rfl⟩ := List.getElem?_eq_some_iff.1 hv
    simp [Cond.pyItem, Cond.wrap, Cond.item, hi]
  obtain ⟨s', h', hg⟩ := append_grown (R := R) (m := nodeRule I c (predictionOf I v)) hk h.shows rfl
  refine ⟨s', _, ?_, hg, rfl, rfl, rfl, fs, h⟩
  unfold addRule
  rw [e, Py.bind_ok (Py.ofExcept_run _ _), nodePrediction_ok hf, Py.bind_ok (Py.ofExcept_run _ _)]
  exact h'

theorem addTurn_ok {R : RsEnv} {I : Input} {names : List String} {i : Nat} {c : Cond} {p : List Turn} {fs : List Feature} {v : List Rat}
    {s : RuleSet} (hk : s.ruleType = none ∨ s.ruleType = some I.kind) (hv : I.value[i]? = some v) (hf : ValueFits I v)
    (h : Inv I names p c fs) :
    ∃ s' new, addTurn R I i c s = (.ok (), s') ∧ Grown I.kind s new s' ∧
      List.Forall₂ (Entry I names) (if I.getLeaf then [] else [(p, v)]) new := by
  unfold addTurn
  by_cases hl : I.getLeaf = true
  · rw [if_pos hl, if_pos hl]
    exact ⟨s, [], rfl, .refl hk, .nil⟩
  · rw [if_neg hl, if_neg hl]
    obtain ⟨s', m, h1, h2, h3⟩ := addRule_ok (R := R) hk hv hf h
    exact ⟨s', [m], h1, h2, .cons h3 .nil⟩

theorem pyItem_nat {α} {l : List α} {i : Nat} {a : α} (h : l[i]? = some a) : Cond.pyItem l (i : Int) = .ok a := by
  obtain ⟨hi, rfl⟩ := List.getElem?_eq_some_iff.1 h
  simp [Cond.pyItem, Cond.wrap, Cond.item, hi]

theorem get_of_lt {α} {l : List α} {i : Nat} (h : i < l.length) : ∃ a ∈ l, l[i]? = some a :=
  ⟨l[i], List.getElem_mem h, List.getElem?_eq_getElem h⟩

theorem visit_ok {R : RsEnv} {I : Input} {names : List String} {n : Nat} (hb : I.sortBy = "index" ∨ I.sortBy = "name")
    (hn : names.Nodup) (hnl : names.length = n) (hmin : I.xmins.length = n) (hmax : I.xmaxs.length = n)
    (hminN : ∀ x ∈ I.xmins, x ≠ .nan) (hmaxN : ∀ x ∈ I.xmaxs, x ≠ .nan) :
    ∀ (t : DTree) (p : List Turn) (cond : Option Cond) (fuel i : Nat) (s : RuleSet), Stores I i t → TreeFits I n t → t.depth < fuel →
      At I names p cond → (I.getLeaf = true → cond = none → ∃ f a v l r, t = .node f a v l r) →
      (s.ruleType = none ∨ s.ruleType = some I.kind) →
      ∃ s' new, visit R I names fuel i cond s = (.ok (), s') ∧ Grown I.kind s new s' ∧
        List.Forall₂ (Entry I names) ((wanted I t).map fun e => (p ++ e.1, e.2)) new
  | .leaf v, p, cond, fuel, i, s, hst, hfit, hd, hat, hroot, hk => by
    cases hst with
    | leaf h1 h2 =>
    obtain ⟨fuel, rfl⟩ := Nat.exists_eq_succ_of_ne_zero (Nat.ne_of_gt (Nat.lt_of_le_of_lt (Nat.zero_le _) hd))
    unfold visit
    rw [pyItem_nat h1, Py.bind_ok (Py.ofExcept_run _ _)]
    simp only [ne_eq, not_true_eq_false, if_false]
    unfold addLeaf wanted
    by_cases hl : I.getLeaf = true
    · rw [if_pos hl, if_pos hl]
      rcases hat with ⟨rfl, rfl⟩ | ⟨c, fs, rfl, hI⟩
      · obtain ⟨f, a, v, l, r, e⟩ := hroot hl rfl
        cases e
      · obtain ⟨s', m, e1, e2, e3⟩ := addRule_ok (R := R) hk h2 hfit hI
        refine ⟨s', [m], e1, e2, ?_⟩
        simp only [DTree.leaves, List.map_cons, List.map_nil, List.append_nil]
        exact .cons e3 .nil
    · rw [if_neg hl, if_neg hl]
      exact ⟨s, [], rfl, .refl hk, .nil⟩
  | .node f a v l r, p, cond, fuel, i, s, hst, hfit, hd, hat, hroot, hk => by
    cases hst with
    | @node _ _ _ _ j k _ _ h1 h2 h3 h4 h5 h6 h7 =>
    obtain ⟨fuel, rfl⟩ := Nat.exists_eq_succ_of_ne_zero (Nat.ne_of_gt (Nat.lt_of_le_of_lt (Nat.zero_le _) hd))
    obtain ⟨hfn, hfv, hfl, hfr⟩ := hfit
    obtain ⟨name, -, hname⟩ := get_of_lt (l := names) (i := f) (by omega)
    obtain ⟨xmin, hminM, hmin'⟩ := get_of_lt (l := I.xmins) (i := f) (by omega)
    obtain ⟨xmax, hmaxM, hmax'⟩ := get_of_lt (l := I.xmaxs) (i := f) (by omega)
    obtain ⟨c1, fs1, e1, hI1⟩ := leftCond_ok (a := a) hb hn hat hname hmin' hmax' (hminN _ hminM)
    obtain ⟨c2, fs2, e2, hI2⟩ := rightCond_ok (a := a) hb hn hat hname hmin' hmax' (hmaxN _ hmaxM)
    have hdl : l.depth < fuel := by simp only [DTree.depth] at hd; omega
    have hdr : r.depth < fuel := by simp only [DTree.depth] at hd; omega
    unfold visit
    rw [pyItem_nat h1, Py.bind_ok (Py.ofExcept_run _ _), if_pos (by omega)]
    rw [pyItem_nat hmin', Py.bind_ok (Py.ofExcept_run _ _), pyItem_nat h2, Py.bind_ok (Py.ofExcept_run _ _), pyItem_nat hname,
      Py.bind_ok (Py.ofExcept_run _ _), e1, Py.bind_ok (Py.ofExcept_run _ _)]
    obtain ⟨s1, new1, r1, g1, a1⟩ := addTurn_ok (R := R) hk h3 hfv hI1
    rw [Py.bind_ok r1, pyItem_nat h4, Py.bind_ok (Py.ofExcept_run _ _)]
    obtain ⟨s2, new2, r2, g2, a2⟩ := visit_ok (R := R) hb hn hnl hmin hmax hminN hmaxN l _ (some c1) fuel j s1 h6 hfl hdl
      (.inr ⟨c1, fs1, rfl, hI1⟩) (fun _ e => by cases e) g1.kind
    rw [Py.bind_ok r2, pyItem_nat hmax', Py.bind_ok (Py.ofExcept_run _ _), e2, Py.bind_ok (Py.ofExcept_run _ _)]
    obtain ⟨s3, new3, r3, g3, a3⟩ := addTurn_ok (R := R) g2.kind h3 hfv hI2
    rw [Py.bind_ok r3, pyItem_nat h5, Py.bind_ok (Py.ofExcept_run _ _)]
    obtain ⟨s4, new4, r4, g4, a4⟩ := visit_ok (R := R) hb hn hnl hmin hmax hminN hmaxN r _ (some c2) fuel k s3 h7 hfr hdr
      (.inr ⟨c2, fs2, rfl, hI2⟩) (fun _ e => by cases e) g3.kind
    refine ⟨s4, _, r4, ((g1.trans g2).trans g3).trans g4, ?_⟩
    have hall := List.rel_append (List.rel_append (List.rel_append a1 a2) a3) a4
    convert hall using 1
    unfold wanted
    by_cases hl : I.getLeaf = true
    · simp only [if_pos hl, DTree.leaves, List.map_append, List.map_map, List.nil_append, List.append_nil, Function.comp_def,
        List.append_assoc, List.singleton_append]
    · simp only [if_neg hl, DTree.turns, List.map_append, List.map_cons, List.map_map, List.cons_append, List.append_nil,
        List.nil_append, Function.comp_def, List.append_assoc, List.singleton_append]

theorem defaultName_inj {i j : Nat} (h : Cond.defaultName i = Cond.defaultName j) : i = j := by
  have h : String.ofList ('X' :: '_' :: Codec.digits i) = String.ofList ('X' :: '_' :: Codec.digits j) := h
  rw [String.ofList_inj] at h
  simp only [List.cons.injEq, true_and] at h
  rw [← Codec.digits_foldl i, h, Codec.digits_foldl]

theorem digits_toDigits (k : Nat) : Codec.digits k = Nat.toDigits 10 k := by
  induction k using Nat.strongRecOn with
  | _ k ih =>
    unfold Codec.digits
    rw [Nat.toDigits_eq_if (by decide)]
    by_cases h : k < 10
    · rw [dif_pos h, if_pos h]
      congr 1
      have : ∀ k < 10, Char.ofNat (48 + k) = Nat.digitChar k := by decide
      exact this k h
    · rw [dif_neg h, if_neg h, ih (k / 10) (by omega)]
      congr 2
      have : ∀ k < 10, Char.ofNat (48 + k) = Nat.digitChar k := by decide
      exact this _ (Nat.mod_lt _ (by decide))

theorem defaultName_repr (k : Nat) : Cond.defaultName k = "X_" ++ Nat.repr k := by
  have h : Cond.defaultName k = String.ofList ('X' :: '_' :: Codec.digits k) := rfl
  rw [h, digits_toDigits]
  unfold Nat.repr
  rw [← String.toList_inj]
  simp

theorem extract_ok {R : RsEnv} {I : Input} {n : Nat} {t : DTree} (h : GoodInput I n t)
    (hroot : I.getLeaf = true → ∃ f a v l r, t = .node f a v l r) :
    ∃ s names, extract R I = .ok s ∧ names.length = n ∧ (∀ k name, names[k]? = some name → NameOf I k name) ∧ Grown I.kind (RuleSet.blank I.stack) s.rules s ∧
      List.Forall₂ (Entry I names) (wanted I t) s.rules := by
  obtain ⟨names, e, hnm, hl, hn⟩ : ∃ names, featuresNames I = .ok names ∧
      (∀ k name, names[k]? = some name → NameOf I k name) ∧ names.length = n ∧ names.Nodup := by
    unfold featuresNames
    rcases h.names with ⟨l, e, h1, h2⟩ | ⟨e1, e2⟩
    · rw [e]
      refine ⟨l, rfl, fun k name hk => ⟨fun l' e' => ?_, fun e' => ?_⟩, h1, h2⟩
      · rw [e] at e'
        cases e'
        exact hk
      · rw [e] at e'
        cases e'
    · rw [e1]
      simp only [e2]
      refine ⟨_, rfl, fun k name hk => ⟨fun l' e' => ?_, fun _ => ?_⟩, by simp, ?_⟩
      · rw [e1] at e'
        cases e'
      · have hkn : k < n := by simpa using (List.getElem?_eq_some_iff.1 hk).1
        rw [List.getElem?_map, List.getElem?_range hkn] at hk
        cases hk
        exact defaultName_repr k
      exact List.Nodup.map (fun i j e => defaultName_inj e) List.nodup_range
  obtain ⟨s, new, h1, h2, h3⟩ := visit_ok (R := R) h.sortBy hn hl h.mins h.maxs h.minsNum h.maxsNum t [] none I.limit 0
    (RuleSet.blank I.stack) h.stores h.fits h.deep (.inl ⟨rfl, rfl⟩) (fun e _ => hroot e) (.inl rfl)
  have e3 : s.rules = new := h2.rules
  refine ⟨s, names, ?_, hl, hnm, by rw [e3]; exact h2, ?_⟩
  · unfold extract
    rw [e]
    simp only [bind, Except.bind]
    have : visit R I names I.limit 0 none (RuleSet.blank I.stack) = (.ok (), s) := h1
    rw [this]
  · rw [e3]
    simpa using h3

/-- What a rule which was extracted selects -/
theorem Entry.evaluates {I : Input} {names : List String} {e : List Turn × List Rat} {m : Member} (h : Entry I names e m) {xs : Mat}
    (hc : names.length ≤ xs.ncols) :
    ∃ P : List Num → Prop, Cond.evaluate m.rule.cond xs = .ok (xs.rows.map fun r => flag (P r)) ∧
      (∀ r, InsideBounds I.xmins I.xmaxs (rowOf xs.ncols r) → (∀ t ∈ e.1, t.Admits (rowOf xs.ncols r)) → P r) ∧
      (∀ r, P r → ∀ p1 u p2, e.1 = p1 ++ u :: p2 → u.Kept p2 → u.Admits (rowOf xs.ncols r)) ∧
      ∀ r, P r → (∀ u ∈ e.1, u.Inside I.xmins I.xmaxs) → ∀ u ∈ e.1, ∀ lo hi, I.xmins[u.feature]? = some lo →
        I.xmaxs[u.feature]? = some hi → Within lo hi (rowOf xs.ncols r u.feature) := by
  obtain ⟨fs, hI⟩ := h.inv
  by_cases himp : m.rule.cond.impossible = true
  · refine ⟨fun _ => False, ?_, ?_, fun r hr => hr.elim, fun r hr => hr.elim⟩
    · rw [evaluate_impossible himp]
      congr 1
      simp [flag, List.map_const']
    · intro r h1 h2
      have := (hI.covers _ h1 h2).1
      rw [himp] at this
      cases this
  · refine ⟨InBox fs xs.ncols, ?_, ?_, ?_, ?_⟩
    · refine evaluate_shows hI.shows (fun e => absurd e himp) ?_
      intro f hf
      obtain ⟨k, hk, hk'⟩ := hI.named f hf
      have := (List.getElem?_eq_some_iff.1 hk').1
      unfold InRange
      omega
    · intro r h1 h2 f hf
      have := (hI.covers _ h1 h2).2 f hf
      obtain ⟨k, hk, -⟩ := hI.named f hf
      unfold rowOf at this
      rw [hk, Int.toNat_natCast] at this
      rwa [hk]
    · intro r hr p1 u p2 hs hk
      obtain ⟨f, hf, e⟩ := (hI.feats u.feature).2 ⟨u, by rw [hs]; simp, rfl⟩
      obtain ⟨q, h1, h2, h3⟩ := hr f hf
      refine ⟨q, ?_, ?_⟩
      · unfold rowOf
        rw [← e, h1]
      · split
        · rename_i hr
          exact hI.lower f hf u (by rw [hs]; simp) e hr q h2
        · rename_i hr
          exact hI.upper f hf p1 u p2 hs e (by simpa using hr) hk q h3
    · intro r hr hin u hu lo hi e1 e2
      obtain ⟨f, hf, e⟩ := (hI.feats u.feature).2 ⟨u, hu, rfl⟩
      obtain ⟨q, h1, h2, h3⟩ := hr f hf
      have := hI.bounded hin f hf lo hi (by rw [e]; exact e1) (by rw [e]; exact e2) q
      refine ⟨q, ?_, this.1 h2, this.2 h3⟩
      unfold rowOf
      rw [← e, h1]

/-! ## Trees -/

theorem leaves_length : ∀ t : DTree, t.leaves.length = t.leafCount
  | .leaf _ => rfl
  | .node _ _ _ l r => by simp [DTree.leaves, DTree.leafCount, leaves_length l, leaves_length r]

theorem turns_length : ∀ t : DTree, t.turns.length = 2 * t.innerCount
  | .leaf _ => rfl
  | .node _ _ _ l r => by simp [DTree.turns, DTree.innerCount, turns_length l, turns_length r]; omega

theorem falls_mem (x : Nat → Rat) : ∀ t : DTree, t.falls x ∈ t.leaves
  | .leaf _ => by simp [DTree.falls, DTree.leaves]
  | .node f a v l r => by
    unfold DTree.falls DTree.leaves
    split
    · exact List.mem_append_left _ (List.mem_map.2 ⟨_, falls_mem x l, rfl⟩)
    · exact List.mem_append_right _ (List.mem_map.2 ⟨_, falls_mem x r, rfl⟩)

theorem falls_admits (x : Nat → Rat) {y : Nat → Num} : ∀ t : DTree, (∀ u ∈ (t.falls x).1, y u.feature = .fin (x u.feature)) →
    ∀ u ∈ (t.falls x).1, u.Admits y
  | .leaf _ => by simp [DTree.falls]
  | .node f a v l r => by
    unfold DTree.falls
    split
    · rename_i h
      intro hy u hu
      rcases List.mem_cons.1 hu with rfl | hu
      · exact ⟨_, hy _ hu, h⟩
      · exact falls_admits x l (fun u hu => hy u (List.mem_cons_of_mem _ hu)) u hu
    · rename_i h
      intro hy u hu
      rcases List.mem_cons.1 hu with rfl | hu
      · exact ⟨_, hy _ hu, le_of_lt (not_le.1 h)⟩
      · exact falls_admits x r (fun u hu => hy u (List.mem_cons_of_mem _ hu)) u hu

theorem falls_unique (x : Nat → Rat) {y : Nat → Num} : ∀ (t : DTree) (e : List Turn × List Rat), e ∈ t.leaves →
    (∀ u ∈ e.1, y u.feature = .fin (x u.feature) ∧ x u.feature ≠ u.threshold) → (∀ u ∈ e.1, u.Admits y) → e = t.falls x
  | .leaf _, e, he, _, _ => by simpa [DTree.falls, DTree.leaves] using he
  | .node f a v l r, e, he, hy, ha => by
    unfold DTree.leaves at he
    unfold DTree.falls
    rcases List.mem_append.1 he with he | he
    · obtain ⟨e', he', rfl⟩ := List.mem_map.1 he
      obtain ⟨q, h1, h2⟩ := ha ⟨f, a, false⟩ (by simp)
      rw [(hy ⟨f, a, false⟩ (by simp)).1] at h1
      cases h1
      rw [if_pos (by simpa using h2), ← falls_unique x l e' he' (fun u hu => hy u (List.mem_cons_of_mem _ hu))
        fun u hu => ha u (List.mem_cons_of_mem _ hu)]
    · obtain ⟨e', he', rfl⟩ := List.mem_map.1 he
      obtain ⟨q, h1, h2⟩ := ha ⟨f, a, true⟩ (by simp)
      rw [(hy ⟨f, a, true⟩ (by simp)).1] at h1
      cases h1
      have h3 := (hy ⟨f, a, true⟩ (by simp)).2
      simp only [if_true] at h2
      rw [if_neg (not_le.2 (lt_of_le_of_ne h2 (Ne.symm h3))), ← falls_unique x r e' he' (fun u hu => hy u (List.mem_cons_of_mem _ hu))
        fun u hu => ha u (List.mem_cons_of_mem _ hu)]

/-- The features of the turns of a tree on `n` features -/
theorem leaves_features {I : Input} {n : Nat} : ∀ t : DTree, TreeFits I n t → ∀ e ∈ t.leaves, ∀ u ∈ e.1, u.feature < n
  | .leaf _, _, e, he, u, hu => by
    simp only [DTree.leaves, List.mem_singleton] at he
    subst he
    cases hu
  | .node f a v l r, h, e, he, u, hu => by
    obtain ⟨h1, -, h2, h3⟩ := h
    unfold DTree.leaves at he
    rcases List.mem_append.1 he with he | he
    · obtain ⟨e', he', rfl⟩ := List.mem_map.1 he
      rcases List.mem_cons.1 hu with rfl | hu
      · exact h1
      · exact leaves_features l h2 e' he' u hu
    · obtain ⟨e', he', rfl⟩ := List.mem_map.1 he
      rcases List.mem_cons.1 hu with rfl | hu
      · exact h1
      · exact leaves_features r h3 e' he' u hu

end Tree

end Verif
