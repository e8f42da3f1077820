import Verif.ConditionAnd

/-!
# Helper lemmas: `&` of conditions, feature by feature
-/

namespace Verif.Cond

open Verif Spec

theorem num_max_comm {a b : Num} (ha : a ≠ .nan) (hb : b ≠ .nan) : a.max b = b.max a := by
  unfold Num.max
  cases a <;> cases b <;> simp_all [Num.lt, Num.le] <;> grind

theorem num_min_comm {a b : Num} (ha : a ≠ .nan) (hb : b ≠ .nan) : a.min b = b.min a := by
  unfold Num.min
  cases a <;> cases b <;> simp_all [Num.lt, Num.le] <;> grind

theorem num_max_assoc {a b c : Num} (ha : a ≠ .nan) (hb : b ≠ .nan) (hc : c ≠ .nan) :
    (a.max b).max c = a.max (b.max c) := by
  unfold Num.max
  cases a <;> cases b <;> cases c <;> simp_all [Num.lt, Num.le] <;> grind [Num.le]

theorem num_min_assoc {a b c : Num} (ha : a ≠ .nan) (hb : b ≠ .nan) (hc : c ≠ .nan) :
    (a.min b).min c = a.min (b.min c) := by
  unfold Num.min
  cases a <;> cases b <;> cases c <;> simp_all [Num.lt, Num.le] <;> grind [Num.le]

theorem num_max_self (a : Num) : a.max a = a := by unfold Num.max; split <;> rfl

theorem num_min_self (a : Num) : a.min a = a := by unfold Num.min; split <;> rfl

/-- The feature with this name -/
def look (fs : List Feature) (n : String) : Option Feature := fs.find? fun g => g.name == n

theorem look_name {fs : List Feature} {n : String} {f : Feature} (h : look fs n = some f) : f.name = n := by
  simpa using List.find?_some h

theorem look_mem {fs : List Feature} {n : String} {f : Feature} (h : look fs n = some f) : f ∈ fs :=
  List.mem_of_find?_eq_some h

theorem look_iff {fs : List Feature} (hn : (fs.map (·.name)).Nodup) {n : String} {f : Feature} :
    look fs n = some f ↔ f ∈ fs ∧ f.name = n := by
  constructor
  · intro h
    exact ⟨look_mem h, look_name h⟩
  · rintro ⟨h1, h2⟩
    cases hl : look fs n with
    | none =>
      have := List.find?_eq_none.1 hl f h1
      simp [h2] at this
    | some g => rw [eq_of_name hn (look_mem hl) h1 ((look_name hl).trans h2.symm)]

theorem look_none {fs : List Feature} {n : String} : look fs n = none ↔ n ∉ fs.map (·.name) := by
  unfold look
  rw [List.find?_eq_none]
  simp

/-- Two features with the same name -/
def joined (f g : Feature) : Feature := { f with lo := f.lo.max g.lo, hi := f.hi.min g.hi }

/-- What two lists of features have to say together about one name -/
def joinOpt : Option Feature → Option Feature → Option Feature
  | some f, some g => some (joined f g)
  | some f, none => some f
  | none, g => g

theorem partner_look (bs : List Feature) (f : Feature) : partner bs f = (look bs f.name).getD f := rfl

theorem merged_look {as bs : List Feature} (ha : (as.map (·.name)).Nodup) (hb : (bs.map (·.name)).Nodup)
    {rest cs : List Feature} (hr : rest.Perm (others as bs)) (hc : cs.Perm (merged as bs ++ rest))
    (hcn : (cs.map (·.name)).Nodup) (n : String) : look cs n = joinOpt (look as n) (look bs n) := by
  have mem : ∀ f, f ∈ cs ↔ (∃ g ∈ as, f = if g.name ∈ bs.map (·.name) then joined g (partner bs g) else g) ∨
      (f ∈ bs ∧ f.name ∉ as.map (·.name)) := by
    intro f
    rw [hc.mem_iff, List.mem_append, hr.mem_iff]
    unfold merged others
    rw [List.mem_map, List.mem_filter]
    simp only [decide_eq_true_eq, joined]
    constructor
    · rintro (⟨g, h1, h2⟩ | h)
      · exact .inl ⟨g, h1, h2.symm⟩
      · exact .inr h
    · rintro (⟨g, h1, h2⟩ | h)
      · exact .inl ⟨g, h1, h2.symm⟩
      · exact .inr h
  have joined_name : ∀ g h : Feature, (joined g h).name = g.name := fun _ _ => rfl
  cases hla : look as n with
  | some g =>
    have hga := look_mem hla
    have hgn := look_name hla
    cases hlb : look bs n with
    | some k =>
      show _ = some (joined g k)
      have h1 : n ∈ bs.map (·.name) := by
        by_contra hc
        rw [look_none.2 hc] at hlb
        cases hlb
      refine (look_iff hcn).2 ⟨(mem _).2 (.inl ⟨g, hga, ?_⟩), hgn⟩
      rw [if_pos (by rw [hgn]; exact h1), partner_look, hgn, hlb]
      rfl
    | none =>
      show _ = some g
      refine (look_iff hcn).2 ⟨(mem _).2 (.inl ⟨g, hga, ?_⟩), hgn⟩
      rw [if_neg (by rw [hgn]; exact look_none.1 hlb)]
  | none =>
    show _ = look bs n
    have hna := look_none.1 hla
    cases hlb : look bs n with
    | some k =>
      exact (look_iff hcn).2 ⟨(mem _).2 (.inr ⟨look_mem hlb, by rw [look_name hlb]; exact hna⟩), look_name hlb⟩
    | none =>
      have hnb := look_none.1 hlb
      rw [look_none]
      intro hm
      obtain ⟨f, hf, hfn⟩ := List.mem_map.1 hm
      rcases (mem f).1 hf with ⟨g, hg, e⟩ | ⟨h1, h2⟩
      · apply hna
        refine List.mem_map.2 ⟨g, hg, ?_⟩
        rw [← hfn, e]
        split <;> rfl
      · exact hnb (List.mem_map.2 ⟨f, h1, hfn⟩)

theorem look_perm {fs gs : List Feature} (h : fs.Perm gs) (hn : (fs.map (·.name)).Nodup) (n : String) :
    look fs n = look gs n := by
  have hn' := (h.map (·.name)).nodup_iff.1 hn
  apply Option.ext
  intro f
  rw [look_iff hn, look_iff hn', h.mem_iff]

/-- Features are known by name. -/
theorem perm_of_look {fs gs : List Feature} (hf : (fs.map (·.name)).Nodup) (hg : (gs.map (·.name)).Nodup)
    (h : ∀ n, look fs n = look gs n) : fs.Perm gs := by
  refine (List.perm_ext_iff_of_nodup (List.Nodup.of_map _ hf) (List.Nodup.of_map _ hg)).2 fun f => ?_
  constructor
  · intro hm
    have := (look_iff hf).2 ⟨hm, rfl⟩
    rw [h] at this
    exact look_mem this
  · intro hm
    have := (look_iff hg).2 ⟨hm, rfl⟩
    rw [← h] at this
    exact look_mem this

theorem Regular.unique {c d : Cond} {fs : List Feature} (h : Regular c fs) (h' : Regular d fs) : c = d := by
  obtain ⟨⟨a1, a2, a3, a4⟩, -, -, a5⟩ := h
  obtain ⟨⟨b1, b2, b3, b4⟩, -, -, b5⟩ := h'
  cases c
  cases d
  simp only at a1 a2 a3 a4 a5 b1 b2 b3 b4 b5
  subst a1 a2 a3 a4 a5 b1 b2 b3 b4 b5
  rfl

/-- What `&` gives: a sorted condition which says about each feature what the operands say together. -/
theorem and_look {by_ : String} (hb : by_ = "index" ∨ by_ = "name") {a b : Cond} {as bs : List Feature}
    (ha : Regular a as) (hbr : Regular b bs) :
    (Disagree as bs ∧ Cond.and by_ a b = .error .indexError) ∨
    (¬ Disagree as bs ∧ ∃ (c : Cond) (cs : List Feature), Cond.and by_ a b = .ok c ∧ Regular c (sortF by_ cs) ∧
      (cs.map (·.name)).Nodup ∧ (cs.map (·.index)).Nodup ∧ ∀ n, look cs n = joinOpt (look as n) (look bs n)) := by
  rcases and_regular hb ha hbr with h | ⟨h, c, rest, hc, hr, hreg⟩
  · exact .inl h
  · refine .inr ⟨h, c, merged (sortF by_ as) bs ++ rest, hc, hreg, ?_⟩
    have hp := sortF_perm by_ (merged (sortF by_ as) bs ++ rest)
    have hn := (hp.map (·.name)).nodup_iff.1 hreg.names_nodup
    have hi := (hp.map (·.index)).nodup_iff.1 hreg.idx_nodup
    refine ⟨hn, hi, fun n => ?_⟩
    have hpa := sortF_perm by_ as
    have hna := (hpa.map (·.name)).nodup_iff.2 ha.names_nodup
    have hr' : rest.Perm (others (sortF by_ as) bs) := by
      refine hr.trans (List.Perm.of_eq ?_)
      unfold others
      apply List.filter_congr
      intro f _
      simp only [decide_eq_decide, not_iff_not]
      exact ((hpa.map (·.name)).mem_iff).symm
    rw [merged_look hna hbr.names_nodup hr' (List.Perm.refl _) hn n, look_perm hpa hna]

theorem regular_look {by_ : String} {c d : Cond} {cs ds : List Feature} (hc : Regular c (sortF by_ cs))
    (hd : Regular d (sortF by_ ds)) (hcn : (cs.map (·.name)).Nodup) (hci : (cs.map (·.index)).Nodup)
    (hdn : (ds.map (·.name)).Nodup) (h : ∀ n, look cs n = look ds n) : c = d := by
  rw [sortF_congr by_ (perm_of_look hcn hdn h) hcn hci] at hc
  exact hc.unique hd

end Verif.Cond

namespace Verif.Cond

open Verif Spec

theorem joinOpt_comm {as bs : List Feature} (hna : NoNaN as) (hnb : NoNaN bs) (hd : ¬ Disagree as bs) (n : String) :
    joinOpt (look as n) (look bs n) = joinOpt (look bs n) (look as n) := by
  cases hf : look as n with
  | none => cases hg : look bs n <;> rfl
  | some f =>
    cases hg : look bs n with
    | none => rfl
    | some g =>
      have hname : f.name = g.name := (look_name hf).trans (look_name hg).symm
      have hindex : f.index = g.index := by
        by_contra hc
        exact hd ⟨f, look_mem hf, g, look_mem hg, .inl ⟨hname, hc⟩⟩
      obtain ⟨h1, h2⟩ := hna f (look_mem hf)
      obtain ⟨h3, h4⟩ := hnb g (look_mem hg)
      simp only [joinOpt, joined, Option.some.injEq]
      rw [num_max_comm h1 h3, num_min_comm h2 h4, hname, hindex]

theorem joinOpt_assoc {as bs cs : List Feature} (hna : NoNaN as) (hnb : NoNaN bs) (hnc : NoNaN cs) (n : String) :
    joinOpt (joinOpt (look as n) (look bs n)) (look cs n) = joinOpt (look as n) (joinOpt (look bs n) (look cs n)) := by
  cases hf : look as n with
  | none => cases hg : look bs n <;> cases hk : look cs n <;> rfl
  | some f =>
    cases hg : look bs n with
    | none => cases hk : look cs n <;> rfl
    | some g =>
      cases hk : look cs n with
      | none => rfl
      | some k =>
        obtain ⟨h1, h2⟩ := hna f (look_mem hf)
        obtain ⟨h3, h4⟩ := hnb g (look_mem hg)
        obtain ⟨h5, h6⟩ := hnc k (look_mem hk)
        simp only [joinOpt, joined, Option.some.injEq]
        rw [num_max_assoc h1 h3 h5, num_min_assoc h2 h4 h6]

theorem joinOpt_self (o : Option Feature) : joinOpt o o = o := by
  cases o with
  | none => rfl
  | some f => simp [joinOpt, joined, num_max_self, num_min_self]

theorem disagree_symm {as bs : List Feature} (h : Disagree as bs) : Disagree bs as := by
  obtain ⟨f, hf, g, hg, h⟩ := h
  refine ⟨g, hg, f, hf, ?_⟩
  rcases h with ⟨h1, h2⟩ | ⟨h1, h2⟩
  · exact .inl ⟨h1.symm, fun e => h2 e.symm⟩
  · exact .inr ⟨fun e => h1 e.symm, h2.symm⟩

theorem not_disagree_self {c : Cond} {fs : List Feature} (h : Regular c fs) : ¬ Disagree fs fs := by
  rintro ⟨f, hf, g, hg, ⟨h1, h2⟩ | ⟨h1, h2⟩⟩
  · exact h2 (congrArg Feature.index (eq_of_name h.names_nodup hf hg h1))
  · exact h1 (congrArg Feature.name (eq_of_index h.idx_nodup hf hg h2))

theorem joinOpt_pairs {as bs cs : List Feature} (ha : (as.map (·.name)).Nodup) (hb : (bs.map (·.name)).Nodup)
    (hc : (cs.map (·.name)).Nodup) (hd : ¬ Disagree as bs) (h : ∀ n, look cs n = joinOpt (look as n) (look bs n))
    (n : String) (i : Int) : (∃ f ∈ cs, f.name = n ∧ f.index = i) ↔
      (∃ f ∈ as, f.name = n ∧ f.index = i) ∨ ∃ f ∈ bs, f.name = n ∧ f.index = i := by
  have key : ∀ {fs : List Feature}, (fs.map (·.name)).Nodup →
      ((∃ f ∈ fs, f.name = n ∧ f.index = i) ↔ ∃ f, look fs n = some f ∧ f.index = i) := by
    intro fs hn
    constructor
    · rintro ⟨f, h1, h2, h3⟩
      exact ⟨f, (look_iff hn).2 ⟨h1, h2⟩, h3⟩
    · rintro ⟨f, h1, h2⟩
      exact ⟨f, look_mem h1, look_name h1, h2⟩
  rw [key ha, key hb, key hc, h]
  cases hf : look as n with
  | none => simp [joinOpt]
  | some f =>
    cases hg : look bs n with
    | none => simp [joinOpt]
    | some g =>
      have hindex : f.index = g.index := by
        by_contra hc
        exact hd ⟨f, look_mem hf, g, look_mem hg, .inl ⟨(look_name hf).trans (look_name hg).symm, hc⟩⟩
      simp [joinOpt, joined, hindex]

theorem disagree_pairs {as bs cs ds : List Feature}
    (h : ∀ n i, (∃ f ∈ cs, f.name = n ∧ f.index = i) ↔
      (∃ f ∈ as, f.name = n ∧ f.index = i) ∨ ∃ f ∈ bs, f.name = n ∧ f.index = i) :
    Disagree cs ds ↔ Disagree as ds ∨ Disagree bs ds := by
  constructor
  · rintro ⟨f, hf, g, hg, hx⟩
    rcases (h f.name f.index).1 ⟨f, hf, rfl, rfl⟩ with ⟨k, hk, e1, e2⟩ | ⟨k, hk, e1, e2⟩
    · exact .inl ⟨k, hk, g, hg, by rw [e1, e2]; exact hx⟩
    · exact .inr ⟨k, hk, g, hg, by rw [e1, e2]; exact hx⟩
  · rintro (⟨f, hf, g, hg, hx⟩ | ⟨f, hf, g, hg, hx⟩)
    · obtain ⟨k, hk, e1, e2⟩ := (h f.name f.index).2 (.inl ⟨f, hf, rfl, rfl⟩)
      exact ⟨k, hk, g, hg, by rw [e1, e2]; exact hx⟩
    · obtain ⟨k, hk, e1, e2⟩ := (h f.name f.index).2 (.inr ⟨f, hf, rfl, rfl⟩)
      exact ⟨k, hk, g, hg, by rw [e1, e2]; exact hx⟩

theorem disagree_perm {as as' bs : List Feature} (h : as.Perm as') : Disagree as bs ↔ Disagree as' bs := by
  unfold Disagree
  simp only [h.mem_iff]

theorem look_noNaN {fs : List Feature} (hn : (fs.map (·.name)).Nodup)
    (h : ∀ n f, look fs n = some f → f.lo ≠ .nan ∧ f.hi ≠ .nan) : NoNaN fs :=
  fun f hf => h f.name f ((look_iff hn).2 ⟨hf, rfl⟩)

theorem and_comm {by_ : String} (hb : by_ = "index" ∨ by_ = "name") {a b : Cond} {as bs : List Feature}
    (ha : Regular a as) (hbr : Regular b bs) (hna : NoNaN as) (hnb : NoNaN bs) : Cond.and by_ a b = Cond.and by_ b a := by
  rcases and_look hb ha hbr with ⟨hd, he⟩ | ⟨hd, c, cs, hc, rc, cn, ci, hl⟩
  · rcases and_look hb hbr ha with ⟨_, he'⟩ | ⟨hd', _⟩
    · rw [he, he']
    · exact absurd (disagree_symm hd) hd'
  · rcases and_look hb hbr ha with ⟨hd', _⟩ | ⟨_, d, ds, hd', rd, dn, di, hl'⟩
    · exact absurd (disagree_symm hd') hd
    · rw [hc, hd', regular_look rc rd cn ci dn fun n => by rw [hl, hl', joinOpt_comm hna hnb hd]]

theorem and_assoc {by_ : String} (hb : by_ = "index" ∨ by_ = "name") {a b c : Cond} {as bs cs : List Feature}
    (ha : Regular a as) (hbr : Regular b bs) (hcr : Regular c cs) (hna : NoNaN as) (hnb : NoNaN bs) (hnc : NoNaN cs) :
    (Cond.and by_ a b >>= fun d => Cond.and by_ d c) = (Cond.and by_ b c >>= fun d => Cond.and by_ a d) := by
  have left : ((Disagree as bs ∨ Disagree as cs ∨ Disagree bs cs) ∧
        (Cond.and by_ a b >>= fun d => Cond.and by_ d c) = .error .indexError) ∨
      (¬ (Disagree as bs ∨ Disagree as cs ∨ Disagree bs cs) ∧ ∃ (e : Cond) (es : List Feature),
        (Cond.and by_ a b >>= fun d => Cond.and by_ d c) = .ok e ∧ Regular e (sortF by_ es) ∧ (es.map (·.name)).Nodup ∧
          (es.map (·.index)).Nodup ∧ ∀ n, look es n = joinOpt (joinOpt (look as n) (look bs n)) (look cs n)) := by
    rcases and_look hb ha hbr with ⟨hd, he⟩ | ⟨hd, d, ds, hc, rd, dn, di, hl⟩
    · exact .inl ⟨.inl hd, by rw [he]; rfl⟩
    · have hp := sortF_perm by_ ds
      have hdis : Disagree (sortF by_ ds) cs ↔ Disagree as cs ∨ Disagree bs cs :=
        (disagree_perm hp).trans (disagree_pairs (joinOpt_pairs ha.names_nodup hbr.names_nodup dn hd hl))
      rcases and_look hb rd hcr with ⟨hd', he⟩ | ⟨hd', e, es, he, re, en, ei, hl'⟩
      · exact .inl ⟨.inr (hdis.1 hd'), by rw [hc]; exact he⟩
      · refine .inr ⟨?_, e, es, by rw [hc]; exact he, re, en, ei, fun n => ?_⟩
        · rintro (h | h)
          · exact hd h
          · exact hd' (hdis.2 h)
        · rw [hl', look_perm hp rd.names_nodup, hl]
  have right : ((Disagree as bs ∨ Disagree as cs ∨ Disagree bs cs) ∧
        (Cond.and by_ b c >>= fun d => Cond.and by_ a d) = .error .indexError) ∨
      (¬ (Disagree as bs ∨ Disagree as cs ∨ Disagree bs cs) ∧ ∃ (e : Cond) (es : List Feature),
        (Cond.and by_ b c >>= fun d => Cond.and by_ a d) = .ok e ∧ Regular e (sortF by_ es) ∧ (es.map (·.name)).Nodup ∧
          (es.map (·.index)).Nodup ∧ ∀ n, look es n = joinOpt (look as n) (joinOpt (look bs n) (look cs n))) := by
    rcases and_look hb hbr hcr with ⟨hd, he⟩ | ⟨hd, d, ds, hc, rd, dn, di, hl⟩
    · exact .inl ⟨.inr (.inr hd), by rw [he]; rfl⟩
    · have hp := sortF_perm by_ ds
      have hdis : Disagree as (sortF by_ ds) ↔ Disagree as bs ∨ Disagree as cs := by
        constructor
        · intro h
          rcases ((disagree_perm hp).trans (disagree_pairs (joinOpt_pairs hbr.names_nodup hcr.names_nodup dn hd hl))).1
            (disagree_symm h) with h | h
          · exact .inl (disagree_symm h)
          · exact .inr (disagree_symm h)
        · intro h
          refine disagree_symm
            (((disagree_perm hp).trans (disagree_pairs (joinOpt_pairs hbr.names_nodup hcr.names_nodup dn hd hl))).2 ?_)
          rcases h with h | h
          · exact .inl (disagree_symm h)
          · exact .inr (disagree_symm h)
      rcases and_look hb ha rd with ⟨hd', he⟩ | ⟨hd', e, es, he, re, en, ei, hl'⟩
      · refine .inl ⟨?_, by rw [hc]; exact he⟩
        rcases hdis.1 hd' with h | h
        · exact .inl h
        · exact .inr (.inl h)
      · refine .inr ⟨?_, e, es, by rw [hc]; exact he, re, en, ei, fun n => ?_⟩
        · rintro (h | h | h)
          · exact hd' (hdis.2 (.inl h))
          · exact hd' (hdis.2 (.inr h))
          · exact hd h
        · rw [hl', look_perm hp rd.names_nodup, hl]
  rcases left with ⟨h1, e1⟩ | ⟨h1, e, es, e1, re, en, ei, hl⟩
  · rcases right with ⟨_, e2⟩ | ⟨h2, _⟩
    · rw [e1, e2]
    · exact absurd h1 h2
  · rcases right with ⟨h2, _⟩ | ⟨_, e', es', e2, re', en', ei', hl'⟩
    · exact absurd h2 h1
    · rw [e1, e2, regular_look re re' en ei en' fun n => by rw [hl, hl', joinOpt_assoc hna hnb hnc]]

theorem and_self {by_ : String} (hb : by_ = "index" ∨ by_ = "name") {a : Cond} {as : List Feature} (ha : Regular a as) :
    Cond.and by_ a a = a.sort by_ := by
  rcases and_look hb ha ha with ⟨hd, _⟩ | ⟨_, c, cs, hc, rc, cn, ci, hl⟩
  · exact absurd hd (not_disagree_self ha)
  · obtain ⟨d, hd, -⟩ := sort_shows (by_ := by_) ha.shows (by rcases hb with h | h <;> simp [h])
    have rd := ha.sort hd
    rw [hc, hd, regular_look rc rd cn ci ha.names_nodup fun n => by rw [hl, joinOpt_self]]

end Verif.Cond
