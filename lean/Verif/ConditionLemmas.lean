import Verif.ConditionSpec

/-!
# Lemmas about conditions
-/

namespace Verif

open Spec

namespace Cond

/-! ## Constructor -/

/-- The invariant of the conditions a user can obtain. -/
structure Regular (c : Cond) (fs : List Feature) : Prop where
  shows : Shows c fs
  names_nodup : (fs.map (·.name)).Nodup
  idx_nodup : (fs.map (·.index)).Nodup
  imp : c.impossible = fs.any fun f => f.hi.lt f.lo

theorem mapM_some_iff {α β} (f : α → Option β) (l : List α) (r : List β) :
    l.mapM f = some r ↔ l.map f = r.map some := by
  induction l generalizing r with
  | nil => cases r <;> simp
  | cons a t ih =>
    cases r with
    | nil => simp only [List.mapM_cons]; cases f a <;> simp; cases t.mapM f <;> simp
    | cons b r =>
      simp only [List.mapM_cons, List.map_cons, List.cons.injEq]
      rw [← ih]
      cases h : f a <;> simp
      cases h' : t.mapM f <;> simp

theorem mapM_map_some {α β} (g : β → α) (f : α → Option β) (h : ∀ b, f (g b) = some b) (l : List β) :
    (l.map g).mapM f = some l := by
  rw [mapM_some_iff]; simp [h]

theorem checkAll_ok {α} {f : V → Option α} {l : List V} {r : List α} :
    checkAll f l = .ok r ↔ l.map f = r.map some := by
  rw [← mapM_some_iff]
  unfold checkAll
  cases l.mapM f <;> simp

theorem checkAll_int (l : List Int) : checkAll V.int? (l.map V.int) = .ok l := by
  rw [checkAll_ok]; simp [V.int?]

theorem checkAll_float (l : List Num) : checkAll V.num? (l.map V.float) = .ok l := by
  rw [checkAll_ok]; simp [V.num?]

theorem checkAll_str (l : List String) : checkAll V.str? (l.map V.str) = .ok l := by
  rw [checkAll_ok]; simp [V.str?]

/-- Features in the order of the sort. -/
def sortF (by_ : String) (fs : List Feature) : List Feature :=
  if by_ = "index" then fs.insertionSort fun a b => a.index ≤ b.index
  else fs.insertionSort fun a b => a.name ≤ b.name

theorem sortF_perm (by_ : String) (fs : List Feature) : (sortF by_ fs).Perm fs := by
  unfold sortF; split <;> exact List.perm_insertionSort _ _

theorem sortBy_map {κ α} [LE κ] [DecidableRel (α := κ) (· ≤ ·)] (k : Feature → κ) (g : Feature → α)
    (fs : List Feature) :
    sortBy (fs.map k) (fs.map g) = (fs.insertionSort fun a b => k a ≤ k b).map g := by
  unfold sortBy
  have : (fs.map k).zip (fs.map g) = fs.map fun f => (k f, g f) := by
    rw [List.zip_map']
  rw [this, ← List.map_insertionSort (r := fun a b => k a ≤ k b)]
  · simp
  · intros; rfl

theorem sorted_map {κ} [LE κ] [DecidableRel (α := κ) (· ≤ ·)] (k : Feature → κ) (fs : List Feature) :
    sorted (fs.map k) = (fs.insertionSort fun a b => k a ≤ k b).map k := by
  unfold sorted
  rw [← List.map_insertionSort (r := fun a b => k a ≤ k b)]
  intros; rfl

theorem Shows.length {c : Cond} {fs : List Feature} (h : Shows c fs) : c.length = fs.length := by
  simp [Cond.length, h.1]

theorem sortF_short (by_ : String) {fs : List Feature} (h : fs.length ≤ 1) : sortF by_ fs = fs := by
  match fs, h with
  | [], _ => simp [sortF]
  | [a], _ => simp [sortF]

/-- What `sort` does to the features. -/
theorem sort_shows {by_ : String} {c : Cond} {fs : List Feature} (h : Shows c fs)
    (hb : by_ = "index" ∨ by_ = "name" ∨ fs.length ≤ 1) :
    ∃ c', c.sort by_ = .ok c' ∧ Shows c' (sortF by_ fs) ∧ c'.impossible = c.impossible := by
  by_cases hl : c.length > 1
  · obtain ⟨h1, h2, h3, h4⟩ := h
    have hl' : ¬ fs.length ≤ 1 := by
      rw [Shows.length ⟨h1, h2, h3, h4⟩] at hl; omega
    rcases hb with rfl | rfl | hb
    · refine ⟨{ c with
        bmins := some (sortBy (fs.map (·.index)) (fs.map (·.lo)))
        bmaxs := some (sortBy (fs.map (·.index)) (fs.map (·.hi)))
        names := some (sortBy (fs.map (·.index)) (fs.map (·.name)))
        indexes := some (sorted (fs.map (·.index))) }, ?_, ?_, rfl⟩
      · simp [Cond.sort, hl, h1, h2, h3, h4, need, bind, Except.bind]
      · refine ⟨?_, ?_, ?_, ?_⟩ <;> simp only [sortF, sortBy_map, sorted_map, if_true]
    · refine ⟨{ c with
        bmins := some (sortBy (fs.map (·.name)) (fs.map (·.lo)))
        bmaxs := some (sortBy (fs.map (·.name)) (fs.map (·.hi)))
        indexes := some (sortBy (fs.map (·.name)) (fs.map (·.index)))
        names := some (sorted (fs.map (·.name))) }, ?_, ?_, rfl⟩
      · simp [Cond.sort, hl, h1, h2, h3, h4, need, bind, Except.bind]
      · have hne : ¬ "name" = "index" := by decide
        refine ⟨?_, ?_, ?_, ?_⟩ <;> simp only [sortF, hne, sortBy_map, sorted_map, if_false]
    · exact absurd hb hl'
  · refine ⟨c, by simp [sort, hl], ?_, rfl⟩
    rw [sortF_short]
    · exact h
    · rw [← Shows.length h]; omega

theorem sort_ok_cases {by_ : String} {c c' : Cond} {fs : List Feature} (h : Shows c fs)
    (hs : c.sort by_ = .ok c') : by_ = "index" ∨ by_ = "name" ∨ fs.length ≤ 1 := by
  by_cases h1 : by_ = "index"
  · exact .inl h1
  · by_cases h2 : by_ = "name"
    · exact .inr (.inl h2)
    · refine .inr (.inr ?_)
      by_contra hl
      have : c.length > 1 := by rw [Shows.length h]; omega
      simp [sort, this, h1, h2] at hs

theorem any_perm {α} {p : α → Bool} {l l' : List α} (h : l.Perm l') : l.any p = l'.any p := by
  rw [Bool.eq_iff_iff]; simp only [List.any_eq_true]
  exact ⟨fun ⟨x, hx, hp⟩ => ⟨x, h.mem_iff.1 hx, hp⟩, fun ⟨x, hx, hp⟩ => ⟨x, h.mem_iff.2 hx, hp⟩⟩

theorem Regular.sort {by_ : String} {c c' : Cond} {fs : List Feature} (h : Regular c fs)
    (hs : c.sort by_ = .ok c') : Regular c' (sortF by_ fs) := by
  obtain ⟨d, hd, hsh, himp⟩ := sort_shows h.shows (sort_ok_cases h.shows hs)
  rw [hs] at hd
  cases hd
  have hp := sortF_perm by_ fs
  exact ⟨hsh, (hp.map _).nodup_iff.2 h.names_nodup, (hp.map _).nodup_iff.2 h.idx_nodup,
    by rw [himp, h.imp, any_perm hp]⟩

theorem someInverted_map (fs : List Feature) :
    someInverted (fs.map (·.lo)) (fs.map (·.hi)) = fs.any fun f => f.hi.lt f.lo := by
  unfold someInverted
  rw [List.zip_map']
  simp [List.any_map, Function.comp_def]

/-- Four lists of the same length are the columns of a list of features. -/
theorem features_of_lists : ∀ {na : List String} {idx : List Int} {lo hi : List Num},
    idx.length = na.length → lo.length = na.length → hi.length = na.length →
    ∃ fs : List Feature, na = fs.map (·.name) ∧ idx = fs.map (·.index) ∧ lo = fs.map (·.lo) ∧ hi = fs.map (·.hi)
  | [], [], [], [], _, _, _ => ⟨[], by simp⟩
  | n :: na, i :: idx, l :: lo, h :: hi, h1, h2, h3 => by
    obtain ⟨fs, e1, e2, e3, e4⟩ := features_of_lists (na := na) (idx := idx) (lo := lo) (hi := hi)
      (by simpa using h1) (by simpa using h2) (by simpa using h3)
    exact ⟨⟨n, i, l, h⟩ :: fs, by simp [← e1, ← e2, ← e3, ← e4]⟩

/-- The end of the constructor, once the types are checked. -/
def initFeat (by_ : String) (fs : List Feature) (sort_ : Bool) : Except Err Cond :=
  if ¬ (fs.map (·.index)).Nodup then .error .duplicatedFeatures
  else if ¬ (fs.map (·.name)).Nodup then .error .duplicatedFeatures
  else
    let c : Cond :=
      { indexes := some (fs.map (·.index)), bmins := some (fs.map (·.lo)), bmaxs := some (fs.map (·.hi)),
        names := some (fs.map (·.name)), impossible := fs.any fun f => f.hi.lt f.lo }
    if sort_ then c.sort by_ else .ok c

/-- The constructor given as many indexes, names and bounds. -/
theorem init_named {by_ : String} {idx lo hi na : List V} {s : Bool} (h1 : idx.length = na.length)
    (h2 : lo.length = na.length) (h3 : hi.length = na.length) :
    (∃ fs, na.map V.str? = fs.map (fun f => some f.name) ∧ idx.map V.int? = fs.map (fun f => some f.index) ∧
      lo.map V.num? = fs.map (fun f => some f.lo) ∧ hi.map V.num? = fs.map (fun f => some f.hi) ∧
      init by_ (some idx) (some lo) (some hi) (some na) false s = initFeat by_ fs s) ∨
    ((none ∈ na.map V.str? ∨ none ∈ idx.map V.int? ∨ none ∈ lo.map V.num? ∨ none ∈ hi.map V.num?) ∧
      init by_ (some idx) (some lo) (some hi) (some na) false s = .error .typeError) := by
  have key : ∀ {α} (f : V → Option α) (l : List V),
      (∃ r, checkAll f l = .ok r ∧ l.map f = r.map some ∧ r.length = l.length) ∨
      (none ∈ l.map f ∧ checkAll f l = .error .typeError) := by
    intro α f l
    cases h : checkAll f l with
    | ok r =>
      have := checkAll_ok.1 h
      exact .inl ⟨r, rfl, this, by simpa using (congrArg List.length this).symm⟩
    | error e =>
      right
      have he : e = .typeError := by
        unfold checkAll at h
        cases hm : l.mapM f with
        | none => simp [hm] at h; exact h.symm
        | some r => simp [hm] at h
      refine ⟨?_, by rw [he]⟩
      by_contra hn
      have : ∃ r : List α, l.map f = r.map some := by
        clear h
        induction l with
        | nil => exact ⟨[], rfl⟩
        | cons a t ih =>
          simp only [List.map_cons, List.mem_cons, not_or] at hn
          obtain ⟨r, hr⟩ := ih hn.2
          cases hf : f a with
          | none => exact absurd hf.symm hn.1
          | some x => exact ⟨x :: r, by simp [hf, hr]⟩
      obtain ⟨r, hr⟩ := this
      rw [checkAll_ok.2 hr] at h
      cases h
  have hlen : ¬ hi.length ≠ idx.length := by omega
  have hlen2 : ¬ lo.length ≠ idx.length := by omega
  have hlen3 : na.length = idx.length := by omega
  rcases key V.str? na with ⟨rn, en, mn, ln⟩ | ⟨hn, en⟩
  · rcases key V.num? lo with ⟨rl, el, ml, ll⟩ | ⟨hn, el⟩
    · rcases key V.num? hi with ⟨rh, eh, mh, lh⟩ | ⟨hn, eh⟩
      · rcases key V.int? idx with ⟨ri, ei, mi, li⟩ | ⟨hn, ei⟩
        · left
          obtain ⟨fs, e1, e2, e3, e4⟩ := features_of_lists (na := rn) (idx := ri) (lo := rl) (hi := rh)
            (by omega) (by omega) (by omega)
          subst e1 e2 e3 e4
          refine ⟨fs, by simpa [Function.comp_def] using mn,
            by simpa [Function.comp_def] using mi, by simpa [Function.comp_def] using ml,
            by simpa [Function.comp_def] using mh, ?_⟩
          simp only [init, hlen, hlen2, hlen3, en, el, eh, ei, initFeat, someInverted_map, bind, Except.bind,
            Except.map, Bool.false_eq_true, if_false, ne_eq, not_true_eq_false, decide_false]
        · exact .inr ⟨.inr (.inl hn), by
            simp [init, hlen, hlen2, hlen3, en, el, eh, ei, bind, Except.bind, Except.map]⟩
      · exact .inr ⟨.inr (.inr (.inr hn)), by
          simp [init, hlen, hlen2, hlen3, en, el, eh, bind, Except.bind, Except.map]⟩
    · exact .inr ⟨.inr (.inr (.inl hn)), by
        simp [init, hlen, hlen2, hlen3, en, el, bind, Except.bind, Except.map]⟩
  · exact .inr ⟨.inl hn, by
      simp [init, hlen, hlen2, hlen3, en, bind, Except.bind, Except.map]⟩

theorem init_no_names {by_ : String} {idx : List V} {lo hi : Option (List V)} {s : Bool} {r : List Int}
    (h : idx.map V.int? = r.map some) :
    init by_ (some idx) lo hi none false s =
      init by_ (some idx) lo hi (some (r.map fun i => V.str (defaultName i))) false s := by
  have h1 := checkAll_ok.2 h
  have h2 : checkAll V.str? (r.map fun i => V.str (defaultName i)) = .ok (r.map defaultName) := by
    rw [checkAll_ok]; simp [V.str?]
  have h3 : r.length = idx.length := by simpa using (congrArg List.length h).symm
  match lo, hi with
  | none, _ => simp [init]
  | some _, none => simp [init]
  | some l, some u =>
    cases h4 : checkAll V.num? l <;> cases h5 : checkAll V.num? u <;>
      simp [init, h1, h2, h3, h4, h5, Except.map, bind, Except.bind]

theorem init_no_indexes {by_ : String} {na : List V} {lo hi : Option (List V)} {s : Bool} :
    init by_ none lo hi (some na) false s =
      init by_ (some ((List.range na.length).map fun k : Nat => V.int k)) lo hi (some na) false s := by
  cases lo <;> cases hi <;> simp [init]

/-- A successful call of the constructor. -/
theorem init_ok {by_ : String} {i lo hi n : Option (List V)} {s : Bool} {c : Cond}
    (h : init by_ i lo hi n false s = .ok c) : ∃ fs, initFeat by_ fs s = .ok c := by
  have named : ∀ {idx na : List V}, init by_ (some idx) lo hi (some na) false s = .ok c →
      ∃ fs, initFeat by_ fs s = .ok c := by
    intro idx na h
    match lo, hi, h with
    | none, _, h => simp [init] at h
    | some _, none, h => simp [init] at h
    | some l, some u, h =>
      by_cases h1 : u.length = idx.length
      · by_cases h2 : l.length = idx.length
        · by_cases h3 : na.length = idx.length
          · rcases init_named (by_ := by_) (s := s) (idx := idx) (na := na) (lo := l) (hi := u)
              (by omega) (by omega) (by omega) with ⟨fs, -, -, -, -, e⟩ | ⟨-, e⟩
            · exact ⟨fs, e ▸ h⟩
            · rw [e] at h; cases h
          · simp [init, h1, h2, h3, bind, Except.bind] at h
        · simp [init, h1, h2, bind, Except.bind] at h
      · simp [init, h1, bind, Except.bind] at h
  match i, n, h with
  | some idx, some na, h => exact named h
  | none, some na, h => rw [init_no_indexes] at h; exact named h
  | none, none, h => cases lo <;> cases hi <;> simp [init, bind, Except.bind] at h
  | some idx, none, h =>
    cases hc : checkAll V.int? idx with
    | ok r => rw [init_no_names (checkAll_ok.1 hc)] at h; exact named h
    | error e =>
      exfalso
      match lo, hi, h with
      | none, _, h => simp [init] at h
      | some _, none, h => simp [init] at h
      | some l, some u, h =>
        simp only [init, bind, Except.bind, hc, Bool.false_eq_true, if_false] at h
        split at h
        · simp at h
        split at h
        · simp at h
        cases h4 : checkAll V.num? l <;> cases h5 : checkAll V.num? u <;> simp [h4, h5] at h

theorem initFeat_regular {by_ : String} {fs : List Feature} {s : Bool} {c : Cond} (h : initFeat by_ fs s = .ok c) :
    Regular c (if s then sortF by_ fs else fs) ∧ (fs.map (·.name)).Nodup ∧ (fs.map (·.index)).Nodup := by
  unfold initFeat at h
  by_cases h1 : (fs.map (·.index)).Nodup
  · by_cases h2 : (fs.map (·.name)).Nodup
    · simp only [h1, h2, not_true_eq_false, if_false] at h
      refine ⟨?_, h2, h1⟩
      cases s with
      | true => exact Regular.sort ⟨⟨rfl, rfl, rfl, rfl⟩, h2, h1, rfl⟩ h
      | false => cases h; exact ⟨⟨rfl, rfl, rfl, rfl⟩, h2, h1, rfl⟩
    · simp [h1, h2] at h
  · simp [h1] at h

theorem initFeat_ok {by_ : String} {fs : List Feature} {s : Bool} (hb : by_ = "index" ∨ by_ = "name")
    (h1 : (fs.map (·.name)).Nodup) (h2 : (fs.map (·.index)).Nodup) : ∃ c, initFeat by_ fs s = .ok c := by
  unfold initFeat
  simp only [h1, h2, not_true_eq_false, if_false]
  cases s with
  | false => exact ⟨_, rfl⟩
  | true =>
    obtain ⟨c, hc, -⟩ := sort_shows (by_ := by_)
      (c := { indexes := some (fs.map (·.index)), bmins := some (fs.map (·.lo)), bmaxs := some (fs.map (·.hi)),
              names := some (fs.map (·.name)), impossible := fs.any fun f => f.hi.lt f.lo })
      (fs := fs) ⟨rfl, rfl, rfl, rfl⟩ (by tauto)
    exact ⟨c, by simpa using hc⟩

theorem initTyped_features (by_ : String) (fs : List Feature) :
    initTyped by_ (some (fs.map (·.index))) (some (fs.map (·.lo))) (some (fs.map (·.hi)))
      (some (fs.map (·.name))) = initFeat by_ fs true := by
  unfold initTyped
  simp only [Option.map_some, List.map_map]
  rcases init_named (by_ := by_) (s := true) (idx := fs.map (V.int ∘ (·.index))) (na := fs.map (V.str ∘ (·.name)))
      (lo := fs.map (V.float ∘ (·.lo))) (hi := fs.map (V.float ∘ (·.hi))) (by simp) (by simp) (by simp)
    with ⟨gs, h1, h2, h3, h4, e⟩ | ⟨h, e⟩
  · have : gs = fs := by
      simp only [List.map_map, Function.comp_def, V.str?, V.int?, V.num?] at h1 h2 h3 h4
      clear e
      induction gs generalizing fs with
      | nil => cases fs <;> simp_all
      | cons g gs ih =>
        cases fs with
        | nil => simp at h1
        | cons f fs =>
          simp only [List.map_cons, List.cons.injEq, Option.some.injEq] at h1 h2 h3 h4
          rw [ih fs h1.2 h2.2 h3.2 h4.2]
          cases f; cases g; simp_all
    rw [← this, ← e, this]
  · exfalso
    simp [V.str?, V.int?, V.num?] at h

/-! ## Evaluation -/

/-- The test of one feature, as computed. -/
def passes (f : Feature) (x : Num) : Bool := f.lo.le x && x.le f.hi && x.isFinite

theorem passes_iff (f : Feature) (x : Num) : passes f x = true ↔ Within f.lo f.hi x := by
  unfold passes Within
  cases x with
  | fin q =>
    simp only [Num.isFinite, Bool.and_true, Bool.and_eq_true, Num.fin.injEq, exists_eq_left']
    constructor
    · rintro ⟨h1, h2⟩
      constructor
      · cases h : f.lo <;> simp_all [AtLeast, Num.le]
      · cases h : f.hi <;> simp_all [AtMost, Num.le]
    · rintro ⟨h1, h2⟩
      constructor
      · cases h : f.lo <;> simp_all [AtLeast, Num.le]
      · cases h : f.hi <;> simp_all [AtMost, Num.le]
  | _ => simp [Num.isFinite]

theorem maskWith_map {ρ} (rows : List ρ) (P : ρ → Bool) (t : Num → Bool) (g : ρ → Num) :
    maskWith (rows.map fun r => (P r).toNat) t (rows.map g) = rows.map fun r => (P r && t (g r)).toNat := by
  unfold maskWith
  rw [List.zipWith_map, List.zipWith_self]
  apply List.map_congr_left
  intro r _
  cases P r <;> cases t (g r) <;> rfl

theorem evalStep_ok {ρ} {c : Cond} {fs : List Feature} (hs : Shows c fs) {i : Nat} {f : Feature} (hf : fs[i]? = some f)
    (rows : List ρ) (P : ρ → Bool) (g : ρ → Num) :
    evalStep c (rows.map fun r => (P r).toNat) i (.ok (rows.map g)) =
      .ok (rows.map fun r => (P r && passes f (g r)).toNat) := by
  unfold evalStep
  simp only [hs.2.2.1, hs.2.2.2, need, item, List.getElem?_map, hf, Option.map_some, bind, Except.bind,
    maskWith_map, passes]
  congr 1
  apply List.map_congr_left
  intro r _
  simp [Bool.and_assoc]

/-- The loop of `evaluate` when every column can be read. -/
theorem evalLoop_ok {ρ κ} {c : Cond} {fs : List Feature} (hs : Shows c fs) (rows : List ρ) (k : Feature → κ)
    (column : κ → Except Err (List Num)) (val : Feature → ρ → Num)
    (hc : ∀ f ∈ fs, column (k f) = .ok (rows.map (val f))) :
    ∀ (post pre : List Feature) (P : ρ → Bool), fs = pre ++ post →
    ((post.map k).zipIdx pre.length).foldlM (fun mask p => evalStep c mask p.2 (column p.1))
        (rows.map fun r => (P r).toNat) =
      .ok (rows.map fun r => (P r && post.all fun f => passes f (val f r)).toNat)
  | [], pre, P, _ => by simp; rfl
  | f :: post, pre, P, h => by
    have hf : fs[pre.length]? = some f := by rw [h]; simp
    simp only [List.map_cons, List.zipIdx_cons, List.foldlM_cons]
    rw [hc f (by rw [h]; simp), evalStep_ok hs hf]
    have := evalLoop_ok hs rows k column val hc post (pre ++ [f]) (fun r => P r && passes f (val f r))
      (by rw [h]; simp)
    simp only [List.length_append, List.length_singleton] at this
    simp only [bind, Except.bind]
    rw [this]
    simp [Bool.and_assoc]

/-- The loop of `evaluate` when some column cannot be read. -/
theorem evalLoop_err {ρ κ} {c : Cond} {fs : List Feature} (hs : Shows c fs) (rows : List ρ) (k : Feature → κ)
    (column : κ → Except Err (List Num)) (val : Feature → ρ → Num)
    (hc : ∀ f ∈ fs, column (k f) = .ok (rows.map (val f)) ∨ column (k f) = .error .indexError) :
    ∀ (post pre : List Feature) (P : ρ → Bool), fs = pre ++ post →
    (∃ f ∈ post, column (k f) = .error .indexError) →
    ((post.map k).zipIdx pre.length).foldlM (fun mask p => evalStep c mask p.2 (column p.1))
        (rows.map fun r => (P r).toNat) = .error .indexError
  | [], pre, P, _, he => by simp at he
  | f :: post, pre, P, h, he => by
    have hf : fs[pre.length]? = some f := by rw [h]; simp
    simp only [List.map_cons, List.zipIdx_cons, List.foldlM_cons]
    rcases hc f (by rw [h]; simp) with h1 | h1
    · rw [h1, evalStep_ok hs hf]
      have := evalLoop_err hs rows k column val hc post (pre ++ [f]) (fun r => P r && passes f (val f r))
        (by rw [h]; simp) (by
          obtain ⟨g, hg, hge⟩ := he
          rcases List.mem_cons.1 hg with rfl | hg
          · rw [h1] at hge; cases hge
          · exact ⟨g, hg, hge⟩)
      simp only [List.length_append, List.length_singleton] at this
      simp only [bind, Except.bind]
      exact this
    · rw [h1]; simp [evalStep, bind, Except.bind]

theorem conj_self {α : Type _} (rows : List α) (P : α → Bool) :
    conj (conj (rows.map fun r => (P r).toNat) (rows.map fun r => (P r).toNat)) (rows.map fun r => (P r).toNat) =
      rows.map fun r => (P r).toNat := by
  have : conj (rows.map fun r => (P r).toNat) (rows.map fun r => (P r).toNat) = rows.map fun r => (P r).toNat := by
    unfold conj
    rw [List.zipWith_map, List.zipWith_self]
    apply List.map_congr_left
    intro r _
    cases P r <;> rfl
  rw [this, this]

theorem toNat_flag (b : Bool) (p : Prop) (h : b = true ↔ p) : b.toNat = flag p := by
  unfold flag
  cases b <;> simp_all

theorem column_ok {xs : Mat} {j : Int} (h : InRange xs.ncols j) :
    Mat.column xs j = .ok (xs.rows.map fun r => cell xs.ncols r j) := by
  obtain ⟨h1, h2⟩ := h
  unfold Mat.column wrap cell
  by_cases h0 : 0 ≤ j <;> simp [h0, h1, h2]

theorem column_err {xs : Mat} {j : Int} (h : ¬ InRange xs.ncols j) : Mat.column xs j = .error .indexError := by
  unfold InRange at h
  unfold Mat.column wrap
  by_cases h0 : 0 ≤ j
  · have : ¬ j < xs.ncols := by omega
    simp [h0, this]
  · have : ¬ -(xs.ncols : Int) ≤ j := by omega
    simp [h0, this]

/-- `impossible` is only set when no row can pass. -/
theorem inverted_fails {f : Feature} (h : f.hi.lt f.lo = true) (x : Num) : ¬ Within f.lo f.hi x := by
  rw [← passes_iff]
  unfold passes
  intro hp
  simp only [Bool.and_eq_true] at hp
  have hle := Num.le_trans' hp.1.1 hp.1.2
  simp [Num.lt, hle] at h

theorem evaluate_shows {c : Cond} {fs : List Feature} (hs : Shows c fs)
    (himp : c.impossible = true → ∃ f ∈ fs, f.hi.lt f.lo = true) {xs : Mat}
    (hr : ∀ f ∈ fs, InRange xs.ncols f.index) :
    evaluate c xs = .ok (xs.rows.map fun r => flag (InBox fs xs.ncols r)) := by
  unfold evaluate
  by_cases hi : c.impossible = true
  · obtain ⟨f, hf, hlt⟩ := himp hi
    simp only [hi, if_true]
    congr 1
    rw [List.eq_replicate_of_mem (l := xs.rows.map _) (a := 0)]
    · simp
    · intro b hb
      obtain ⟨r, -, rfl⟩ := List.mem_map.1 hb
      have : ¬ InBox fs xs.ncols r := fun h => inverted_fails hlt _ (h f hf)
      simp [flag, this]
  · simp only [hi, if_false, Bool.false_eq_true, hs.2.1, need, bind, Except.bind]
    have hany : (fs.map (·.index)).any (fun i => decide (i ≥ (xs.ncols : Int))) = false := by
      simp only [List.any_eq_false, List.mem_map, forall_exists_index, and_imp, forall_apply_eq_imp_iff₂,
        decide_eq_true_eq, not_le, ge_iff_le]
      exact fun f hf => (hr f hf).2
    rw [hany]
    have := evalLoop_ok hs xs.rows (·.index) (Mat.column xs) (fun f r => cell xs.ncols r f.index)
      (fun f hf => column_ok (hr f hf)) fs [] (fun _ => true) rfl
    simp only [List.length_nil, Bool.true_and] at this
    have h1 : (xs.rows.map fun _ => (true).toNat) = List.replicate xs.rows.length 1 := by simp
    rw [h1] at this
    simp only [this, Bool.false_eq_true, if_false]
    rw [conj_self]
    congr 1
    apply List.map_congr_left
    intro r _
    apply toNat_flag
    simp [InBox, passes_iff]

theorem evaluate_out_of_range {c : Cond} {fs : List Feature} (hs : Shows c fs) (himp : c.impossible = false) {xs : Mat}
    (hr : ∃ f ∈ fs, ¬ InRange xs.ncols f.index) : evaluate c xs = .error .indexError := by
  unfold evaluate
  simp only [himp, Bool.false_eq_true, if_false, hs.2.1, need, bind, Except.bind]
  split
  · rfl
  · have := evalLoop_err hs xs.rows (·.index) (Mat.column xs) (fun f r => cell xs.ncols r f.index)
      (fun f _ => by
        by_cases h : InRange xs.ncols f.index
        · exact .inl (column_ok h)
        · exact .inr (column_err h)) fs [] (fun _ => true) rfl
        (by obtain ⟨f, hf, h⟩ := hr; exact ⟨f, hf, column_err h⟩)
    have h1 : (xs.rows.map fun _ => (true).toNat) = List.replicate xs.rows.length 1 := by simp
    simp only [List.length_nil, h1] at this
    rw [this]

theorem frameColumn_ok {xs : Frame} {n : String} (h : n ∈ xs.columns) :
    Frame.column xs n = .ok (xs.rows.map fun r => cellNamed xs.columns r n) := by
  simp [Frame.column, h, cellNamed]

theorem evaluateFrame_shows {c : Cond} {fs : List Feature} (hs : Shows c fs)
    (himp : c.impossible = true → ∃ f ∈ fs, f.hi.lt f.lo = true) {xs : Frame} (hne : fs ≠ [])
    (hr : ∀ f ∈ fs, f.name ∈ xs.columns) :
    evaluateFrame c xs = .ok (xs.rows.map fun r => flag (InBoxNamed fs xs.columns r)) := by
  unfold evaluateFrame
  by_cases hi : c.impossible = true
  · obtain ⟨f, hf, hlt⟩ := himp hi
    simp only [hi, if_true]
    congr 1
    rw [List.eq_replicate_of_mem (l := xs.rows.map _) (a := 0)]
    · simp
    · intro b hb
      obtain ⟨r, -, rfl⟩ := List.mem_map.1 hb
      have : ¬ InBoxNamed fs xs.columns r := fun h => inverted_fails hlt _ (h f hf)
      simp [flag, this]
  · simp only [hi, if_false, Bool.false_eq_true, hs.1, need, bind, Except.bind]
    have hany : (fs.map (·.name)).any (fun n => decide (n ∉ xs.columns)) = false := by
      simp only [List.any_eq_false, List.mem_map, forall_exists_index, and_imp, forall_apply_eq_imp_iff₂,
        decide_eq_true_eq, not_not]
      exact hr
    rw [hany]
    have := evalLoop_ok hs xs.rows (·.name) (Frame.column xs) (fun f r => cellNamed xs.columns r f.name)
      (fun f hf => frameColumn_ok (hr f hf)) fs [] (fun _ => true) rfl
    simp only [List.length_nil, Bool.true_and] at this
    have h1 : (xs.rows.map fun _ => (true).toNat) = List.replicate xs.rows.length 1 := by simp
    rw [h1] at this
    have hne' : ¬ fs.map (·.name) = [] := by simpa using hne
    simp only [this, Bool.false_eq_true, if_false, hne']
    rw [conj_self]
    congr 1
    apply List.map_congr_left
    intro r _
    apply toNat_flag
    simp [InBoxNamed, passes_iff]

theorem evaluateFrame_missing {c : Cond} {fs : List Feature} (hs : Shows c fs) (himp : c.impossible = false)
    {xs : Frame} (hr : ∃ f ∈ fs, f.name ∉ xs.columns) : evaluateFrame c xs = .error .indexError := by
  unfold evaluateFrame
  obtain ⟨f, hf, h⟩ := hr
  have hany : (fs.map (·.name)).any (fun n => decide (n ∉ xs.columns)) = true := by
    simp only [List.any_eq_true, List.mem_map]
    exact ⟨f.name, ⟨f, hf, rfl⟩, by simpa using h⟩
  simp only [himp, Bool.false_eq_true, if_false, hs.1, need, bind, Except.bind, hany, if_true]

end Cond

end Verif
