import Verif.ConditionBox

/-!
# Properties of conditions (C11 - C15)
-/

namespace Verif.ConditionProps

open Verif Spec Cond

/-! ## Concrete conditions for the examples -/

/-- Two features, given in the "wrong" order: `HyperrectangleCondition([2, 0], bmins=[1, -1], bmaxs=[3, inf],
features_names=["b", "a"])`. -/
def twoFeatures : List Feature := [⟨"b", 2, .fin 1, .fin 3⟩, ⟨"a", 0, .fin (-1), .inf⟩]

/-- Call the constructor with these features. -/
def build (by_ : String) (fs : List Feature) (sort_ : Bool) : Except Err Cond :=
  init by_ (some (fs.map fun f => V.int f.index)) (some (fs.map fun f => V.float f.lo))
    (some (fs.map fun f => V.float f.hi)) (some (fs.map fun f => V.str f.name)) false sort_

theorem reach_build {by_ : String} {fs : List Feature} {s : Bool} {c : Cond} (h : build by_ fs s = .ok c) : Reach c :=
  .init h

/-- The condition the constructor makes of `twoFeatures`. -/
def two : Cond :=
  { indexes := some [0, 2], bmins := some [.fin (-1), .fin 1], bmaxs := some [.inf, .fin 3], names := some ["a", "b"],
    impossible := false }

theorem two_built : build "index" twoFeatures true = .ok two := by decide +kernel

theorem two_reach : Reach two := .init two_built

/-- One feature, shared with `two`. -/
def one : Cond :=
  { indexes := some [0], bmins := some [.fin 0], bmaxs := some [.fin 5], names := some ["a"], impossible := false }

theorem one_built : build "index" [⟨"a", 0, .fin 0, .fin 5⟩] true = .ok one := by decide +kernel

theorem one_reach : Reach one := .init one_built

/-- A condition nothing satisfies. -/
def never : Cond :=
  { indexes := some [7], bmins := some [.fin 2], bmaxs := some [.fin 1], names := some ["z"], impossible := true }

theorem never_built : build "index" [⟨"z", 7, .fin 2, .fin 1⟩] true = .ok never := by decide +kernel

theorem never_reach : Reach never := .init never_built

/-! ## C11 -/

/-- **C11.** Evaluating a condition on an array which has all its columns gives one entry per row, 1 exactly for the rows
whose values of the features are all finite and within the bounds. -/
theorem C11_evaluate {c : Cond} {fs : List Feature} {xs : Mat} (h : Reach c) (hs : Shows c fs)
    (hr : ∀ f ∈ fs, InRange xs.ncols f.index) :
    evaluate c xs = .ok (xs.rows.map fun r => flag (InBox fs xs.ncols r)) := by
  obtain ⟨gs, hg⟩ := reach_regular h
  have := Shows.unique hs hg.shows
  subst this
  exact evaluate_shows hs hg.imp' hr

/-- `two` on an array with three columns and rows with NaN and infinity. -/
example : Reach two ∧ Shows two [⟨"a", 0, .fin (-1), .inf⟩, ⟨"b", 2, .fin 1, .fin 3⟩] ∧
    (∀ f ∈ [(⟨"a", 0, .fin (-1), .inf⟩ : Feature), ⟨"b", 2, .fin 1, .fin 3⟩], InRange 3 f.index) ∧
    evaluate two ⟨3, [[.fin 0, .nan, .fin 2], [.inf, .fin 0, .fin 2], [.fin (-1), .inf, .fin 3], [.fin 0, .fin 0, .nan]]⟩
      = .ok [1, 0, 1, 0] := by
  refine ⟨two_reach, ⟨rfl, rfl, rfl, rfl⟩, ?_, by decide +kernel⟩
  intro f hf
  simp only [List.mem_cons, List.not_mem_nil, or_false] at hf
  rcases hf with rfl | rfl <;> exact ⟨by decide, by decide⟩

/-- **C11 (DataFrame).** The same for a DataFrame, where features are found by name. -/
theorem C11_evaluate_named {c : Cond} {fs : List Feature} {xs : Frame} (h : Reach c) (hs : Shows c fs) (hne : fs ≠ [])
    (hr : ∀ f ∈ fs, f.name ∈ xs.columns) :
    evaluateFrame c xs = .ok (xs.rows.map fun r => flag (InBoxNamed fs xs.columns r)) := by
  obtain ⟨gs, hg⟩ := reach_regular h
  have := Shows.unique hs hg.shows
  subst this
  exact evaluateFrame_shows hs hg.imp' hne hr

example : Reach two ∧ Shows two [⟨"a", 0, .fin (-1), .inf⟩, ⟨"b", 2, .fin 1, .fin 3⟩] ∧
    (∀ f ∈ [(⟨"a", 0, .fin (-1), .inf⟩ : Feature), ⟨"b", 2, .fin 1, .fin 3⟩], f.name ∈ ["b", "c", "a"]) ∧
    evaluateFrame two ⟨["b", "c", "a"], [[.fin 2, .nan, .fin 0], [.fin 0, .fin 0, .fin 0]]⟩ = .ok [1, 0] := by
  refine ⟨two_reach, ⟨rfl, rfl, rfl, rfl⟩, ?_, by decide +kernel⟩
  intro f hf
  simp only [List.mem_cons, List.not_mem_nil, or_false] at hf
  rcases hf with rfl | rfl <;> simp

/-- **C11 (out of range), partial.** A column which the array does not have raises `IndexError`.  Missing: this is false
of impossible conditions (`C11_out_of_range_false`). -/
theorem C11_out_of_range_partial {c : Cond} {fs : List Feature} {xs : Mat} (h : Reach c) (hs : Shows c fs)
    (hp : ∀ f ∈ fs, ¬ Inverted f) (hr : ∃ f ∈ fs, ¬ InRange xs.ncols f.index) :
    evaluate c xs = .error .indexError := by
  obtain ⟨gs, hg⟩ := reach_regular h
  have := Shows.unique hs hg.shows
  subst this
  refine evaluate_out_of_range hs ?_ hr
  cases hi : c.impossible with
  | false => rfl
  | true => obtain ⟨f, hf, hlt⟩ := hg.imp' hi; exact absurd hlt (hp f hf)

example : Reach two ∧ (∀ f ∈ [(⟨"a", 0, .fin (-1), .inf⟩ : Feature), ⟨"b", 2, .fin 1, .fin 3⟩], ¬ Inverted f) ∧
    (∃ f ∈ [(⟨"a", 0, .fin (-1), .inf⟩ : Feature), ⟨"b", 2, .fin 1, .fin 3⟩], ¬ InRange 2 f.index) := by
  refine ⟨two_reach, by simp [Inverted]; decide +kernel, ⟨"b", 2, .fin 1, .fin 3⟩, by simp, ?_⟩
  rintro ⟨-, h⟩
  exact absurd h (by decide)

/-- **C11 (missing name), partial.** A feature which is not a column of the DataFrame raises `IndexError`, except
for impossible conditions. -/
theorem C11_missing_column_partial {c : Cond} {fs : List Feature} {xs : Frame} (h : Reach c) (hs : Shows c fs)
    (hp : ∀ f ∈ fs, ¬ Inverted f) (hr : ∃ f ∈ fs, f.name ∉ xs.columns) :
    evaluateFrame c xs = .error .indexError := by
  obtain ⟨gs, hg⟩ := reach_regular h
  have := Shows.unique hs hg.shows
  subst this
  refine evaluateFrame_missing hs ?_ hr
  cases hi : c.impossible with
  | false => rfl
  | true => obtain ⟨f, hf, hlt⟩ := hg.imp' hi; exact absurd hlt (hp f hf)

example : Reach one ∧ Shows one [⟨"a", 0, .fin 0, .fin 5⟩] ∧ (∀ f ∈ [(⟨"a", 0, .fin 0, .fin 5⟩ : Feature)], ¬ Inverted f) ∧
    ∃ f ∈ [(⟨"a", 0, .fin 0, .fin 5⟩ : Feature)], f.name ∉ ["b"] :=
  ⟨one_reach, ⟨rfl, rfl, rfl, rfl⟩, by simp [Inverted]; decide +kernel, by simp⟩

/-- **C11 (out of range) is false** of an impossible condition: asking for column 7 of an array with one column does not
raise `IndexError`. -/
theorem C11_out_of_range_false :
    ¬ ∀ {c : Cond} {fs : List Feature} {xs : Mat}, Reach c → Shows c fs → (∃ f ∈ fs, ¬ InRange xs.ncols f.index) →
      evaluate c xs = .error .indexError := by
  intro h
  have := h (c := never) (fs := [⟨"z", 7, .fin 2, .fin 1⟩]) (xs := ⟨1, [[.fin 0]]⟩) never_reach ⟨rfl, rfl, rfl, rfl⟩
    ⟨⟨"z", 7, .fin 2, .fin 1⟩, by simp, fun h => absurd h.2 (by decide)⟩
  exact absurd this (by decide +kernel)

/-- **C11 (no feature) is false for DataFrames**: a condition on no feature is met by every row of an array, and raises
`AttributeError` on a DataFrame. -/
theorem C11_no_feature_false :
    ∃ c, Reach c ∧ Shows c [] ∧ (∀ xs : Mat, evaluate c xs = .ok (xs.rows.map fun _ => 1)) ∧
      ∀ xs : Frame, evaluateFrame c xs = .error .attributeError := by
  refine ⟨{ indexes := some [], bmins := some [], bmaxs := some [], names := some [], impossible := false }, ?_,
    ⟨rfl, rfl, rfl, rfl⟩, ?_, ?_⟩
  · exact .init (by_ := "index") (i := some []) (lo := some []) (hi := some []) (n := none) (s := true) (by decide +kernel)
  · intro xs
    rw [evaluate_shows (fs := []) ⟨rfl, rfl, rfl, rfl⟩ (by simp) (by simp)]
    congr 1
    apply List.map_congr_left
    intro r _
    simp [InBox, flag]
  · intro xs
    exact evaluateFrame_none ⟨rfl, rfl, rfl, rfl⟩ rfl xs

/-! ## C12 -/

/-- The four arguments of the constructor, feature by feature: index, lower bound, upper bound, name. -/
abbrev Given := V × V × V × V

/-- **C12 (constructor).** Giving the features (whatever the Python objects given) to the constructor in another order gives
the very same condition, or the same exception. -/
theorem C12_order_of_arguments (by_ : String) {rows rows' : List Given} (h : rows.Perm rows') :
    init by_ (some (rows.map (·.1))) (some (rows.map (·.2.1))) (some (rows.map (·.2.2.1))) (some (rows.map (·.2.2.2)))
      false true =
    init by_ (some (rows'.map (·.1))) (some (rows'.map (·.2.1))) (some (rows'.map (·.2.2.1)))
      (some (rows'.map (·.2.2.2))) false true := by
  have hn : ∀ {α} (f : Given → Option α), none ∈ rows.map f ↔ none ∈ rows'.map f := fun f => (h.map f).mem_iff
  have typed : ∀ {rows : List Given} {fs : List Feature},
      (rows.map (·.2.2.2)).map V.str? = fs.map (fun f => some f.name) →
      (rows.map (·.1)).map V.int? = fs.map (fun f => some f.index) →
      (rows.map (·.2.1)).map V.num? = fs.map (fun f => some f.lo) →
      (rows.map (·.2.2.1)).map V.num? = fs.map (fun f => some f.hi) →
      rows.map (fun r => (V.str? r.2.2.2, V.int? r.1, V.num? r.2.1, V.num? r.2.2.1)) =
        fs.map (fun f => (some f.name, some f.index, some f.lo, some f.hi)) := by
    intro rows
    induction rows with
    | nil => intro fs h1; cases fs <;> simp_all
    | cons r rows ih =>
      intro fs h1 h2 h3 h4
      cases fs with
      | nil => simp at h1
      | cons f fs =>
        simp only [List.map_cons, List.cons.injEq] at h1 h2 h3 h4 ⊢
        refine ⟨?_, ih h1.2 h2.2 h3.2 h4.2⟩
        rw [h1.1, h2.1, h3.1, h4.1]
  rcases init_named (by_ := by_) (s := true) (idx := rows.map (·.1)) (na := rows.map (·.2.2.2)) (lo := rows.map (·.2.1))
      (hi := rows.map (·.2.2.1)) (by simp) (by simp) (by simp) with ⟨fs, a1, a2, a3, a4, e⟩ | ⟨a, e⟩
  · rcases init_named (by_ := by_) (s := true) (idx := rows'.map (·.1)) (na := rows'.map (·.2.2.2))
        (lo := rows'.map (·.2.1)) (hi := rows'.map (·.2.2.1)) (by simp) (by simp) (by simp)
      with ⟨gs, b1, b2, b3, b4, e'⟩ | ⟨b, e'⟩
    · rw [e, e']
      have t1 := typed a1 a2 a3 a4
      have t2 := typed b1 b2 b3 b4
      have hp := h.map (fun r => (V.str? r.2.2.2, V.int? r.1, V.num? r.2.1, V.num? r.2.2.1))
      rw [t1, t2] at hp
      have hp' := hp.map fun t => (⟨t.1.getD "", t.2.1.getD 0, t.2.2.1.getD .nan, t.2.2.2.getD .nan⟩ : Feature)
      simp only [List.map_map, Function.comp_def, Option.getD_some, List.map_id'] at hp'
      exact initFeat_perm by_ hp'
    · exfalso
      simp only [List.map_map] at b a1 a2 a3 a4
      rw [← hn, ← hn, ← hn, ← hn, a1, a2, a3, a4] at b
      simp at b
  · rcases init_named (by_ := by_) (s := true) (idx := rows'.map (·.1)) (na := rows'.map (·.2.2.2))
        (lo := rows'.map (·.2.1)) (hi := rows'.map (·.2.2.1)) (by simp) (by simp) (by simp)
      with ⟨gs, b1, b2, b3, b4, e'⟩ | ⟨b, e'⟩
    · exfalso
      simp only [List.map_map] at a b1 b2 b3 b4
      rw [hn, hn, hn, hn, b1, b2, b3, b4] at a
      simp at a
    · rw [e, e']

example : [((.int 2, .int 1, .float (.fin 3), .str "b") : Given), (.int 0, .int (-1), .float .inf, .str "a")].Perm
    [(.int 0, .int (-1), .float .inf, .str "a"), (.int 2, .int 1, .float (.fin 3), .str "b")] :=
  List.Perm.swap _ _ _

/-- **C12 (default names).** The same when names are left out. -/
theorem C12_order_default_names (by_ : String) {rows rows' : List (V × V × V)} (h : rows.Perm rows') :
    init by_ (some (rows.map (·.1))) (some (rows.map (·.2.1))) (some (rows.map (·.2.2))) none false true =
    init by_ (some (rows'.map (·.1))) (some (rows'.map (·.2.1))) (some (rows'.map (·.2.2))) none false true := by
  by_cases hn : none ∈ rows.map fun r => V.int? r.1
  · -- an index which is not an integer
    have bad : ∀ {rows : List (V × V × V)}, none ∈ rows.map (fun r => V.int? r.1) →
        init by_ (some (rows.map (·.1))) (some (rows.map (·.2.1))) (some (rows.map (·.2.2))) none false true =
          .error .typeError := by
      intro rows hn
      have hc : checkAll V.int? (rows.map (·.1)) = .error .typeError := by
        cases hc : checkAll V.int? (rows.map (·.1)) with
        | ok r =>
          exfalso
          have := checkAll_ok.1 hc
          rw [List.map_map] at this
          have h2 : none ∈ rows.map (V.int? ∘ fun x => x.1) := hn
          rw [this] at h2
          simp at h2
        | error e =>
          unfold checkAll at hc
          cases hm : (rows.map (·.1)).mapM V.int? with
          | none => simp [hm] at hc; rw [← hc]
          | some r => simp [hm] at hc
      have num : ∀ l : List V, (∃ r, checkAll V.num? l = .ok r) ∨ checkAll V.num? l = .error .typeError := by
        intro l
        unfold checkAll
        cases l.mapM V.num? <;> simp
      rcases num (rows.map (·.2.1)) with ⟨r1, h1⟩ | h1 <;> rcases num (rows.map (·.2.2)) with ⟨r2, h2⟩ | h2 <;>
        simp [init, hc, h1, h2, bind, Except.bind]
    rw [bad hn, bad ((h.map _).mem_iff.1 hn)]
  · -- all indexes are integers: add the names
    have good : ∀ {rows : List (V × V × V)}, none ∉ rows.map (fun r => V.int? r.1) →
        init by_ (some (rows.map (·.1))) (some (rows.map (·.2.1))) (some (rows.map (·.2.2))) none false true =
        init by_ (some (rows.map (·.1))) (some (rows.map (·.2.1))) (some (rows.map (·.2.2)))
          (some (rows.map fun r => V.str (defaultName ((V.int? r.1).getD 0)))) false true := by
      intro rows hn
      have hr : (rows.map (·.1)).map V.int? = (rows.map fun r => (V.int? r.1).getD 0).map some := by
        rw [List.map_map, List.map_map]
        apply List.map_congr_left
        intro r hr
        cases hv : V.int? r.1 with
        | none => exact absurd (List.mem_map.2 ⟨r, hr, hv⟩) hn
        | some i => simp [hv]
      rw [init_no_names hr, List.map_map]
      rfl
    rw [good hn, good (fun h' => hn ((h.map _).mem_iff.2 h'))]
    have hp := h.map (fun r => ((r.1, r.2.1, r.2.2, V.str (defaultName ((V.int? r.1).getD 0))) : Given))
    have := C12_order_of_arguments by_ hp
    simpa only [List.map_map, Function.comp_def] using this

example : [((.int 2, .int 1, .float (.fin 3)) : V × V × V), (.int 0, .int (-1), .float .inf)].Perm
    [(.int 0, .int (-1), .float .inf), (.int 2, .int 1, .float (.fin 3))] :=
  List.Perm.swap _ _ _

/-- **C12 (evaluation and equality).** Two conditions on the same features, in whatever order, select the same rows (or raise
the same exception) on every array and every DataFrame, and compare equal. -/
theorem C12_order_irrelevant {c d : Cond} {fs gs : List Feature} (hc : Reach c) (hd : Reach d) (hcs : Shows c fs)
    (hds : Shows d gs) (h : fs.Perm gs) :
    (∀ xs, evaluate c xs = evaluate d xs) ∧ (∀ xs, evaluateFrame c xs = evaluateFrame d xs) ∧
      ∀ H, Cond.eq H c d = .ok true := by
  obtain ⟨fs', hf⟩ := reach_regular hc
  obtain ⟨gs', hg⟩ := reach_regular hd
  have := Shows.unique hcs hf.shows
  subst this
  have := Shows.unique hds hg.shows
  subst this
  refine ⟨evaluate_perm hf hg h, evaluateFrame_perm hf hg h, fun H => ?_⟩
  unfold Cond.eq
  simp only [hash_regular hf, hash_regular hg, bind, Except.bind]
  rw [H.frozenset_perm _ _ (List.Perm.cons (H.str "c") (h.map (tripleHash H)))]
  simp

/-- `two` and its unsorted twin. -/
example : ∃ d, build "index" twoFeatures false = .ok d ∧ Reach two ∧ Reach d ∧
    Shows two [⟨"a", 0, .fin (-1), .inf⟩, ⟨"b", 2, .fin 1, .fin 3⟩] ∧ Shows d twoFeatures ∧
    [(⟨"a", 0, .fin (-1), .inf⟩ : Feature), ⟨"b", 2, .fin 1, .fin 3⟩].Perm twoFeatures :=
  ⟨_, rfl, two_reach, reach_build (by_ := "index") (fs := twoFeatures) (s := false) rfl, ⟨rfl, rfl, rfl, rfl⟩,
    ⟨rfl, rfl, rfl, rfl⟩, List.Perm.swap _ _ _⟩

/-- **C12 (sort).** Sorting puts the features in increasing order of index (or name) and keeps name, index and both bounds of
each feature together; evaluation and equality do not change. -/
theorem C12_sort {by_ : String} {c c' : Cond} {fs : List Feature} (h : Reach c) (hs : Shows c fs)
    (hc : c.sort by_ = .ok c') :
    ∃ gs, Shows c' gs ∧ gs.Perm fs ∧
      (by_ = "index" → gs.Pairwise fun f g => f.index < g.index) ∧
      (by_ = "name" → gs.Pairwise fun f g => f.name < g.name) ∧
      (∀ xs, evaluate c' xs = evaluate c xs) ∧ (∀ xs, evaluateFrame c' xs = evaluateFrame c xs) ∧
      ∀ H, Cond.eq H c' c = .ok true := by
  obtain ⟨fs', hf⟩ := reach_regular h
  have := Shows.unique hs hf.shows
  subst this
  have hr := hf.sort hc
  have hp := sortF_perm by_ fs
  refine ⟨_, hr.shows, hp, ?_, ?_, C12_order_irrelevant (.sort h hc) h hr.shows hs hp⟩
  · rintro rfl
    have h1 := sortF_index_sorted fs
    have h2 := List.pairwise_map.1 hr.idx_nodup
    exact (h1.and h2).imp fun ⟨a, b⟩ => lt_of_le_of_ne a b
  · rintro rfl
    have h1 := sortF_name_sorted (by_ := "name") (by decide) fs
    have h2 := List.pairwise_map.1 hr.names_nodup
    refine (h1.and h2).imp fun {f g} ⟨a, b⟩ => ?_
    rcases Decidable.em (f.name < g.name) with h3 | h3
    · exact h3
    · exact absurd (String.le_antisymm a (String.not_lt.1 h3)) b

example : ∃ d, build "index" twoFeatures false = .ok d ∧ Reach d ∧ Shows d twoFeatures ∧
    (d.sort "name").isOk = true :=
  ⟨_, rfl, reach_build (by_ := "index") (fs := twoFeatures) (s := false) rfl, ⟨rfl, rfl, rfl, rfl⟩, by decide +kernel⟩

/-! ## C13 -/

/-- **C13, partial.** If `c1 & c2` succeeds then on every array and DataFrame both operands can be evaluated on, it can be
too, and gives the element-wise and (product of 0 and 1).  Missing: bounds which are NaN, for which the claim is false
(`C13_nan_false`). -/
theorem C13_evaluate_partial {by_ : String} (hb : by_ = "index" ∨ by_ = "name") {a b c : Cond} {as bs : List Feature}
    (ha : Reach a) (hbr : Reach b) (has : Shows a as) (hbs : Shows b bs) (hna : NoNaN as) (hnb : NoNaN bs)
    (hc : Cond.and by_ a b = .ok c) :
    (∀ xs ra rb, evaluate a xs = .ok ra → evaluate b xs = .ok rb →
      evaluate c xs = .ok (List.zipWith (· * ·) ra rb)) ∧
    (∀ xs ra rb, evaluateFrame a xs = .ok ra → evaluateFrame b xs = .ok rb →
      evaluateFrame c xs = .ok (List.zipWith (· * ·) ra rb)) := by
  obtain ⟨as', ra'⟩ := reach_regular ha
  obtain ⟨bs', rb'⟩ := reach_regular hbr
  have := Shows.unique has ra'.shows
  subst this
  have := Shows.unique hbs rb'.shows
  subst this
  obtain ⟨cs, hcs, -, hidx, hname, hbox, -, hinv⟩ := and_box hb ra' rb' hc
  have himp : a.impossible = true ∨ b.impossible = true → c.impossible = true := by
    intro h
    have : ∃ f ∈ cs, Inverted f := by
      apply hinv hna hnb
      rcases h with h | h
      · exact .inl (ra'.imp' h)
      · exact .inr (rb'.imp' h)
    rw [hcs.imp]
    simpa [Inverted] using this
  constructor
  · intro xs ra rb hra hrb
    have e1 := evaluate_ok_eq ra' hra
    have e2 := evaluate_ok_eq rb' hrb
    have key : ∃ r, evaluate c xs = .ok r := by
      cases hi : c.impossible with
      | true => exact ⟨_, evaluate_impossible hi xs⟩
      | false =>
        have hia : a.impossible = false := by
          cases h : a.impossible with
          | false => rfl
          | true => rw [himp (.inl h)] at hi; cases hi
        have hib : b.impossible = false := by
          cases h : b.impossible with
          | false => rfl
          | true => rw [himp (.inr h)] at hi; cases hi
        refine ⟨_, evaluate_shows hcs.shows hcs.imp' ?_⟩
        intro f hf
        rcases (hidx f.index).1 ⟨f, hf, rfl⟩ with ⟨g, hg, e⟩ | ⟨g, hg, e⟩
        · by_contra hn
          rw [evaluate_out_of_range ra'.shows hia ⟨g, hg, e ▸ hn⟩] at hra
          cases hra
        · by_contra hn
          rw [evaluate_out_of_range rb'.shows hib ⟨g, hg, e ▸ hn⟩] at hrb
          cases hrb
    obtain ⟨r, hr⟩ := key
    rw [hr, evaluate_ok_eq hcs hr, e1, e2]
    congr 1
    apply flag_and
    intro row
    exact hbox hna hnb (fun f => cell xs.ncols row f.index) (fun f g _ e => by rw [e])
  · intro xs ra rb hra hrb
    have e1 := evaluateFrame_ok_eq ra' hra
    have e2 := evaluateFrame_ok_eq rb' hrb
    have key : ∃ r, evaluateFrame c xs = .ok r := by
      cases hi : c.impossible with
      | true => exact ⟨_, evaluateFrame_impossible hi xs⟩
      | false =>
        have hia : a.impossible = false := by
          cases h : a.impossible with
          | false => rfl
          | true => rw [himp (.inl h)] at hi; cases hi
        have hib : b.impossible = false := by
          cases h : b.impossible with
          | false => rfl
          | true => rw [himp (.inr h)] at hi; cases hi
        refine ⟨_, evaluateFrame_shows hcs.shows hcs.imp' ?_ ?_⟩
        · rintro rfl
          cases hfa : as with
          | nil =>
            subst hfa
            rw [evaluateFrame_none ra'.shows hia] at hra; cases hra
          | cons f t =>
            obtain ⟨g, hg, -⟩ := (hname f.name).2 (.inl ⟨f, by simp [hfa], rfl⟩)
            cases hg
        · intro f hf
          rcases (hname f.name).1 ⟨f, hf, rfl⟩ with ⟨g, hg, e⟩ | ⟨g, hg, e⟩
          · by_contra hn
            rw [evaluateFrame_missing ra'.shows hia ⟨g, hg, e ▸ hn⟩] at hra
            cases hra
          · by_contra hn
            rw [evaluateFrame_missing rb'.shows hib ⟨g, hg, e ▸ hn⟩] at hrb
            cases hrb
    obtain ⟨r, hr⟩ := key
    rw [hr, evaluateFrame_ok_eq hcs hr, e1, e2]
    congr 1
    apply flag_and
    intro row
    exact hbox hna hnb (fun f => cellNamed xs.columns row f.name) (fun f g e _ => by rw [e])

/-- `two & one`: the shared feature "a" gets the bounds [0, 5]. -/
example : Reach two ∧ Reach one ∧ Shows two [⟨"a", 0, .fin (-1), .inf⟩, ⟨"b", 2, .fin 1, .fin 3⟩] ∧
    Shows one [⟨"a", 0, .fin 0, .fin 5⟩] ∧ NoNaN [⟨"a", 0, .fin (-1), .inf⟩, ⟨"b", 2, .fin 1, .fin 3⟩] ∧
    NoNaN [⟨"a", 0, .fin 0, .fin 5⟩] ∧
    Cond.and "index" two one = .ok
      { indexes := some [0, 2], bmins := some [.fin 0, .fin 1], bmaxs := some [.fin 5, .fin 3],
        names := some ["a", "b"], impossible := false } := by
  refine ⟨two_reach, one_reach, ⟨rfl, rfl, rfl, rfl⟩, ⟨rfl, rfl, rfl, rfl⟩, ?_, ?_, by decide +kernel⟩
  · simp [NoNaN]
  · simp [NoNaN]

/-- **C13 (when it fails).** `c1 & c2` raises `IndexError` exactly when the operands disagree on which column a feature is,
and there is no other failure. -/
theorem C13_index_error {by_ : String} (hb : by_ = "index" ∨ by_ = "name") {a b : Cond} {as bs : List Feature}
    (ha : Reach a) (hbr : Reach b) (has : Shows a as) (hbs : Shows b bs) :
    (Disagree as bs ∧ Cond.and by_ a b = .error .indexError) ∨ (¬ Disagree as bs ∧ ∃ c, Cond.and by_ a b = .ok c) := by
  obtain ⟨as', ra'⟩ := reach_regular ha
  obtain ⟨bs', rb'⟩ := reach_regular hbr
  have := Shows.unique has ra'.shows
  subst this
  have := Shows.unique hbs rb'.shows
  subst this
  rcases and_regular hb ra' rb' with h | ⟨h, c, -, hc, -⟩
  · exact .inl h
  · exact .inr ⟨h, c, hc⟩

/-- Both cases occur. -/
example : (∃ c, Cond.and "index" two one = .ok c) ∧
    ∃ d, build "name" [⟨"a", 1, .fin 0, .fin 5⟩] true = .ok d ∧ Reach d ∧
      Cond.and "index" two d = .error .indexError :=
  ⟨⟨_, by rfl⟩, _, rfl, reach_build (by_ := "name") (fs := [⟨"a", 1, .fin 0, .fin 5⟩]) (s := true) rfl, by decide +kernel⟩

/-- **C13 is false with NaN bounds**: `max(0, nan)` is 0 in Python, so that the intersection selects a row which the second
operand does not select. -/
theorem C13_nan_false :
    ¬ ∀ {by_ : String}, by_ = "index" ∨ by_ = "name" → ∀ {a b c : Cond}, Reach a → Reach b → Cond.and by_ a b = .ok c →
      ∀ xs ra rb, evaluate a xs = .ok ra → evaluate b xs = .ok rb →
        evaluate c xs = .ok (List.zipWith (· * ·) ra rb) := by
  intro h
  have := h (by_ := "index") (.inl rfl) (a := one)
    (b := { indexes := some [0], bmins := some [.nan], bmaxs := some [.fin 5], names := some ["a"], impossible := false })
    (c := one) one_reach
    (.init (by_ := "index") (i := some [.int 0]) (lo := some [.float .nan]) (hi := some [.int 5])
      (n := some [.str "a"]) (s := true) (by decide +kernel))
    (by decide +kernel) ⟨1, [[.fin 1]]⟩ [1] [0] (by decide +kernel) (by decide +kernel)
  exact absurd this (by decide +kernel)

/-! ## C14 -/

/-- **C14, partial.** After any sequence of assignments (some of them rejected) to a condition built with at least one
feature, the four lists still have the same number of entries, names are distinct and so are indexes; the condition is
flagged impossible exactly when at some moment of this history a lower bound was above its upper bound.  Missing: the claim
wants "exactly when it is so now", and conditions without features; both are false of the code. -/
theorem C14_well_formed_partial {by_ : String} {i lo hi n : Option (List V)} {s : Bool} {c : Cond}
    (h : init by_ i lo hi n false s = .ok c) (hl : 0 < c.length) (ops : List SetOp) :
    ∃ fs, Shows (afterSets c ops) fs ∧ fs.length = c.length ∧ (fs.map (·.name)).Nodup ∧ (fs.map (·.index)).Nodup ∧
      ((afterSets c ops).impossible = true ↔
        ∃ k ≤ ops.length, ∃ gs, Shows (afterSets c (ops.take k)) gs ∧ ∃ f ∈ gs, Inverted f) := by
  obtain ⟨fs, hf⟩ := reach_regular (.init h)
  have hlen := Shows.length hf.shows
  obtain ⟨gs, h1, h2, h3, h4, h5⟩ := afterSets_shows hf (by omega) ops
  exact ⟨gs, h1, by omega, h2, h3, h5⟩

/-- `two`, with an accepted and a rejected assignment. -/
example : build "index" twoFeatures true = .ok two ∧ 0 < two.length ∧
    (SetOp.run (.bmaxs (.list [.fin 4, .fin 4])) two).1 = .ok () ∧
    (SetOp.run (.names (.list ["a"])) two).1 = .error .indexError ∧
    (SetOp.run (.indexes (.list [3, 3])) two).1 = .error .duplicatedFeatures := by decide +kernel

/-- **C14 is false (repaired bounds)**: once a lower bound has been above the upper bound, the condition stays impossible
after the bounds have been put right, and selects nothing. -/
theorem C14_impossible_false :
    ∃ (c : Cond) (ops : List SetOp) (fs : List Feature), build "index" [⟨"a", 0, .fin 0, .fin 5⟩] true = .ok c ∧
      Shows (afterSets c ops) fs ∧ (∀ f ∈ fs, ¬ Inverted f) ∧ (afterSets c ops).impossible = true ∧
      InBox fs 1 [.fin 7] ∧ evaluate (afterSets c ops) ⟨1, [[.fin 7]]⟩ = .ok [0] := by
  refine ⟨one, [.bmins (.list [.fin 6]), .bmaxs (.list [.fin 8])], [⟨"a", 0, .fin 6, .fin 8⟩], one_built, ?_, ?_, ?_, ?_, ?_⟩
  · exact ⟨by decide +kernel, by decide +kernel, by decide +kernel, by decide +kernel⟩
  · simp [Inverted]; decide +kernel
  · decide +kernel
  · intro f hf
    simp only [List.mem_singleton] at hf
    subst hf
    exact ⟨7, by decide +kernel, by simp only [AtLeast]; decide +kernel, by simp only [AtMost]; decide +kernel⟩
  · decide +kernel

/-- **C14 is false (no feature)**: the lengths of the lists of a condition without features are not checked. -/
theorem C14_no_feature_false :
    ∃ (c : Cond) (ops : List SetOp), init "index" (some []) (some []) (some []) none false true = .ok c ∧
      (∀ o ∈ ops, (SetOp.run o c).1 = .ok ()) ∧
      ∃ lo, (afterSets c ops).bmins = some lo ∧ (afterSets c ops).names = some [] ∧ lo.length = 2 := by
  refine ⟨{ indexes := some [], bmins := some [], bmaxs := some [], names := some [], impossible := false },
    [.bmins (.list [.fin 1, .fin 2])], by decide +kernel, ?_, [.fin 1, .fin 2], by decide +kernel, by decide +kernel, rfl⟩
  simp only [List.mem_singleton, forall_eq]
  decide +kernel

/-- **C14 is false (rejected assignment)**: assigning the lower bounds of an empty condition raises `TypeError` but is
done nevertheless. -/
theorem C14_rejected_false :
    ∃ c d, init "index" none none none none true true = .ok c ∧
      setBmins (.list [.fin 1]) c = (.error .typeError, d) ∧ c.bmins = none ∧ d.bmins = some [.fin 1] :=
  ⟨_, _, rfl, rfl, rfl, rfl⟩

/-- **C14 (filling an empty condition).** Assigning names, indexes and both bounds of distinct features to a condition made with
`empty=True`, in any order and any number of times, although the first assignment of bounds raises: the condition shows these features, has
their number as its length, and is impossible exactly when a lower bound is above its upper bound. -/
theorem C14_filled {by_ : String} {i lo hi n : Option (List V)} {s : Bool} {c : Cond} {fs : List Feature} {ops : List SetOp}
    (h : init by_ i lo hi n true s = .ok c) (hn : (fs.map (·.name)).Nodup) (hi : (fs.map (·.index)).Nodup)
    (hall : .names (.list (fs.map (·.name))) ∈ ops ∧ .indexes (.list (fs.map (·.index))) ∈ ops ∧
      .bmins (.list (fs.map (·.lo))) ∈ ops ∧ .bmaxs (.list (fs.map (·.hi))) ∈ ops)
    (honly : ∀ o ∈ ops, o = .names (.list (fs.map (·.name))) ∨ o = .indexes (.list (fs.map (·.index))) ∨
      o = .bmins (.list (fs.map (·.lo))) ∨ o = .bmaxs (.list (fs.map (·.hi)))) :
    c.length = 0 ∧ Shows (afterSets c ops) fs ∧ (afterSets c ops).length = fs.length ∧
      ((afterSets c ops).impossible = true ↔ ∃ f ∈ fs, Inverted f) := by
  obtain rfl : c = { indexes := none, bmins := none, bmaxs := none, names := none, impossible := false } := by
    simp only [init, if_true] at h
    exact (Except.ok.inj h).symm
  obtain ⟨ks, rfl⟩ : ∃ ks : List (Fin 4), ops = ks.map (filler fs) := by
    clear hall
    induction ops with
    | nil => exact ⟨[], rfl⟩
    | cons o t ih =>
      obtain ⟨ks, rfl⟩ := ih fun o ho => honly o (List.mem_cons_of_mem _ ho)
      rcases honly o (by simp) with rfl | rfl | rfl | rfl
      exacts [⟨0 :: ks, rfl⟩, ⟨1 :: ks, rfl⟩, ⟨2 :: ks, rfl⟩, ⟨3 :: ks, rfl⟩]
  obtain ⟨hf, hp⟩ := Filling.run hn hi ks (c := { indexes := none, bmins := none, bmaxs := none, names := none, impossible := false })
    ⟨.inl rfl, .inl rfl, .inl rfl, .inl rfl, rfl⟩
  have hk : ∀ j, j ∈ ks := by
    obtain ⟨a0, a1, a2, a3⟩ := hall
    intro j
    obtain ⟨k, hk, e⟩ : ∃ k ∈ ks, filler fs k = filler fs j := by
      match j with
      | 0 => exact List.mem_map.1 a0
      | 1 => exact List.mem_map.1 a1
      | 2 => exact List.mem_map.1 a2
      | 3 => exact List.mem_map.1 a3
    exact filler_injective fs e ▸ hk
  have hp' : ∀ j, Cond.present (afterSets _ (ks.map (filler fs))) j = true := fun j => (hp j).trans (by simp [hk j])
  obtain ⟨h1, h2, h3, h4, h5⟩ := hf
  have g1 := hp' 0
  have g2 := hp' 1
  have g3 := hp' 2
  have g4 := hp' 3
  simp only [Cond.present] at g1 g2 g3 g4
  have hs : Shows (afterSets { indexes := none, bmins := none, bmaxs := none, names := none, impossible := false } (ks.map (filler fs))) fs :=
    ⟨h1.resolve_left fun e => by simp [e] at g1, h2.resolve_left fun e => by simp [e] at g2, h3.resolve_left fun e => by simp [e] at g3,
      h4.resolve_left fun e => by simp [e] at g4⟩
  refine ⟨rfl, hs, Shows.length hs, ?_⟩
  rw [h5, g3, g4]
  simp [Inverted]

/-- The features of `two`, the indexes twice -/
example : ∃ c, init "index" none none none none true true = .ok c ∧
    (twoFeatures.map (·.name)).Nodup ∧ (twoFeatures.map (·.index)).Nodup ∧
    (SetOp.run (.bmins (.list (twoFeatures.map (·.lo)))) c).1 = .error .typeError ∧
    Shows (afterSets c [.bmins (.list (twoFeatures.map (·.lo))), .indexes (.list (twoFeatures.map (·.index))),
      .bmaxs (.list (twoFeatures.map (·.hi))), .names (.list (twoFeatures.map (·.name))),
      .indexes (.list (twoFeatures.map (·.index)))]) twoFeatures :=
  ⟨_, rfl, by decide +kernel, by decide +kernel, rfl, by decide +kernel, by decide +kernel, by decide +kernel, by decide +kernel⟩

/-! ## C15 -/

/-- **C15 (equality holds).** Two conditions which require the same of the same features compare equal, whatever the hash
functions. -/
theorem C15_equal {c d : Cond} {fs gs : List Feature} (hc : Reach c) (hd : Reach d) (hcs : Shows c fs) (hds : Shows d gs)
    (h : SameRequirements fs gs) (H : Hasher) : Cond.eq H c d = .ok true := by
  obtain ⟨fs', hf⟩ := reach_regular hc
  obtain ⟨gs', hg⟩ := reach_regular hd
  have := Shows.unique hcs hf.shows
  subst this
  have := Shows.unique hds hg.shows
  subst this
  have hp : (fs.map fun f => (f.name, f.lo, f.hi)).Perm (gs.map fun f => (f.name, f.lo, f.hi)) := by
    rw [List.perm_ext_iff_of_nodup (triples_nodup hf.names_nodup) (triples_nodup hg.names_nodup)]
    rintro ⟨n, lo, hi⟩
    have := h n lo hi
    simpa [List.mem_map, Prod.ext_iff] using this
  have hp' := hp.map fun x => H.tuple [H.str x.1, H.num x.2.1, H.num x.2.2]
  rw [List.map_map, List.map_map] at hp'
  unfold Cond.eq
  simp only [hash_regular hf, hash_regular hg, bind, Except.bind]
  have e : H.frozenset (H.str "c" :: fs.map (tripleHash H)) = H.frozenset (H.str "c" :: gs.map (tripleHash H)) :=
    H.frozenset_perm _ _ (List.Perm.cons _ hp')
  rw [e]
  simp

/-- Other columns, other order. -/
example : ∃ d, build "index" [⟨"b", 0, .fin 1, .fin 3⟩, ⟨"a", 5, .fin (-1), .inf⟩] true = .ok d ∧ Reach two ∧ Reach d ∧
    Shows two [⟨"a", 0, .fin (-1), .inf⟩, ⟨"b", 2, .fin 1, .fin 3⟩] ∧
    Shows d [⟨"b", 0, .fin 1, .fin 3⟩, ⟨"a", 5, .fin (-1), .inf⟩] ∧
    SameRequirements [⟨"a", 0, .fin (-1), .inf⟩, ⟨"b", 2, .fin 1, .fin 3⟩]
      [⟨"b", 0, .fin 1, .fin 3⟩, ⟨"a", 5, .fin (-1), .inf⟩] := by
  refine ⟨{ indexes := some [0, 5], bmins := some [.fin 1, .fin (-1)], bmaxs := some [.fin 3, .inf],
            names := some ["b", "a"], impossible := false }, by decide +kernel, two_reach, .init (by_ := "index")
    (i := some [.int 0, .int 5]) (lo := some [.int 1, .int (-1)]) (hi := some [.int 3, .float .inf])
    (n := some [.str "b", .str "a"]) (s := true) (by decide +kernel), ⟨rfl, rfl, rfl, rfl⟩, ⟨rfl, rfl, rfl, rfl⟩, ?_⟩
  intro n lo hi
  simp
  tauto

/-- **C15 (only then), partial.** If two conditions compare equal and their hashes do not collide, they require the same of the
same features.  Missing: collisions exist, so that the claim is false without this hypothesis (`C15_collision_false`). -/
theorem C15_only_if_partial {c d : Cond} {fs gs : List Feature} (hc : Reach c) (hd : Reach d) (hcs : Shows c fs)
    (hds : Shows d gs) (H : Hasher) (h : Cond.eq H c d = .ok true)
    (noTupleCollision : ∀ f ∈ fs, ∀ g ∈ gs, H.tuple [H.str f.name, H.num f.lo, H.num f.hi] =
      H.tuple [H.str g.name, H.num g.lo, H.num g.hi] → f.name = g.name ∧ f.lo = g.lo ∧ f.hi = g.hi)
    (noSetCollision : ∀ x y, x = H.str "c" :: (fs.map fun f => H.tuple [H.str f.name, H.num f.lo, H.num f.hi]) →
      y = H.str "c" :: (gs.map fun g => H.tuple [H.str g.name, H.num g.lo, H.num g.hi]) →
      H.frozenset x = H.frozenset y → x.Perm y) :
    SameRequirements fs gs := by
  obtain ⟨fs', hf⟩ := reach_regular hc
  obtain ⟨gs', hg⟩ := reach_regular hd
  have := Shows.unique hcs hf.shows
  subst this
  have := Shows.unique hds hg.shows
  subst this
  unfold Cond.eq at h
  simp only [hash_regular hf, hash_regular hg, bind, Except.bind, Except.ok.injEq, decide_eq_true_eq] at h
  have hp := noSetCollision _ _ rfl rfl h
  replace hp := (List.perm_cons _).1 hp
  intro n lo hi
  constructor
  · rintro ⟨f, hfm, rfl, rfl, rfl⟩
    have := hp.mem_iff.1 (List.mem_map_of_mem hfm)
    obtain ⟨g, hgm, e⟩ := List.mem_map.1 this
    have := noTupleCollision f hfm g hgm e.symm
    exact ⟨g, hgm, this.1.symm, this.2.1.symm, this.2.2.symm⟩
  · rintro ⟨g, hgm, rfl, rfl, rfl⟩
    have := hp.mem_iff.2 (List.mem_map_of_mem hgm)
    obtain ⟨f, hfm, e⟩ := List.mem_map.1 this
    exact ⟨f, hfm, noTupleCollision f hfm g hgm e⟩

/-- Hash functions for the example. -/
def sumHasher : Hasher where
  str s := s.length
  float _ := 77
  tuple l := l.foldl (fun a x => 1000 * a + x) 0
  frozenset l := l.foldr (· + ·) 0
  frozenset_perm _ _ h := h.foldr_eq' (by intros; omega) 0

example : Reach one ∧ Cond.eq sumHasher one one = .ok true ∧
    (∀ f ∈ [(⟨"a", 0, .fin 0, .fin 5⟩ : Feature)], ∀ g ∈ [(⟨"a", 0, .fin 0, .fin 5⟩ : Feature)],
      sumHasher.tuple [sumHasher.str f.name, sumHasher.num f.lo, sumHasher.num f.hi] =
        sumHasher.tuple [sumHasher.str g.name, sumHasher.num g.lo, sumHasher.num g.hi] →
      f.name = g.name ∧ f.lo = g.lo ∧ f.hi = g.hi) :=
  ⟨one_reach, by decide +kernel, by simp⟩

/-- **C15 (same rows).** Conditions which require the same of the same features select the same rows of every DataFrame. -/
theorem C15_same_rows {c d : Cond} {fs gs : List Feature} (hc : Reach c) (hd : Reach d) (hcs : Shows c fs)
    (hds : Shows d gs) (h : SameRequirements fs gs) (xs : Frame) : evaluateFrame c xs = evaluateFrame d xs := by
  obtain ⟨fs', hf⟩ := reach_regular hc
  obtain ⟨gs', hg⟩ := reach_regular hd
  have := Shows.unique hcs hf.shows
  subst this
  have := Shows.unique hds hg.shows
  subst this
  have half : ∀ {fs gs : List Feature}, SameRequirements fs gs → ∀ {P : String → Num → Num → Prop},
      (∀ g ∈ gs, P g.name g.lo g.hi) → ∀ f ∈ fs, P f.name f.lo f.hi := by
    intro fs gs h P hg f hf
    obtain ⟨g, hgm, e1, e2, e3⟩ := (h f.name f.lo f.hi).1 ⟨f, hf, rfl, rfl, rfl⟩
    have := hg g hgm
    rwa [e1, e2, e3] at this
  have hsym : SameRequirements gs fs := fun n lo hi => (h n lo hi).symm
  have himp : c.impossible = d.impossible := by
    rw [hf.imp, hg.imp, Bool.eq_iff_iff]
    simp only [List.any_eq_true]
    constructor
    · rintro ⟨f, hfm, e⟩
      obtain ⟨g, hgm, -, e2, e3⟩ := (h f.name f.lo f.hi).1 ⟨f, hfm, rfl, rfl, rfl⟩
      exact ⟨g, hgm, by rw [e2, e3]; exact e⟩
    · rintro ⟨f, hfm, e⟩
      obtain ⟨g, hgm, -, e2, e3⟩ := (hsym f.name f.lo f.hi).1 ⟨f, hfm, rfl, rfl, rfl⟩
      exact ⟨g, hgm, by rw [e2, e3]; exact e⟩
  cases hi : c.impossible with
  | true => rw [evaluateFrame_impossible hi, evaluateFrame_impossible (himp ▸ hi)]
  | false =>
    by_cases hne : fs = []
    · have hne' : gs = [] := by
        cases hgs : gs with
        | nil => rfl
        | cons g t =>
          obtain ⟨f, hfm, -⟩ := (hsym g.name g.lo g.hi).1 ⟨g, by simp [hgs], rfl, rfl, rfl⟩
          simp [hne] at hfm
      subst hne hne'
      rw [evaluateFrame_none hcs hi, evaluateFrame_none hds (himp ▸ hi)]
    · have hne' : gs ≠ [] := by
        rintro rfl
        cases hfs : fs with
        | nil => exact hne hfs
        | cons f t =>
          obtain ⟨g, hgm, -⟩ := (h f.name f.lo f.hi).1 ⟨f, by simp [hfs], rfl, rfl, rfl⟩
          cases hgm
      by_cases hr : ∀ f ∈ fs, f.name ∈ xs.columns
      · have hr' : ∀ g ∈ gs, g.name ∈ xs.columns := half hsym (P := fun n _ _ => n ∈ xs.columns) hr
        rw [evaluateFrame_shows hcs hf.imp' hne hr, evaluateFrame_shows hds hg.imp' hne' hr']
        congr 1
        apply List.map_congr_left
        intro r _
        congr 1
        apply propext
        exact ⟨half hsym (P := fun n lo hi => Within lo hi (cellNamed xs.columns r n)),
          half h (P := fun n lo hi => Within lo hi (cellNamed xs.columns r n))⟩
      · have hr2 : ¬ ∀ g ∈ gs, g.name ∈ xs.columns := fun hh => hr (half h (P := fun n _ _ => n ∈ xs.columns) hh)
        push Not at hr hr2
        rw [evaluateFrame_missing hcs hi hr, evaluateFrame_missing hds (himp ▸ hi) hr2]

example : Reach one ∧ SameRequirements [⟨"a", 0, .fin 0, .fin 5⟩] [⟨"a", 3, .fin 0, .fin 5⟩] :=
  ⟨one_reach, by intro n lo hi; simp⟩

/-- **C15 is false**: whatever the hash functions of strings, tuples and sets, `X_0 in [-1, 0]` and `X_0 in [-2, 0]` compare
equal, because `hash(-1) == hash(-2)`; they do not select the same rows. -/
theorem C15_collision_false :
    ∃ c d, Reach c ∧ Reach d ∧ c.bmins = some [.fin (-1)] ∧ d.bmins = some [.fin (-2)] ∧
      (∀ H, Cond.eq H c d = .ok true) ∧
      evaluateFrame c ⟨["X_0"], [[.fin (-2)]]⟩ = .ok [0] ∧ evaluateFrame d ⟨["X_0"], [[.fin (-2)]]⟩ = .ok [1] := by
  have r1 : init "index" (some [.int 0]) (some [.int (-1)]) (some [.int 0]) none false true =
      .ok { indexes := some [0], bmins := some [.fin (-1)], bmaxs := some [.fin 0], names := some ["X_0"],
            impossible := false } := by decide +kernel
  have r2 : init "index" (some [.int 0]) (some [.int (-2)]) (some [.int 0]) none false true =
      .ok { indexes := some [0], bmins := some [.fin (-2)], bmaxs := some [.fin 0], names := some ["X_0"],
            impossible := false } := by decide +kernel
  refine ⟨_, _, .init r1, .init r2, rfl, rfl, ?_, by decide +kernel, by decide +kernel⟩
  intro H
  have g1 : ∀ H : Hasher, H.num (.fin (-1)) = -2 := fun H => by
    have h1 : ((-1 : Rat)).den = 1 := by decide +kernel
    have h2 : ((-1 : Rat)).num.sign * ((((-1 : Rat)).num.natAbs % (2 ^ 61 - 1) : Nat) : Int) = -1 := by decide +kernel
    simp only [Hasher.num, h1, if_true, h2]
  have g2 : ∀ H : Hasher, H.num (.fin (-2)) = -2 := fun H => by
    have h1 : ((-2 : Rat)).den = 1 := by decide +kernel
    have h2 : ((-2 : Rat)).num.sign * ((((-2 : Rat)).num.natAbs % (2 ^ 61 - 1) : Nat) : Int) = -2 := by decide +kernel
    simp only [Hasher.num, h1, if_true, h2]
    decide
  obtain ⟨fs, hf⟩ := reach_regular (.init r1)
  obtain ⟨gs, hg⟩ := reach_regular (.init r2)
  have e1 := Shows.unique hf.shows (gs := [⟨"X_0", 0, .fin (-1), .fin 0⟩]) ⟨rfl, rfl, rfl, rfl⟩
  have e2 := Shows.unique hg.shows (gs := [⟨"X_0", 0, .fin (-2), .fin 0⟩]) ⟨rfl, rfl, rfl, rfl⟩
  subst e1 e2
  unfold Cond.eq
  simp only [hash_regular hf, hash_regular hg, bind, Except.bind, List.map_cons, List.map_nil, tripleHash, g1, g2,
    decide_true]

/-- **C15 is false (impossible)**: a condition made impossible and repaired is equal to a fresh one, and does not select the
same rows. -/
theorem C15_repaired_false :
    ∃ c d, build "index" [⟨"a", 0, .fin 6, .fin 8⟩] true = .ok c ∧
      d = afterSets one [.bmins (.list [.fin 6]), .bmaxs (.list [.fin 8])] ∧
      (∀ H, Cond.eq H c d = .ok true) ∧
      evaluateFrame c ⟨["a"], [[.fin 7]]⟩ = .ok [1] ∧ evaluateFrame d ⟨["a"], [[.fin 7]]⟩ = .ok [0] := by
  refine ⟨{ indexes := some [0], bmins := some [.fin 6], bmaxs := some [.fin 8], names := some ["a"], impossible := false },
    _, by decide +kernel, rfl, ?_, by decide +kernel, by decide +kernel⟩
  intro H
  have : afterSets one [.bmins (.list [.fin 6]), .bmaxs (.list [.fin 8])] =
      { indexes := some [0], bmins := some [.fin 6], bmaxs := some [.fin 8], names := some ["a"], impossible := true } := by
    decide +kernel
  rw [this]
  simp [Cond.eq, Cond.hash, toHash, need, item, bind, Except.bind, pure, Except.pure]

end Verif.ConditionProps
