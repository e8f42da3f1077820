import Verif.NarrowSpec
import Verif.SetEvalProps
import Verif.FigureProps
import Verif.RulePredictProps

/-!
# C79: a narrower rule covers fewer points
-/

namespace Verif.NarrowProps

open Verif Rule Spec

theorem atLeast_mono {a b : Num} {q : Rat} (h : a.le b = true) (hq : AtLeast b q) : AtLeast a q := by
  cases a <;> cases b <;> simp_all [AtLeast, Num.le]
  exact h.trans hq

theorem atMost_mono {a b : Num} {q : Rat} (h : a.le b = true) (hq : AtMost a q) : AtMost b q := by
  cases a <;> cases b <;> simp_all [AtMost, Num.le]
  exact hq.trans h

/-- What a narrower condition selects, the wider one selects. -/
theorem selects_mono {xs : Xs} {c d : Cond} (h : NarrowerCond xs c d) {p : List Num} (hp : Selects c xs p) : Selects d xs p := by
  obtain ⟨fs, gs, hc, hd, hn⟩ := h
  obtain ⟨fs', hc', hb⟩ := hp
  have := Cond.Shows.unique hc hc'
  subst this
  refine ⟨gs, hd, ?_⟩
  cases xs with
  | arr m =>
    intro g hg
    obtain ⟨f, hf, hs, hlo, hhi⟩ := hn g hg
    obtain ⟨q, hq, h1, h2⟩ := hb f hf
    rw [show f.index = g.index from hs] at hq
    exact ⟨q, hq, atLeast_mono hlo h1, atMost_mono hhi h2⟩
  | frame m =>
    intro g hg
    obtain ⟨f, hf, hs, hlo, hhi⟩ := hn g hg
    obtain ⟨q, hq, h1, h2⟩ := hb f hf
    rw [show f.name = g.name from hs] at hq
    exact ⟨q, hq, atLeast_mono hlo h1, atMost_mono hhi h2⟩

theorem flags_below {α} {l : List α} {P Q : α → Prop} (h : ∀ a, P a → Q a) : Below (l.map fun a => flag (P a)) (l.map fun a => flag (Q a)) := by
  refine ⟨by simp, ?_⟩
  intro i hi
  rw [List.getElem?_map, Option.map_eq_some_iff] at hi ⊢
  obtain ⟨a, ha, h1⟩ := hi
  refine ⟨a, ha, ?_⟩
  unfold flag at h1 ⊢
  split at h1
  · rename_i hp
    rw [if_pos (h a hp)]
  · cases h1

/-- **C79 (points).**  The condition of `r` has all features of the condition of `s`, with bounds inside those of `s`, and possibly other
features.  Every point activated by `r` is activated by `s`: for arrays, DataFrames, missing and infinite values, infinite bounds and
conditions which nothing satisfies. -/
theorem C79_points {E E' : Env} {xs : Xs} {r s : Rule} {v w : List Nat} (hr : TalksAbout r.cond xs) (hs : TalksAbout s.cond xs)
    (h : NarrowerCond xs r.cond s.cond) (hv : r.evaluateActivation E xs = .ok v) (hw : s.evaluateActivation E' xs = .ok w) : Below v w := by
  rw [RuleSet.evaluateActivation_ok hv hr, RuleSet.evaluateActivation_ok hw hs]
  exact flags_below fun p => selects_mono h

theorem below_count {u u' : List Bool} (h : Below (arr u) (arr u')) : u.length = u'.length ∧ u.count true ≤ u'.count true := by
  obtain ⟨hl, hb⟩ := h
  have hl : u.length = u'.length := by simpa [arr] using hl
  refine ⟨hl, ?_⟩
  induction u generalizing u' with
  | nil => simp
  | cons a u ih =>
    cases u' with
    | nil => cases hl
    | cons b u' =>
      have ih := ih (u' := u') (by simpa [arr] using hl) (fun i hi => by
        have := hb (i + 1)
        simp only [arr, List.map_cons, List.getElem?_cons_succ] at this hi ⊢
        exact this hi) (by simpa using hl)
      have h0 := hb 0
      cases a <;> cases b <;> simp_all [arr]
      omega

/-- **C79 (coverage).**  After fitting both rules on the same points, each with its own targets and settings, the coverage of the narrower
rule is at most the one of the wider rule. -/
theorem C79_coverage {E E' : Env} {xs : Xs} {y y' : List Label} {force force' : Bool} {kw kw' : Kw} {r r1 s s1 : Rule} (hx : xs.length ≠ 0)
    (hr : TalksAbout r.cond xs) (hs : TalksAbout s.cond xs) (h : NarrowerCond xs r.cond s.cond)
    (h1 : fit E y (some xs) force kw r = (.ok (), r1)) (h2 : fit E' y' (some xs) force' kw' s = (.ok (), s1)) :
    ∃ p q : Rat, r1.getCoverage = .ok (.num (.fin p)) ∧ s1.getCoverage = .ok (.num (.fin q)) ∧ 0 ≤ p ∧ p ≤ q ∧ q ≤ 1 := by
  obtain ⟨a, _, _, ha, -, -, -⟩ := fit_steps (show Runs r (some xs) from hx) h1
  obtain ⟨b, _, _, hb, -, -, -⟩ := fit_steps (show Runs s (some xs) from hx) h2
  obtain ⟨v, hv, -⟩ := calcActivation_uses ha hx
  obtain ⟨w, hw, -⟩ := calcActivation_uses hb hx
  have hbelow := C79_points hr hs h hv hw
  have bits : ∀ {E : Env} {r : Rule} {v : List Nat}, TalksAbout r.cond xs → r.evaluateActivation E xs = .ok v →
      ∃ u, v = arr u ∧ u.length = xs.length := by
    intro E r v hc hv
    classical
    refine ⟨(pointsOf xs).map fun p => decide (Selects r.cond xs p), ?_, by simp [RuleSet.pointsOf_length]⟩
    rw [RuleSet.evaluateActivation_ok hv hc, arr, List.map_map]
    apply List.map_congr_left
    intro p _
    simp only [Function.comp_apply, flag]
    split <;> simp_all
  obtain ⟨u, rfl, hu⟩ := bits hr hv
  obtain ⟨u', rfl, hu'⟩ := bits hs hw
  have hne : u ≠ [] := by
    rintro rfl
    exact hx hu.symm
  have hne' : u' ≠ [] := by
    rintro rfl
    exact hx hu'.symm
  obtain ⟨hl, hc⟩ := below_count hbelow
  refine ⟨_, _, FigureProps.C37_fit hx h1 hv hne, FigureProps.C37_fit hx h2 hw hne', by positivity, ?_, ?_⟩
  · rw [hl]
    have : (u.count true : Rat) ≤ u'.count true := by exact_mod_cast hc
    gcongr
  · rw [div_le_one (by have := List.length_pos_iff.2 hne'; exact_mod_cast this)]
    exact_mod_cast List.count_le_length

open RuleSet Vote in
/-- **C79 (rulesets).**  Adding rules narrower than rules which a ruleset has does not change the points it selects. -/
theorem C79_union {R R' : RsEnv} {s t : RuleSet} {xs : Xs} {v w : List Nat} (hc : ∀ m ∈ t.rules, TalksAbout m.rule.cond xs)
    (hst : ∀ m ∈ s.rules, m ∈ t.rules) (hn : ∀ m ∈ t.rules, m ∈ s.rules ∨ ∃ m' ∈ s.rules, NarrowerCond xs m.rule.cond m'.rule.cond)
    (hv : RuleSet.evaluate R s xs = .ok v) (hw : RuleSet.evaluate R' t xs = .ok w) : v = w := by
  rw [SetEvalProps.C55_evaluate (fun m hm => hc m (hst m hm)) hv, SetEvalProps.C55_evaluate hc hw]
  apply List.map_congr_left
  intro p _
  congr 1
  refine propext ⟨fun ⟨m, hm, h⟩ => ⟨m, hst m hm, h⟩, ?_⟩
  rintro ⟨m, hm, h⟩
  rcases hn m hm with hm | ⟨m', hm', hn⟩
  · exact ⟨m, hm, h⟩
  · exact ⟨m', hm', selects_mono hn h⟩

/-- **C79 (intersection).**  The intersection of a condition with a wider one selects what the condition selects. -/
theorem C79_meet {by_ : String} (hb : by_ = "index" ∨ by_ = "name") {a b c : Cond} {as bs : List Feature} {xs : Xs} (ha : TalksAbout a xs)
    (hbt : TalksAbout b xs) (has : Shows a as) (hbs : Shows b bs) (hna : NoNaN as) (hnb : NoNaN bs) (h : Narrower xs as bs)
    (hc : Cond.and by_ a b = .ok c) : Rule.evaluate c xs = Rule.evaluate a xs := by
  have key : ∀ l : List (List Num), List.zipWith (· * ·) (l.map fun p => flag (Selects a xs p)) (l.map fun p => flag (Selects b xs p)) =
      l.map fun p => flag (Selects a xs p) := by
    intro l
    rw [List.zipWith_map, List.zipWith_self]
    apply List.map_congr_left
    intro p _
    unfold flag
    by_cases hp : Selects a xs p
    · rw [if_pos hp, if_pos (selects_mono ⟨as, bs, has, hbs, h⟩ hp)]
    · rw [if_neg hp, Nat.zero_mul]
  have e1 := RuleSet.rule_evaluate ha
  have e2 := RuleSet.rule_evaluate hbt
  have hand := ConditionProps.C13_evaluate_partial hb ha.1 hbt.1 has hbs hna hnb hc
  rw [e1, ← key]
  cases xs with
  | arr m => exact hand.1 m _ _ e1 e2
  | frame f => exact hand.2 f _ _ e1 e2

/-! ## The converse -/

theorem le_of_atLeast {lo hi a : Num} {q : Rat} (h1 : AtLeast lo q) (h2 : AtMost hi q)
    (h : ∀ q, AtLeast lo q → AtMost hi q → AtLeast a q) : a.le lo = true := by
  cases lo with
  | nan => exact h1.elim
  | inf => exact h1.elim
  | fin b =>
    have := h b (le_refl b) (by
      cases hi with
      | fin c => exact le_trans h1 h2
      | inf => trivial
      | nan => exact h2.elim
      | ninf => exact h2.elim)
    cases a <;> simp_all [AtLeast, Num.le]
  | ninf =>
    cases a with
    | ninf => rfl
    | nan => exact (h q h1 h2).elim
    | inf => exact (h q h1 h2).elim
    | fin a =>
      have := h (min q (a - 1)) trivial (by
        cases hi with
        | fin c => exact le_trans (min_le_left _ _) h2
        | inf => trivial
        | nan => exact h2.elim
        | ninf => exact h2.elim)
      have : a ≤ min q (a - 1) := this
      have := this.trans (min_le_right _ _)
      linarith

theorem le_of_atMost {lo hi a : Num} {q : Rat} (h1 : AtLeast lo q) (h2 : AtMost hi q)
    (h : ∀ q, AtLeast lo q → AtMost hi q → AtMost a q) : hi.le a = true := by
  cases hi with
  | nan => exact h2.elim
  | ninf => exact h2.elim
  | fin b =>
    have := h b (by
      cases lo with
      | fin c => exact le_trans h1 h2
      | ninf => trivial
      | nan => exact h1.elim
      | inf => exact h1.elim) (le_refl b)
    cases a <;> simp_all [AtMost, Num.le]
  | inf =>
    cases a with
    | inf => rfl
    | nan => exact (h q h1 h2).elim
    | ninf => exact (h q h1 h2).elim
    | fin a =>
      have := h (max q (a + 1)) (by
        cases lo with
        | fin c => exact le_trans h1 (le_max_left _ _)
        | ninf => trivial
        | nan => exact h1.elim
        | inf => exact h1.elim) trivial
      have : max q (a + 1) ≤ a := this
      have := (le_max_right _ _).trans this
      linarith

/-- A row with `n` columns which has the value `x f` in the column of `f`, and no value in the other columns -/
def rowWith (n : Nat) (fs : List Feature) (x : Feature → Rat) : List Num :=
  (List.range n).map fun j : Nat => match fs.find? fun f => f.index = (j : Int) with
    | some f => .fin (x f)
    | none => .nan

theorem cell_row {n : Nat} {fs : List Feature} {x : Feature → Rat} {j : Int} (h0 : 0 ≤ j) (hn : j < n) :
    cell n (rowWith n fs x) j = match fs.find? fun f => f.index = j with
      | some f => .fin (x f)
      | none => .nan := by
  obtain ⟨k, rfl⟩ := Int.eq_ofNat_of_zero_le h0
  unfold cell rowWith
  rw [if_pos h0, List.getElem?_map, Int.toNat_natCast, List.getElem?_range (by exact_mod_cast hn)]
  rfl

theorem find_index {fs : List Feature} (hd : (fs.map (·.index)).Nodup) {f : Feature} (hf : f ∈ fs) :
    (fs.find? fun g => g.index = f.index) = some f := by
  cases h : fs.find? fun g => g.index = f.index with
  | none => simpa using (List.find?_eq_none.1 h) f hf
  | some g =>
    have h1 := List.mem_of_find?_eq_some h
    have h2 := List.find?_some h
    rw [List.inj_on_of_nodup_map hd h1 hf (of_decide_eq_true h2)]

/-- **C79 (converse).**  Two conditions on different columns of arrays with `n` columns, the first of which can be satisfied: on all these arrays
the first one selects no other points than the second one exactly when it has all its features, with bounds inside. -/
theorem C79_exact {n : Nat} {c d : Cond} {fs gs : List Feature} (hc : Reach c) (hd : Reach d) (hcs : Shows c fs) (hds : Shows d gs)
    (hcol : ∀ f ∈ fs ++ gs, 0 ≤ f.index ∧ f.index < n) (hdis : (fs.map (·.index)).Nodup) (hsat : ∀ f ∈ fs, Satisfiable f) :
    (∀ rows v w, Cond.evaluate c ⟨n, rows⟩ = .ok v → Cond.evaluate d ⟨n, rows⟩ = .ok w → Below v w) ↔
      ∀ g ∈ gs, ∃ f ∈ fs, f.index = g.index ∧ g.lo.le f.lo = true ∧ f.hi.le g.hi = true := by
  have e1 : ∀ rows, Cond.evaluate c ⟨n, rows⟩ = .ok (rows.map fun r => flag (InBox fs n r)) := fun rows =>
    ConditionProps.C11_evaluate (xs := ⟨n, rows⟩) hc hcs fun f hf => ⟨by have := hcol f (by simp [hf]); omega, (hcol f (by simp [hf])).2⟩
  have e2 : ∀ rows, Cond.evaluate d ⟨n, rows⟩ = .ok (rows.map fun r => flag (InBox gs n r)) := fun rows =>
    ConditionProps.C11_evaluate (xs := ⟨n, rows⟩) hd hds fun f hf => ⟨by have := hcol f (by simp [hf]); omega, (hcol f (by simp [hf])).2⟩
  constructor
  · intro h
    have hin : ∀ r, InBox fs n r → InBox gs n r := by
      intro r hr
      have := (h [r] _ _ (e1 _) (e2 _)).2 0 (by simp [flag, hr])
      by_contra hn
      simp [flag, hn] at this
    choose q hq using fun f : {f // f ∈ fs} => hsat f.1 f.2
    have chosen : ∀ x : Feature → Rat, (∀ f ∈ fs, AtLeast f.lo (x f) ∧ AtMost f.hi (x f)) →
        ∀ g ∈ gs, ∃ f ∈ fs, f.index = g.index ∧ AtLeast g.lo (x f) ∧ AtMost g.hi (x f) := by
      intro x hx g hg
      obtain ⟨t, ht, h1, h2⟩ := hin (rowWith n fs x) (fun f hf => by
        rw [cell_row (hcol f (by simp [hf])).1 (hcol f (by simp [hf])).2, find_index hdis hf]
        exact ⟨x f, rfl, hx f hf⟩) g hg
      rw [cell_row (hcol g (by simp [hg])).1 (hcol g (by simp [hg])).2] at ht
      cases hfind : fs.find? fun f => f.index = g.index with
      | none => rw [hfind] at ht; cases ht
      | some f =>
        rw [hfind] at ht
        cases ht
        exact ⟨f, List.mem_of_find?_eq_some hfind, by simpa using List.find?_some hfind, h1, h2⟩
    classical
    have base : ∀ f ∈ fs, AtLeast f.lo ((fun f => if hf : f ∈ fs then q ⟨f, hf⟩ else 0) f) ∧
        AtMost f.hi ((fun f => if hf : f ∈ fs then q ⟨f, hf⟩ else 0) f) := by
      intro f hf
      simp only [hf, dif_pos]
      exact hq ⟨f, hf⟩
    intro g hg
    obtain ⟨f, hf, hi, -⟩ := chosen _ base g hg
    have all : ∀ t, AtLeast f.lo t → AtMost f.hi t → AtLeast g.lo t ∧ AtMost g.hi t := by
      intro t h1 h2
      obtain ⟨f', hf', hi', h⟩ := chosen (fun a => if a = f then t else if ha : a ∈ fs then q ⟨a, ha⟩ else 0) (by
        intro a ha
        by_cases e : a = f
        · subst e
          simpa using ⟨h1, h2⟩
        · simp only [e, if_false]
          exact base a ha) g hg
      have : f' = f := List.inj_on_of_nodup_map hdis hf' hf (hi'.trans hi.symm)
      subst this
      simpa using h
    obtain ⟨t, ht1, ht2⟩ := hsat f hf
    exact ⟨f, hf, hi, le_of_atLeast ht1 ht2 fun t a b => (all t a b).1, le_of_atMost ht1 ht2 fun t a b => (all t a b).2⟩
  · intro h rows v w hv hw
    rw [e1] at hv
    rw [e2] at hw
    cases hv
    cases hw
    refine flags_below fun r hr g hg => ?_
    obtain ⟨f, hf, hi, hlo, hhi⟩ := h g hg
    obtain ⟨t, ht, h1, h2⟩ := hr f hf
    rw [hi] at ht
    exact ⟨t, ht, atLeast_mono hlo h1, atMost_mono hhi h2⟩

/-! ## Examples -/

/-- a between 0 and 1, b at most 5 -/
def narrow : Cond :=
  { indexes := some [0, 1], bmins := some [.fin 0, .ninf], bmaxs := some [.fin 1, .fin 5], names := some ["a", "b"], impossible := false }

theorem narrow_reach : Reach narrow :=
  .init (by_ := "index") (i := some [.int 0, .int 1]) (lo := some [.float (.fin 0), .float .ninf]) (hi := some [.float (.fin 1), .float (.fin 5)])
    (n := some [.str "a", .str "b"]) (s := true) (by decide +kernel)

theorem narrow_shows : Shows narrow [⟨"a", 0, .fin 0, .fin 1⟩, ⟨"b", 1, .ninf, .fin 5⟩] := ⟨rfl, rfl, rfl, rfl⟩

/-- a at most 3 -/
def wide : Cond := { indexes := some [0], bmins := some [.ninf], bmaxs := some [.fin 3], names := some ["a"], impossible := false }

theorem wide_reach : Reach wide :=
  .init (by_ := "index") (i := some [.int 0]) (lo := some [.float .ninf]) (hi := some [.float (.fin 3)]) (n := some [.str "a"]) (s := true)
    (by decide +kernel)

theorem wide_shows : Shows wide [⟨"a", 0, .ninf, .fin 3⟩] := ⟨rfl, rfl, rfl, rfl⟩

/-- Six points -/
def sixXs : Xs := .arr ⟨2, [[.fin 0, .fin 5], [.fin 1, .nan], [.fin (-2), .fin 0], [.fin 3, .inf], [.fin (1 / 2), .fin (-8)], [.fin 4, .fin 0]]⟩

/-- Their targets -/
def sixY : List Label := [.num (.fin 1), .num (.fin 2), .num (.fin 3), .num (.fin 4), .num (.fin 5), .num (.fin 6)]

theorem narrower : Narrower sixXs [⟨"a", 0, .fin 0, .fin 1⟩, ⟨"b", 1, .ninf, .fin 5⟩] [⟨"a", 0, .ninf, .fin 3⟩] := by
  intro g hg
  rw [List.mem_singleton.1 hg]
  exact ⟨⟨"a", 0, .fin 0, .fin 1⟩, by simp, rfl, rfl, by decide⟩

theorem talks_narrow : TalksAbout narrow sixXs :=
  ⟨narrow_reach, _, narrow_shows, fun f hf => by
    simp only [List.mem_cons, List.not_mem_nil, or_false] at hf
    rcases hf with rfl | rfl <;> exact ⟨by decide, by decide⟩⟩

theorem talks_wide : TalksAbout wide sixXs :=
  ⟨wide_reach, _, wide_shows, fun f hf => by
    rw [List.mem_singleton.1 hf]
    exact ⟨by decide, by decide⟩⟩

/-- The activations of both rules, and their coverage after `fit` -/
example :
    let E := { RuleProps.someEnv .regression with thresholds := none }
    let r := (make E narrow none).2
    let s := (make E wide none).2
    let p := fit E sixY (some sixXs) false {} r
    let q := fit E sixY (some sixXs) false {} s
    TalksAbout r.cond sixXs ∧ TalksAbout s.cond sixXs ∧ NarrowerCond sixXs r.cond s.cond ∧
      r.evaluateActivation E sixXs = .ok [1, 0, 0, 0, 1, 0] ∧ s.evaluateActivation E sixXs = .ok [1, 1, 1, 1, 1, 0] ∧
      p.1 = .ok () ∧ q.1 = .ok () ∧ p.2.getCoverage = .ok (.num (.fin (1 / 3))) ∧ q.2.getCoverage = .ok (.num (.fin (5 / 6))) :=
  ⟨talks_narrow, talks_wide, ⟨_, _, narrow_shows, wide_shows, narrower⟩, by decide +kernel⟩

/-- Their intersection -/
example :
    TalksAbout narrow sixXs ∧ TalksAbout wide sixXs ∧ NoNaN [⟨"a", 0, .fin 0, .fin 1⟩, ⟨"b", 1, .ninf, .fin 5⟩] ∧
      NoNaN [⟨"a", 0, .ninf, .fin 3⟩] ∧ (Cond.and "index" narrow wide).isOk = true := by
  refine ⟨talks_narrow, talks_wide, ?_, ?_, by decide +kernel⟩
  · intro f hf
    simp only [List.mem_cons, List.not_mem_nil, or_false] at hf
    rcases hf with rfl | rfl <;> decide
  · intro f hf
    rw [List.mem_singleton.1 hf]
    decide

/-- The ruleset of the wide rule and the one of both -/
example :
    let R := RuleSetProps.someRs
    let one : RuleSet := { RuleSet.blank false with rules := [⟨.regression, Rule.blank wide none⟩] }
    let two : RuleSet := { one with rules := one.rules ++ [⟨.regression, Rule.blank narrow none⟩] }
    (∀ m ∈ two.rules, TalksAbout m.rule.cond sixXs) ∧ (∀ m ∈ one.rules, m ∈ two.rules) ∧
      (∀ m ∈ two.rules, m ∈ one.rules ∨ ∃ m' ∈ one.rules, NarrowerCond sixXs m.rule.cond m'.rule.cond) ∧
      RuleSet.evaluate R one sixXs = .ok [1, 1, 1, 1, 1, 0] ∧ RuleSet.evaluate R two sixXs = .ok [1, 1, 1, 1, 1, 0] := by
  refine ⟨?_, ?_, ?_, by decide +kernel, by decide +kernel⟩
  · intro m hm
    simp only [List.cons_append, List.nil_append, List.mem_cons, List.not_mem_nil, or_false] at hm
    rcases hm with rfl | rfl
    · exact talks_wide
    · exact talks_narrow
  · intro m hm
    simp_all
  · intro m hm
    simp only [List.cons_append, List.nil_append, List.mem_cons, List.not_mem_nil, or_false] at hm
    rcases hm with rfl | rfl
    · simp
    · exact .inr ⟨_, List.mem_singleton.2 rfl, _, _, narrow_shows, wide_shows, narrower⟩

/-- The hypotheses of the converse -/
example :
    (∀ f ∈ [(⟨"a", 0, .fin 0, .fin 1⟩ : Feature), ⟨"b", 1, .ninf, .fin 5⟩] ++ [⟨"a", 0, .ninf, .fin 3⟩], 0 ≤ f.index ∧ f.index < ((2 : Nat) : Int)) ∧
      ([(⟨"a", 0, .fin 0, .fin 1⟩ : Feature), ⟨"b", 1, .ninf, .fin 5⟩].map (·.index)).Nodup ∧
      ∀ f ∈ [(⟨"a", 0, .fin 0, .fin 1⟩ : Feature), ⟨"b", 1, .ninf, .fin 5⟩], Satisfiable f := by
  refine ⟨by decide, by decide, ?_⟩
  intro f hf
  simp only [List.mem_cons, List.not_mem_nil, or_false] at hf
  rcases hf with rfl | rfl
  · exact ⟨0, (by decide : (0 : Rat) ≤ 0), (by decide : (0 : Rat) ≤ 1)⟩
  · exact ⟨0, trivial, (by decide : (0 : Rat) ≤ 5)⟩

end Verif.NarrowProps
