import Verif.ClassNameLemmas

/-!
# The names of the classes do not matter (C71)
-/

namespace Verif.ClassNames

open Verif Rule Spec Vote RuleSet RuleSetProps VoteProps RFun

/-! ## Rules -/

/-- **C71 (frequencies).** Fitting a classification rule on the same targets under new names — numbers or texts — gives the same
frequencies under the new names. -/
theorem C71_frequencies {E : Env} {f : Label → Label} {y : List Label} {xs : Option Xs} {force : Bool} {kw : Kw} {r r' q' : Rule} {u : List Bool}
    (hk : E.kind = .classification) (hx : Runs r xs) (hu : Uses E r xs (arr u)) (hl : y.length = u.length)
    (hn : NewNames f (activated u y)) (ht : SameType (activated u y)) (ht' : SameType ((activated u y).map f))
    (h : Rule.fit E y xs force kw r = (.ok (), r')) (hg : r'.good = true ∨ force = true)
    (h' : Rule.fit E (y.map f) xs force kw r = (.ok (), q')) (hg' : q'.good = true ∨ force = true) :
    ∃ p p' : List (Label × Rat), r'.prediction = .probs p ∧ q'.prediction = .probs p' ∧
      (∀ x, x ∈ p' ↔ ∃ c, (c, x.2) ∈ p ∧ x.1 = f c) ∧ p'.length = p.length := by
  obtain ⟨p, h1, h2, h3, h4, -⟩ := RuleStatProps.C20_frequencies hk hx hu hl ht h hg
  obtain ⟨p', h1', h2', h3', h4', -⟩ := RuleStatProps.C20_frequencies hk hx hu (by rw [List.length_map, hl]) (by rwa [activated_map]) h' hg'
  have hirr : ∀ a b, ClassLt a b → a ≠ b := by
    rintro a b (h | h) e
    · cases e; exact lt_irrefl _ h
    · cases e; exact lt_irrefl _ h
  have nd : (p.map (·.1)).Nodup := h2.imp fun h => hirr _ _ h
  have nd' : (p'.map (·.1)).Nodup := h2'.imp fun h => hirr _ _ h
  have mem : ∀ x, x ∈ p ↔ x.1 ∈ activated u y ∧ x.2 = frequency x.1 (activated u y) := by
    intro x
    constructor
    · intro hx
      exact ⟨(h3 _).1 (List.mem_map_of_mem hx), (h4 x hx).1⟩
    · rintro ⟨hx, e⟩
      obtain ⟨z, hz, e'⟩ := List.mem_map.1 ((h3 _).2 hx)
      have : x = z := Prod.ext e'.symm (by rw [e, ← e', (h4 z hz).1])
      rwa [this]
  have mem' : ∀ x, x ∈ p' ↔ x.1 ∈ activated u (y.map f) ∧ x.2 = frequency x.1 (activated u (y.map f)) := by
    intro x
    constructor
    · intro hx
      exact ⟨(h3' _).1 (List.mem_map_of_mem hx), (h4' x hx).1⟩
    · rintro ⟨hx, e⟩
      obtain ⟨z, hz, e'⟩ := List.mem_map.1 ((h3' _).2 hx)
      have : x = z := Prod.ext e'.symm (by rw [e, ← e', (h4' z hz).1])
      rwa [this]
  have key : ∀ x, x ∈ p' ↔ ∃ c, (c, x.2) ∈ p ∧ x.1 = f c := by
    intro x
    rw [mem', activated_map]
    constructor
    · rintro ⟨hx, e⟩
      obtain ⟨c, hc, e'⟩ := List.mem_map.1 hx
      refine ⟨c, (mem _).2 ⟨hc, ?_⟩, e'.symm⟩
      rw [e, ← e', frequency_map fun a ha e => hn a ha c hc e]
    · rintro ⟨c, hc, e⟩
      obtain ⟨hc, e'⟩ := (mem _).1 hc
      rw [e]
      exact ⟨List.mem_map_of_mem hc, by rw [frequency_map fun a ha e => hn a ha c hc e]; exact e'⟩
  refine ⟨p, p', h1, h1', key, ?_⟩
  have hperm : (p'.map (·.1)).Perm ((p.map (·.1)).map f) := by
    refine (List.perm_ext_iff_of_nodup nd' ?_).2 fun k => ?_
    · refine (List.nodup_map_iff_inj_on nd).2 ?_
      intro a ha b hb e
      exact hn a ((h3 a).1 ha) b ((h3 b).1 hb) e
    · rw [h3', activated_map]
      simp only [List.mem_map]
      constructor
      · rintro ⟨c, hc, rfl⟩
        obtain ⟨z, hz, rfl⟩ := List.mem_map.1 ((h3 c).2 hc)
        exact ⟨_, ⟨z, hz, rfl⟩, rfl⟩
      · rintro ⟨c, ⟨z, hz, rfl⟩, rfl⟩
        exact ⟨_, (h3 _).1 (List.mem_map_of_mem hz), rfl⟩
  simpa using hperm.length_eq

/-- Classes whose frequencies are compared as numbers: numbers, or texts when the texts of the possible frequencies are ordered as
these numbers -/
def Comparable (E : Env) (l : List Label) : Prop :=
  (∀ c ∈ l, ∃ q, c = .num (.fin q)) ∨
    (∀ c ∈ l, ∃ s, c = .text s) ∧ ∀ i j : Nat, 0 < i → i < j → j ≤ l.length → E.floatStr ((i : Rat) / l.length) < E.floatStr ((j : Rat) / l.length)

/-- **C71 (prediction).** When one class is more frequent than all others, the rule predicts it, under its new name with the new names.
Missing: with several most frequent classes it predicts the first in alphabetical or numerical order, which depends on the names
(`C71_tie_false`); texts in the place of numbers when frequencies are below 1/10000 (`C20_text_false`). -/
theorem C71_fit_partial {E : Env} {f : Label → Label} {y : List Label} {xs : Option Xs} {force : Bool} {kw : Kw} {r r' q' : Rule} {u : List Bool}
    {c : Label} (hk : E.kind = .classification) (hx : Runs r xs) (hu : Uses E r xs (arr u)) (hl : y.length = u.length)
    (hn : NewNames f (activated u y)) (ht : Comparable E (activated u y)) (ht' : Comparable E ((activated u y).map f))
    (hc : c ∈ activated u y) (hmost : ∀ d ∈ activated u y, d ≠ c → frequency d (activated u y) < frequency c (activated u y))
    (h : Rule.fit E y xs force kw r = (.ok (), r')) (hg : r'.good = true ∨ force = true)
    (h' : Rule.fit E (y.map f) xs force kw r = (.ok (), q')) (hg' : q'.good = true ∨ force = true) :
    r'.getPrediction E = .ok (some c) ∧ q'.getPrediction E = .ok (some (f c)) := by
  have key : ∀ {y : List Label} {r' : Rule} {c : Label}, y.length = u.length → Comparable E (activated u y) → c ∈ activated u y →
      (∀ d ∈ activated u y, d ≠ c → frequency d (activated u y) < frequency c (activated u y)) →
      Rule.fit E y xs force kw r = (.ok (), r') → (r'.good = true ∨ force = true) → r'.getPrediction E = .ok (some c) := by
    intro y r' c hl ht hc hmost h hg
    have : ∃ d, r'.getPrediction E = .ok (some d) ∧ d ∈ activated u y ∧
        (∀ e ∈ activated u y, frequency e (activated u y) ≤ frequency d (activated u y)) := by
      rcases ht with ht | ⟨ht, hS⟩
      · obtain ⟨d, h1, h2, h3, -⟩ := RuleStatProps.C20_number hk hx hu hl ht h hg
        exact ⟨d, h1, h2, h3⟩
      · obtain ⟨d, h1, h2, h3, -⟩ := RuleStatProps.C20_text_partial hk hx hu hl ht hS h hg
        exact ⟨d, h1, h2, h3⟩
    obtain ⟨d, h1, h2, h3⟩ := this
    by_cases e : d = c
    · rw [h1, e]
    · exact absurd (h3 c hc) (not_le.2 (hmost d h2 e))
  refine ⟨key hl ht hc hmost h hg, key (by rw [List.length_map, hl]) (by rwa [activated_map]) ?_ ?_ h' hg'⟩
  · rw [activated_map]
    exact List.mem_map_of_mem hc
  · rw [activated_map]
    intro d hd hdc
    obtain ⟨e, he, rfl⟩ := List.mem_map.1 hd
    rw [frequency_map fun a ha q => hn a ha e he q, frequency_map fun a ha q => hn a ha c hc q]
    exact hmost e he fun q => hdc (by rw [q])

/-- Texts for numbers, in another order: 1 is "no", 2 is "yes", 3 is "maybe". -/
def named : Label → Label
  | .num (.fin q) => if q = 1 then .text "no" else if q = 2 then .text "yes" else .text "maybe"
  | l => l

/-- The hypotheses: three activated points of the classes 2, 1 and 2, called "yes", "no" and "yes" -/
example :
    let E := RuleProps.someEnv .classification
    let y : List Label := [.num (.fin 2), .num (.fin 1), .num (.fin 3), .num (.fin 2)]
    let r := (Rule.make E RuleProps.someCond none).2
    let r' := (Rule.fit E y (some RuleProps.someXs) false {} r).2
    let q' := (Rule.fit E (y.map named) (some RuleProps.someXs) false {} r).2
    Runs r (some RuleProps.someXs) ∧ Uses E r (some RuleProps.someXs) (arr [true, true, false, true]) ∧
    activated [true, true, false, true] y = [.num (.fin 2), .num (.fin 1), .num (.fin 2)] ∧ NewNames named [.num (.fin 2), .num (.fin 1), .num (.fin 2)] ∧
    (Rule.fit E y (some RuleProps.someXs) false {} r).1 = .ok () ∧ r'.good = true ∧
    (Rule.fit E (y.map named) (some RuleProps.someXs) false {} r).1 = .ok () ∧ q'.good = true ∧
      r'.prediction = .probs [(.num (.fin 1), 1 / 3), (.num (.fin 2), 2 / 3)] ∧
      q'.prediction = .probs [(.text "no", 1 / 3), (.text "yes", 2 / 3)] ∧
      r'.getPrediction E = .ok (some (.num (.fin 2))) ∧ q'.getPrediction E = .ok (some (.text "yes")) := by
  refine ⟨?_, ?_, ?_⟩
  · show Xs.length RuleProps.someXs ≠ 0
    decide +kernel
  · show Rule.evaluateActivation _ _ RuleProps.someXs = _
    decide +kernel
  · unfold NewNames
    decide +kernel

example : Comparable (RuleProps.someEnv .classification) [.num (.fin 2), .num (.fin 1), .num (.fin 2)] ∧
    Comparable (RuleProps.someEnv .classification) [.text "yes", .text "no", .text "yes"] := by
  refine ⟨.inl (by simp), .inr ⟨by simp, ?_⟩⟩
  intro i j h1 h2 h3
  have h3 : j ≤ 3 := h3
  have : (i = 1 ∧ j = 2) ∨ (i = 1 ∧ j = 3) ∨ (i = 2 ∧ j = 3) := by omega
  rcases this with ⟨rfl, rfl⟩ | ⟨rfl, rfl⟩ | ⟨rfl, rfl⟩ <;> decide +kernel

/-- **C71 (prediction) is false for equally frequent classes**: two points of the classes 1 and 2 give 1; called 3 and 2 they give 2, the
other class. -/
theorem C71_tie_false :
    ∃ (E : Env) (r r' q' : Rule) (xs : Xs) (u : List Bool) (y : List Label) (f : Label → Label), E.kind = .classification ∧
      Uses E r (some xs) (arr u) ∧ NewNames f (activated u y) ∧ Rule.fit E y (some xs) false {} r = (.ok (), r') ∧ r'.good = true ∧
      Rule.fit E (y.map f) (some xs) false {} r = (.ok (), q') ∧ q'.good = true ∧
      r'.getPrediction E = .ok (some (.num (.fin 1))) ∧ q'.getPrediction E = .ok (some (f (.num (.fin 2)))) ∧ f (.num (.fin 2)) ≠ f (.num (.fin 1)) := by
  refine ⟨RuleProps.someEnv .classification, (Rule.make (RuleProps.someEnv .classification) RuleProps.someCond none).2, _, _,
    .arr ⟨1, [[.fin 0], [.fin 1], [.fin 2]]⟩, [true, true, false], [.num (.fin 1), .num (.fin 2), .num (.fin 1)],
    fun l => if l = .num (.fin 1) then .num (.fin 3) else l, rfl, ?_, ?_, Prod.ext (x := Rule.fit _ _ _ _ _ _) (y := (Except.ok (), _)) ?_ rfl, ?_,
    Prod.ext (x := Rule.fit _ _ _ _ _ _) (y := (Except.ok (), _)) ?_ rfl, ?_, ?_, ?_, ?_⟩
  · show Rule.evaluateActivation _ _ _ = _
    decide +kernel
  · unfold NewNames
    decide +kernel
  all_goals decide +kernel

/-- **C71 (criterion).** A rule with the prediction `p`, evaluated on some targets, has the same criterion as a rule with the prediction
`f p` on these targets under their new names. -/
theorem C71_eval {E : Env} {f : Label → Label} {y : List Label} {xs : Option Xs} {rc force : Bool} {kw : Kw} {r q r' q' : Rule} {u : List Bool}
    {p : Label} (hk : E.kind = .classification) (hx : ∀ x, xs = some x → x.length ≠ 0)
    (hp : r.getPrediction E = .ok (some p)) (hq : q.getPrediction E = .ok (some (f p))) (hpc : IsClass p) (hf : ∀ c, IsClass c → IsClass (f c))
    (hu : Uses E r xs (arr u)) (hu' : Uses E q xs (arr u)) (hl : y.length = u.length) (hy : ∀ t ∈ activated u y, IsClass t)
    (hne : activated u y ≠ []) (hn : NewNames f (p :: activated u y))
    (h : Rule.eval E y xs rc force kw r = (.ok (), r')) (hg : r'.good = true ∨ force = true)
    (h' : Rule.eval E (y.map f) xs rc force kw q = (.ok (), q')) (hg' : q'.good = true ∨ force = true) :
    q'.criterion = r'.criterion := by
  rw [MeasureProps.C33_rule_success hk hx hp hpc hu hl hy hne h hg,
    MeasureProps.C33_rule_success hk hx hq (hf _ hpc) hu' (by rw [List.length_map, hl])
      (by rw [activated_map]; intro t ht; obtain ⟨s, hs, rfl⟩ := List.mem_map.1 ht; exact hf _ (hy s hs))
      (by rw [activated_map]; simpa using hne) h' hg',
    activated_map, frequency_map fun a ha e => hn a (List.mem_cons_of_mem _ ha) p (List.mem_cons_self ..) e]

/-- The success rate is 2/3 with both names. -/
example :
    let E := RuleProps.someEnv .classification
    let y : List Label := [.num (.fin 2), .num (.fin 1), .num (.fin 3), .num (.fin 2)]
    (Rule.eval E y (some RuleProps.someXs) false false {} (RuleProps.someRule (.label (.num (.fin 2))) [1])).2.criterion = .num (.fin (2 / 3)) ∧
    (Rule.eval E (y.map named) (some RuleProps.someXs) false false {} (RuleProps.someRule (.label (.text "yes")) [1])).2.criterion = .num (.fin (2 / 3)) ∧
    named (.num (.fin 2)) = .text "yes" := by decide +kernel

/-! ## Rulesets -/

/-- **C71 (weighted vote).** Two rulesets whose rules correspond, but for the names of the classes, predict the same classes under the
new names, nothing where the first predicts nothing.
Missing: as for `C23_predict_partial`, a rule with a weight must be active somewhere. -/
theorem C71_predict_partial {R : RsEnv} {f : Label → Label} {s s' : RuleSet} {xs : Option Xs} {w w' : WeightsArg} {n : Nat} {g : Rule → Rule}
    {on on' : Rule → Nat → Bool} {c c' : Rule → Label} {wt wt' : Rule → Rat} (hk : s.ruleType = some .classification)
    (hk' : s'.ruleType = some .classification) (hu : R.stackedFit = false ∨ s.stacked = none) (hu' : R.stackedFit = false ∨ s'.stacked = none)
    (hs : SameRules f (rulesOf s) (rulesOf s') g on on' c c') (hwt : ∀ r ∈ rulesOf s, wt' (g r) = wt r)
    (h : Classifiers (voteEnv R .classification) xs (rulesOf s) n on c) (h' : Classifiers (voteEnv R .classification) xs (rulesOf s') n on' c')
    (hw : WeightsGiven (voteEnv R .classification) (rulesOf s) wt w) (hw' : WeightsGiven (voteEnv R .classification) (rulesOf s') wt' w')
    (hpos : ∀ r ∈ rulesOf s, 0 ≤ wt r) (hv : ∃ r ∈ rulesOf s, wt r ≠ 0 ∧ ∃ i < n, on r i = true) :
    ∃ l : List Label, RuleSet.predict R xs (some w) s = (.ok (l.map .label), s) ∧
      RuleSet.predict R xs (some w') s' = (.ok ((l.map (renamed f)).map .label), s') := by
  obtain ⟨l, h1, h2⟩ := C23_predict_partial hk hu h hw hpos hv
  have hpos' : ∀ r ∈ rulesOf s', 0 ≤ wt' r := by
    intro r hr
    rw [hs.rules] at hr
    obtain ⟨q, hq, rfl⟩ := List.mem_map.1 hr
    rw [hwt q hq]
    exact hpos q hq
  have hv' : ∃ r ∈ rulesOf s', wt' r ≠ 0 ∧ ∃ i < n, on' r i = true := by
    obtain ⟨r, hr, h0, i, hi, ho⟩ := hv
    exact ⟨g r, by rw [hs.rules]; exact List.mem_map_of_mem hr, by rwa [hwt r hr], i, hi, by rwa [hs.on r hr]⟩
  obtain ⟨l', h1', h2'⟩ := C23_predict_partial hk' hu' h' hw' hpos' hv'
  refine ⟨l, h1, ?_⟩
  rw [h1', hs.vote hwt h.isClass h2 h2']

/-- **C71 (vote).** The same without weights.
Missing: as for `C24_predict_partial`, a rule must be active somewhere. -/
theorem C71_predict_equal_partial {R : RsEnv} {f : Label → Label} {s s' : RuleSet} {xs : Option Xs} {n : Nat} {g : Rule → Rule}
    {on on' : Rule → Nat → Bool} {c c' : Rule → Label} (hk : s.ruleType = some .classification)
    (hk' : s'.ruleType = some .classification) (hu : R.stackedFit = false ∨ s.stacked = none) (hu' : R.stackedFit = false ∨ s'.stacked = none)
    (hs : SameRules f (rulesOf s) (rulesOf s') g on on' c c')
    (h : Classifiers (voteEnv R .classification) xs (rulesOf s) n on c) (h' : Classifiers (voteEnv R .classification) xs (rulesOf s') n on' c')
    (hv : ∃ r ∈ rulesOf s, ∃ i < n, on r i = true) :
    ∃ l : List Label, RuleSet.predict R xs none s = (.ok (l.map .label), s) ∧
      RuleSet.predict R xs none s' = (.ok ((l.map (renamed f)).map .label), s') := by
  obtain ⟨l, h1, h2⟩ := C24_predict_partial hk hu h hv
  have hv' : ∃ r ∈ rulesOf s', ∃ i < n, on' r i = true := by
    obtain ⟨r, hr, i, hi, ho⟩ := hv
    exact ⟨g r, by rw [hs.rules]; exact List.mem_map_of_mem hr, i, hi, by rwa [hs.on r hr]⟩
  obtain ⟨l', h1', h2'⟩ := C24_predict_partial hk' hu' h' hv'
  refine ⟨l, h1, ?_⟩
  rw [h1', hs.vote (fun _ _ => rfl) h.isClass h2 h2']

/-- **C71 (vote with stacked activations).** The same with stacked activations, when at least two points are decided.
Missing: as for `C24_predict_stacked_partial`; in particular no class may be called "nan" (`C71_nan_false`). -/
theorem C71_predict_stacked_partial {R : RsEnv} {f : Label → Label} {s s' : RuleSet} {xs : Option Xs} {n : Nat} {g : Rule → Rule}
    {on on' : Rule → Nat → Bool} {c c' : Rule → Label} {cols cols' : Columns Nat} (hk : s.ruleType = some .classification)
    (hk' : s'.ruleType = some .classification) (hkind : ∀ m ∈ s.rules, m.kind = .classification) (hkind' : ∀ m ∈ s'.rules, m.kind = .classification)
    (hu : R.stackedFit = true) (hc : s.stacked = some cols) (hc' : s'.stacked = some cols')
    (hx : xs = none → cols = stackOf (voteEnv R .classification) (rulesOf s) n on)
    (hx' : xs = none → cols' = stackOf (voteEnv R .classification) (rulesOf s') n on')
    (hs : SameRules f (rulesOf s) (rulesOf s') g on on' c c')
    (h : Classifiers (voteEnv R .classification) xs (rulesOf s) n on c) (h' : Classifiers (voteEnv R .classification) xs (rulesOf s') n on' c')
    (hd : DifferentNames (voteEnv R .classification) (rulesOf s)) (hd' : DifferentNames (voteEnv R .classification) (rulesOf s'))
    (ht : SameType ((rulesOf s).map c)) (ht' : SameType ((rulesOf s').map c')) (hnan : ∀ r ∈ rulesOf s, c r ≠ .text "nan")
    (hnan' : ∀ r ∈ rulesOf s', c' r ≠ .text "nan") {i j : Nat} (hi : i < n) (hj : j < n)
    (hij : i ≠ j) {a b : Label} (ha : Wins (rulesOf s) on c (fun _ => 1) a i) (hb : Wins (rulesOf s) on c (fun _ => 1) b j) :
    ∃ l : List Label, RuleSet.predict R xs none s = (.ok (l.map .label), s) ∧
      RuleSet.predict R xs none s' = (.ok ((l.map (renamed f)).map .label), s') := by
  obtain ⟨l, h1, h2⟩ := C24_predict_stacked_partial hk hkind hu hc hx h hd ht hnan hi hj hij ha hb
  obtain ⟨l', h1', h2'⟩ := C24_predict_stacked_partial hk' hkind' hu hc' hx' h' hd' ht' hnan' hi hj hij
    ((hs.wins (fun _ _ => rfl) _ _).2 ⟨a, ha, rfl⟩) ((hs.wins (fun _ _ => rfl) _ _).2 ⟨b, hb, rfl⟩)
  refine ⟨l, h1, ?_⟩
  rw [h1', hs.vote (fun _ _ => rfl) h.isClass h2 h2']

/-- **C71 (criterion of a ruleset).** The criterion of a ruleset whose predictions are `p` on the targets `y` is that of a ruleset whose
predictions are these under the new names, on the targets under the new names. -/
theorem C71_criterion_set {R : RsEnv} {f : Label → Label} {s s' : RuleSet} {xs : Option Xs} {w w' : Option WeightsArg} {kw : Rule.Kw} {p y : List Label}
    {u : List Bool} (hne : s.rules ≠ []) (hne' : s'.rules ≠ []) (hk : s.ruleType = some .classification) (hk' : s'.ruleType = some .classification)
    (hm : kw.criterionMethod = none ∨ kw.criterionMethod = some "success_rate")
    (hp : RuleSet.predict R xs w s = (.ok (p.map .label), s)) (hp' : RuleSet.predict R xs w' s' = (.ok ((p.map (renamed f)).map .label), s'))
    (hpl : p.length = u.length) (hl : y.length = u.length) (ha : ActivationIs R s xs (arr u)) (ha' : ActivationIs R s' xs (arr u))
    (hc : ∀ q ∈ p, IsClass q ∨ q = .num .nan) (hy : ∀ t ∈ y, IsClass t) (hf : ∀ c, IsClass c → IsClass (f c)) (hn : NewNames f (p ++ y))
    (hd : ∃ q ∈ activated u p, q ≠ .num .nan) :
    ∃ x, RuleSet.calcCriterion R y xs w kw s = (.ok (), { s with criterion := .num (.fin x) }) ∧
      RuleSet.calcCriterion R (y.map f) xs w' kw s' = (.ok (), { s' with criterion := .num (.fin x) }) := by
  have hnan : ∀ q, IsClass q → q ≠ .num .nan := by
    rintro q (⟨x, rfl⟩ | ⟨s, rfl⟩) e <;> cases e
  have hc' : ∀ q ∈ p.map (renamed f), IsClass q ∨ q = .num .nan := by
    intro q hq
    obtain ⟨t, ht, rfl⟩ := List.mem_map.1 hq
    unfold renamed
    split
    · exact .inr rfl
    · rename_i e
      exact .inl (hf _ ((hc t ht).resolve_right e))
  have hd' : ∃ q ∈ activated u (p.map (renamed f)), q ≠ .num .nan := by
    obtain ⟨q, hq, hqn⟩ := hd
    rw [activated_map]
    refine ⟨_, List.mem_map_of_mem hq, ?_⟩
    unfold renamed
    rw [if_neg hqn]
    exact hnan _ (hf _ ((hc q (RuleSetProps.activated_mem hq)).resolve_right hqn))
  obtain ⟨e1, e2⟩ := counts_renamed hc hy hf hn u
  refine ⟨_, C42_success hne hk hm hp hpl hl ha hc hy hd, ?_⟩
  rw [C42_success hne' hk' hm hp' (by rw [List.length_map, hpl]) (by rw [List.length_map, hl]) ha' hc'
    (by intro t ht; obtain ⟨q, hq, rfl⟩ := List.mem_map.1 ht; exact hf _ (hy q hq)) hd', e1, e2]

/-! ## The hypotheses on three rules -/

/-- Three rules which predict 1, 2 and 2 -/
def three : List Rule := [voter 0 [1, 1, 1] (.num (.fin 1)), voter 1 [0, 1, 1] (.num (.fin 2)), voter 2 [0, 0, 1] (.num (.fin 2))]

/-- What a voter predicts -/
def classOf (r : Rule) : Label :=
  match r.prediction with
  | .label l => l
  | _ => .num .nan

/-- The rule which predicts the class under its new name -/
def rename (r : Rule) : Rule := { r with prediction := .label (named (classOf r)) }

theorem three_classifiers : Classifiers (voteEnv someRs .classification) none three 3 isOn classOf ∧
    Classifiers (voteEnv someRs .classification) none (three.map rename) 3 isOn classOf := by
  refine ⟨⟨by decide, ?_, ?_, ?_⟩, ⟨by decide, ?_, ?_, ?_⟩⟩ <;>
    simp only [three, List.map_cons, List.map_nil, List.forall_mem_cons, List.not_mem_nil, false_imp_iff, implies_true, and_true]
  · decide +kernel
  · decide +kernel
  · simp [IsClass, classOf, voter]
  · decide +kernel
  · decide +kernel
  · simp [IsClass, classOf, voter, rename, named]

theorem three_same : SameRules named three (three.map rename) rename isOn isOn classOf classOf := by
  refine ⟨rfl, fun r _ => rfl, fun r _ => rfl, ?_⟩
  unfold NewNames
  decide +kernel

/-- The hypotheses of `C71_predict_equal_partial` -/
example : ∃ l : List Label,
    RuleSet.predict someRs none none (setWith .classification three) = (.ok (l.map .label), setWith .classification three) ∧
    RuleSet.predict someRs none none (setWith .classification (three.map rename)) =
      (.ok ((l.map (renamed named)).map .label), setWith .classification (three.map rename)) :=
  C71_predict_equal_partial (s := setWith .classification three) (s' := setWith .classification (three.map rename)) (n := 3) rfl rfl (.inl rfl) (.inl rfl)
    three_same three_classifiers.1 three_classifiers.2 ⟨_, List.mem_cons_self .., 0, by decide, rfl⟩

/-- The hypotheses of `C71_predict_partial`, with the weights 1, 3 and 5 -/
example : ∃ l : List Label,
    RuleSet.predict someRs none (some (.series (someWeights 1 3 5))) (setWith .classification three) = (.ok (l.map .label), setWith .classification three) ∧
    RuleSet.predict someRs none (some (.series (someWeights 1 3 5))) (setWith .classification (three.map rename)) =
      (.ok ((l.map (renamed named)).map .label), setWith .classification (three.map rename)) := by
  have hw : ∀ rules : List Rule, (rules.all fun r => decide (someWeights 1 3 5 (someRs.condStr r.cond) = some (.fin (weightIn (voteEnv someRs .classification) (someWeights 1 3 5) r)))) = true →
      WeightsAre (voteEnv someRs .classification) (someWeights 1 3 5) rules (weightIn (voteEnv someRs .classification) (someWeights 1 3 5)) := by
    intro rules h r hr
    exact .inl (of_decide_eq_true (List.all_eq_true.1 h r hr))
  refine C71_predict_partial (s := setWith .classification three) (s' := setWith .classification (three.map rename)) (n := 3)
    (wt := weightIn (voteEnv someRs .classification) (someWeights 1 3 5)) (wt' := weightIn (voteEnv someRs .classification) (someWeights 1 3 5)) rfl rfl
    (.inl rfl) (.inl rfl) three_same (fun _ _ => rfl) three_classifiers.1 three_classifiers.2 (hw three (by decide +kernel))
    (hw (three.map rename) (by decide +kernel)) ?_
    ⟨_, List.mem_cons_self .., by decide +kernel, 0, by decide, rfl⟩
  show ∀ r ∈ three, _
  decide +kernel

/-- The same rules with stacked activations -/
def stackedThree (rules : List Rule) : RuleSet :=
  { setWith .classification rules with stacked := some (stackOf (voteEnv someRs .classification) rules 3 isOn) }

theorem three_wins : Wins three isOn classOf (fun _ => 1) (.num (.fin 1)) 0 ∧ Wins three isOn classOf (fun _ => 1) (.num (.fin 2)) 2 := by
  refine ⟨⟨by decide +kernel, fun k hk => ?_⟩, ⟨by decide +kernel, fun k hk => ?_⟩⟩
  · have e : votes three isOn classOf (fun _ => 1) (.num (.fin 1)) 0 = 1 := by decide +kernel
    have e0 : votes three isOn classOf (fun _ => 1) k 0 = 0 := by
      simp [votes, three, isOn, classOf, voter, Rule.blank, hk.symm]
    rw [e, e0]
    exact one_pos
  · have e : votes three isOn classOf (fun _ => 1) (.num (.fin 2)) 2 = 2 := by decide +kernel
    have e0 : votes three isOn classOf (fun _ => 1) k 2 ≤ 1 := by
      by_cases h1 : (Label.num (.fin 1)) = k
      · rw [← h1]
        decide +kernel
      · simp [votes, three, isOn, classOf, voter, Rule.blank, hk.symm, h1]
    rw [e]
    linarith

/-- The hypotheses of `C71_predict_stacked_partial` -/
example : ∃ l : List Label,
    RuleSet.predict { someRs with stackedFit := true } none none (stackedThree three) = (.ok (l.map .label), stackedThree three) ∧
    RuleSet.predict { someRs with stackedFit := true } none none (stackedThree (three.map rename)) =
      (.ok ((l.map (renamed named)).map .label), stackedThree (three.map rename)) := by
  refine C71_predict_stacked_partial (R := { someRs with stackedFit := true }) (s := stackedThree three) (s' := stackedThree (three.map rename)) (n := 3)
    rfl rfl ?_ ?_ rfl rfl rfl (fun _ => rfl) (fun _ => rfl) three_same three_classifiers.1 three_classifiers.2 ?_ ?_ (.inl ?_) (.inr ?_) ?_ ?_
    (i := 0) (j := 2) (by decide) (by decide) (by decide) three_wins.1 three_wins.2
  · simp [stackedThree, setWith]
  · simp [stackedThree, setWith]
  · show (three.map fun r => someRs.condStr r.cond).Nodup
    decide +kernel
  · show ((three.map rename).map fun r => someRs.condStr r.cond).Nodup
    decide +kernel
  · show ∀ l ∈ three.map classOf, _
    simp [three, classOf, voter]
  · show ∀ l ∈ (three.map rename).map classOf, _
    simp [three, classOf, voter, rename, named]
  · show ∀ r ∈ three, _
    decide +kernel
  · show ∀ r ∈ three.map rename, _
    decide +kernel

/-- What they predict: 1, a tie, 2 -/
example : (RuleSet.predict someRs none none (setWith .classification three)).1 =
      .ok [.label (.num (.fin 1)), .label (.num .nan), .label (.num (.fin 2))] ∧
    (RuleSet.predict someRs none none (setWith .classification (three.map rename))).1 =
      .ok [.label (.text "no"), .label (.num .nan), .label (.text "yes")] ∧
    (RuleSet.predict someRs none (some (.series (someWeights 1 3 5))) (setWith .classification (three.map rename))).1 =
      .ok [.label (.text "no"), .label (.text "yes"), .label (.text "yes")] := by decide +kernel

/-- The ruleset with its activation -/
def coveredThree (rules : List Rule) : RuleSet := { setWith .classification rules with act := some [1, 1, 1] }

/-- The hypotheses of `C71_criterion_set`: one of two predictions is right. -/
example :
    RuleSet.predict someRs none none (coveredThree three) =
      (.ok ([Label.num (.fin 1), .num .nan, .num (.fin 2)].map .label), coveredThree three) ∧
    RuleSet.predict someRs none none (coveredThree (three.map rename)) =
      (.ok (([Label.num (.fin 1), .num .nan, .num (.fin 2)].map (renamed named)).map .label), coveredThree (three.map rename)) ∧
    ActivationIs someRs (coveredThree three) none (arr [true, true, true]) ∧ ActivationIs someRs (coveredThree (three.map rename)) none (arr [true, true, true]) ∧
    NewNames named ([.num (.fin 1), .num .nan, .num (.fin 2)] ++ [.num (.fin 1), .num (.fin 2), .num (.fin 3)]) ∧ (∀ c, IsClass c → IsClass (named c)) ∧
    (RuleSet.calcCriterion someRs [.num (.fin 1), .num (.fin 2), .num (.fin 3)] none none {} (coveredThree three)).2.criterion = .num (.fin (1 / 2)) ∧
    (RuleSet.calcCriterion someRs [.text "no", .text "yes", .text "maybe"] none none {} (coveredThree (three.map rename))).2.criterion = .num (.fin (1 / 2)) := by
  refine ⟨by decide +kernel, by decide +kernel, rfl, rfl, ?_, ?_, by decide +kernel, by decide +kernel⟩
  · unfold NewNames
    decide +kernel
  · rintro c (⟨q, rfl⟩ | ⟨t, rfl⟩)
    · simp only [named]
      split
      · exact .inr ⟨_, rfl⟩
      · split <;> exact .inr ⟨_, rfl⟩
    · exact .inr ⟨_, rfl⟩

/-- **C71 is false of the vote with stacked activations when a class is called "nan"**: the classes "x" and "a" give "x" everywhere; with
"nan" for "x", the votes for it are not counted. -/
theorem C71_nan_false :
    let S := someSet .classification
    let rules := fun x : String => [voter 0 [1, 1, 1] (.text x), voter 1 [1, 1, 0] (.text x), voter 2 [1, 1, 0] (.text "a")]
    predictStacked S (rules "x") (stackOf S (rules "x") 3 isOn) none = .ok [.label (.text "x"), .label (.text "x"), .label (.text "x")] ∧
      predictStacked S (rules "nan") (stackOf S (rules "nan") 3 isOn) none = .ok [.label (.text "a"), .label (.text "a"), .label (.num .nan)] := by
  decide +kernel

end Verif.ClassNames
