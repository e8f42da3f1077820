import Verif.TargetIndex
import Verif.StackedEvalSetLemmas

/-!
# Targets with an index: lemmas
-/

namespace Verif

open Vote (Columns WeightsArg)

namespace RFun

theorem columnAt_same {rows : List Int} {act : List Nat} {y : Targets} (h : rows = y.rows) :
    conditionalColumnAt rows act y = .ok (conditionalColumn act y.values) := if_pos h

theorem varsAt_same {rows : List Int} {c : Columns Nat} {y : Targets} (h : rows = y.rows) :
    conditionalVarsAt rows c y = conditionalVars c y.values := by
  unfold conditionalVarsAt conditionalVars
  congr 1
  funext p
  rw [columnAt_same h]
  rfl

theorem classesAt_same {rows : List Int} {c : Columns Nat} {y : Targets} (h : rows = y.rows) :
    conditionalClassesAt rows c y = conditionalClasses c y.values := by
  unfold conditionalClassesAt conditionalClasses
  congr 1
  funext p
  rw [columnAt_same h]
  rfl

theorem mapM_ok {α β : Type} (f : α → β) (l : List α) : l.mapM (fun a => (.ok (f a) : Except Err β)) = .ok (l.map f) := by
  induction l with
  | nil => rfl
  | cons a l ih =>
    rw [List.mapM_cons, ih]
    rfl

theorem criterionsAt_same {rows : List Int} {c : Columns Nat} {p : Series Label} {y : Targets} (h : rows = y.rows) :
    classificationCriterionsAt rows c p y = classificationCriterions c p y.values := by
  unfold classificationCriterionsAt classificationCriterions
  split
  · rfl
  · have e : (fun q : (String × List Nat) × (String × Label) => do
        let col ← conditionalColumnAt rows q.1.2 y
        (.ok (q.1.1, successOf col q.2.2) : Except Err (String × Num))) =
        fun q => .ok (q.1.1, columnSuccess q.1.2 q.2.2 y.values) := by
      funext q
      rw [columnAt_same h]
      rfl
    rw [e, mapM_ok, List.zip_eq_zipWith, List.map_zipWith]

end RFun

namespace RuleSet

variable {R : RsEnv}

theorem trainFiguresAt_same {k : Kind} {rules : List Member} {rows : List Int} {c : Columns Nat} {y : Targets} {kw : Rule.Kw}
    (h : rows = y.rows) : trainFiguresAt R k rules rows c y kw = trainFigures R k rules c y.values kw := by
  unfold trainFiguresAt trainFigures
  rw [RFun.classesAt_same h, RFun.varsAt_same h]
  cases k <;> rfl

theorem testFiguresAt_same {k : Kind} {rules : List Member} {rows : List Int} {c : Columns Nat} {y : Targets} {kw : Rule.Kw}
    (h : rows = y.rows) : testFiguresAt R k rules rows c y kw = testFigures R k rules c y.values kw := by
  unfold testFiguresAt testFigures
  congr 1
  funext preds
  rw [RFun.criterionsAt_same h]
  cases k <;> rfl

/-- The stacked activations have a `pd.RangeIndex`. -/
def Ranged (p : Framed) : Prop := ∀ c, p.set.stacked = some c → p.rows = rangeIndex (Vote.height c)

theorem ranged_newRows (p : Framed) :
    Ranged { p with rows := rangeIndex (Vote.height (p.set.stacked.getD [])) } := by
  intro c hc
  simp only at hc ⊢
  rw [hc]
  rfl

theorem onSet_ok {α} {f : Py RuleSet α} {p : Framed} {a : α} {s : RuleSet} (h : f p.set = (.ok a, s)) :
    onSet f p = (.ok a, { p with set := s }) := by
  unfold onSet
  rw [h]

theorem onSet_err {α} {f : Py RuleSet α} {p : Framed} {e : Err} {s : RuleSet} (h : f p.set = (.error e, s)) :
    onSet f p = (.error e, { p with set := s }) := by
  unfold onSet
  rw [h]

/-- The answers of two calls: the same, or for a Series of another length `ValueError` instead of `IndexError` -/
def SameAnswer (y : Targets) (a b : Except Err (List Member)) : Prop :=
  a = b ∨ y.index ≠ none ∧ a = .error .valueError ∧ b = .error .indexError

/-- What is shown of a call: the same answer and the same ruleset, and the index is put back. -/
def Agrees (y : Targets) (p : Framed) (r : Except Err (List Member) × Framed) (r' : Except Err (List Member) × RuleSet) : Prop :=
  r.2.set = r'.2 ∧ SameAnswer y r.1 r'.1 ∧ ∀ d, r.1 = .ok d → Ranged p → Ranged r.2

theorem agrees_err {y : Targets} {p q : Framed} {e : Err} {s : RuleSet} (h : q.set = s) :
    Agrees y p (.error e, q) (.error e, s) := ⟨h, .inl rfl, fun _ h => by cases h⟩

theorem agrees_idle {y : Targets} {p : Framed} {a : Except Err (List Member)} : Agrees y p (a, p) (a, p.set) :=
  ⟨rfl, .inl rfl, fun _ _ h => h⟩

theorem needType_same {s s' : RuleSet} {a : Except Err Kind} (h : needType s = (a, s')) : s' = s := by
  unfold needType at h
  rw [Py.bind_run, Py.get_run] at h
  simp only at h
  cases hk : s.ruleType with
  | none =>
    rw [hk] at h
    cases h
    rfl
  | some k =>
    rw [hk] at h
    cases h
    rfl

theorem try_ok {σ α β} {x : Except Err α} {a : α} (h : x = .ok a) (f : α → Py σ β) (s : σ) : (Py.ofExcept x >>= f) s = f a s := by
  rw [h]
  rfl

theorem try_err {σ α β} {x : Except Err α} {e : Err} (h : x = .error e) (f : α → Py σ β) (s : σ) :
    (Py.ofExcept x >>= f) s = (.error e, s) := by
  rw [h]
  rfl

theorem cleanIf_run (b : Bool) (s : RuleSet) : cleanIf b s = (.ok (), if b then { s with stacked := none } else s) := by
  cases b <;> rfl

theorem prepareFit_none {s s' : RuleSet} {b : Bool} (h : prepareFit R none s = (.ok b, s')) (hs : s.stacked ≠ none) : s' = s := by
  unfold prepareFit at h
  simp only at h
  rw [Py.bind_run, Py.get_run] at h
  simp only at h
  cases hc : s.stacked with
  | none => exact absurd hc hs
  | some c =>
    rw [hc] at h
    cases h
    rfl

/-- The index used by a call -/
theorem rows_used {y : Targets} {rows : List Int} {c : Columns Nat} (hc : Vote.height c = y.values.length)
    (h : y.index ≠ none ∨ rows = rangeIndex (Vote.height c)) : y.index.getD rows = y.rows := by
  unfold Targets.rows
  cases hi : y.index with
  | some ix => rfl
  | none =>
    rcases h with h | h
    · exact absurd hi h
    · rw [h, hc]

theorem checkRows_ok {c : Option (Columns Nat)} {c' : Columns Nat} {y : List Label} (h : checkRows c y = .ok c') :
    c = some c' ∧ Vote.height c' = y.length := by
  unfold checkRows at h
  split at h
  · cases h
  · split at h
    · cases h
      exact ⟨rfl, by assumption⟩
    · cases h

theorem receiveRules_stacked {mark : Rule → Rule} {vals : List (String × RFun.Series Label)} {s s' : RuleSet} {a : Except Err (List Nat)}
    (h : receiveRules R mark vals s = (a, s')) : s'.stacked = s.stacked := by
  have := congrArg (fun q => q.2.stacked) h
  exact this.symm

/-- `fit` with an index -/
theorem fitAt_agrees {y : Targets} {xs : Option Xs} {kw : Rule.Kw} {p : Framed}
    (hk : y.index ≠ none ∨ xs ≠ none ∨ Ranged p) :
    Agrees y p (fitAt R y xs kw p) (fitStacked R y.values xs kw p.set) := by
  unfold fitAt fitStacked
  rcases h1 : needType p.set with ⟨e | k, s1⟩
  · rw [Py.bind_err (onSet_err h1), Py.bind_err h1]
    exact agrees_err rfl
  have e1 := needType_same h1
  subst e1
  rw [Py.bind_ok (onSet_ok h1), Py.bind_ok h1]
  split
  · exact agrees_err rfl
  rw [Py.bind_ok (Py.get_run _), Py.bind_ok (Py.get_run _)]
  split
  · exact agrees_idle
  split
  · exact agrees_idle
  split
  · exact agrees_idle
  rcases h2 : prepareFit R xs p.set with ⟨e | clean, s2⟩
  · rw [Py.bind_err (onSet_err h2), Py.bind_err h2]
    exact agrees_err rfl
  rw [Py.bind_ok (onSet_ok h2), Py.bind_ok h2]
  unfold newRows
  rw [Py.bind_ok (Py.modify_run _ _), Py.bind_ok (Py.get_run _), Py.bind_ok (Py.get_run _)]
  obtain ⟨rows, hrows, hr⟩ : ∃ rows, (if (xs.isSome || p.set.stacked.isNone) = true then
      ({ set := s2, rows := rangeIndex (Vote.height (s2.stacked.getD [])) } : Framed) else { p with set := s2 }) = ⟨s2, rows⟩ ∧
      ∀ c, s2.stacked = some c → y.index ≠ none ∨ rows = rangeIndex (Vote.height c) := by
    split
    · refine ⟨_, rfl, fun c hc => .inr ?_⟩
      rw [hc]
      rfl
    · rename_i hn
      refine ⟨_, rfl, fun c hc => ?_⟩
      simp only [Bool.or_eq_true, not_or, Option.isSome_iff_ne_none, Option.isNone_iff_eq_none, not_not] at hn
      obtain ⟨rfl, hn⟩ := hn
      rcases hk with hk | hk | hk
      · exact .inl hk
      · exact absurd rfl hk
      · rw [prepareFit_none h2 hn] at hc
        exact .inr (hk c hc)
  simp only [hrows]
  rcases h3 : checkRows s2.stacked y.values with e | c
  · have e3 : checkTrain s2.stacked y = .error (if e = .indexError ∧ y.index.isSome then .valueError else e) := by
      unfold checkTrain
      rw [h3]
    rw [try_err e3, try_err rfl]
    refine ⟨rfl, ?_, fun _ h => by cases h⟩
    simp only
    split
    · rename_i hi
      refine .inr ⟨fun hn => ?_, rfl, by rw [hi.1]⟩
      rw [hn] at hi
      cases hi.2
    · exact .inl rfl
  have e3 : checkTrain s2.stacked y = .ok c := by
    unfold checkTrain
    rw [h3]
  rw [try_ok e3, try_ok rfl]
  unfold giveIndex
  rw [Py.bind_ok (Py.modify_run _ _), Py.bind_ok (Py.get_run _)]
  obtain ⟨hc, hlen⟩ := checkRows_ok h3
  have e4 := rows_used hlen (hr c hc)
  simp only [e4]
  rw [trainFiguresAt_same (R := R) rfl]
  rcases h5 : trainFigures R k s2.rules c y.values kw with e | vals
  · rw [try_err rfl, try_err rfl]
    exact agrees_err rfl
  rw [try_ok rfl, try_ok rfl]
  rw [Py.bind_ok (onSet_ok (cleanIf_run clean s2)), Py.bind_ok (cleanIf_run clean s2), Py.bind_ok (Py.modify_run _ _)]
  simp only [if_true]
  generalize (if clean then { s2 with stacked := none } else s2) = s3
  rcases h6 : receiveRules R (fun r => { r with fitted := true }) vals s3 with ⟨e | ns, s4⟩
  · rw [Py.bind_err (onSet_err h6), Py.bind_err h6]
    exact agrees_err rfl
  rw [Py.bind_ok (onSet_ok h6), Py.bind_ok h6, Py.bind_ok (Py.get_run _), Py.bind_ok (Py.get_run _)]
  have e6 := receiveRules_stacked h6
  simp only
  generalize dropList s4.rules ns = drops
  rcases h7 : afterFitStacked R drops s4 with ⟨e | u, s5⟩
  · rw [Py.bind_err (onSet_err h7), Py.bind_err h7]
    exact agrees_err rfl
  rw [Py.bind_ok (onSet_ok h7), Py.bind_ok h7, Py.bind_ok (Py.modify_run _ _)]
  have e7 : ∀ s : RuleSet, calcTrainSetSize y.values s = (.ok (), { s with trainSize := .num (.fin y.values.length) }) := fun s => rfl
  rw [Py.bind_ok (onSet_ok (e7 _)), Py.bind_ok (e7 _)]
  refine ⟨?_, .inl rfl, fun d _ _ => ?_⟩
  · simp only [Py.pure_run]
    split <;> rfl
  · simp only [Py.pure_run]
    split
    · intro c hc
      simp only at hc ⊢
      rw [hc]
      rfl
    · rename_i hd
      have : s5 = s4 := by
        unfold afterFitStacked at h7
        rw [if_neg (by simpa using hd)] at h7
        cases h7
        rfl
      intro c hc
      simp only at hc ⊢
      rw [this, e6] at hc
      rw [hc]
      rfl

/-- `eval` with an index -/
theorem evalAt_agrees {y : Targets} {xs : Option Xs} {keep : Bool} {w : Option WeightsArg} {kw : Rule.Kw} {p : Framed}
    (hk : y.index ≠ none ∨ xs ≠ none ∨ Ranged p) :
    Agrees y p (evalAt R y xs keep w kw p) (evalStacked R y.values xs keep w kw p.set) := by
  unfold evalAt evalStacked
  rcases h1 : needType p.set with ⟨e | k, s1⟩
  · rw [Py.bind_err (onSet_err h1), Py.bind_err h1]
    exact agrees_err rfl
  have e1 := needType_same h1
  subst e1
  rw [Py.bind_ok (onSet_ok h1), Py.bind_ok h1]
  split
  · exact agrees_err rfl
  rw [Py.bind_ok (Py.get_run _), Py.bind_ok (Py.get_run _)]
  split
  · exact agrees_idle
  rename_i hx
  have hx' : ∀ x, xs = some x → x.length ≠ 0 := by
    rintro x rfl e
    exact hx (by simp [e])
  split
  · exact agrees_idle
  split
  · exact agrees_err rfl
  simp only
  generalize (keep || !p.set.rules.all fun m => m.rule.fitted) = keep
  rcases h2 : prepareEval R xs keep p.set with ⟨e | q, s2⟩
  · rw [Py.bind_err (onSet_err h2), Py.bind_err h2]
    exact agrees_err rfl
  rw [Py.bind_ok (onSet_ok h2), Py.bind_ok h2]
  have hpe := prepareEval_ok hx' h2
  unfold newRows
  rw [Py.bind_ok (Py.modify_run _ _), Py.bind_ok (Py.get_run _), Py.bind_ok (Py.get_run _)]
  obtain ⟨rows, hrows, hr, hkeep⟩ : ∃ rows, (if (if xs.isSome = true then keep else p.set.stacked.isNone) = true then
      ({ set := s2, rows := rangeIndex (Vote.height (s2.stacked.getD [])) } : Framed) else { p with set := s2 }) = ⟨s2, rows⟩ ∧
      (ownFrame xs keep = false → s2.stacked = q.1 ∧
        ∀ c, s2.stacked = some c → y.index ≠ none ∨ rows = rangeIndex (Vote.height c)) ∧
      (ownFrame xs keep = true → s2 = p.set ∧ rows = p.rows ∧ q.2 = false) := by
    rcases hpe with ⟨x, la, a, c, rfl, rfl, -, -, -, rfl, rfl⟩ | ⟨x, c, rfl, rfl, -, rfl, rfl⟩ | ⟨rfl, hn, c, a, -, -, rfl, rfl⟩ |
      ⟨rfl, hn, rfl, rfl⟩
    · refine ⟨_, rfl, fun _ => ⟨rfl, fun c' hc => .inr ?_⟩, fun h => by cases h⟩
      simp only at hc
      simp only [hc]
      rfl
    · exact ⟨_, rfl, (fun h => by cases h), fun _ => ⟨rfl, rfl, rfl⟩⟩
    · refine ⟨_, by rw [hn]; rfl, fun _ => ⟨rfl, fun c' hc => .inr ?_⟩, fun h => by cases h⟩
      simp only at hc
      simp only [hc]
      rfl
    · obtain ⟨c, hc⟩ := Option.ne_none_iff_exists'.1 hn
      refine ⟨p.rows, by rw [hc]; rfl, fun _ => ⟨rfl, fun c' hc' => ?_⟩, fun h => by cases h⟩
      rcases hk with hk | hk | hk
      · exact .inl hk
      · exact absurd rfl hk
      · exact .inr (hk c' hc')
  simp only [hrows]
  rcases h3 : checkRows q.1 y.values with e | c
  · rw [try_err rfl, try_err rfl]
    exact agrees_err rfl
  rw [try_ok rfl, try_ok rfl]
  obtain ⟨hc, hlen⟩ := checkRows_ok h3
  obtain ⟨rows', e4, hrows'⟩ : ∃ rows', evalRows (ownFrame xs keep) c y ⟨s2, rows⟩ = (.ok y.rows, ⟨s2, rows'⟩) ∧
      (ownFrame xs keep = true → rows' = rows) := by
    unfold evalRows
    cases ho : ownFrame xs keep with
    | true =>
      refine ⟨rows, ?_, fun _ => rfl⟩
      simp only [if_true, Py.pure_run]
      rw [rows_used hlen (.inr rfl)]
    | false =>
      refine ⟨y.index.getD rows, ?_, fun h => by cases h⟩
      obtain ⟨g1, g2⟩ := hr ho
      rw [if_neg (by simp)]
      unfold giveIndex
      rw [Py.bind_ok (Py.modify_run _ _), Py.bind_ok (Py.get_run _)]
      simp only [Py.pure_run]
      rw [rows_used hlen (g2 c (g1.trans hc))]
  rw [Py.bind_ok e4, testFiguresAt_same (R := R) rfl]
  rcases h5 : testFigures R k s2.rules c y.values kw with e | vals
  · rw [try_err rfl, try_err rfl]
    exact agrees_err rfl
  rw [try_ok rfl, try_ok rfl]
  rw [Py.bind_ok (onSet_ok (cleanIf_run q.2 s2)), Py.bind_ok (cleanIf_run q.2 s2), Py.bind_ok (Py.modify_run _ _)]
  obtain ⟨s3, rows3, hs3, e3, hg3⟩ : ∃ s3 rows3, (if q.2 then { s2 with stacked := none } else s2) = s3 ∧
      (if (!ownFrame xs keep) = true then ({ set := s3, rows := rangeIndex (Vote.height (s3.stacked.getD [])) } : Framed)
        else { set := s3, rows := rows' }) = ⟨s3, rows3⟩ ∧ (Ranged p → Ranged ⟨s3, rows3⟩) := by
    cases ho : ownFrame xs keep with
    | false =>
      refine ⟨_, _, rfl, rfl, fun _ c hc => ?_⟩
      simp only at hc ⊢
      rw [hc]
      rfl
    | true =>
      obtain ⟨g1, g2, g3⟩ := hkeep ho
      have g4 := hrows' ho
      refine ⟨_, _, rfl, rfl, fun hp c hc => ?_⟩
      simp only [g3, Bool.false_eq_true, if_false] at hc ⊢
      rw [g4, g2]
      rw [g1] at hc
      exact hp c hc
  simp only [hs3, e3]
  rcases h6 : receiveRules R (fun r => { r with evaluated := true }) vals s3 with ⟨e | ns, s4⟩
  · rw [Py.bind_err (onSet_err h6), Py.bind_err h6]
    exact agrees_err rfl
  rw [Py.bind_ok (onSet_ok h6), Py.bind_ok h6, Py.bind_ok (Py.get_run _), Py.bind_ok (Py.get_run _)]
  have e6 := receiveRules_stacked h6
  simp only
  generalize dropList s4.rules ns = drops
  rcases h7 : afterEvalStacked R drops (xs.isSome && keep) s4 with ⟨e | u, s5⟩
  · rw [Py.bind_err (onSet_err h7), Py.bind_err h7]
    exact agrees_err rfl
  rw [Py.bind_ok (onSet_ok h7), Py.bind_ok h7, Py.bind_ok (Py.modify_run _ _)]
  obtain ⟨rows5, e5, hg5⟩ : ∃ rows5, (if decide (drops.length > 0) = true then
      ({ set := s5, rows := rangeIndex (Vote.height (s5.stacked.getD [])) } : Framed) else { set := s5, rows := rows3 }) = ⟨s5, rows5⟩ ∧
      (Ranged p → Ranged ⟨s5, rows5⟩) := by
    split
    · refine ⟨_, rfl, fun _ c hc => ?_⟩
      simp only at hc ⊢
      rw [hc]
      rfl
    · rename_i hd
      have : s5 = s4 := by
        unfold afterEvalStacked at h7
        rw [if_neg (by simpa using hd)] at h7
        cases h7
        rfl
      refine ⟨_, rfl, fun hp c hc => hg3 hp c ?_⟩
      simp only at hc ⊢
      rw [← e6, ← this]
      exact hc
  simp only [e5]
  rcases h8 : calcCriterion R y.values (if keep then none else xs) w kw s5 with ⟨e | u', s6⟩
  · rw [Py.bind_err (onSet_err h8), Py.bind_err h8]
    exact agrees_err rfl
  rw [Py.bind_ok (onSet_ok h8), Py.bind_ok h8]
  have e8 : s6.stacked = s5.stacked := by
    have := (calcCriterion_frame (R := R) y.values (if keep then none else xs) w kw s5).2.1
    rwa [h8] at this
  have e9 : ∀ s : RuleSet, calcTestSetSize y.values s = (.ok (), { s with testSize := .num (.fin y.values.length) }) := fun s => rfl
  rw [Py.bind_ok (onSet_ok (e9 _)), Py.bind_ok (e9 _)]
  refine ⟨rfl, .inl rfl, fun d _ hp c hc => hg5 hp c ?_⟩
  simp only [Py.pure_run] at hc ⊢
  rw [← e8]
  exact hc

end RuleSet

end Verif

namespace Verif.RFun

open Vote (Columns)

theorem rangeIndex_get {n i : Nat} (h : i < n) : (rangeIndex n)[i]? = some (i : Int) := by
  unfold rangeIndex
  rw [List.getElem?_map, List.getElem?_range h]
  rfl

theorem places_eq {a : List Int} (hn : a.Nodup) {i : Nat} {l : Int} (h : a[i]? = some l) : places a l = [i] := by
  have hi : i < a.length := (List.getElem?_eq_some_iff.1 h).1
  unfold places
  apply List.perm_singleton.1
  rw [List.perm_ext_iff_of_nodup (List.nodup_range.filter _) (List.nodup_singleton _)]
  intro j
  rw [List.mem_filter, List.mem_singleton, List.mem_range, decide_eq_true_iff]
  constructor
  · rintro ⟨hj, e⟩
    exact (List.getElem?_inj hj hn).1 (e.trans h.symm)
  · rintro rfl
    exact ⟨hi, h⟩

theorem rangeIndex_nodup (n : Nat) : (rangeIndex n).Nodup := by
  unfold rangeIndex
  exact List.nodup_range.map fun a b h => Int.ofNat.inj h

theorem rangeIndex_sorted (n : Nat) : (rangeIndex n).Pairwise (· ≤ ·) := by
  unfold rangeIndex
  rw [List.pairwise_map]
  exact List.pairwise_lt_range.imp fun h => Int.ofNat_le.2 (le_of_lt h)

theorem rangeIndex_length (n : Nat) : (rangeIndex n).length = n := by simp [rangeIndex]

theorem joinRows_perm {n : Nat} {ix : List Int} (h : ix.Perm (rangeIndex n)) :
    joinRows (rangeIndex n) ix = (List.range n).map fun i : Nat => (some i, some (ix.idxOf (i : Int))) := by
  have hs : (rangeIndex n ++ ix).dedup.insertionSort (· ≤ ·) = rangeIndex n := by
    have hp : (rangeIndex n ++ ix).dedup.Perm (rangeIndex n) := by
      rw [List.perm_ext_iff_of_nodup (List.nodup_dedup _) (rangeIndex_nodup n)]
      intro a
      rw [List.mem_dedup, List.mem_append, h.mem_iff, or_self]
    exact ((List.perm_insertionSort _ _).trans hp).eq_of_pairwise (fun a b _ _ h1 h2 => le_antisymm h1 h2)
      (List.pairwise_insertionSort _ _) (rangeIndex_sorted n)
  unfold joinRows
  rw [hs]
  have hn : ix.Nodup := h.nodup_iff.2 (rangeIndex_nodup n)
  have hm : ∀ F : Int → List (Option Nat × Option Nat), (rangeIndex n).flatMap F = (List.range n).flatMap fun i : Nat => F (i : Int) := by
    intro F
    unfold rangeIndex
    rw [List.flatMap_map]
    rfl
  rw [hm, List.map_eq_flatMap]
  apply List.flatMap_congr
  intro i hi
  have hi : i < n := List.mem_range.1 hi
  have hm : (i : Int) ∈ ix := h.mem_iff.2 (List.mem_of_getElem? (rangeIndex_get hi))
  rw [places_eq (rangeIndex_nodup n) (rangeIndex_get hi), places_eq hn (List.getElem?_idxOf hm)]
  rfl

/-- Targets whose index is another order of `0, 1, …` are put in the order of their labels. -/
theorem columnAt_perm {n : Nat} {ix : List Int} {v w : List Label} {act : List Nat} (h : ix.Perm (rangeIndex n)) (hv : v.length = n)
    (hw : w.length = n) (ha : act.length = n) (hvw : ∀ j i : Nat, ix[j]? = some (i : Int) → w[i]? = v[j]?) :
    conditionalColumnAt (rangeIndex n) act ⟨v, some ix⟩ = .ok (conditionalColumn act w) := by
  have hlen : ix.length = n := by rw [h.length_eq, rangeIndex_length]
  unfold conditionalColumnAt
  split
  · rename_i e
    have e : rangeIndex n = ix := e
    subst e
    have : w = v := by
      apply List.ext_getElem?
      intro i
      by_cases hi : i < n
      · exact hvw i i (rangeIndex_get hi)
      · rw [List.getElem?_eq_none (by omega), List.getElem?_eq_none (by omega)]
    rw [this]
  · have e : Targets.rows ⟨v, some ix⟩ = ix := rfl
    rw [e, joinRows_perm h]
    have hc : (((List.range n).map fun i : Nat => (some i, some (ix.idxOf (i : Int)))).map fun p : Option Nat × Option Nat =>
        (p.1.bind fun i => act[i]?, p.2.bind fun j => v[j]?)) =
        (act.zip w).map fun q => (some q.1, some q.2) := by
      rw [List.map_map]
      apply List.ext_getElem
      · simp [ha, hw]
      · intro i h1 h2
        have hi : i < n := by simpa using h1
        have hm : (i : Int) ∈ ix := h.mem_iff.2 (List.mem_of_getElem? (rangeIndex_get hi))
        have e2 := hvw _ i (List.getElem?_idxOf hm)
        have e3 : w[i]? = some (w[i]'(by omega)) := List.getElem?_eq_getElem _
        have e4 : act[i]? = some (act[i]'(by omega)) := List.getElem?_eq_getElem _
        simp only [List.getElem_map, List.getElem_range, Function.comp_apply, Option.bind_some, List.getElem_zip]
        rw [← e2, e3, e4]
    simp only [hc]
    rw [if_neg (by simp)]
    rw [List.map_map]
    congr 1
    unfold conditionalColumn
    rw [List.zip_eq_zipWith, List.map_zipWith]
    rfl

theorem mapM_congr {α β : Type} {f g : α → Except Err β} {l : List α} (h : ∀ a ∈ l, f a = g a) : l.mapM f = l.mapM g := by
  induction l with
  | nil => rfl
  | cons a l ih =>
    rw [List.mapM_cons, List.mapM_cons, h a List.mem_cons_self, ih fun b hb => h b (List.mem_cons_of_mem _ hb)]

end Verif.RFun
