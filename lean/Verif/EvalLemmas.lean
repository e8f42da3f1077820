import Verif.FitLemmas

/-!
# Lemmas about rulesets: eval
-/

namespace Verif.RuleSet

open Verif Vote

variable {R : RsEnv}

/-! ## Predicting changes activations only -/

/-- The same rule with perhaps another activation -/
def SameBut (r r' : Rule) : Prop := r' = { r with act := r'.act }

theorem SameBut.refl (r : Rule) : SameBut r r := rfl

theorem SameBut.trans {a b c : Rule} (h : SameBut a b) (h' : SameBut b c) : SameBut a c := by
  unfold SameBut at *
  rw [h'] at *
  rw [h]

theorem forall₂_refl {α} {p : α → α → Prop} (h : ∀ a, p a a) (l : List α) : List.Forall₂ p l l := by
  induction l with
  | nil => exact .nil
  | cons a l ih => exact .cons (h a) ih

theorem forall₂_trans {α} {p : α → α → Prop} (h : ∀ a b c, p a b → p b c → p a c) {l1 l2 l3 : List α}
    (h1 : List.Forall₂ p l1 l2) (h2 : List.Forall₂ p l2 l3) : List.Forall₂ p l1 l3 := by
  induction h1 generalizing l3 with
  | nil => cases h2; exact .nil
  | cons ha _ ih =>
    cases h2 with
    | cons hb h2 => exact .cons (h _ _ _ ha hb) (ih h2)

/-- A computation on rules which changes activations only -/
def ActOnly {α} (m : Py (List Rule) α) : Prop := ∀ l, List.Forall₂ SameBut l (m l).2

theorem ActOnly.pure {α} (a : α) : ActOnly (pure a : Py (List Rule) α) := fun l => forall₂_refl SameBut.refl l

theorem ActOnly.ofExcept {α} (x : Except Err α) : ActOnly (Py.ofExcept x : Py (List Rule) α) := by
  intro l
  rw [Py.ofExcept_run]
  exact forall₂_refl SameBut.refl l

theorem ActOnly.throw {α} (e : Err) : ActOnly (Py.throw e : Py (List Rule) α) := fun l => forall₂_refl SameBut.refl l

theorem ActOnly.get : ActOnly (Py.get : Py (List Rule) _) := fun l => forall₂_refl SameBut.refl l

theorem ActOnly.bind {α β} {m : Py (List Rule) α} {f : α → Py (List Rule) β} (hm : ActOnly m) (hf : ∀ a, ActOnly (f a)) :
    ActOnly (m >>= f) := by
  intro l
  rw [Py.bind_run]
  have h1 := hm l
  rcases h : m l with ⟨a, l'⟩
  rw [h] at h1
  cases a with
  | error e => exact h1
  | ok a => exact forall₂_trans (p := SameBut) (fun _ _ _ => SameBut.trans) h1 (hf a l')

theorem ActOnly.writeBack (k : Option Nat) (v : List Nat) : ActOnly (Py.modify (writeBack k v)) := by
  intro l
  rw [Py.modify_run]
  cases k with
  | none => exact forall₂_refl SameBut.refl l
  | some i =>
    show List.Forall₂ SameBut l (l.modify i fun r => { r with act := some v })
    induction l generalizing i with
    | nil => rw [List.modify_nil]; exact .nil
    | cons r l ih =>
      cases i with
      | zero =>
        rw [List.modify_zero_cons]
        exact .cons rfl (forall₂_refl SameBut.refl l)
      | succ i =>
        rw [List.modify_succ_cons]
        exact .cons rfl (ih i)

theorem equalStep_actOnly (S : SetEnv) (xs : Option Xs) (i : Nat) (r : Rule) (acc : Option (Option Nat × List Num × List Nat)) :
    ActOnly (equalStep S xs i r acc) := by
  unfold equalStep
  refine .bind (.ofExcept _) fun a => ?_
  split
  · exact .pure _
  · split
    · exact .pure _
    · split
      · exact .bind (.ofExcept _) fun _ => .pure _
      · exact .bind (.ofExcept _) fun _ => .bind (.ofExcept _) fun _ => .bind (.ofExcept _) fun _ =>
          .bind (.ofExcept _) fun _ => .bind (.writeBack _ _) fun _ => .pure _

theorem equalLoop_actOnly (S : SetEnv) (xs : Option Xs) (l : List Rule) (i : Nat)
    (acc : Option (Option Nat × List Num × List Nat)) : ActOnly (equalLoop S xs i l acc) := by
  induction l generalizing i acc with
  | nil => exact .pure _
  | cons r l ih => exact .bind (equalStep_actOnly S xs i r acc) fun a => ih (i + 1) a

theorem predictUnstacked_actOnly (S : SetEnv) (w : Option Weights) (xs : Option Xs) : ActOnly (Vote.predictUnstacked S w xs) := by
  unfold Vote.predictUnstacked
  refine .bind .get fun l => ?_
  split
  · exact .bind (.ofExcept _) fun _ => .pure _
  · refine .bind ?_ fun _ => .pure _
    unfold equalRegressor
    refine .bind .get fun l => ?_
    split
    · exact .pure _
    · refine .bind (equalLoop_actOnly _ _ _ _ _) fun a => ?_
      split
      · exact .throw _
      · exact .ofExcept _
  · exact .ofExcept _
  · exact .ofExcept _

/-! ## The criterion -/

theorem sameButActivation_refl (m : Member) : Spec.SameButActivation m m := ⟨rfl, rfl⟩

theorem sameButActivation_trans {a b c : Member} (h : Spec.SameButActivation a b) (h' : Spec.SameButActivation b c) :
    Spec.SameButActivation a c := ⟨h'.1.trans h.1, SameBut.trans h.2 h'.2⟩

/-- A computation on a ruleset which changes the activations of the rules, and its own activation only if there is none -/
def Frame {α} (m : Py RuleSet α) : Prop := ∀ s,
  List.Forall₂ Spec.SameButActivation s.rules (m s).2.rules ∧ (m s).2.stacked = s.stacked ∧ (m s).2.stack = s.stack ∧
    (noActivation s = false → (m s).2.act = s.act) ∧ (m s).2.names = s.names ∧ (m s).2.indexes = s.indexes ∧
    (m s).2.ruleType = s.ruleType

theorem Frame.same {α} {m : Py RuleSet α} (h : ∀ s, (m s).2 = s) : Frame m := by
  intro s
  rw [h s]
  exact ⟨forall₂_refl sameButActivation_refl _, rfl, rfl, fun _ => rfl, rfl, rfl, rfl⟩

theorem Frame.pure {α} (a : α) : Frame (pure a : Py RuleSet α) := .same fun _ => rfl

theorem Frame.ofExcept {α} (x : Except Err α) : Frame (Py.ofExcept x : Py RuleSet α) := .same fun s => by rw [Py.ofExcept_run]

theorem Frame.throw {α} (e : Err) : Frame (Py.throw e : Py RuleSet α) := .same fun _ => rfl

theorem Frame.get : Frame (Py.get : Py RuleSet _) := .same fun _ => rfl

theorem Frame.bind {α β} {m : Py RuleSet α} {f : α → Py RuleSet β} (hm : Frame m) (hf : ∀ a, Frame (f a)) :
    Frame (m >>= f) := by
  intro s
  rw [Py.bind_run]
  have h1 := hm s
  rcases h : m s with ⟨a, s'⟩
  rw [h] at h1
  cases a with
  | error e => exact h1
  | ok a =>
    have h2 := hf a s'
    simp only at h1 h2 ⊢
    obtain ⟨i1, i2, i3, i4, i5, i6, i7⟩ := h1
    obtain ⟨j1, j2, j3, j4, j5, j6, j7⟩ := h2
    refine ⟨forall₂_trans (p := Spec.SameButActivation) (fun _ _ _ => sameButActivation_trans) i1 j1, j2.trans i2, j3.trans i3, ?_, j5.trans i5,
      j6.trans i6, j7.trans i7⟩
    intro hn
    have e := i4 hn
    have hn' : noActivation s' = false := by
      unfold noActivation at hn ⊢
      rw [e]
      exact hn
    exact (j4 hn').trans e

theorem predict_frame (xs : Option Xs) (w : Option WeightsArg) : Frame (predict R xs w) := by
  unfold predict
  refine .bind .get fun s => ?_
  split
  · exact .pure _
  · split
    · exact .pure _
    · split
      · exact .bind (.ofExcept _) fun _ => .bind (.ofExcept _) fun _ => .ofExcept _
      · unfold predictUnstacked
        intro s
        rw [Py.bind_ok (Py.get_run s)]
        rename_i k _ _ _ _
        revert s
        intro s
        rw [Py.bind_run, Py.ofExcept_run]
        cases weightsOf R k s.rules w with
        | error e => exact Frame.throw (α := Unit) e s
        | ok w' =>
          simp only
          rw [Py.bind_ok (Py.modify_run _ _)]
          have h := predictUnstacked_actOnly (voteEnv R k) w' xs (s.rules.map (·.rule))
          have hf : List.Forall₂ Spec.SameButActivation s.rules
              (putBack s.rules (Vote.predictUnstacked (voteEnv R k) w' xs (s.rules.map (·.rule))).2) := by
            generalize (Vote.predictUnstacked (voteEnv R k) w' xs (s.rules.map (·.rule))).2 = l at h
            unfold putBack
            clear * - h
            generalize s.rules = rules at h
            induction rules generalizing l with
            | nil => cases h; exact .nil
            | cons m rules ih =>
              rw [List.map_cons] at h
              cases h with
              | cons h1 h2 => exact .cons ⟨rfl, h1⟩ (ih _ h2)
          rw [Py.bind_run, Py.ofExcept_run]
          cases (Vote.predictUnstacked (voteEnv R k) w' xs (s.rules.map (·.rule))).1 with
          | error e => exact ⟨hf, rfl, rfl, fun _ => rfl, rfl, rfl, rfl⟩
          | ok l => exact ⟨hf, rfl, rfl, fun _ => rfl, rfl, rfl, rfl⟩

theorem setCriterion_frame (c : RuleSet → Thresholds.Attr) : Frame (Py.modify fun s => { s with criterion := c s }) := by
  intro s
  rw [Py.modify_run]
  exact ⟨forall₂_refl sameButActivation_refl _, rfl, rfl, fun _ => rfl, rfl, rfl, rfl⟩

theorem criterionActivation_frame (xs : Option Xs) : Frame (criterionActivation R xs) := by
  unfold criterionActivation
  split
  · exact .bind .get fun _ => .bind (.ofExcept _) fun _ => .pure _
  · refine .bind ?_ fun _ => .bind .get fun s => ?_
    · intro s
      unfold whenSet
      rw [Py.bind_ok (Py.get_run s)]
      cases h : noActivation s with
      | false =>
        exact ⟨forall₂_refl sameButActivation_refl _, rfl, rfl, fun _ => rfl, rfl, rfl, rfl⟩
      | true =>
        simp only [if_true]
        unfold computeSelf
        rw [Py.bind_ok (Py.get_run s), Py.bind_run, Py.ofExcept_run]
        cases evaluateSelf R none s.rules with
        | error e => exact ⟨forall₂_refl sameButActivation_refl _, rfl, rfl, (fun e => by cases e), rfl, rfl, rfl⟩
        | ok a => exact ⟨forall₂_refl sameButActivation_refl _, rfl, rfl, (fun e => by cases e), rfl, rfl, rfl⟩
    · split
      · exact .throw _
      · exact .pure _

theorem calcCriterion_frame (y : List Label) (xs : Option Xs) (w : Option WeightsArg) (kw : Rule.Kw) :
    Frame (calcCriterion R y xs w kw) := by
  unfold calcCriterion
  refine .bind .get fun s => ?_
  split
  · exact .pure _
  · split
    · exact .pure _
    · refine .bind (predict_frame _ _) fun p => ?_
      split
      · exact setCriterion_frame _
      · refine .bind (.ofExcept _) fun p => ?_
        split
        · exact .bind (criterionActivation_frame _) fun a => .bind (.ofExcept _) fun c => setCriterion_frame _
        · exact .bind (.ofExcept _) fun _ => .bind (.ofExcept _) fun _ => .bind (.ofExcept _) fun _ => setCriterion_frame _

/-! ## After the rules -/

/-- After the rules have been evaluated -/
structure AfterEval (R : RsEnv) (s : RuleSet) (dropped given : Bool) (s' : RuleSet) : Prop where
  stack : s'.stack = s.stack
  recomputed : given = true ∨ noActivation s = true → evaluateSelf R none s'.rules = .ok s'.act
  kept : given = false → noActivation s = false →
    s'.act = if dropped then s.act.map (fun v => v.map fun _ => 0) else s.act
  stacked : s.stack = true → dropped = true ∨ given = true → evaluateStacked R none s'.rules = .ok s'.stacked
  keptStacked : given = false → noActivation s = false → dropped = false → s'.stacked = s.stacked

theorem selfIf_ok {s s1 : RuleSet} {given : Bool} (h1 : whenSet (fun s => noActivation s || given) (recomputeSelf R) s = (.ok (), s1)) :
    s1 = { s with act := s1.act } ∧ (given = true ∨ noActivation s = true → evaluateSelf R none s1.rules = .ok s1.act) ∧
      (given = false → noActivation s = false → s1.act = s.act) := by
  rcases whenSet_ok h1 with ⟨hs, rfl⟩ | ⟨hs, h1⟩
  · rw [Bool.or_eq_false_iff] at hs
    refine ⟨rfl, ?_, fun _ _ => rfl⟩
    rw [hs.1, hs.2]
    rintro (e | e) <;> cases e
  · obtain ⟨a, ha, rfl⟩ := recomputeSelf_ok h1
    refine ⟨rfl, fun _ => ha, ?_⟩
    intro e1 e2
    rw [e1, e2] at hs
    cases hs

theorem noActivation_zeros (s s' : RuleSet) (h : s'.act = s.act.map fun v => v.map fun _ => 0) :
    noActivation s' = noActivation s := by
  unfold noActivation
  rw [h]
  cases s.act <;> simp

theorem afterEval_ok {s s' : RuleSet} {given : Bool} (h : afterEval R (badRules s.rules) given s = (.ok (), s')) :
    AfterEval R s (decide ((badRules s.rules).length > 0)) given s' ∧
      ((badRules s.rules = [] ∧ s'.rules = s.rules) ∨
        keepRules R.hasher (badRules s.rules) s.rules.zipIdx = .ok s'.rules) := by
  unfold afterEval at h
  split at h
  · rename_i hpos
    rw [decide_eq_true hpos]
    obtain ⟨_, s1, h1, h⟩ := Py.bind_eq_ok h
    obtain ⟨d1, d2, d3, d4, d5, d6⟩ := dropRules_ok h1
    obtain ⟨_, s2, h2, h⟩ := Py.bind_eq_ok h
    obtain ⟨f1, f2, f3⟩ := selfIf_ok h2
    rw [noActivation_zeros _ _ d4] at f2 f3
    have hr : s2.rules = s1.rules := by rw [f1]
    have hst : s2.stack = s.stack := by rw [f1]; exact d3
    have hsd : s2.stacked = none := by rw [f1]; exact d2
    have fin : s'.rules = s2.rules ∧ s'.act = s2.act ∧ s'.stack = s2.stack ∧
        (s.stack = true → evaluateStacked R none s'.rules = .ok s'.stacked) := by
      rcases whenSet_ok h with ⟨hs, rfl⟩ | ⟨hs, h⟩
      · refine ⟨rfl, rfl, rfl, ?_⟩
        intro e
        rw [hst, hsd, e] at hs
        simp at hs
      · obtain ⟨c, hc, rfl⟩ := recomputeStacked_ok h
        exact ⟨rfl, rfl, rfl, fun _ => hc⟩
    obtain ⟨g1, g2, g3, g4⟩ := fin
    refine ⟨⟨g3.trans hst, ?_, ?_, fun e _ => g4 e, fun _ _ e => by cases e⟩, Or.inr (by rw [g1, hr]; exact d1)⟩
    · intro e
      rw [g1, g2]
      exact f2 e
    · intro e1 e2
      rw [g2, f3 e1 e2, d4]
      rfl
  · rename_i hpos
    have hnil : badRules s.rules = [] := List.length_eq_zero_iff.1 (by omega)
    rw [decide_eq_false hpos]
    obtain ⟨_, s2, h2, h⟩ := Py.bind_eq_ok h
    obtain ⟨f1, f2, f3⟩ := selfIf_ok h2
    have hr : s2.rules = s.rules := by rw [f1]
    have hst : s2.stack = s.stack := by rw [f1]
    have hsd : s2.stacked = s.stacked := by rw [f1]
    have fin : s'.rules = s2.rules ∧ s'.act = s2.act ∧ s'.stack = s2.stack ∧
        (s.stack = true → given = true → evaluateStacked R none s'.rules = .ok s'.stacked) ∧
        (given = false → noActivation s = false → s'.stacked = s2.stacked) := by
      rcases whenSet_ok h with ⟨hs, rfl⟩ | ⟨hs, h⟩
      · refine ⟨rfl, rfl, rfl, ?_, fun _ _ => rfl⟩
        intro e e'
        rw [hst, e, e'] at hs
        simp at hs
      · obtain ⟨c, hc, rfl⟩ := recomputeStacked_ok h
        refine ⟨rfl, rfl, rfl, fun _ _ => hc, ?_⟩
        intro e1 e2
        have e3 := f3 e1 e2
        rw [e3, e1] at hs
        unfold noActivation at e2
        cases ha : s.act with
        | none => rw [ha] at e2; cases e2
        | some v => rw [ha] at hs; simp at hs
    obtain ⟨g1, g2, g3, g4, g5⟩ := fin
    refine ⟨⟨g3.trans hst, ?_, ?_, ?_, ?_⟩, Or.inl ⟨hnil, g1.trans hr⟩⟩
    · intro e
      rw [g1, g2]
      exact f2 e
    · intro e1 e2
      rw [g2, f3 e1 e2]
      rfl
    · rintro e1 (e2 | e2)
      · cases e2
      · exact g4 e1 e2
    · intro e1 e2 _
      rw [g5 e1 e2, hsd]

/-- What `eval` does when it goes through -/
theorem eval_ok {y : List Label} {xs : Option Xs} {keep : Bool} {w : Option WeightsArg} {force : Bool} {kw : Rule.Kw}
    {s s' : RuleSet} {dropped : List Member} (h : eval R y xs keep w force kw s = (.ok dropped, s')) :
    (s' = s ∧ dropped = [] ∧ (xs.any (fun x => x.length = 0) = true ∨ s.rules = [])) ∨
      ∃ l s1 s2 keep', (keep' = (keep || !(s.rules.all fun m => m.rule.fitted))) ∧
        Spec.EachDone R (fun E => Rule.eval E y xs keep' force kw) s.rules l ∧
        afterEval R (badRules l) (xs.isSome && keep') { s with rules := l } = (.ok (), s1) ∧
        calcCriterion R y (if keep' then none else xs) w kw s1 = (.ok (), s2) ∧
        s' = { s2 with testSize := .num (.fin y.length) } ∧ dropped = (badRules l).map (·.1) := by
  unfold eval at h
  obtain ⟨k, s0, h0, h'⟩ := Py.bind_eq_ok h
  clear h
  rename' h' => h
  have : s0 = s := by
    unfold needType at h0
    rw [Py.bind_ok (Py.get_run s)] at h0
    cases hk : s.ruleType with
    | none => simp [hk] at h0
    | some k =>
      simp only [hk, Py.pure_run] at h0
      cases h0
      rfl
  subst this
  split at h
  · simp at h
  rw [Py.bind_ok (Py.get_run _)] at h
  split at h
  · rename_i hx
    simp only [Py.pure_run] at h
    cases h
    exact Or.inl ⟨rfl, rfl, Or.inl hx⟩
  split at h
  · rename_i hx
    simp only [Py.pure_run] at h
    cases h
    exact Or.inl ⟨rfl, rfl, Or.inr (List.length_eq_zero_iff.1 hx)⟩
  split at h
  · simp at h
  simp only at h
  obtain ⟨_, s1, h1, h⟩ := Py.bind_eq_ok h
  obtain ⟨l, hl, rfl⟩ := forRules_ok h1
  rw [Py.bind_ok (Py.get_run _)] at h
  obtain ⟨_, s2, h2, h⟩ := Py.bind_eq_ok h
  obtain ⟨_, s3, h3, h⟩ := Py.bind_eq_ok h
  unfold calcTestSetSize at h
  rw [Py.bind_ok (Py.modify_run _ _)] at h
  simp only [Py.pure_run] at h
  cases h
  exact Or.inr ⟨l, s2, s3, _, rfl, hl, h2, h3, rfl, rfl⟩

end Verif.RuleSet
