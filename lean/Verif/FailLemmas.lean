import Verif.FailSpec
import Verif.FitProps
import Verif.PredictLemmas

/-!
# Lemmas on what is left when an operation of a ruleset raises
-/

namespace Verif.FailLemmas

open Verif Vote Spec RuleSet RuleSetProps

variable {R : RsEnv}

theorem eachRule_split {f : Env → Py Rule Unit} (l : List Member) :
    (∃ l', eachRule R f l = (.ok (), l') ∧ EachDone R f l l') ∨ ∃ e l', eachRule R f l = (.error e, l') ∧ StoppedAt R f e l l' := by
  induction l with
  | nil => exact .inl ⟨[], rfl, .nil⟩
  | cons m l ih =>
    rcases hm : f (R.ofKind m.kind) m.rule with ⟨e | u, r⟩
    · refine .inr ⟨e, ⟨m.kind, r⟩ :: l, ?_, [], [], m, r, l, rfl, rfl, .nil, hm⟩
      simp [eachRule, onRule, hm]
    · rcases ih with ⟨l', e1, e2⟩ | ⟨e, l', e1, done, done', m1, r1, rest, h1, h2, h3, h4⟩
      · refine .inl ⟨⟨m.kind, r⟩ :: l', ?_, .cons ⟨rfl, hm⟩ e2⟩
        simp [eachRule, onRule, hm, e1]
      · refine .inr ⟨e, ⟨m.kind, r⟩ :: l', ?_, m :: done, ⟨m.kind, r⟩ :: done', m1, r1, rest, by rw [h1]; rfl, by rw [h2]; rfl,
          .cons ⟨rfl, hm⟩ h3, h4⟩
        simp [eachRule, onRule, hm, e1]

/-- Which rule stops the loop is determined. -/
theorem eachRule_stopped {f : Env → Py Rule Unit} {e : Err} {l l' : List Member} (h : StoppedAt R f e l l') :
    eachRule R f l = (.error e, l') := by
  obtain ⟨done, done', m, r, rest, rfl, rfl, hd, hm⟩ := h
  induction hd with
  | nil => simp [eachRule, onRule, hm]
  | cons hp hd ih =>
    rename_i a b as bs
    obtain ⟨h1, h2⟩ := hp
    simp only [List.cons_append, eachRule, onRule, h2, ih]
    rw [← h1]

theorem forRules_stopped {f : Env → Py Rule Unit} {e : Err} {s : RuleSet} {l' : List Member} (h : StoppedAt R f e s.rules l') :
    forRules R f s = (.error e, { s with rules := l' }) := by
  unfold forRules
  rw [eachRule_stopped h]

/-- The loop of plain means writes nothing when no array is shared. -/
theorem equalLoop_state {S : SetEnv} {xs : Option Xs} (rules : List Rule) (hf : ∀ r ∈ rules, ∀ i, aliased S xs i r = none) :
    ∀ (i : Nat) (acc : Option (Option Nat × List Num × List Nat)) (st : List Rule), (∀ a, acc = some a → a.1 = none) →
      (equalLoop S xs i rules acc st).2 = st := by
  induction rules with
  | nil => intro i acc st _; rfl
  | cons r rules ih =>
    intro i acc st hacc
    have ih := ih fun r hr => hf r (List.mem_cons_of_mem _ hr)
    have hr := hf r List.mem_cons_self
    have step : (equalStep S xs i r acc st).2 = st ∧ ∀ b, (equalStep S xs i r acc st).1 = .ok b → ∀ a, b = some a → a.1 = none := by
      unfold equalStep
      cases hact : activationOf S.env xs r with
      | error e => exact ⟨rfl, fun b hb => by cases hb⟩
      | ok o =>
        cases o with
        | none => exact ⟨rfl, fun b hb a ha => by cases hb; exact hacc a ha⟩
        | some v =>
          rw [Py.bind_ok (Py.ofExcept_run _ _)]
          simp only
          split
          · exact ⟨rfl, fun b hb a ha => by cases hb; exact hacc a ha⟩
          · cases acc with
            | none =>
              simp only
              cases hp : firstVector S.env r v with
              | error e => exact ⟨rfl, fun b hb => by cases hb⟩
              | ok p =>
                rw [Py.bind_ok (Py.ofExcept_run _ _)]
                refine ⟨rfl, fun b hb a ha => ?_⟩
                cases hb
                cases ha
                exact hr i
            | some q =>
              obtain ⟨k, cum, cumW⟩ := q
              have hk : k = none := hacc _ rfl
              subst hk
              simp only
              cases h1 : r.getPrediction S.env with
              | error e => exact ⟨rfl, fun b hb => by cases hb⟩
              | ok p =>
                rw [Py.bind_ok (Py.ofExcept_run _ _)]
                cases h2 : numberOf p with
                | error e => exact ⟨rfl, fun b hb => by cases hb⟩
                | ok p =>
                  rw [Py.bind_ok (Py.ofExcept_run _ _)]
                  cases h3 : accumulate cum (scale v p) with
                  | error e => exact ⟨rfl, fun b hb => by cases hb⟩
                  | ok c =>
                    rw [Py.bind_ok (Py.ofExcept_run _ _)]
                    cases h4 : addBytes cumW v with
                    | error e => exact ⟨rfl, fun b hb => by cases hb⟩
                    | ok cw =>
                      rw [Py.bind_ok (Py.ofExcept_run _ _)]
                      refine ⟨rfl, fun b hb a ha => ?_⟩
                      cases hb
                      cases ha
                      rfl
    show ((equalStep S xs i r acc >>= fun acc => equalLoop S xs (i + 1) rules acc) st).2 = st
    rcases hs : equalStep S xs i r acc st with ⟨e | b, st'⟩
    · rw [Py.bind_err hs]
      rw [hs] at step
      exact step.1
    · rw [Py.bind_ok hs]
      rw [hs] at step
      have : st' = st := step.1
      rw [this]
      exact ih (i + 1) b st (step.2 b rfl)

theorem predictUnstacked_state {S : SetEnv} {xs : Option Xs} {w : Option Weights} {rules : List Rule}
    (h : S.env.kind = .classification ∨ w ≠ none ∨ ∀ r ∈ rules, ∀ i, aliased S xs i r = none) :
    (Vote.predictUnstacked S w xs rules).2 = rules := by
  unfold Vote.predictUnstacked
  rw [Py.bind_ok (Py.get_run _)]
  cases hk : S.env.kind with
  | classification =>
    cases w with
    | none => rfl
    | some w => rfl
  | regression =>
    cases w with
    | some w =>
      simp only
      cases weightedRegressor S rules w xs <;> rfl
    | none =>
      have ha : ∀ r ∈ rules, ∀ i, aliased S xs i r = none := by
        rcases h with h | h | h
        · rw [hk] at h; cases h
        · exact absurd rfl h
        · exact h
      have heq : (equalRegressor S xs rules).2 = rules := by
        unfold equalRegressor
        rw [Py.bind_ok (Py.get_run _)]
        split
        · rfl
        · have := equalLoop_state rules ha 0 none rules (by simp)
          rcases hl : equalLoop S xs 0 rules none rules with ⟨e | o, st⟩
          · rw [hl] at this
            rw [Py.bind_err hl]
            exact this
          · rw [hl] at this
            rw [Py.bind_ok hl]
            cases o with
            | none => exact this
            | some q => exact this
      simp only
      rcases hq : equalRegressor S xs rules with ⟨e | l, st⟩
      · rw [hq] at heq
        rw [Py.bind_err hq]
        exact heq
      · rw [hq] at heq
        rw [Py.bind_ok hq]
        exact heq

theorem predict_state {xs : Option Xs} {w : Option WeightsArg} {s : RuleSet} (h : NoWriting R xs w s) :
    (RuleSet.predict R xs w s).2 = s := by
  unfold RuleSet.predict
  rw [Py.bind_ok (Py.get_run _)]
  split
  · rfl
  · cases hk : s.ruleType with
    | none => rfl
    | some k =>
      simp only
      have hun : (RuleSet.predictUnstacked R k xs w s).2 = s := by
        unfold RuleSet.predictUnstacked
        rw [Py.bind_ok (Py.get_run _)]
        cases hw : weightsOf R k s.rules w with
        | error e => rfl
        | ok w' =>
          rw [Py.bind_ok (Py.ofExcept_run _ _)]
          have hst := predictUnstacked_state (S := voteEnv R k) (xs := xs) (w := w') (rules := s.rules.map (·.rule)) (by
            rcases h with h | h | h | h
            · refine .inr (.inr fun r _ i => ?_)
              unfold aliased
              cases xs with
              | none => exact absurd rfl h
              | some x => rfl
            · refine .inr (.inl ?_)
              rintro rfl
              cases w with
              | none => exact h rfl
              | some w =>
                simp only [weightsOf] at hw
                cases hf : weightsFrom (voteEnv R k) (s.rules.map (·.rule)) w with
                | error e => rw [hf] at hw; cases hw
                | ok x => rw [hf] at hw; cases hw
            · left
              cases k with
              | classification => rfl
              | regression => exact absurd hk h
            · refine .inr (.inr fun r hr i => ?_)
              obtain ⟨m, hm, rfl⟩ := List.mem_map.1 hr
              have : (voteEnv R k).storedRaw m.rule = false := h m hm
              unfold aliased
              rw [this]
              simp)
          generalize Vote.predictUnstacked (voteEnv R k) w' xs (s.rules.map (·.rule)) = p at hst ⊢
          obtain ⟨res, left⟩ := p
          cases hst
          show ((Py.modify (fun s' : RuleSet => { s' with rules := putBack s.rules (s.rules.map (·.rule)) }) >>= fun _ =>
            Py.ofExcept res >>= fun l => pure (l.map Cell.label)) s).2 = s
          rw [Py.bind_ok (Py.modify_run _ _), putBack_same]
          cases res <;> rfl
      cases hf : R.stackedFit with
      | false => exact hun
      | true =>
        cases hc : s.stacked with
        | none => exact hun
        | some c =>
          simp only
          cases stackFor R xs s c with
          | error e => rfl
          | ok c =>
            rw [Py.bind_ok (Py.ofExcept_run _ _)]
            cases weightsOf R k s.rules w with
            | error e => rfl
            | ok w =>
              rw [Py.bind_ok (Py.ofExcept_run _ _)]
              rfl

end Verif.FailLemmas

namespace Verif.FailLemmas

open Verif Vote Spec RuleSet RuleSetProps

/-- The code changes neither the rules nor the settings. -/
def Steady {α} (p : Py RuleSet α) : Prop :=
  ∀ s, (p s).2.rules = s.rules ∧ (p s).2.compute = s.compute ∧ (p s).2.stack = s.stack

theorem Steady.bind {α β} {p : Py RuleSet α} {f : α → Py RuleSet β} (hp : Steady p) (hf : ∀ a, Steady (f a)) : Steady (p >>= f) := by
  intro s
  rcases h : p s with ⟨e | a, s1⟩
  · have := hp s
    rw [Py.bind_err h]
    rwa [h] at this
  · have h1 := hp s
    rw [Py.bind_ok h]
    rw [h] at h1
    have h2 := hf a s1
    exact ⟨h2.1.trans h1.1, h2.2.1.trans h1.2.1, h2.2.2.trans h1.2.2⟩

theorem steady_pure {α} (a : α) : Steady (pure a) := fun _ => ⟨rfl, rfl, rfl⟩

theorem steady_throw {α} (e : Err) : Steady (Py.throw e : Py RuleSet α) := fun _ => ⟨rfl, rfl, rfl⟩

theorem steady_get : Steady Py.get := fun _ => ⟨rfl, rfl, rfl⟩

theorem steady_ofExcept {α} (e : Except Err α) : Steady (Py.ofExcept e) := by
  intro s
  rw [Py.ofExcept_run]
  cases e <;> exact ⟨rfl, rfl, rfl⟩

variable {R : RsEnv}

theorem steady_noteIndexes (l : Option (List Int)) : Steady (noteIndexes R l) := by
  cases l <;> exact fun _ => ⟨rfl, rfl, rfl⟩

theorem steady_noteNames (l : Option (List String)) : Steady (noteNames R l) := by
  cases l <;> exact fun _ => ⟨rfl, rfl, rfl⟩

theorem steady_updateIf (l : Option (List Nat)) : Steady (updateIf R l) := by
  refine steady_get.bind fun s => ?_
  split
  · unfold updateActivation
    cases l with
    | none => exact steady_pure _
    | some v =>
      refine steady_get.bind fun s => ?_
      cases s.available with
      | none =>
        simp only
        split
        · exact steady_throw _
        · exact (steady_ofExcept _).bind fun _ _ => ⟨rfl, rfl, rfl⟩
      | some a => exact (steady_ofExcept _).bind fun _ _ => ⟨rfl, rfl, rfl⟩
  · exact steady_pure _

theorem steady_stackIf {p : Py RuleSet Unit} (h : Steady p) : Steady (stackIf p) := by
  refine steady_get.bind fun s => ?_
  split
  · exact h
  · exact steady_pure _

theorem steady_stackRule (r : Rule) : Steady (stackRule R r) := by
  unfold stackRule
  cases r.act with
  | none => exact steady_pure _
  | some v =>
    simp only
    split
    · exact steady_throw _
    · refine steady_get.bind fun s => ?_
      cases s.stacked with
      | none => exact fun _ => ⟨rfl, rfl, rfl⟩
      | some c => exact (steady_ofExcept _).bind fun _ _ => ⟨rfl, rfl, rfl⟩

theorem steady_stackSet (o : RuleSet) : Steady (stackSet o) := by
  unfold stackSet
  cases o.available with
  | none => exact steady_pure _
  | some v =>
    refine steady_get.bind fun s => ?_
    cases s.stacked with
    | none => exact fun _ => ⟨rfl, rfl, rfl⟩
    | some c => exact fun _ => ⟨rfl, rfl, rfl⟩

theorem pushRule_cases {m : Member} {s : RuleSet} {p : Except Err Unit × RuleSet} (h : pushRule m s = p) :
    p = (.error .typeError, s) ∨ (p.1 = .ok () ∧ p.2.rules = s.rules ++ [m] ∧ p.2.compute = s.compute ∧ p.2.stack = s.stack) := by
  unfold pushRule at h
  rw [Py.bind_ok (Py.get_run s)] at h
  cases hk : s.ruleType with
  | none =>
    simp only [hk] at h
    subst h
    exact .inr ⟨rfl, rfl, rfl, rfl⟩
  | some k =>
    simp only [hk] at h
    split at h
    · subst h
      exact .inr ⟨rfl, rfl, rfl, rfl⟩
    · exact .inl h.symm

theorem pushSet_cases {o s : RuleSet} {p : Except Err Unit × RuleSet} (h : pushSet o s = p) :
    p = (.error .typeError, s) ∨ (p.1 = .ok () ∧ p.2.rules = s.rules ++ o.rules ∧ p.2.compute = s.compute ∧ p.2.stack = s.stack) := by
  unfold pushSet at h
  rw [Py.bind_ok (Py.get_run s)] at h
  cases hk : s.ruleType <;> cases ho : o.ruleType <;> simp only [hk, ho] at h
  · subst h
    exact .inr ⟨rfl, rfl, rfl, rfl⟩
  · subst h
    exact .inr ⟨rfl, rfl, rfl, rfl⟩
  · subst h
    exact .inr ⟨rfl, rfl, rfl, rfl⟩
  · split at h
    · subst h
      exact .inr ⟨rfl, rfl, rfl, rfl⟩
    · exact .inl h.symm

end Verif.FailLemmas
