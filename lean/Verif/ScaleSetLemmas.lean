import Verif.ScaleRun
import Verif.RuleSetFit

/-!
# Lemmas: predictions of two rulesets whose rules differ only in their conditions
-/

namespace Verif.Scales

open Verif Spec Rule Vote RuleSet

/-! ## Other names of the columns -/

/-- The columns with other names -/
def rename {α : Type} (f : String → String) (l : List (String × α)) : List (String × α) := l.map fun p => (f p.1, p.2)

/-- All names are in `K`. -/
def Keys {α : Type} (K : String → Prop) (l : List (String × α)) : Prop := ∀ p ∈ l, K p.1

variable {K : String → Prop} {f : String → String} {α : Type}

theorem rename_eq (f : String → String) (l : List (String × α)) : rename f l = l.map fun p => (f p.1, p.2) := rfl

theorem rename_filterMap {β : Type} (g : β → Option (String × α)) (l : List β) :
    rename f (l.filterMap g) = l.filterMap fun a => (g a).map fun p => (f p.1, p.2) := List.map_filterMap ..

theorem rename_any (hf : ∀ a b, K a → K b → f a = f b → a = b) {l : List (String × α)} (hl : Keys K l) {n : String} (hn : K n) :
    ((rename f l).any fun q => q.1 = f n) = l.any fun q => q.1 = n := by
  unfold rename
  rw [List.any_map]
  rw [Bool.eq_iff_iff]
  simp only [List.any_eq_true, Function.comp, decide_eq_true_eq]
  constructor
  · rintro ⟨p, hp, e⟩
    exact ⟨p, hp, hf _ _ (hl p hp) hn e⟩
  · rintro ⟨p, hp, e⟩
    exact ⟨p, hp, by rw [e]⟩

theorem rename_put (hf : ∀ a b, K a → K b → f a = f b → a = b) {l : List (String × α)} (hl : Keys K l) {p : String × α} (hn : K p.1) :
    ((rename f l).map fun q => if q.1 = f p.1 then (f p.1, p.2) else q) = rename f (l.map fun q => if q.1 = p.1 then p else q) := by
  unfold rename
  rw [List.map_map, List.map_map]
  apply List.map_congr_left
  intro q hq
  by_cases e : q.1 = p.1
  · simp [e]
  · have : f q.1 ≠ f p.1 := fun h => e (hf _ _ (hl q hq) hn h)
    simp [e, this]

theorem keys_put {l : List (String × α)} (hl : Keys K l) {p : String × α} (hn : K p.1) : Keys K (l.map fun q => if q.1 = p.1 then p else q) := by
  intro q hq
  obtain ⟨r, hr, rfl⟩ := List.mem_map.1 hq
  split
  · exact hn
  · exact hl r hr

/-- One step of `dictOf` -/
def putLast (acc : List (String × α)) (p : String × α) : List (String × α) :=
  if acc.any (fun q => q.1 = p.1) then acc.map (fun q => if q.1 = p.1 then p else q) else acc ++ [p]

theorem dictOf_fold (l : List (String × α)) : dictOf l = l.foldl putLast [] := rfl

theorem keys_putLast {l : List (String × α)} (hl : Keys K l) {p : String × α} (hn : K p.1) : Keys K (putLast l p) := by
  unfold putLast
  split
  · exact keys_put hl hn
  · intro q hq
    rcases List.mem_append.1 hq with h | h
    · exact hl q h
    · rw [List.mem_singleton.1 h]
      exact hn

theorem rename_putLast (hf : ∀ a b, K a → K b → f a = f b → a = b) {l : List (String × α)} (hl : Keys K l) {p : String × α} (hn : K p.1) :
    putLast (rename f l) (f p.1, p.2) = rename f (putLast l p) := by
  unfold putLast
  simp only [rename_any hf hl hn, rename_put hf hl hn]
  split
  · rfl
  · simp [rename]

theorem dictOf_rename (hf : ∀ a b, K a → K b → f a = f b → a = b) {l : List (String × α)} (hl : Keys K l) :
    dictOf (rename f l) = rename f (dictOf l) ∧ Keys K (dictOf l) := by
  rw [dictOf_fold, dictOf_fold]
  have key : ∀ acc : List (String × α), Keys K acc →
      (rename f l).foldl putLast (rename f acc) = rename f (l.foldl putLast acc) ∧ Keys K (l.foldl putLast acc) := by
    induction l with
    | nil => exact fun acc h => ⟨rfl, h⟩
    | cons p l ih =>
      intro acc ha
      have hp := hl p (List.mem_cons_self ..)
      have := ih (fun q hq => hl q (List.mem_cons_of_mem _ hq)) (putLast acc p) (keys_putLast ha hp)
      simp only [rename, List.map_cons, List.foldl_cons] at this ⊢
      rw [← this.1]
      refine ⟨?_, this.2⟩
      congr 1
      exact rename_putLast hf ha hp
  exact key [] fun _ h => absurd h (List.not_mem_nil)

theorem lookup_rename (hf : ∀ a b, K a → K b → f a = f b → a = b) {l : List (String × α)} (hl : Keys K l) {n : String} (hn : K n) :
    lookup (rename f l) (f n) = lookup l n := by
  unfold lookup
  induction l with
  | nil => rfl
  | cons p l ih =>
    have hp := hl p (List.mem_cons_self ..)
    have ih := ih fun q hq => hl q (List.mem_cons_of_mem _ hq)
    simp only [rename, List.map_cons, List.find?_cons] at ih ⊢
    by_cases e : p.1 = n
    · simp [e]
    · have : f p.1 ≠ f n := fun h => e (hf _ _ hp hn h)
      simpa [e, this] using ih

theorem frameOf_rename (hf : ∀ a b, K a → K b → f a = f b → a = b) {l : List (String × List α)} (hl : Keys K l) :
    frameOf (rename f l) = (frameOf l).map (rename f) ∧ ∀ c, frameOf l = .ok c → Keys K c := by
  obtain ⟨h1, h2⟩ := dictOf_rename hf hl
  unfold frameOf
  rw [h1]
  cases hd : dictOf l with
  | nil => exact ⟨rfl, by rintro c ⟨⟩ p hp; cases hp⟩
  | cons c rest =>
    simp only [rename, List.map_cons, List.all_map]
    have e : (rest.all ((fun x : String × List α => decide (x.2.length = c.2.length)) ∘ fun p => (f p.1, p.2))) =
      rest.all fun x => decide (x.2.length = c.2.length) := rfl
    rw [e]
    split
    · exact ⟨rfl, by rintro c ⟨⟩; rw [← hd]; exact h2⟩
    · exact ⟨rfl, by rintro c ⟨⟩⟩

theorem height_rename (l : Columns α) : height (rename f l) = height l := by
  cases l <;> rfl

theorem rowsOf_rename (n : Nat) (l : Columns α) : rowsOf n (rename f l) = rowsOf n l := by
  unfold rowsOf rename
  apply List.map_congr_left
  intro i _
  rw [List.filterMap_map]
  rfl

theorem predictionVectors_rename (hf : ∀ a b, K a → K b → f a = f b → a = b) (cell : α → Nat → α) {acts : Columns Nat} {preds : List (String × α)}
    (ha : Keys K acts) (hp : Keys K preds) :
    predictionVectors cell (rename f acts) (rename f preds) = rename f (predictionVectors cell acts preds) ∧
      Keys K (predictionVectors cell acts preds) := by
  unfold predictionVectors
  constructor
  · rw [rename_eq f acts, List.filterMap_map, rename_filterMap]
    apply List.filterMap_congr
    intro c hc
    simp only [Function.comp]
    rw [lookup_rename hf hp (ha c hc)]
    cases lookup preds c.1 <;> rfl
  · intro p hp'
    obtain ⟨c, hc, e⟩ := List.mem_filterMap.1 hp'
    cases h : lookup preds c.1 with
    | none => rw [h] at e; cases e
    | some x =>
      rw [h] at e
      cases e
      exact ha c hc

theorem initWeights_rename (hf : ∀ a b, K a → K b → f a = f b → a = b) (isNaN : α → Bool) {acts : Columns Nat} {preds : Columns α}
    (ha : Keys K acts) (hp : Keys K preds) {w w' : Weights} (hw : ∀ n, K n → w' (f n) = w n) :
    initWeights isNaN (rename f acts) (rename f preds) w' = (initWeights isNaN acts preds w).map (rename f) := by
  have : (rename f acts).filterMap (weighColumn isNaN (rename f preds) w') = rename f (acts.filterMap (weighColumn isNaN preds w)) := by
    rw [rename_eq f acts, List.filterMap_map, rename_filterMap]
    apply List.filterMap_congr
    intro c hc
    have e : cellWeight w' (f c.1) = cellWeight w c.1 := by
      funext a
      unfold cellWeight
      rw [hw _ (ha c hc)]
    simp only [Function.comp, weighColumn]
    rw [lookup_rename hf hp (ha c hc), e]
    cases lookup preds c.1 with
    | none => rfl
    | some x =>
      simp only
      split <;> rfl
  unfold initWeights
  simp only [this]
  have hlen : (rename f (acts.filterMap (weighColumn isNaN preds w))).length = (acts.filterMap (weighColumn isNaN preds w)).length := by
    simp [rename]
  rw [hlen]
  split <;> rfl

theorem weightedRegressorStacked_rename (hf : ∀ a b, K a → K b → f a = f b → a = b) (n : Nat) {acts : Columns Nat} {preds : Columns Num}
    (ha : Keys K acts) (hp : Keys K preds) {w w' : Weights} (hw : ∀ n, K n → w' (f n) = w n) :
    weightedRegressorStacked n (rename f acts) (rename f preds) w' = weightedRegressorStacked n acts preds w := by
  unfold weightedRegressorStacked
  rw [initWeights_rename hf Num.isNaN ha hp hw]
  cases initWeights Num.isNaN acts preds w with
  | error e => rfl
  | ok c => simp only [Except.map, bind, Except.bind, rowsOf_rename]

theorem firstIsText_rename (preds : Columns Label) : firstIsText (rename f preds) = firstIsText preds := by
  cases preds <;> rfl

theorem equalClassifierStacked_rename (n : Nat) (preds : Columns Label) : equalClassifierStacked n (rename f preds) = equalClassifierStacked n preds := by
  unfold equalClassifierStacked
  rw [firstIsText_rename, rowsOf_rename]

theorem weightedClassifierStacked_rename (hf : ∀ a b, K a → K b → f a = f b → a = b) (n : Nat) {acts : Columns Nat} {preds : Columns Label}
    (ha : Keys K acts) (hp : Keys K preds) {w w' : Weights} (hw : ∀ n, K n → w' (f n) = w n) :
    weightedClassifierStacked n (rename f acts) (rename f preds) w' = weightedClassifierStacked n acts preds w := by
  unfold weightedClassifierStacked
  rw [initWeights_rename hf Label.isNaN ha hp hw]
  cases initWeights Label.isNaN acts preds w with
  | error e => rfl
  | ok c =>
    simp only [Except.map, bind, Except.bind, rowsOf_rename]
    congr 1
    rw [← equalClassifierStacked_rename (f := f) (preds := c.map _)]
    congr 1
    simp only [rename, List.map_map]
    rfl

theorem onlyNumbers_rename (l : List (String × Label)) : onlyNumbers (rename f l) = (onlyNumbers l).map (rename f) := by
  unfold onlyNumbers rename
  induction l with
  | nil => rfl
  | cons p l ih =>
    simp only [List.map_cons, List.mapM_cons, ih]
    rcases p with ⟨k, x | t⟩
    · simp only [bind, Except.bind]
      cases l.mapM (m := Except Err) (fun p : String × Label => match p.2 with | .num x => .ok (p.1, x) | .text _ => .error .typeError) <;> rfl
    · rfl

theorem onlyNumbers_keys {l : List (String × Label)} (hl : Keys K l) {c : List (String × Num)} (h : onlyNumbers l = .ok c) : Keys K c := by
  unfold onlyNumbers at h
  induction l generalizing c with
  | nil => cases h; intro p hp; cases hp
  | cons p l ih =>
    rw [List.mapM_cons] at h
    rcases p with ⟨k, x | t⟩
    · simp only [bind, Except.bind] at h
      split at h
      · cases h
      · rename_i c' hc'
        cases h
        intro q hq
        rcases List.mem_cons.1 hq with rfl | hq
        · exact hl _ (List.mem_cons_self ..)
        · exact ih (fun q hq => hl q (List.mem_cons_of_mem _ hq)) hc' q hq
    · cases h

theorem oneType_rename (l : List (String × Label)) : oneType (rename f l) = oneType l := by
  unfold oneType rename
  rw [List.all_map, List.all_map]
  rfl

/-! ## Predictions -/

/-- Two lists of rules which differ only in their conditions, with the same activations on the features given to each -/
structure TwinRules (S : SetEnv) (conv : Rule → Cond) (rules : List Rule) (x x' : Xs) : Prop where
  view : ∀ r ∈ rules, Rule.evaluate (conv r) x' = Rule.evaluate r.cond x
  len : ∀ r ∈ rules, (conv r).length = r.cond.length
  names : ∀ r ∈ rules, ∀ q ∈ rules, S.condStr (conv r) = S.condStr (conv q) ↔ S.condStr r.cond = S.condStr q.cond

/-- The rule with its converted condition -/
def twin (conv : Rule → Cond) (r : Rule) : Rule := recond (conv r) r

variable {S : SetEnv} {conv : Rule → Cond} {rules : List Rule} {x x' : Xs}

/-- The new name of a rule from the old one -/
def newName (S : SetEnv) (conv : Rule → Cond) (rules : List Rule) (n : String) : String :=
  match rules.find? fun r => decide (S.condStr r.cond = n) with
  | some r => S.condStr (conv r)
  | none => n

/-- The names of the rules -/
def Named (S : SetEnv) (rules : List Rule) (n : String) : Prop := ∃ r ∈ rules, S.condStr r.cond = n

theorem newName_eq (h : TwinRules S conv rules x x') {r : Rule} (hr : r ∈ rules) : newName S conv rules (S.condStr r.cond) = S.condStr (conv r) := by
  unfold newName
  cases e : rules.find? fun q => decide (S.condStr q.cond = S.condStr r.cond) with
  | none => exact absurd (List.find?_eq_none.1 e r hr) (by simp)
  | some q =>
    have h1 := List.find?_some e
    have h2 := List.mem_of_find?_eq_some e
    simp only [decide_eq_true_eq] at h1
    exact (h.names q h2 r hr).2 h1

theorem newName_inj (h : TwinRules S conv rules x x') : ∀ a b, Named S rules a → Named S rules b → newName S conv rules a = newName S conv rules b → a = b := by
  rintro a b ⟨r, hr, rfl⟩ ⟨q, hq, rfl⟩ e
  rw [newName_eq h hr, newName_eq h hq] at e
  exact (h.names r hr q hq).1 e

theorem activationOf_twin (h : TwinRules S conv rules x x') {r : Rule} (hr : r ∈ rules) (E : Env) :
    activationOf E (some x') (twin conv r) = activationOf E (some x) r := by
  unfold activationOf
  simp only [twin, evaluateActivation_recond (h.view r hr) rfl]

theorem firstVector_twin (h : TwinRules S conv rules x x') {r : Rule} (hr : r ∈ rules) (E : Env) (v : List Nat) :
    firstVector E (twin conv r) v = firstVector E r v := by
  unfold firstVector twin
  rw [calcPredictionVector_recond (h.len r hr) rfl]

theorem getPrediction_twin (r : Rule) (E : Env) : (twin conv r).getPrediction E = r.getPrediction E := rfl

theorem weightOf_twin {w w' : Weights} {r : Rule} (hw : w' (S.condStr (conv r)) = w (S.condStr r.cond)) :
    weightOf w' (S.condStr (twin conv r).cond) = weightOf w (S.condStr r.cond) := by
  unfold weightOf
  have : w' (S.condStr (twin conv r).cond) = w (S.condStr r.cond) := hw
  rw [this]

theorem foldlM_twin {β : Type} {step step' : β → Rule → Except Err β} {l : List Rule} (h : ∀ b, ∀ r ∈ l, step' b (twin conv r) = step b r) (b : β) :
    (l.map (twin conv)).foldlM step' b = l.foldlM step b := by
  induction l generalizing b with
  | nil => rfl
  | cons r l ih =>
    rw [List.map_cons, List.foldlM_cons, List.foldlM_cons, h b r (List.mem_cons_self ..)]
    congr 1
    funext c
    exact ih (fun b r hr => h b r (List.mem_cons_of_mem _ hr)) c

theorem weightedRegressor_twin (h : TwinRules S conv rules x x') {w w' : Weights} (hw : ∀ r ∈ rules, w' (S.condStr (conv r)) = w (S.condStr r.cond)) :
    weightedRegressor S (rules.map (twin conv)) w' (some x') = weightedRegressor S rules w (some x) := by
  unfold weightedRegressor
  rw [List.length_map, foldlM_twin (step := weightedStep S w (some x))]
  intro b r hr
  unfold weightedStep
  rw [weightOf_twin (hw r hr), activationOf_twin h hr]
  simp only [firstVector_twin h hr, getPrediction_twin]

theorem weightedClassifier_twin (h : TwinRules S conv rules x x') {w w' : Weights} (hw : ∀ r ∈ rules, w' (S.condStr (conv r)) = w (S.condStr r.cond)) :
    weightedClassifier S (rules.map (twin conv)) w' (some x') = weightedClassifier S rules w (some x) := by
  unfold weightedClassifier
  rw [List.length_map, foldlM_twin (step := classStep S w (some x))]
  intro b r hr
  unfold classStep
  rw [weightOf_twin (hw r hr), activationOf_twin h hr]
  simp only [getPrediction_twin]

theorem equalClassifier_twin (h : TwinRules S conv rules x x') :
    equalClassifier S (rules.map (twin conv)) (some x') = equalClassifier S rules (some x) := by
  unfold equalClassifier
  apply weightedClassifier_twin h
  intro r hr
  rw [if_pos, if_pos]
  · exact List.any_eq_true.2 ⟨r, hr, by simp⟩
  · exact List.any_eq_true.2 ⟨twin conv r, List.mem_map_of_mem hr, by simp [twin, recond]⟩

/-- Two programs with the same outcome which change nothing -/
def SameRun {σ τ α : Type} (Q : α → Prop) (m : Py σ α) (m' : Py τ α) : Prop :=
  ∃ o, (∀ st, m st = (o, st)) ∧ (∀ st, m' st = (o, st)) ∧ ∀ a, o = .ok a → Q a

section
variable {σ τ α β : Type} {P Q : α → Prop}

theorem sameRun_pure {a : α} (h : Q a) : SameRun (σ := σ) (τ := τ) Q (pure a) (pure a) :=
  ⟨.ok a, fun _ => rfl, fun _ => rfl, by rintro b ⟨⟩; exact h⟩

theorem sameRun_throw (e : Err) : SameRun (σ := σ) (τ := τ) Q (Py.throw e) (Py.throw e) :=
  ⟨.error e, fun _ => rfl, fun _ => rfl, by rintro b ⟨⟩⟩

theorem sameRun_ofExcept (o : Except Err α) : SameRun (σ := σ) (τ := τ) (fun _ => True) (Py.ofExcept o) (Py.ofExcept o) :=
  ⟨o, fun _ => rfl, fun _ => rfl, fun _ _ => trivial⟩

theorem sameRun_bind {Q : β → Prop} {m : Py σ α} {m' : Py τ α} {f : α → Py σ β} {f' : α → Py τ β} (h : SameRun P m m')
    (hf : ∀ a, P a → SameRun Q (f a) (f' a)) : SameRun Q (m >>= f) (m' >>= f') := by
  obtain ⟨o, h1, h2, h3⟩ := h
  cases o with
  | error e => exact ⟨.error e, fun st => Py.bind_err (h1 st), fun st => Py.bind_err (h2 st), by rintro b ⟨⟩⟩
  | ok a =>
    obtain ⟨o, g1, g2, g3⟩ := hf a (h3 a rfl)
    exact ⟨o, fun st => by rw [Py.bind_ok (h1 st), g1], fun st => by rw [Py.bind_ok (h2 st), g2], g3⟩

end

/-- `cum_w` is not the array of a rule. -/
def Fresh (acc : Option (Option Nat × List Num × List Nat)) : Prop := ∀ k c w, acc = some (k, c, w) → k = none

theorem equalStep_twin (h : TwinRules S conv rules x x') {r : Rule} (hr : r ∈ rules) (i : Nat)
    {acc : Option (Option Nat × List Num × List Nat)} (ha : Fresh acc) :
    SameRun Fresh (equalStep S (some x) i r acc) (equalStep S (some x') i (twin conv r) acc) := by
  unfold equalStep
  rw [activationOf_twin h hr]
  simp only [firstVector_twin h hr, getPrediction_twin]
  refine sameRun_bind (sameRun_ofExcept _) fun v _ => ?_
  cases v with
  | none => exact sameRun_pure ha
  | some v =>
    by_cases h0 : v.length = 0
    · simp only [if_pos h0]
      exact sameRun_pure ha
    · simp only [if_neg h0]
      cases acc with
      | none => exact sameRun_bind (sameRun_ofExcept _) fun p _ => sameRun_pure (by rintro k c w ⟨⟩; rfl)
      | some a =>
        obtain ⟨k, cum, cumW⟩ := a
        obtain rfl := ha k cum cumW rfl
        refine sameRun_bind (sameRun_ofExcept _) fun p _ => sameRun_bind (sameRun_ofExcept _) fun p _ => sameRun_bind (sameRun_ofExcept _) fun p _ =>
          sameRun_bind (sameRun_ofExcept _) fun p _ => sameRun_bind (P := fun _ => True) ⟨.ok (), fun _ => rfl, fun _ => rfl, fun _ _ => trivial⟩ fun _ _ =>
          sameRun_pure (by rintro k c w ⟨⟩; rfl)

theorem equalLoop_twin (h : TwinRules S conv rules x x') {l : List Rule} (hl : ∀ r ∈ l, r ∈ rules) (i : Nat)
    {acc : Option (Option Nat × List Num × List Nat)} (ha : Fresh acc) :
    SameRun Fresh (equalLoop S (some x) i l acc) (equalLoop S (some x') i (l.map (twin conv)) acc) := by
  induction l generalizing i acc with
  | nil => exact sameRun_pure ha
  | cons r l ih =>
    rw [List.map_cons]
    unfold equalLoop
    exact sameRun_bind (equalStep_twin h (hl r (List.mem_cons_self ..)) i ha) fun a ha =>
      ih (fun r hr => hl r (List.mem_cons_of_mem _ hr)) _ ha

theorem equalRegressor_twin (h : TwinRules S conv rules x x') :
    ∃ o, equalRegressor S (some x) rules = (o, rules) ∧ equalRegressor S (some x') (rules.map (twin conv)) = (o, rules.map (twin conv)) := by
  unfold equalRegressor
  rw [Py.bind_ok (Py.get_run rules), Py.bind_ok (Py.get_run (rules.map (twin conv))), List.length_map]
  by_cases h0 : rules.length = 0
  · simp only [if_pos h0]
    exact ⟨_, rfl, rfl⟩
  · simp only [if_neg h0]
    have : SameRun (fun _ => True)
        (equalLoop S (some x) 0 rules none >>= fun a => match a with
          | none => Py.throw .valueError
          | some (_, cum, cumW) => Py.ofExcept (zipOp Num.div cum (cumW.map fun a : Nat => .fin a)))
        (equalLoop S (some x') 0 (rules.map (twin conv)) none >>= fun a => match a with
          | none => Py.throw .valueError
          | some (_, cum, cumW) => Py.ofExcept (zipOp Num.div cum (cumW.map fun a : Nat => .fin a))) := by
      refine sameRun_bind (equalLoop_twin h (fun _ => id) 0 (by rintro k c w ⟨⟩)) fun a _ => ?_
      cases a with
      | none => exact sameRun_throw _
      | some a => exact sameRun_ofExcept _
    obtain ⟨o, h1, h2, -⟩ := this
    exact ⟨o, h1 _, h2 _⟩

/-- Weights which agree for the rules and for their twins -/
def SameWeights (S : SetEnv) (conv : Rule → Cond) (rules : List Rule) : Option Weights → Option Weights → Prop
  | some w, some w' => ∀ r ∈ rules, w' (S.condStr (conv r)) = w (S.condStr r.cond)
  | none, none => True
  | _, _ => False

theorem predictUnstacked_twin (h : TwinRules S conv rules x x') {w w' : Option Weights} (hw : SameWeights S conv rules w w') :
    ∃ o, Vote.predictUnstacked S w (some x) rules = (o, rules) ∧
      Vote.predictUnstacked S w' (some x') (rules.map (twin conv)) = (o, rules.map (twin conv)) := by
  unfold Vote.predictUnstacked
  rw [Py.bind_ok (Py.get_run rules), Py.bind_ok (Py.get_run (rules.map (twin conv)))]
  cases S.env.kind with
  | regression =>
    cases w with
    | some w =>
      cases w' with
      | none => exact hw.elim
      | some w' =>
        simp only [weightedRegressor_twin h hw]
        cases weightedRegressor S rules w (some x) with
        | error e => exact ⟨_, rfl, rfl⟩
        | ok l => exact ⟨_, rfl, rfl⟩
    | none =>
      cases w' with
      | some w' => exact hw.elim
      | none =>
        obtain ⟨o, h1, h2⟩ := equalRegressor_twin h
        simp only
        cases o with
        | error e => exact ⟨_, Py.bind_err h1, Py.bind_err h2⟩
        | ok l => exact ⟨_, by rw [Py.bind_ok h1]; rfl, by rw [Py.bind_ok h2]; rfl⟩
  | classification =>
    cases w with
    | some w =>
      cases w' with
      | none => exact hw.elim
      | some w' =>
        simp only [weightedClassifier_twin h hw]
        exact ⟨_, rfl, rfl⟩
    | none =>
      cases w' with
      | some w' => exact hw.elim
      | none =>
        simp only [equalClassifier_twin h]
        exact ⟨_, rfl, rfl⟩

/-- Name and prediction of a rule -/
def entry (S : SetEnv) (r : Rule) : Except Err (String × Label) :=
  (r.getPrediction S.env).map fun p => (S.condStr r.cond, p.getD (.num .nan))

theorem labelsOf_twin (h : TwinRules S conv rules x x') :
    labelsOf S (rules.map (twin conv)) = (labelsOf S rules).map (rename (newName S conv rules)) ∧
      ∀ c, labelsOf S rules = .ok c → Keys (Named S rules) c := by
  have key : ∀ l : List Rule, (∀ r ∈ l, r ∈ rules) →
      ((l.map (twin conv)).mapM (entry S)) =
        (l.mapM (entry S)).map (rename (newName S conv rules)) ∧
      ∀ c, (l.mapM (entry S)) = .ok c → Keys (Named S rules) c := by
    intro l
    induction l with
    | nil => exact fun _ => ⟨rfl, by rintro c ⟨⟩ p hp; cases hp⟩
    | cons r l ih =>
      intro hl
      have hr := hl r (List.mem_cons_self ..)
      obtain ⟨h1, h2⟩ := ih fun r hr => hl r (List.mem_cons_of_mem _ hr)
      have he : entry S (twin conv r) = (entry S r).map fun p => (newName S conv rules p.1, p.2) := by
        unfold entry
        rw [getPrediction_twin]
        cases r.getPrediction S.env with
        | error e => rfl
        | ok p =>
          simp only [Except.map, newName_eq h hr]
          rfl
      have hn : ∀ p, entry S r = .ok p → p.1 = S.condStr r.cond := by
        unfold entry
        cases r.getPrediction S.env with
        | error e => rintro p ⟨⟩
        | ok q => rintro p ⟨⟩; rfl
      rw [List.map_cons, List.mapM_cons, List.mapM_cons, h1, he]
      cases hp : entry S r with
      | error e => exact ⟨rfl, by rintro c ⟨⟩⟩
      | ok p =>
        cases hc : l.mapM (entry S) with
        | error e => exact ⟨rfl, by rintro c ⟨⟩⟩
        | ok c =>
          refine ⟨rfl, ?_⟩
          rintro c' ⟨⟩ q hq
          rcases List.mem_cons.1 hq with rfl | hq
          · exact ⟨r, hr, (hn _ hp).symm⟩
          · exact h2 c hc q hq
  obtain ⟨h1, h2⟩ := key rules fun _ => id
  have e : ∀ l, labelsOf S l = (l.mapM (entry S)).map dictOf := fun _ => rfl
  rw [e, e, h1]
  cases hm : rules.mapM (entry S) with
  | error e => exact ⟨rfl, by rintro c ⟨⟩⟩
  | ok c =>
    obtain ⟨g1, g2⟩ := dictOf_rename (newName_inj h) (h2 c hm)
    refine ⟨?_, ?_⟩
    · exact congrArg Except.ok g1
    · rintro c' ⟨⟩; exact g2

theorem predictStacked_twin (h : TwinRules S conv rules x x') {acts : Columns Nat} (ha : Keys (Named S rules) acts) {w w' : Option Weights}
    (hw : SameWeights S conv rules w w') :
    Vote.predictStacked S (rules.map (twin conv)) (rename (newName S conv rules) acts) w' = Vote.predictStacked S rules acts w := by
  have hf := newName_inj h
  obtain ⟨h1, h2⟩ := labelsOf_twin h
  have hwn : ∀ v v', w = some v → w' = some v' → ∀ n, Named S rules n → v' (newName S conv rules n) = v n := by
    rintro v v' rfl rfl n ⟨r, hr, rfl⟩
    rw [newName_eq h hr]
    exact hw r hr
  unfold Vote.predictStacked
  rw [h1, height_rename]
  cases hl : labelsOf S rules with
  | error e => rfl
  | ok preds =>
    have hk := h2 preds hl
    simp only [Except.map, bind, Except.bind]
    split
    · rfl
    · cases S.env.kind with
      | regression =>
        simp only [onlyNumbers_rename]
        cases ho : onlyNumbers preds with
        | error e => rfl
        | ok p =>
          obtain ⟨g1, g2⟩ := predictionVectors_rename hf cellNum ha (onlyNumbers_keys hk ho)
          simp only [Except.map, g1]
          cases w with
          | some w =>
            cases w' with
            | none => exact hw.elim
            | some w' => simp only [weightedRegressorStacked_rename hf _ ha g2 (hwn w w' rfl rfl)]
          | none =>
            cases w' with
            | some w' => exact hw.elim
            | none => simp only [equalRegressorStacked, rowsOf_rename]
      | classification =>
        obtain ⟨g1, g2⟩ := predictionVectors_rename hf cellLabel ha hk
        simp only [oneType_rename, g1]
        split
        · rfl
        · cases w with
          | some w =>
            cases w' with
            | none => exact hw.elim
            | some w' => simp only [weightedClassifierStacked_rename hf _ ha g2 (hwn w w' rfl rfl)]
          | none =>
            cases w' with
            | some w' => exact hw.elim
            | none => simp only [equalClassifierStacked_rename]

/-! ## Rulesets -/

/-- The rule of a ruleset with its converted condition -/
def twinMember (conv : Rule → Cond) (m : Member) : Member := { m with rule := twin conv m.rule }

theorem rules_twin (conv : Rule → Cond) (ms : List Member) : (ms.map (twinMember conv)).map (·.rule) = (ms.map (·.rule)).map (twin conv) := by
  rw [List.map_map, List.map_map]
  rfl

/-- The weights given to the two rulesets -/
def SameArg (S : SetEnv) (conv : Rule → Cond) (rules : List Rule) : Option WeightsArg → Option WeightsArg → Prop
  | some (.series w), some (.series w') => ∀ r ∈ rules, w' (S.condStr (conv r)) = w (S.condStr r.cond)
  | some (.attr a), some (.attr a') => a' = a
  | none, none => True
  | _, _ => False

theorem attrs_twin (hE : CondFree S.env) (h : TwinRules S conv rules x x') (name : String) :
    ∀ l : List Rule, (∀ r ∈ l, r ∈ rules) →
      ((l.map (twin conv)).mapM fun r : Rule => (do
        let a ← r.getattr S.env name
        let x ← weightAttr a
        pure (S.condStr r.cond, x) : Except Err (String × Num))) =
      ((l.mapM fun r : Rule => (do
        let a ← r.getattr S.env name
        let x ← weightAttr a
        pure (S.condStr r.cond, x) : Except Err (String × Num))).map (rename (newName S conv rules))) ∧
      ∀ c, (l.mapM fun r : Rule => (do
        let a ← r.getattr S.env name
        let x ← weightAttr a
        pure (S.condStr r.cond, x) : Except Err (String × Num))) = .ok c → Keys (Named S rules) c := by
  intro l
  induction l with
  | nil => exact fun _ => ⟨rfl, by rintro c ⟨⟩ p hp; cases hp⟩
  | cons r l ih =>
    intro hl
    have hr := hl r (List.mem_cons_self ..)
    obtain ⟨h1, h2⟩ := ih fun r hr => hl r (List.mem_cons_of_mem _ hr)
    have hg : (twin conv r).getattr S.env name = r.getattr S.env name := by
      unfold twin
      rw [getattr_recond hE]
    rw [List.map_cons, List.mapM_cons, List.mapM_cons, h1, hg]
    cases r.getattr S.env name with
    | error e => exact ⟨rfl, by rintro c ⟨⟩⟩
    | ok a =>
      cases hx : weightAttr a with
      | error e =>
        refine ⟨?_, ?_⟩
        · simp only [bind, Except.bind, hx]; rfl
        · simp only [bind, Except.bind, hx]; rintro c ⟨⟩
      | ok v =>
        generalize hm : (l.mapM fun r : Rule => (do
          let a ← r.getattr S.env name
          let x ← weightAttr a
          pure (S.condStr r.cond, x) : Except Err (String × Num))) = o at h2 ⊢
        cases o with
        | error e =>
          refine ⟨?_, ?_⟩
          · simp only [bind, Except.bind, hx]; rfl
          · simp only [bind, Except.bind, hx]; rintro c ⟨⟩
        | ok c =>
          refine ⟨?_, ?_⟩
          · simp only [bind, Except.bind, hx]
            show Except.ok ((S.condStr (conv r), v) :: _) = Except.ok ((newName S conv rules (S.condStr r.cond), v) :: _)
            rw [newName_eq h hr]
            rfl
          · simp only [bind, Except.bind, hx]
            rintro c' ⟨⟩ q hq
            rcases List.mem_cons.1 hq with rfl | hq
            · exact ⟨r, hr, rfl⟩
            · exact h2 c rfl q hq

theorem weightsFrom_twin (hE : CondFree S.env) (h : TwinRules S conv rules x x') {w w' : WeightsArg} (hw : SameArg S conv rules (some w) (some w')) :
    (∃ e, weightsFrom S rules w = .error e ∧ weightsFrom S (rules.map (twin conv)) w' = .error e) ∨
      ∃ v v', weightsFrom S rules w = .ok v ∧ weightsFrom S (rules.map (twin conv)) w' = .ok v' ∧ SameWeights S conv rules (some v) (some v') := by
  cases w with
  | series w =>
    cases w' with
    | attr => exact hw.elim
    | series w' => exact .inr ⟨w, w', rfl, rfl, hw⟩
  | attr a =>
    cases w' with
    | series => exact hw.elim
    | attr a' =>
      cases hw
      obtain ⟨h1, h2⟩ := attrs_twin hE h a rules fun _ => id
      unfold weightsFrom
      simp only [h1]
      generalize (rules.mapM fun r : Rule => (do
        let a ← r.getattr S.env a
        let x ← weightAttr a
        pure (S.condStr r.cond, x) : Except Err (String × Num))) = o at h2 ⊢
      cases o with
      | error e => exact .inl ⟨e, rfl, rfl⟩
      | ok c =>
        refine .inr ⟨_, _, rfl, rfl, ?_⟩
        intro r hr
        obtain ⟨g1, g2⟩ := dictOf_rename (newName_inj h) (h2 c rfl)
        rw [g1, ← newName_eq h hr]
        exact lookup_rename (newName_inj h) g2 ⟨r, hr, rfl⟩

theorem putBack_same (ms : List Member) : putBack ms (ms.map (·.rule)) = ms := by
  unfold putBack
  induction ms with
  | nil => rfl
  | cons m ms ih => simp only [List.map_cons, List.zipWith_cons_cons, ih]

theorem weightsOf_twin (R : RsEnv) (k : Kind) (ms : List Member) (hE : CondFree (R.ofKind k))
    (h : TwinRules (voteEnv R k) conv (ms.map (·.rule)) x x') {w w' : Option WeightsArg} (hw : SameArg (voteEnv R k) conv (ms.map (·.rule)) w w') :
    (∃ e, weightsOf R k ms w = .error e ∧ weightsOf R k (ms.map (twinMember conv)) w' = .error e) ∨
      ∃ v v', weightsOf R k ms w = .ok v ∧ weightsOf R k (ms.map (twinMember conv)) w' = .ok v' ∧
        SameWeights (voteEnv R k) conv (ms.map (·.rule)) v v' := by
  unfold weightsOf
  cases w with
  | none =>
    cases w' with
    | some => exact hw.elim
    | none => exact .inr ⟨none, none, rfl, rfl, trivial⟩
  | some w =>
    cases w' with
    | none => cases w <;> exact hw.elim
    | some w' =>
      simp only [rules_twin]
      rcases weightsFrom_twin (S := voteEnv R k) hE h hw with ⟨e, h1, h2⟩ | ⟨v, v', h1, h2, h3⟩
      · exact .inl ⟨e, by rw [h1]; rfl, by rw [h2]; rfl⟩
      · exact .inr ⟨some v, some v', by rw [h1]; rfl, by rw [h2]; rfl, h3⟩

theorem activations_twin (R : RsEnv) (ms : List Member) (h : ∀ r ∈ ms.map (·.rule), Rule.evaluate (conv r) x' = Rule.evaluate r.cond x) :
    activations R (some x') (ms.map (twinMember conv)) = activations R (some x) ms := by
  unfold activations
  simp only
  congr 1
  have key : ∀ l : List Member, (∀ m ∈ l, m ∈ ms) →
      ((l.map (twinMember conv)).mapM fun m : Member => m.rule.evaluateActivation (R.ofKind m.kind) x') =
        l.mapM fun m : Member => m.rule.evaluateActivation (R.ofKind m.kind) x := by
    intro l
    induction l with
    | nil => exact fun _ => rfl
    | cons m l ih =>
      intro hl
      have hv := h m.rule (List.mem_map_of_mem (hl m (List.mem_cons_self ..)))
      rw [List.map_cons, List.mapM_cons, List.mapM_cons, ih fun m hm => hl m (List.mem_cons_of_mem _ hm)]
      have : (twinMember conv m).rule.evaluateActivation (R.ofKind (twinMember conv m).kind) x' = m.rule.evaluateActivation (R.ofKind m.kind) x :=
        evaluateActivation_recond hv rfl
      rw [this]
  exact key ms fun _ => id

theorem namedColumns_twin (R : RsEnv) (k : Kind) (ms : List Member) (h : TwinRules (voteEnv R k) conv (ms.map (·.rule)) x x') (acts : List (List Nat)) :
    namedColumns R (ms.map (twinMember conv)) acts = rename (newName (voteEnv R k) conv (ms.map (·.rule))) (namedColumns R ms acts) ∧
      Keys (Named (voteEnv R k) (ms.map (·.rule))) (namedColumns R ms acts) := by
  have key : ∀ (l : List Member) (acts : List (List Nat)), (∀ m ∈ l, m ∈ ms) →
      namedColumns R (l.map (twinMember conv)) acts = rename (newName (voteEnv R k) conv (ms.map (·.rule))) (namedColumns R l acts) ∧
        Keys (Named (voteEnv R k) (ms.map (·.rule))) (namedColumns R l acts) := by
    intro l
    induction l with
    | nil => exact fun acts _ => ⟨rfl, by intro p hp; cases hp⟩
    | cons m l ih =>
      intro acts hl
      cases acts with
      | nil => exact ⟨rfl, by intro p hp; cases hp⟩
      | cons a acts =>
        have hm := List.mem_map_of_mem (f := (·.rule)) (hl m (List.mem_cons_self ..))
        obtain ⟨h1, h2⟩ := ih acts fun m hm => hl m (List.mem_cons_of_mem _ hm)
        refine ⟨?_, ?_⟩
        · show (R.condStr (conv m.rule), a) :: namedColumns R (l.map (twinMember conv)) acts = (newName _ _ _ (R.condStr m.rule.cond), a) :: rename _ (namedColumns R l acts)
          rw [h1]
          congr 2
          exact (newName_eq h hm).symm
        · intro p hp
          rcases List.mem_cons.1 hp with rfl | hp
          · exact ⟨m.rule, hm, rfl⟩
          · exact h2 p hp
  exact key ms acts fun _ => id

theorem evaluateStacked_twin (R : RsEnv) (k : Kind) (ms : List Member) (h : TwinRules (voteEnv R k) conv (ms.map (·.rule)) x x') :
    ∃ o, evaluateStacked R (some x) ms = o ∧
      evaluateStacked R (some x') (ms.map (twinMember conv)) = o.map (Option.map (rename (newName (voteEnv R k) conv (ms.map (·.rule))))) ∧
      ∀ c, o = .ok (some c) → Keys (Named (voteEnv R k) (ms.map (·.rule))) c := by
  unfold evaluateStacked
  rw [List.length_map, activations_twin R ms h.view]
  by_cases h0 : ms.length = 0
  · rw [if_pos h0, if_pos h0]
    exact ⟨_, rfl, rfl, by rintro c ⟨⟩ p hp; cases hp⟩
  · rw [if_neg h0, if_neg h0]
    cases activations R (some x) ms with
    | error e => exact ⟨_, rfl, rfl, by rintro c ⟨⟩⟩
    | ok acts =>
      cases acts with
      | none => exact ⟨_, rfl, rfl, by rintro c ⟨⟩⟩
      | some acts =>
        obtain ⟨h1, h2⟩ := namedColumns_twin R k ms h acts
        obtain ⟨h3, h4⟩ := frameOf_rename (newName_inj h) h2
        refine ⟨_, rfl, ?_, ?_⟩
        · show (frameOf (namedColumns R (ms.map (twinMember conv)) acts)).map some = ((frameOf (namedColumns R ms acts)).map some).map _
          rw [h1, h3]
          cases frameOf (namedColumns R ms acts) <;> rfl
        · intro c hc
          have hc : (frameOf (namedColumns R ms acts)).map some = .ok (some c) := hc
          cases hf : frameOf (namedColumns R ms acts) with
          | error e => rw [hf] at hc; cases hc
          | ok d =>
            rw [hf] at hc
            cases hc
            exact h4 _ hf

/-- `predict` on features, of a ruleset and of the ruleset with the converted conditions -/
theorem predict_twin {R : RsEnv} {s s' : RuleSet} {w w' : Option WeightsArg} (hr : s'.rules = s.rules.map (twinMember conv)) (ht : s'.ruleType = s.ruleType)
    (hst : s'.stacked.isSome = s.stacked.isSome) (hE : ∀ k, CondFree (R.ofKind k))
    (h : ∀ k, TwinRules (voteEnv R k) conv (s.rules.map (·.rule)) x x') (hw : ∀ k, SameArg (voteEnv R k) conv (s.rules.map (·.rule)) w w') :
    ∃ o, RuleSet.predict R (some x) w s = (o, s) ∧ RuleSet.predict R (some x') w' s' = (o, s') := by
  unfold RuleSet.predict
  rw [Py.bind_ok (Py.get_run s), Py.bind_ok (Py.get_run s'), hr, ht, List.length_map]
  by_cases h0 : s.rules.length = 0
  · simp only [if_pos h0]
    exact ⟨_, rfl, rfl⟩
  · simp only [if_neg h0]
    cases s.ruleType with
    | none => exact ⟨_, rfl, rfl⟩
    | some k =>
      have unst : ∃ o, RuleSet.predictUnstacked R k (some x) w s = (o, s) ∧ RuleSet.predictUnstacked R k (some x') w' s' = (o, s') := by
        unfold RuleSet.predictUnstacked
        rw [Py.bind_ok (Py.get_run s), Py.bind_ok (Py.get_run s'), hr]
        rcases weightsOf_twin R k s.rules (hE k) (h k) (hw k) with ⟨e, h1, h2⟩ | ⟨v, v', h1, h2, h3⟩
        · rw [h1, h2]
          exact ⟨.error e, rfl, rfl⟩
        · rw [h1, h2, Py.bind_ok (Py.ofExcept_run ..), Py.bind_ok (Py.ofExcept_run ..), rules_twin]
          obtain ⟨o, g1, g2⟩ := predictUnstacked_twin (h k) h3
          simp only [g1, g2]
          have e1 : ({ s with rules := putBack s.rules (s.rules.map (·.rule)) } : RuleSet) = s := by rw [putBack_same]
          have e2 : ({ s' with rules := putBack s'.rules ((s.rules.map (·.rule)).map (twin conv)) } : RuleSet) = s' := by
            rw [← rules_twin, ← hr, putBack_same]
          rw [Py.bind_ok (Py.modify_run ..), Py.bind_ok (Py.modify_run ..), e1, e2]
          cases o with
          | error e => exact ⟨.error e, rfl, rfl⟩
          | ok l => exact ⟨_, rfl, rfl⟩
      cases hsf : R.stackedFit with
      | false => simpa only [hsf] using unst
      | true =>
        cases hs : s.stacked with
        | none =>
          cases hs' : s'.stacked with
          | some c => rw [hs, hs'] at hst; cases hst
          | none => exact unst
        | some c =>
          cases hs' : s'.stacked with
          | none => rw [hs, hs'] at hst; cases hst
          | some c' =>
            obtain ⟨o, g1, g2, g3⟩ := evaluateStacked_twin R k s.rules (h k)
            simp only [stackFor, hr]
            rw [g1, g2]
            cases o with
            | error e => exact ⟨.error e, rfl, rfl⟩
            | ok o =>
              rw [rules_twin]
              rcases weightsOf_twin R k s.rules (hE k) (h k) (hw k) with ⟨e, h1, h2⟩ | ⟨v, v', h1, h2, h3⟩
              · rw [h1, h2]
                exact ⟨.error e, rfl, rfl⟩
              · rw [h1, h2]
                have hk : Keys (Named (voteEnv R k) (s.rules.map (·.rule))) (o.getD []) := by
                  cases o with
                  | none => intro p hp; cases hp
                  | some c => exact g3 c rfl
                have hd : (o.map (rename (newName (voteEnv R k) conv (s.rules.map (·.rule))))).getD [] =
                    rename (newName (voteEnv R k) conv (s.rules.map (·.rule))) (o.getD []) := by
                  cases o <;> rfl
                have := predictStacked_twin (h k) hk h3
                refine ⟨Vote.predictStacked (voteEnv R k) (s.rules.map (·.rule)) (o.getD []) v, rfl, ?_⟩
                show (Vote.predictStacked (voteEnv R k) ((s.rules.map (·.rule)).map (twin conv)) ((o.map (rename (newName (voteEnv R k) conv (s.rules.map (·.rule))))).getD []) v', s') = _
                rw [hd, this]

end Verif.Scales
