import Verif.OneRuleLemmas
import Verif.RangeLemmas

/-!
# Lemmas on the number of predictions
-/

namespace Verif.EachPoint

open Verif Vote RuleSet OneRule

variable {S : SetEnv} {x : Xs}

theorem evaluateActivation_size {E : Env} {r : Rule} {v : List Nat} (h : r.evaluateActivation E x = .ok v) : v.length = x.length := by
  unfold Rule.evaluateActivation at h
  cases he : Rule.evaluate r.cond x with
  | error e => simp [he, bind, Except.bind] at h
  | ok u =>
    cases hs : E.store u with
    | error e => simp [he, hs, bind, Except.bind] at h
    | ok _ =>
      simp [he, hs, bind, Except.bind] at h
      rw [← h]
      exact evaluate_size he

theorem activationOf_size {E : Env} {r : Rule} {v : List Nat} (h : activationOf E (some x) r = .ok (some v)) : v.length = x.length := by
  simp only [activationOf] at h
  cases he : r.evaluateActivation E x with
  | error e => simp [he, Except.map] at h
  | ok u =>
    simp [he, Except.map] at h
    rw [← h]
    exact evaluateActivation_size he

theorem zipOp_size {f : Num → Num → Num} {a b l : List Num} (h : zipOp f a b = .ok l) : l.length = b.length ∧ l.length = a.length := by
  unfold zipOp at h
  split at h
  · cases h
    rename_i hl
    simp [hl]
  · cases h

theorem addBytes_size {a b l : List Nat} (h : addBytes a b = .ok l) : l.length = b.length := by
  unfold addBytes at h
  split at h
  · cases h
    rename_i hl
    simp [hl]
  · cases h

variable {xs : Option Xs} {n : Nat}

/-- The activation which the rule uses has this size. -/
def SizeOf (S : SetEnv) (xs : Option Xs) (n : Nat) (r : Rule) : Prop := ∀ v, activationOf S.env xs r = .ok (some v) → v.length = n

/-- The sizes of the running total of plain means -/
def Sized (n : Nat) (acc : Option (Option Nat × List Num × List Nat)) : Prop := ∀ k c w, acc = some (k, c, w) → w.length = n

theorem equalStep_size {i : Nat} {r : Rule} (hA : SizeOf S xs n r) {acc acc' : Option (Option Nat × List Num × List Nat)} {st st' : List Rule} (h : Sized n acc)
    (hs : equalStep S xs i r acc st = (.ok acc', st')) : Sized n acc' := by
  unfold equalStep at hs
  obtain ⟨o, st1, h1, hs⟩ := Py.bind_eq_ok hs
  have h1 := (Rule.ofExcept_ok h1).1
  cases o with
  | none =>
    cases hs
    exact h
  | some v =>
    simp only at hs
    split at hs
    · cases hs
      exact h
    · cases acc with
      | none =>
        simp only at hs
        obtain ⟨p, st2, h2, hs⟩ := Py.bind_eq_ok hs
        cases hs
        intro k c w hk
        cases hk
        exact hA v h1
      | some t =>
        obtain ⟨k, cum, w⟩ := t
        simp only at hs
        obtain ⟨p, st2, h2, hs⟩ := Py.bind_eq_ok hs
        obtain ⟨q, st3, h3, hs⟩ := Py.bind_eq_ok hs
        obtain ⟨c, st4, h4, hs⟩ := Py.bind_eq_ok hs
        obtain ⟨w', st5, h5, hs⟩ := Py.bind_eq_ok hs
        obtain ⟨h5, _⟩ := Rule.ofExcept_ok h5
        obtain ⟨u, st6, h6, hs⟩ := Py.bind_eq_ok hs
        cases hs
        intro k c w hk
        cases hk
        rw [addBytes_size h5]
        exact hA v h1

theorem equalLoop_size {i : Nat} {rules : List Rule} (hA : ∀ r ∈ rules, SizeOf S xs n r) {acc acc' : Option (Option Nat × List Num × List Nat)} {st st' : List Rule}
    (h : Sized n acc) (hs : equalLoop S xs i rules acc st = (.ok acc', st')) : Sized n acc' := by
  induction rules generalizing i acc st with
  | nil =>
    cases hs
    exact h
  | cons r rules ih =>
    unfold equalLoop at hs
    obtain ⟨a, st1, h1, hs⟩ := Py.bind_eq_ok hs
    exact ih (fun r hr => hA r (List.mem_cons_of_mem _ hr)) (equalStep_size (hA _ List.mem_cons_self) h h1) hs

theorem equalRegressor_size {st st' : List Rule} (hA : ∀ r ∈ st, SizeOf S xs n r) {l : List Num} (hne : st ≠ []) (hs : equalRegressor S xs st = (.ok l, st')) :
    l.length = n := by
  unfold equalRegressor at hs
  rw [Py.bind_ok (Py.get_run _), if_neg (by simpa using hne)] at hs
  obtain ⟨acc, st1, h1, hs⟩ := Py.bind_eq_ok hs
  have hz := equalLoop_size hA (acc := none) (fun _ _ _ h => by cases h) h1
  cases acc with
  | none => cases hs
  | some t =>
    obtain ⟨k, c, w⟩ := t
    obtain ⟨h2, _⟩ := Rule.ofExcept_ok hs
    rw [(zipOp_size h2).1, List.length_map]
    exact hz k c w rfl

theorem weightedStep_size {w : Weights} {r : Rule} (hA : SizeOf S xs n r) {acc acc' : Option (List Num × List Num)} (h : ∀ c t, acc = some (c, t) → t.length = n)
    (hs : weightedStep S w xs acc r = .ok acc') : ∀ c t, acc' = some (c, t) → t.length = n := by
  unfold weightedStep at hs
  cases hw : weightOf w (S.condStr r.cond) with
  | none =>
    rw [hw] at hs
    cases hs
    exact h
  | some q =>
    simp only [hw, bind, Except.bind] at hs
    cases ha : activationOf S.env xs r with
    | error e => simp [ha] at hs
    | ok o =>
      cases o with
      | none =>
        simp only [ha] at hs
        cases hs
        exact h
      | some v =>
        simp only [ha] at hs
        split at hs
        · cases hs
          exact h
        · cases acc with
          | none =>
            simp only at hs
            cases hf : firstVector S.env r v with
            | error e => simp [hf] at hs
            | ok p =>
              simp only [hf] at hs
              cases hs
              intro c t hc
              cases hc
              simpa [scale] using hA v ha
          | some t =>
            obtain ⟨cum, cumW⟩ := t
            simp only at hs
            cases h1 : r.getPrediction S.env with
            | error e => simp [h1] at hs
            | ok p =>
              cases h2 : numberOf p with
              | error e => simp [h1, h2] at hs
              | ok p' =>
                cases h3 : accumulate cum ((scale v p').map fun z => Num.mul z q) with
                | error e => simp [h1, h2, h3] at hs
                | ok c' =>
                  cases h4 : zipOp Num.add cumW (scale v q) with
                  | error e => simp [h1, h2, h3, h4] at hs
                  | ok w' =>
                    simp only [h1, h2, h3, h4] at hs
                    cases hs
                    intro c t hc
                    cases hc
                    rw [(zipOp_size h4).1]
                    simpa [scale] using hA v ha

theorem weightedLoop_size {w : Weights} {rules : List Rule} (hA : ∀ r ∈ rules, SizeOf S xs n r) {acc acc' : Option (List Num × List Num)}
    (h : ∀ c t, acc = some (c, t) → t.length = n) (hs : rules.foldlM (weightedStep S w xs) acc = .ok acc') :
    ∀ c t, acc' = some (c, t) → t.length = n := by
  induction rules generalizing acc with
  | nil =>
    cases hs
    exact h
  | cons r rules ih =>
    rw [List.foldlM_cons] at hs
    cases h1 : weightedStep S w xs acc r with
    | error e => simp [h1, bind, Except.bind] at hs
    | ok a =>
      simp only [h1, bind, Except.bind] at hs
      exact ih (fun r hr => hA r (List.mem_cons_of_mem _ hr)) (weightedStep_size (hA _ List.mem_cons_self) h h1) hs

theorem weightedRegressor_size {w : Weights} {rules : List Rule} (hA : ∀ r ∈ rules, SizeOf S xs n r) {l : List Num} (hne : rules ≠ [])
    (hs : weightedRegressor S rules w xs = .ok l) : l.length = n := by
  unfold weightedRegressor at hs
  rw [if_neg (by simpa using hne)] at hs
  cases h1 : rules.foldlM (weightedStep S w xs) none with
  | error e => simp [h1, bind, Except.bind] at hs
  | ok acc =>
    simp only [h1, bind, Except.bind] at hs
    have hz := weightedLoop_size hA (acc := none) (fun _ _ h => by cases h) h1
    cases acc with
    | none => cases hs
    | some t =>
      obtain ⟨c, t⟩ := t
      rw [(zipOp_size hs).1]
      exact hz c t rfl

/-- All rows of the table of classes have this size. -/
def Rows (n : Nat) (t : Table) : Prop := ∀ p ∈ t, p.2.length = n

theorem addRow_size {n : Nat} {t t' : Table} {p : Label} {v : List Num} (h : Rows n t) (hv : v.length = n) (hs : addRow t p v = .ok t') :
    Rows n t' := by
  induction t generalizing t' with
  | nil =>
    cases hs
    intro q hq
    simp at hq
    rw [hq]
    exact hv
  | cons a t ih =>
    obtain ⟨q, u⟩ := a
    have hu : u.length = n := h (q, u) List.mem_cons_self
    unfold addRow at hs
    rw [if_neg (by simp [hu, hv])] at hs
    split at hs
    · cases hs
      intro z hz
      rcases List.mem_cons.1 hz with rfl | hz
      · simp [hu, hv]
      · exact h z (List.mem_cons_of_mem _ hz)
    · cases h1 : addRow t p v with
      | error e => simp [h1, Except.map] at hs
      | ok t1 =>
        simp only [h1, Except.map] at hs
        cases hs
        intro z hz
        rcases List.mem_cons.1 hz with rfl | hz
        · exact hu
        · exact ih (fun z hz => h z (List.mem_cons_of_mem _ hz)) h1 z hz

theorem classStep_size {w : Weights} {r : Rule} (hA : SizeOf S xs n r) {t t' : Table} (h : Rows n t) (hs : classStep S w xs t r = .ok t') : Rows n t' := by
  unfold classStep at hs
  cases hw : weightOf w (S.condStr r.cond) with
  | none =>
    rw [hw] at hs
    cases hs
    exact h
  | some q =>
    simp only [hw, bind, Except.bind] at hs
    cases ha : activationOf S.env xs r with
    | error e => simp [ha] at hs
    | ok o =>
      cases o with
      | none =>
        simp only [ha] at hs
        cases hs
        exact h
      | some v =>
        simp only [ha] at hs
        split at hs
        · cases hs
          exact h
        · cases h1 : r.getPrediction S.env with
          | error e => simp [h1] at hs
          | ok o =>
            cases o with
            | none => simp [h1] at hs
            | some p =>
              simp only [h1] at hs
              exact addRow_size h (by simpa [scale] using hA v ha) hs

theorem classLoop_size {w : Weights} {rules : List Rule} (hA : ∀ r ∈ rules, SizeOf S xs n r) {t t' : Table} (h : Rows n t)
    (hs : rules.foldlM (classStep S w xs) t = .ok t') : Rows n t' := by
  induction rules generalizing t with
  | nil =>
    cases hs
    exact h
  | cons r rules ih =>
    rw [List.foldlM_cons] at hs
    cases h1 : classStep S w xs t r with
    | error e => simp [h1, bind, Except.bind] at hs
    | ok a =>
      simp only [h1, bind, Except.bind] at hs
      exact ih (fun r hr => hA r (List.mem_cons_of_mem _ hr)) (classStep_size (hA _ List.mem_cons_self) h h1) hs

theorem weightedClassifier_size {w : Weights} {rules : List Rule} (hA : ∀ r ∈ rules, SizeOf S xs n r) {l : List Label} (hne : rules ≠ [])
    (hs : weightedClassifier S rules w xs = .ok l) : l.length = n := by
  unfold weightedClassifier at hs
  rw [if_neg (by simpa using hne)] at hs
  cases h1 : rules.foldlM (classStep S w xs) [] with
  | error e => simp [h1, bind, Except.bind] at hs
  | ok t =>
    simp only [h1, bind, Except.bind] at hs
    have hz := classLoop_size hA (t := []) (fun p hp => by cases hp) h1
    split at hs
    · cases hs
    · cases hs
      rename_i hl
      cases t with
      | nil => simp at hl
      | cons a t =>
        simp [columns]
        exact hz a List.mem_cons_self

theorem predictUnstacked_size {w : Option Weights} {st st' : List Rule} (hA : ∀ r ∈ st, SizeOf S xs n r) {l : List Label} (hne : st ≠ [])
    (hs : Vote.predictUnstacked S w xs st = (.ok l, st')) : l.length = n := by
  unfold Vote.predictUnstacked at hs
  rw [Py.bind_ok (Py.get_run _)] at hs
  cases hk : S.env.kind <;> cases w <;> simp only [hk] at hs
  · obtain ⟨l', st1, h1, hs⟩ := Py.bind_eq_ok hs
    cases hs
    simpa using equalRegressor_size hA hne h1
  · obtain ⟨l', st1, h1, hs⟩ := Py.bind_eq_ok hs
    have h2 := (Rule.ofExcept_ok h1).1
    cases hs
    simpa using weightedRegressor_size hA hne h2
  · obtain ⟨h1, _⟩ := Rule.ofExcept_ok hs
    exact weightedClassifier_size hA hne h1
  · obtain ⟨h1, _⟩ := Rule.ofExcept_ok hs
    exact weightedClassifier_size hA hne h1

/-! ## Stacked -/

theorem dictOf_nonempty {α} (l : List (String × α)) (acc : List (String × α)) (h : l ≠ [] ∨ acc ≠ []) :
    l.foldl (fun acc p =>
      if acc.any (fun q => q.1 = p.1) then acc.map (fun q => if q.1 = p.1 then p else q) else acc ++ [p]) acc ≠ [] := by
  induction l generalizing acc with
  | nil => simpa using h
  | cons a l ih =>
    refine ih _ (.inr ?_)
    dsimp only
    split
    · rename_i hc
      intro h0
      rw [List.map_eq_nil_iff] at h0
      rw [h0] at hc
      simp at hc
    · simp

theorem frame_height {n : Nat} {l : List (String × List Nat)} {c : Columns Nat} (hne : l ≠ []) (h : ∀ p ∈ l, p.2.length = n)
    (hs : frameOf l = .ok c) : height c = n := by
  unfold frameOf at hs
  have h1 : ∀ p ∈ dictOf l, p.2.length = n := fun p hp => h p (Range.dictOf_mem hp)
  have h2 : dictOf l ≠ [] := dictOf_nonempty l [] (.inl hne)
  cases hd : dictOf l with
  | nil => exact absurd hd h2
  | cons a rest =>
    rw [hd] at hs h1
    simp only at hs
    split at hs
    · cases hs
      exact h1 a List.mem_cons_self
    · cases hs

theorem mapM_sizes {R : RsEnv} {ms : List Member} {acts : List (List Nat)}
    (h : ms.mapM (fun m : Member => m.rule.evaluateActivation (R.ofKind m.kind) x) = .ok acts) :
    acts.length = ms.length ∧ ∀ a ∈ acts, a.length = x.length := by
  induction ms generalizing acts with
  | nil =>
    cases h
    simp
  | cons m ms ih =>
    rw [List.mapM_cons] at h
    cases h1 : m.rule.evaluateActivation (R.ofKind m.kind) x with
    | error e => simp [h1, bind, Except.bind] at h
    | ok v =>
      cases h2 : ms.mapM (fun m : Member => m.rule.evaluateActivation (R.ofKind m.kind) x) with
      | error e => simp [h1, h2, bind, Except.bind] at h
      | ok vs =>
        simp only [h1, h2, bind, Except.bind, pure, Except.pure] at h
        cases h
        obtain ⟨h3, h4⟩ := ih h2
        refine ⟨by simp [h3], fun a ha => ?_⟩
        rcases List.mem_cons.1 ha with rfl | ha
        · exact evaluateActivation_size h1
        · exact h4 a ha

theorem stackFor_height {R : RsEnv} {s : RuleSet} {c c' : Columns Nat} (hne : s.rules ≠ []) (h : stackFor R (some x) s c = .ok c') :
    height c' = x.length := by
  simp only [stackFor, evaluateStacked] at h
  rw [if_neg (by simpa using hne)] at h
  simp only [activations] at h
  cases h1 : s.rules.mapM (fun m : Member => m.rule.evaluateActivation (R.ofKind m.kind) x) with
  | error e => simp [h1, bind, Except.bind, Except.map] at h
  | ok acts =>
    obtain ⟨h2, h3⟩ := mapM_sizes h1
    simp only [h1, bind, Except.bind, Except.map] at h
    cases h4 : frameOf (namedColumns R s.rules acts) with
    | error e => simp [h4] at h
    | ok c1 =>
      simp only [h4, Option.getD_some] at h
      cases h
      refine frame_height ?_ ?_ h4
      · intro h0
        have := congrArg List.length h0
        simp [namedColumns, h2] at this
        exact hne this
      · intro p hp
        unfold namedColumns at hp
        obtain ⟨i, hi, rfl⟩ := List.mem_iff_getElem.1 hp
        simp only [List.getElem_zipWith]
        exact h3 _ (List.getElem_mem _)

theorem rowsOf_size {α} (n : Nat) (c : Columns α) : (rowsOf n c).length = n := by simp [rowsOf]

theorem voteRows_size (rows : List (List Label)) : (voteRows rows).length = rows.length := by
  unfold voteRows
  simp only
  split <;> simp

theorem equalClassifierStacked_size (n : Nat) (c : Columns Label) : (equalClassifierStacked n c).length = n := by
  unfold equalClassifierStacked
  simp only [voteRows_size]
  split <;> simp [rowsOf_size]

theorem predictStacked_size {rules : List Rule} {acts : Columns Nat} {w : Option Weights} {l : List Cell}
    (hs : Vote.predictStacked S rules acts w = .ok l) : l.length = height acts := by
  unfold Vote.predictStacked at hs
  cases h1 : labelsOf S rules with
  | error e => simp [h1, bind, Except.bind] at hs
  | ok preds =>
    simp only [h1, bind, Except.bind] at hs
    split at hs
    · cases hs
      rename_i h0
      simp [h0]
    · cases hk : S.env.kind with
      | regression =>
        simp only [hk] at hs
        cases h2 : onlyNumbers preds with
        | error e => simp [h2] at hs
        | ok p =>
          simp only [h2] at hs
          cases w with
          | none =>
            cases hs
            simp [cellsOf, equalRegressorStacked, rowsOf_size]
          | some w =>
            simp only [weightedRegressorStacked, bind, Except.bind] at hs
            cases h3 : initWeights Num.isNaN acts (predictionVectors cellNum acts p) w with
            | error e => simp [h3, Except.map] at hs
            | ok cols =>
              simp only [h3, Except.map] at hs
              cases hs
              simp [cellsOf, rowsOf_size]
      | classification =>
        simp only [hk] at hs
        split at hs
        · cases hs
        · cases w with
          | none =>
            cases hs
            exact equalClassifierStacked_size _ _
          | some w =>
            simp only [weightedClassifierStacked, bind, Except.bind] at hs
            cases h3 : initWeights Label.isNaN acts (predictionVectors cellLabel acts preds) w with
            | error e => simp [h3] at hs
            | ok cols =>
              simp only [h3] at hs
              cases hs
              exact equalClassifierStacked_size _ _

end Verif.EachPoint
