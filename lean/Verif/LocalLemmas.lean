import Verif.LocalSpec
import Verif.PredictLemmas

/-!
# Lemmas: the prediction at a point only depends on this point
-/

namespace Verif.Local

open Verif RuleSet Spec Vote

variable {α β γ : Type} {i j : Nat}

theorem same_map {a b : List α} (f : α → β) (h : Same i j a b) : Same i j (a.map f) (b.map f) := by
  obtain ⟨x, h1, h2⟩ := h
  exact ⟨f x, by rw [List.getElem?_map, h1]; rfl, by rw [List.getElem?_map, h2]; rfl⟩

theorem same_zipWith {a a' : List α} {b b' : List β} (f : α → β → γ) (h : Same i j a a') (h' : Same i j b b') :
    Same i j (List.zipWith f a b) (List.zipWith f a' b') := by
  obtain ⟨x, h1, h2⟩ := h
  obtain ⟨y, h3, h4⟩ := h'
  exact ⟨f x y, by rw [List.getElem?_zipWith, h1, h3], by rw [List.getElem?_zipWith, h2, h4]⟩

theorem same_replicate {n m : Nat} (hi : i < n) (hj : j < m) (x : α) : Same i j (List.replicate n x) (List.replicate m x) :=
  ⟨x, by simp [hi], by simp [hj]⟩

theorem same_length {a b : List α} (h : Same i j a b) : a.length ≠ 0 ∧ b.length ≠ 0 := by
  obtain ⟨x, h1, h2⟩ := h
  have := (List.getElem?_eq_some_iff.1 h1).1
  have := (List.getElem?_eq_some_iff.1 h2).1
  omega

theorem foldlM_rel {σ τ ι : Type} {R : σ → τ → Prop} {f : σ → ι → Except Err σ} {g : τ → ι → Except Err τ} {l : List ι}
    (h : ∀ x ∈ l, ∀ a a' b b', R a a' → f a x = .ok b → g a' x = .ok b' → R b b') {a : σ} {a' : τ} {b : σ} {b' : τ} (h0 : R a a')
    (h1 : l.foldlM f a = .ok b) (h2 : l.foldlM g a' = .ok b') : R b b' := by
  induction l generalizing a a' with
  | nil =>
    cases h1
    cases h2
    exact h0
  | cons x l ih =>
    rw [List.foldlM_cons] at h1 h2
    cases hf : f a x with
    | error e => rw [hf] at h1; cases h1
    | ok c =>
      cases hg : g a' x with
      | error e => rw [hg] at h2; cases h2
      | ok c' =>
        rw [hf] at h1
        rw [hg] at h2
        exact ih (fun y hy => h y (List.mem_cons_of_mem _ hy)) (h x List.mem_cons_self _ _ _ _ h0 hf hg) h1 h2

/-! ## Conditions -/

theorem evalStep_same {c : Cond} {mask mask' : List Nat} {k : Nat} {col col' : Except Err (List Num)} {v v' : List Nat}
    (hm : Same i j mask mask') (hc : ∀ l l', col = .ok l → col' = .ok l' → Same i j l l') (h : Cond.evalStep c mask k col = .ok v)
    (h' : Cond.evalStep c mask' k col' = .ok v') : Same i j v v' := by
  unfold Cond.evalStep at h h'
  cases col with
  | error e => cases h
  | ok l =>
    cases col' with
    | error e => cases h'
    | ok l' =>
      have hs := hc l l' rfl rfl
      simp only [bind, Except.bind] at h h'
      cases hlo : Cond.need c.bmins with
      | error e => rw [hlo] at h; cases h
      | ok los =>
        rw [hlo] at h h'
        simp only at h h'
        cases h1 : Cond.item los k with
        | error e => rw [h1] at h; cases h
        | ok lo =>
          rw [h1] at h h'
          simp only at h h'
          cases hhi : Cond.need c.bmaxs with
          | error e => rw [hhi] at h; cases h
          | ok his =>
            rw [hhi] at h h'
            simp only at h h'
            cases h2 : Cond.item his k with
            | error e => rw [h2] at h; cases h
            | ok hi =>
              rw [h2] at h h'
              cases h
              cases h'
              exact same_zipWith _ (same_zipWith _ (same_zipWith _ hm hs) hs) hs

theorem evaluate_same {c : Cond} {xs xs' : Xs} {v v' : List Nat} (hp : SamePoint xs i xs' j) (h : Rule.evaluate c xs = .ok v)
    (h' : Rule.evaluate c xs' = .ok v') : Same i j v v' := by
  have hconj : ∀ {a a' : List Nat}, Same i j a a' → Same i j (Cond.conj (Cond.conj a a) a) (Cond.conj (Cond.conj a' a') a') :=
    fun ha => same_zipWith _ (same_zipWith _ ha ha) ha
  cases xs with
  | arr m =>
    cases xs' with
    | frame f => cases hp
    | arr m' =>
      obtain ⟨hn, r, hr, hr'⟩ := hp
      have hi := (List.getElem?_eq_some_iff.1 hr).1
      have hj := (List.getElem?_eq_some_iff.1 hr').1
      change Cond.evaluate c m = .ok v at h
      change Cond.evaluate c m' = .ok v' at h'
      unfold Cond.evaluate at h h'
      by_cases hc : c.impossible = true
      · rw [if_pos hc] at h h'
        cases h
        cases h'
        exact same_replicate hi hj 0
      · rw [if_neg hc] at h h'
        simp only [bind, Except.bind] at h h'
        cases hx : Cond.need c.indexes with
        | error e => rw [hx] at h; cases h
        | ok idx =>
          rw [hx] at h h'
          simp only at h h'
          split at h
          · cases h
          split at h'
          · cases h'
          split at h
          · cases h
          rename_i _ mask hmask
          split at h'
          · cases h'
          rename_i _ mask' hmask'
          cases h
          cases h'
          refine hconj (foldlM_rel ?_ (same_replicate hi hj 1) hmask hmask')
          intro x _ a a' b b' ha hb hb'
          refine evalStep_same ha ?_ hb hb'
          intro l l' hl hl'
          unfold Cond.Mat.column at hl hl'
          rw [← hn] at hl'
          cases hw : Cond.wrap m.ncols x.1 with
          | none => rw [hw] at hl; cases hl
          | some k =>
            rw [hw] at hl hl'
            cases hl
            cases hl'
            exact same_map _ ⟨r, hr, hr'⟩
  | frame f =>
    cases xs' with
    | arr m => cases hp
    | frame f' =>
      obtain ⟨r, r', hr, hr', hv⟩ := hp
      have hi := (List.getElem?_eq_some_iff.1 hr).1
      have hj := (List.getElem?_eq_some_iff.1 hr').1
      change Cond.evaluateFrame c f = .ok v at h
      change Cond.evaluateFrame c f' = .ok v' at h'
      unfold Cond.evaluateFrame at h h'
      by_cases hc : c.impossible = true
      · rw [if_pos hc] at h h'
        cases h
        cases h'
        exact same_replicate hi hj 0
      · rw [if_neg hc] at h h'
        simp only [bind, Except.bind] at h h'
        cases hx : Cond.need c.names with
        | error e => rw [hx] at h; cases h
        | ok na =>
          rw [hx] at h h'
          simp only at h h'
          split at h
          · cases h
          split at h'
          · cases h'
          split at h
          · cases h
          rename_i _ mask hmask
          split at h'
          · cases h'
          rename_i _ mask' hmask'
          split at h
          · cases h
          split at h'
          · cases h'
          cases h
          cases h'
          refine hconj (foldlM_rel ?_ (same_replicate hi hj 1) hmask hmask')
          intro x _ a a' b b' ha hb hb'
          refine evalStep_same ha ?_ hb hb'
          intro l l' hl hl'
          unfold Cond.Frame.column at hl hl'
          split at hl
          · rename_i hm
            split at hl'
            · rename_i hm'
              cases hl
              cases hl'
              have := hv x.1 hm hm'
              exact ⟨(r[f.columns.idxOf x.1]?).getD .nan, by rw [List.getElem?_map, hr]; rfl, by rw [List.getElem?_map, hr', this]; rfl⟩
            · cases hl'
          · cases hl

theorem evaluateActivation_same {E E' : Env} {r : Rule} {xs xs' : Xs} {v v' : List Nat} (hp : SamePoint xs i xs' j)
    (h : r.evaluateActivation E xs = .ok v) (h' : r.evaluateActivation E' xs' = .ok v') : Same i j v v' := by
  unfold Rule.evaluateActivation at h h'
  simp only [bind, Except.bind] at h h'
  split at h
  · cases h
  rename_i _ u hu
  split at h'
  · cases h'
  rename_i _ u' hu'
  split at h
  · cases h
  split at h'
  · cases h'
  cases h
  cases h'
  exact evaluate_same hp hu hu'

theorem activationOf_same {E : Env} {r : Rule} {xs xs' : Xs} {v v' : Option (List Nat)} (hp : SamePoint xs i xs' j)
    (h : activationOf E (some xs) r = .ok v) (h' : activationOf E (some xs') r = .ok v') :
    ∃ u u', v = some u ∧ v' = some u' ∧ Same i j u u' := by
  unfold activationOf at h h'
  simp only at h h'
  cases he : r.evaluateActivation E xs with
  | error e => rw [he] at h; cases h
  | ok u =>
    cases he' : r.evaluateActivation E xs' with
    | error e => rw [he'] at h'; cases h'
    | ok u' =>
      rw [he] at h
      rw [he'] at h'
      cases h
      cases h'
      exact ⟨u, u', rfl, rfl, evaluateActivation_same hp he he'⟩

/-! ## Sums of predictions -/

theorem zipOp_same {f : Num → Num → Num} {a a' b b' l l' : List Num} (h : Same i j a a') (hb : Same i j b b')
    (h1 : zipOp f a b = .ok l) (h2 : zipOp f a' b' = .ok l') : Same i j l l' := by
  unfold zipOp at h1 h2
  split at h1
  · split at h2
    · cases h1
      cases h2
      exact same_zipWith f h hb
    · cases h2
  · cases h1

theorem accumulate_same {a a' b b' l l' : List Num} (h : Same i j a a') (hb : Same i j b b')
    (h1 : accumulate a b = .ok l) (h2 : accumulate a' b' = .ok l') : Same i j l l' := by
  unfold accumulate at h1 h2
  split at h1
  · cases h1
  split at h2
  · cases h2
  simp only [bind, Except.bind] at h1 h2
  split at h1
  · cases h1
  rename_i _ s hs
  split at h2
  · cases h2
  rename_i _ s' hs'
  cases h1
  cases h2
  exact same_map _ (zipOp_same (same_map _ h) hb hs hs')

theorem numbers_same {a a' : List Label} {l l' : List Num} (h : Same i j a a') (h1 : Rule.numbers a = .ok l) (h2 : Rule.numbers a' = .ok l') :
    Same i j l l' := by
  have key : ∀ {a : List Label} {l : List Num}, Rule.numbers a = .ok l → a = l.map Label.num := by
    intro a
    induction a with
    | nil => intro l h; cases h; rfl
    | cons x a ih =>
      intro l h
      unfold Rule.numbers at h
      rw [List.mapM_cons] at h
      simp only [bind, Except.bind] at h
      cases x with
      | text s => cases h
      | num x =>
        simp only at h
        split at h
        · cases h
        rename_i _ t ht
        cases h
        rw [List.map_cons, ih ht]
  obtain ⟨x, e1, e2⟩ := h
  rw [key h1, List.getElem?_map] at e1
  rw [key h2, List.getElem?_map] at e2
  cases h3 : l[i]? with
  | none => rw [h3] at e1; cases e1
  | some y =>
    cases h4 : l'[j]? with
    | none => rw [h4] at e2; cases e2
    | some z =>
      rw [h3] at e1
      rw [h4] at e2
      cases e1
      cases e2
      exact ⟨y, h3, h4⟩

/-- The first vector, unless it is empty because the rule has no feature -/
theorem firstVector_same {E : Env} {r : Rule} {u u' : List Nat} {l l' : List Num} (h : Same i j u u')
    (h1 : firstVector E r u = .ok l) (h2 : firstVector E r u' = .ok l') : Same i j l l' ∨ l = [] ∧ l' = [] := by
  unfold firstVector at h1 h2
  simp only [bind, Except.bind] at h1 h2
  split at h1
  · cases h1
  rename_i _ p hp
  split at h2
  · cases h2
  rename_i _ p' hp'
  unfold Rule.calcPredictionVector at hp hp'
  simp only [bind, Except.bind] at hp hp'
  cases hg : r.getPrediction E with
  | error e => rw [hg] at hp; cases hp
  | ok o =>
    rw [hg] at hp hp'
    simp only at hp hp'
    cases o with
    | none =>
      cases hp
      cases hp'
      exact .inl (numbers_same (same_map _ h) h1 h2)
    | some q =>
      simp only at hp hp'
      split at hp
      · rename_i h0
        rw [if_pos h0] at hp'
        cases hp
        cases hp'
        cases h1
        cases h2
        exact .inr ⟨rfl, rfl⟩
      · rename_i h0
        rw [if_neg h0] at hp'
        cases q with
        | text s =>
          cases hp
          cases hp'
          exact .inl (numbers_same (same_map _ h) h1 h2)
        | num x =>
          cases hp
          cases hp'
          exact .inl (numbers_same (same_map _ h) h1 h2)

/-- What the loops over the rules have summed up -/
def SameSums {β} (i j : Nat) : Option (List Num × List β) → Option (List Num × List β) → Prop
  | none, none => True
  | some a, some b => (Same i j a.1 b.1 ∨ a.1 = [] ∧ b.1 = []) ∧ Same i j a.2 b.2
  | _, _ => False

theorem zipOp_nil {f : Num → Num → Num} {b l : List Num} (h : zipOp f [] b = .ok l) : b.length = 0 := by
  unfold zipOp at h
  split at h
  · rename_i e
    exact e.symm
  · cases h

theorem accumulate_nil {b l : List Num} (h : accumulate [] b = .ok l) : b.length = 0 := by
  unfold accumulate at h
  simp only [List.any_nil, Bool.false_eq_true, if_false, bind, Except.bind] at h
  split at h
  · cases h
  rename_i hz
  exact zipOp_nil hz

theorem scale_same {u u' : List Nat} (x : Num) (h : Same i j u u') : Same i j (scale u x) (scale u' x) := same_map _ h

theorem weightedStep_same {S : SetEnv} {w : Weights} {xs xs' : Xs} (hp : SamePoint xs i xs' j) {r : Rule}
    {a a' b b' : Option (List Num × List Num)} (ha : SameSums i j a a') (h : weightedStep S w (some xs) a r = .ok b)
    (h' : weightedStep S w (some xs') a' r = .ok b') : SameSums i j b b' := by
  unfold weightedStep at h h'
  cases hw : weightOf w (S.condStr r.cond) with
  | none =>
    rw [hw] at h h'
    cases h
    cases h'
    exact ha
  | some x =>
    rw [hw] at h h'
    simp only [bind, Except.bind] at h h'
    split at h
    · cases h
    rename_i _ v hv
    split at h'
    · cases h'
    rename_i _ v' hv'
    obtain ⟨u, u', rfl, rfl, hu⟩ := activationOf_same hp hv hv'
    obtain ⟨hl, hl'⟩ := same_length hu
    simp only [if_neg hl] at h
    simp only [if_neg hl'] at h'
    cases a with
    | none =>
      cases a' with
      | some a' => cases ha
      | none =>
        simp only at h h'
        split at h
        · cases h
        rename_i _ p hp1
        split at h'
        · cases h'
        rename_i _ p' hp1'
        cases h
        cases h'
        refine ⟨?_, scale_same x hu⟩
        rcases firstVector_same hu hp1 hp1' with h | ⟨rfl, rfl⟩
        · exact .inl (same_map _ h)
        · exact .inr ⟨rfl, rfl⟩
    | some a =>
      cases a' with
      | none => cases ha
      | some a' =>
        obtain ⟨cum, cumW⟩ := a
        obtain ⟨cum', cumW'⟩ := a'
        obtain ⟨hc, hcw⟩ := ha
        simp only at h h' hc hcw
        cases hg : r.getPrediction S.env with
        | error e => rw [hg] at h; cases h
        | ok o =>
          rw [hg] at h h'
          simp only at h h'
          cases ho : numberOf o with
          | error e => rw [ho] at h; cases h
          | ok q =>
            rw [ho] at h h'
            simp only at h h'
            split at h
            · cases h
            rename_i _ c1 hc1
            split at h'
            · cases h'
            rename_i _ c1' hc1'
            split at h
            · cases h
            rename_i _ w1 hw1
            split at h'
            · cases h'
            rename_i _ w1' hw1'
            cases h
            cases h'
            rcases hc with hc | ⟨rfl, rfl⟩
            · exact ⟨.inl (accumulate_same hc (same_map _ (scale_same q hu)) hc1 hc1'), zipOp_same hcw (scale_same x hu) hw1 hw1'⟩
            · have := accumulate_nil hc1
              simp [scale] at this
              exact absurd (by simp [this]) hl

theorem weightedRegressor_same {S : SetEnv} {w : Weights} {xs xs' : Xs} (hp : SamePoint xs i xs' j) {rules : List Rule}
    (hne : rules ≠ []) {l l' : List Num} (h : weightedRegressor S rules w (some xs) = .ok l)
    (h' : weightedRegressor S rules w (some xs') = .ok l') : Same i j l l' := by
  unfold weightedRegressor at h h'
  have h0 : ¬ rules.length = 0 := fun e => hne (List.length_eq_zero_iff.1 e)
  rw [if_neg h0] at h h'
  simp only [bind, Except.bind] at h h'
  split at h
  · cases h
  rename_i _ a hf
  split at h'
  · cases h'
  rename_i _ a' hf'
  have hr := foldlM_rel (R := SameSums i j) (f := weightedStep S w (some xs)) (g := weightedStep S w (some xs')) (fun x _ a a' b b' => weightedStep_same hp)
    (a := none) (a' := none) trivial hf hf'
  cases a with
  | none => cases h
  | some a =>
    cases a' with
    | none => cases h'
    | some a' =>
      obtain ⟨cum, cumW⟩ := a
      obtain ⟨cum', cumW'⟩ := a'
      obtain ⟨hc, hcw⟩ := hr
      simp only at h h' hc hcw
      rcases hc with hc | ⟨rfl, rfl⟩
      · exact zipOp_same hc hcw h h'
      · exact absurd (zipOp_nil h) (same_length hcw).1

/-! ## Means -/

theorem ofExcept_ok {σ α : Type} {e : Except Err α} {s s' : σ} {a : α} (h : (Py.ofExcept e : Py σ α) s = (.ok a, s')) : e = .ok a := by
  rw [Py.ofExcept_run] at h
  exact (Prod.ext_iff.1 h).1

/-- The sums, without the rule into which they are written -/
def sumsOf (a : Option (Option Nat × List Num × List Nat)) : Option (List Num × List Nat) := a.map (·.2)

theorem addBytes_same {a a' b b' l l' : List Nat} (h : Same i j a a') (hb : Same i j b b') (h1 : addBytes a b = .ok l)
    (h2 : addBytes a' b' = .ok l') : Same i j l l' := by
  unfold addBytes at h1 h2
  split at h1
  · split at h2
    · cases h1
      cases h2
      exact same_zipWith _ h hb
    · cases h2
  · cases h1

theorem equalStep_same {S : SetEnv} {xs xs' : Xs} (hp : SamePoint xs i xs' j) {k : Nat} {r : Rule}
    {a a' b b' : Option (Option Nat × List Num × List Nat)} {s s1 t t1 : List Rule} (ha : SameSums i j (sumsOf a) (sumsOf a'))
    (h : equalStep S (some xs) k r a s = (.ok b, s1)) (h' : equalStep S (some xs') k r a' t = (.ok b', t1)) :
    SameSums i j (sumsOf b) (sumsOf b') := by
  unfold equalStep at h h'
  obtain ⟨v, s2, hv, h⟩ := Py.bind_eq_ok h
  obtain ⟨v', t2, hv', h'⟩ := Py.bind_eq_ok h'
  obtain ⟨u, u', rfl, rfl, hu⟩ := activationOf_same hp (ofExcept_ok hv) (ofExcept_ok hv')
  obtain ⟨hl, hl'⟩ := same_length hu
  simp only [if_neg hl] at h
  simp only [if_neg hl'] at h'
  cases a with
  | none =>
    cases a' with
    | some a' => cases ha
    | none =>
      simp only at h h'
      obtain ⟨p, s3, hp1, h⟩ := Py.bind_eq_ok h
      obtain ⟨p', t3, hp1', h'⟩ := Py.bind_eq_ok h'
      cases h
      cases h'
      exact ⟨firstVector_same hu (ofExcept_ok hp1) (ofExcept_ok hp1'), hu⟩
  | some a =>
    cases a' with
    | none => cases ha
    | some a' =>
      obtain ⟨k1, cum, cumW⟩ := a
      obtain ⟨k1', cum', cumW'⟩ := a'
      obtain ⟨hc, hcw⟩ := ha
      simp only at h h' hc hcw
      obtain ⟨o, s3, ho, h⟩ := Py.bind_eq_ok h
      obtain ⟨o', t3, ho', h'⟩ := Py.bind_eq_ok h'
      have := (ofExcept_ok ho).symm.trans (ofExcept_ok ho')
      cases this
      obtain ⟨q, s4, hq, h⟩ := Py.bind_eq_ok h
      obtain ⟨q', t4, hq', h'⟩ := Py.bind_eq_ok h'
      have := (ofExcept_ok hq).symm.trans (ofExcept_ok hq')
      cases this
      obtain ⟨c1, s5, hc1, h⟩ := Py.bind_eq_ok h
      obtain ⟨c1', t5, hc1', h'⟩ := Py.bind_eq_ok h'
      obtain ⟨w1, s6, hw1, h⟩ := Py.bind_eq_ok h
      obtain ⟨w1', t6, hw1', h'⟩ := Py.bind_eq_ok h'
      cases h
      cases h'
      rcases hc with hc | ⟨rfl, rfl⟩
      · exact ⟨.inl (accumulate_same hc (scale_same q hu) (ofExcept_ok hc1) (ofExcept_ok hc1')),
          addBytes_same hcw hu (ofExcept_ok hw1) (ofExcept_ok hw1')⟩
      · have := accumulate_nil (ofExcept_ok hc1)
        simp [scale] at this
        exact absurd (by simp [this]) hl

theorem equalLoop_same {S : SetEnv} {xs xs' : Xs} (hp : SamePoint xs i xs' j) {rules : List Rule} {k : Nat}
    {a a' b b' : Option (Option Nat × List Num × List Nat)} {s s1 t t1 : List Rule} (ha : SameSums i j (sumsOf a) (sumsOf a'))
    (h : equalLoop S (some xs) k rules a s = (.ok b, s1)) (h' : equalLoop S (some xs') k rules a' t = (.ok b', t1)) :
    SameSums i j (sumsOf b) (sumsOf b') := by
  induction rules generalizing k a a' s t with
  | nil =>
    cases h
    cases h'
    exact ha
  | cons r rules ih =>
    unfold equalLoop at h h'
    obtain ⟨c, s2, hc, h⟩ := Py.bind_eq_ok h
    obtain ⟨c', t2, hc', h'⟩ := Py.bind_eq_ok h'
    exact ih (equalStep_same hp ha hc hc') h h'

theorem equalRegressor_same {S : SetEnv} {xs xs' : Xs} (hp : SamePoint xs i xs' j) {rules s t : List Rule}
    (hne : rules ≠ []) {l l' : List Num} (h : equalRegressor S (some xs) rules = (.ok l, s))
    (h' : equalRegressor S (some xs') rules = (.ok l', t)) : Same i j l l' := by
  unfold equalRegressor at h h'
  have h0 : ¬ rules.length = 0 := fun e => hne (List.length_eq_zero_iff.1 e)
  rw [Py.bind_ok (Py.get_run rules), if_neg h0] at h h'
  obtain ⟨b, s1, hb, h⟩ := Py.bind_eq_ok h
  obtain ⟨b', t1, hb', h'⟩ := Py.bind_eq_ok h'
  have hr := equalLoop_same hp (a := none) (a' := none) (by trivial) hb hb'
  cases b with
  | none => cases h
  | some b =>
    cases b' with
    | none => cases h'
    | some b' =>
      obtain ⟨k, cum, cumW⟩ := b
      obtain ⟨k', cum', cumW'⟩ := b'
      obtain ⟨hc, hcw⟩ := hr
      simp only at h h' hc hcw
      rcases hc with hc | ⟨rfl, rfl⟩
      · exact zipOp_same hc (same_map _ hcw) (ofExcept_ok h) (ofExcept_ok h')
      · have := zipOp_nil (ofExcept_ok h)
        rw [List.length_map] at this
        exact absurd this (same_length hcw).1

/-! ## Stacked activations -/

/-- Columns with the same names and the same values at the point -/
def SameColumn {α} (i j : Nat) (p q : String × List α) : Prop := p.1 = q.1 ∧ Same i j p.2 q.2

/-- All columns -/
def SameColumns {α} (i j : Nat) : Columns α → Columns α → Prop := List.Forall₂ (SameColumn i j)

theorem mapM_forall₂ {ι : Type} {R : α → β → Prop} {f : ι → Except Err α} {g : ι → Except Err β} {l : List ι}
    (h : ∀ x ∈ l, ∀ a b, f x = .ok a → g x = .ok b → R a b) {as : List α} {bs : List β} (h1 : l.mapM f = .ok as)
    (h2 : l.mapM g = .ok bs) : List.Forall₂ R as bs := by
  induction l generalizing as bs with
  | nil =>
    cases h1
    cases h2
    exact .nil
  | cons x l ih =>
    rw [List.mapM_cons] at h1 h2
    simp only [bind, Except.bind] at h1 h2
    split at h1
    · cases h1
    rename_i _ a ha
    split at h2
    · cases h2
    rename_i _ b hb
    split at h1
    · cases h1
    rename_i _ as' has
    split at h2
    · cases h2
    rename_i _ bs' hbs
    cases h1
    cases h2
    exact .cons (h x List.mem_cons_self a b ha hb) (ih (fun y hy => h y (List.mem_cons_of_mem _ hy)) has hbs)

theorem namedColumns_same {R : RsEnv} {rules : List Member} {as bs : List (List Nat)} (h : List.Forall₂ (Same i j) as bs) :
    SameColumns i j (RuleSet.namedColumns R rules as) (RuleSet.namedColumns R rules bs) := by
  unfold RuleSet.namedColumns
  induction h generalizing rules with
  | nil => cases rules <;> exact .nil
  | cons hab _ ih =>
    cases rules with
    | nil => exact .nil
    | cons m rules => exact .cons ⟨rfl, hab⟩ ih

theorem any_name {c c' : Columns α} (h : SameColumns i j c c') (n : String) :
    (c.any fun q => q.1 = n) = c'.any fun q => q.1 = n := by
  induction h with
  | nil => rfl
  | cons hab _ ih => simp only [List.any_cons, hab.1, ih]

theorem dictOf_same {c c' : Columns α} (h : SameColumns i j c c') : SameColumns i j (dictOf c) (dictOf c') := by
  unfold dictOf
  have key : ∀ {acc acc' : Columns α}, SameColumns i j acc acc' → SameColumns i j
      (c.foldl (fun acc p => if acc.any (fun q => q.1 = p.1) then acc.map (fun q => if q.1 = p.1 then p else q) else acc ++ [p]) acc)
      (c'.foldl (fun acc p => if acc.any (fun q => q.1 = p.1) then acc.map (fun q => if q.1 = p.1 then p else q) else acc ++ [p]) acc') := by
    induction h with
    | nil => exact id
    | @cons p p' c c' hp _ ih =>
      intro acc acc' ha
      rw [List.foldl_cons, List.foldl_cons]
      apply ih
      rw [any_name ha p.1, ← hp.1]
      split
      · rename_i hany
        clear ih hany
        induction ha with
        | nil => exact .nil
        | @cons q q' _ _ hq _ ih =>
          refine .cons ?_ ih
          simp only [← hq.1]
          split
          · exact hp
          · exact hq
      · exact List.rel_append ha (.cons hp .nil)
  exact key .nil

theorem frameOf_same {c c' l l' : Columns α} (h : SameColumns i j c c') (h1 : frameOf c = .ok l) (h2 : frameOf c' = .ok l') :
    SameColumns i j l l' := by
  have key : ∀ {c l : Columns α}, frameOf c = .ok l → l = dictOf c := by
    intro c l h
    unfold frameOf at h
    split at h
    · rename_i e
      cases h
      exact e.symm
    · rename_i e
      split at h
      · cases h
        exact e.symm
      · cases h
  rw [key h1, key h2]
  exact dictOf_same h

theorem lookup_same {c c' : Columns α} (h : SameColumns i j c c') (n : String) :
    (lookup c n = none ∧ lookup c' n = none) ∨ ∃ a b, lookup c n = some a ∧ lookup c' n = some b ∧ Same i j a b := by
  induction h with
  | nil => exact .inl ⟨rfl, rfl⟩
  | @cons p p' c c' hp _ ih =>
    unfold lookup at *
    by_cases e : p.1 = n
    · refine .inr ⟨p.2, p'.2, ?_, ?_, hp.2⟩
      · rw [List.find?_cons_of_pos (by simpa using e)]; rfl
      · rw [List.find?_cons_of_pos (by rw [← hp.1]; simpa using e)]; rfl
    · rw [List.find?_cons_of_neg (by simpa using e), List.find?_cons_of_neg (by rw [← hp.1]; simpa using e)]
      exact ih

theorem predictionVectors_same {cell : α → Nat → α} {c c' : Columns Nat} (h : SameColumns i j c c') (preds : List (String × α)) :
    SameColumns i j (predictionVectors cell c preds) (predictionVectors cell c' preds) := by
  unfold predictionVectors
  induction h with
  | nil => exact .nil
  | @cons p p' c c' hp _ ih =>
    rw [List.filterMap_cons, List.filterMap_cons, ← hp.1]
    cases lookup preds p.1 with
    | none => exact ih
    | some q => exact .cons ⟨rfl, same_map _ hp.2⟩ ih

theorem rowsOf_get {n : Nat} {c : Columns α} {k : Nat} (hk : k < n) : (rowsOf n c)[k]? = some (c.filterMap fun p => p.2[k]?) := by
  unfold rowsOf
  rw [List.getElem?_map, List.getElem?_range hk]
  rfl

theorem row_same {c c' : Columns α} (h : SameColumns i j c c') : (c.filterMap fun p => p.2[i]?) = c'.filterMap fun p => p.2[j]? := by
  induction h with
  | nil => rfl
  | @cons p p' c c' hp _ ih =>
    obtain ⟨_, x, h1, h2⟩ := hp
    rw [List.filterMap_cons, List.filterMap_cons, h1, h2, ih]

theorem height_same {c c' : Columns α} (h : SameColumns i j c c') (hne : c ≠ []) : i < height c ∧ j < height c' := by
  cases h with
  | nil => exact absurd rfl hne
  | @cons p p' c c' hp _ =>
    obtain ⟨_, x, h1, h2⟩ := hp
    exact ⟨(List.getElem?_eq_some_iff.1 h1).1, (List.getElem?_eq_some_iff.1 h2).1⟩

theorem equalRegressorStacked_same {n n' : Nat} (hi : i < n) (hj : j < n') {c c' : Columns Num} (h : SameColumns i j c c') :
    Same i j (equalRegressorStacked n c) (equalRegressorStacked n' c') := by
  unfold equalRegressorStacked
  apply same_map
  exact ⟨_, rowsOf_get hi, by rw [rowsOf_get hj, row_same h]⟩

/-- What a weighed column says at a point: nothing where it has no weight -/
def voice {α} (k : Nat) (c : Option (String × List (α × Num))) : Option (α × Num) :=
  (c.bind fun c => c.2[k]?).filter fun p => !p.2.isNaN

theorem weighColumn_same {isNaN : α → Bool} {preds preds' : Columns α} (hpr : SameColumns i j preds preds') (w : Weights)
    {c c' : String × List Nat} (hc : SameColumn i j c c') :
    voice i (weighColumn isNaN preds w c) = voice j (weighColumn isNaN preds' w c') := by
  unfold weighColumn
  obtain ⟨hn, a, ha, ha'⟩ := hc
  rw [← hn]
  rcases lookup_same hpr c.1 with ⟨h1, h2⟩ | ⟨p, p', h1, h2, q, hq, hq'⟩
  · rw [h1, h2]
    rfl
  · rw [h1, h2]
    simp only
    have key : ∀ {k : Nat} {v : List Nat} {p : List α}, v[k]? = some a → p[k]? = some q →
        voice k (if (v.map (cellWeight w c.1)).all Num.isNaN then none
          else some (c.1, List.zipWith (fun q x => (q, if isNaN q then Num.nan else x)) p (v.map (cellWeight w c.1)))) =
        (if (if isNaN q then Num.nan else cellWeight w c.1 a).isNaN then none else some (q, if isNaN q then Num.nan else cellWeight w c.1 a)) := by
      intro k v p hv hp
      by_cases hall : (v.map (cellWeight w c.1)).all Num.isNaN = true
      · rw [if_pos hall]
        have : (cellWeight w c.1 a).isNaN = true :=
          List.all_eq_true.1 hall _ (List.mem_map_of_mem (List.mem_of_getElem? hv))
        rw [if_pos]
        · rfl
        · cases isNaN q
          · exact this
          · rfl
      · rw [if_neg hall]
        unfold voice
        simp only [Option.bind_some, List.getElem?_zipWith, List.getElem?_map, hp, hv, Option.map_some]
        unfold Option.filter
        simp only
        generalize (if isNaN q = true then Num.nan else cellWeight w c.1 a) = z
        by_cases hz : z.isNaN = true
        · rw [if_pos hz, if_neg (by rw [hz]; decide)]
        · rw [if_neg hz, if_pos (by simpa using hz)]
    rw [key ha hq, key ha' hq']

/-- A sum over the columns which have a weight at the point -/
theorem voices {k : Nat} (cols : List (Option (String × List (α × Num)))) :
    ((cols.filterMap id).filterMap fun c => c.2[k]?).filter (fun p => !p.2.isNaN) = cols.filterMap (voice k) := by
  induction cols with
  | nil => rfl
  | cons c cols ih =>
    cases c with
    | none =>
      rw [List.filterMap_cons_none rfl, List.filterMap_cons_none rfl]
      exact ih
    | some c =>
      rw [List.filterMap_cons_some (f := id) (a := some c) (b := c) rfl]
      cases hk : c.2[k]? with
      | none =>
        rw [List.filterMap_cons_none (f := fun c : String × List (α × Num) => c.2[k]?) hk, List.filterMap_cons_none (by simp [voice, hk])]
        exact ih
      | some p =>
        rw [List.filterMap_cons_some (f := fun c : String × List (α × Num) => c.2[k]?) hk]
        by_cases hp : (!p.2.isNaN) = true
        · rw [List.filter_cons_of_pos (p := fun p : α × Num => !p.2.isNaN) hp, List.filterMap_cons_some (b := p) (by simp only [voice, Option.bind_some, hk, Option.filter, hp, if_true]), ih]
        · rw [List.filter_cons_of_neg (p := fun p : α × Num => !p.2.isNaN) hp, List.filterMap_cons_none (by simp [voice, hk, Option.filter]; simpa using hp)]
          exact ih

theorem mul_nan (x : Num) : Num.mul x .nan = .nan := by cases x <;> rfl

theorem dropna_weights (l : List (Num × Num)) : Num.dropna (l.map (·.2)) = (l.filter fun p => !p.2.isNaN).map (·.2) := by
  unfold Num.dropna
  rw [List.filter_map]
  rfl

theorem dropna_products (l : List (Num × Num)) :
    Num.dropna (l.map fun p => Num.mul p.1 p.2) = Num.dropna ((l.filter fun p => !p.2.isNaN).map fun p => Num.mul p.1 p.2) := by
  unfold Num.dropna
  induction l with
  | nil => rfl
  | cons p l ih =>
    by_cases hp : (!p.2.isNaN) = true
    · rw [List.filter_cons_of_pos (l := l) (p := fun p : Num × Num => !p.2.isNaN) hp, List.map_cons, List.map_cons]
      rw [List.filter_cons, List.filter_cons, ih]
    · rw [List.filter_cons_of_neg (l := l) (p := fun p : Num × Num => !p.2.isNaN) hp, List.map_cons, ← ih, List.filter_cons_of_neg]
      have : p.2 = .nan := by
        cases h : p.2 with
        | nan => rfl
        | _ => rw [h] at hp; exact absurd rfl hp
      rw [this, mul_nan]
      decide

theorem initWeights_cols {isNaN : α → Bool} {acts : Columns Nat} {preds : Columns α} {w : Weights} {cols : Columns (α × Num)}
    (h : initWeights isNaN acts preds w = .ok cols) : cols = (acts.map (weighColumn isNaN preds w)).filterMap id := by
  unfold initWeights at h
  simp only at h
  split at h
  · cases h
  · cases h
    rw [List.filterMap_map]
    rfl

theorem voices_same {isNaN : α → Bool} {preds preds' : Columns α} (hpr : SameColumns i j preds preds') (w : Weights)
    {c c' : Columns Nat} (hc : SameColumns i j c c') :
    (c.map (weighColumn isNaN preds w)).filterMap (voice i) = (c'.map (weighColumn isNaN preds' w)).filterMap (voice j) := by
  induction hc with
  | nil => rfl
  | @cons p p' c c' hp _ ih =>
    rw [List.map_cons, List.map_cons, List.filterMap_cons, List.filterMap_cons, weighColumn_same hpr w hp, ih]

theorem weightedRegressorStacked_same {n n' : Nat} (hi : i < n) (hj : j < n') {c c' : Columns Nat} (hc : SameColumns i j c c')
    {preds preds' : Columns Num} (hpr : SameColumns i j preds preds') {w : Weights} {l l' : List Num}
    (h : weightedRegressorStacked n c preds w = .ok l) (h' : weightedRegressorStacked n' c' preds' w = .ok l') : Same i j l l' := by
  unfold weightedRegressorStacked at h h'
  simp only [bind, Except.bind] at h h'
  split at h
  · cases h
  rename_i _ cols hcols
  split at h'
  · cases h'
  rename_i _ cols' hcols'
  cases h
  cases h'
  refine ⟨_, by rw [List.getElem?_map, rowsOf_get hi]; rfl, ?_⟩
  rw [List.getElem?_map, rowsOf_get hj, Option.map_some]
  have hrow : ((cols.filterMap fun p => p.2[i]?).filter fun p => !p.2.isNaN) = (cols'.filterMap fun p => p.2[j]?).filter fun p => !p.2.isNaN := by
    rw [initWeights_cols hcols, initWeights_cols hcols', voices, voices, voices_same hpr w hc]
  unfold nansum
  simp only
  rw [dropna_weights, dropna_products, dropna_weights (cols.filterMap _), dropna_products (cols.filterMap _), hrow]

theorem evaluateStacked_same {R : RsEnv} {xs xs' : Xs} (hp : SamePoint xs i xs' j) {rules : List Member} (hne : rules ≠ [])
    {o o' : Option (Columns Nat)} (h : RuleSet.evaluateStacked R (some xs) rules = .ok o)
    (h' : RuleSet.evaluateStacked R (some xs') rules = .ok o') :
    SameColumns i j (o.getD []) (o'.getD []) ∧ o.getD [] ≠ [] := by
  have h0 : ¬ rules.length = 0 := fun e => hne (List.length_eq_zero_iff.1 e)
  unfold RuleSet.evaluateStacked RuleSet.activations at h h'
  rw [if_neg h0] at h h'
  simp only [bind, Except.bind] at h h'
  cases hm : (rules.mapM fun m : Member => m.rule.evaluateActivation (R.ofKind m.kind) xs) with
  | error e => rw [hm] at h; cases h
  | ok as =>
    cases hm' : (rules.mapM fun m : Member => m.rule.evaluateActivation (R.ofKind m.kind) xs') with
    | error e => rw [hm'] at h'; cases h'
    | ok bs =>
      rw [hm] at h
      rw [hm'] at h'
      simp only [Except.map] at h h'
      have hab := mapM_forall₂ (R := Same i j) (fun m _ a b ha hb => evaluateActivation_same hp ha hb) hm hm'
      have hn := namedColumns_same (R := R) (rules := rules) hab
      cases hf : frameOf (RuleSet.namedColumns R rules as) with
      | error e => rw [hf] at h; cases h
      | ok c =>
        cases hf' : frameOf (RuleSet.namedColumns R rules bs) with
        | error e => rw [hf'] at h'; cases h'
        | ok c' =>
          rw [hf] at h
          rw [hf'] at h'
          cases h
          cases h'
          refine ⟨frameOf_same hn hf hf', ?_⟩
          intro e
          simp only [Option.getD_some] at e
          subst e
          cases rules with
          | nil => exact hne rfl
          | cons m rules =>
            cases as with
            | nil =>
              rw [List.mapM_cons] at hm
              simp only [bind, Except.bind] at hm
              split at hm
              · cases hm
              · split at hm <;> cases hm
            | cons a as =>
              unfold frameOf at hf
              have hd : dictOf (RuleSet.namedColumns R (m :: rules) (a :: as)) ≠ [] := by
                have key : ∀ (l acc : Columns Nat), acc ≠ [] → l.foldl (fun acc p =>
                    if acc.any (fun q => q.1 = p.1) then acc.map (fun q => if q.1 = p.1 then p else q) else acc ++ [p]) acc ≠ [] := by
                  intro l
                  induction l with
                  | nil => exact fun _ h => h
                  | cons p l ih =>
                    intro acc hacc
                    apply ih
                    simp only
                    split
                    · simpa using hacc
                    · simp
                exact key (RuleSet.namedColumns R rules as) [(R.condStr m.rule.cond, a)] (by simp)
              split at hf
              · rename_i e; exact hd e
              · split at hf <;> cases hf

/-! ## `predict` -/

theorem predictUnstacked_same {R : RsEnv} {s t t' : RuleSet} {xs xs' : Xs} (hp : SamePoint xs i xs' j) {w : Option WeightsArg}
    (hne : s.rules ≠ []) {l l' : List Cell} (h : RuleSet.predictUnstacked R .regression (some xs) w s = (.ok l, t))
    (h' : RuleSet.predictUnstacked R .regression (some xs') w s = (.ok l', t')) : Same i j l l' := by
  have hne' : s.rules.map (·.rule) ≠ [] := by simpa using hne
  unfold RuleSet.predictUnstacked at h h'
  rw [Py.bind_ok (Py.get_run s)] at h h'
  obtain ⟨w1, s1, hw1, h⟩ := Py.bind_eq_ok h
  obtain ⟨w2, s2, hw2, h'⟩ := Py.bind_eq_ok h'
  have e1 := ofExcept_ok hw1
  have e2 := ofExcept_ok hw2
  rw [e1] at e2
  cases e2
  simp only at h h'
  rw [Py.bind_ok (Py.modify_run _ _)] at h h'
  obtain ⟨a, s3, ha, h⟩ := Py.bind_eq_ok h
  obtain ⟨a', s4, ha', h'⟩ := Py.bind_eq_ok h'
  have hl := ofExcept_ok ha
  have hl' := ofExcept_ok ha'
  cases h
  cases h'
  apply same_map
  unfold Vote.predictUnstacked at hl hl'
  rw [Py.bind_ok (Py.get_run _)] at hl hl'
  have hk : (voteEnv R .regression).env.kind = .regression := rfl
  cases w1 with
  | some w1 =>
    simp only [hk] at hl hl'
    obtain ⟨b, u, hb, hl⟩ := Py.bind_eq_ok (Prod.ext hl rfl)
    obtain ⟨b', u', hb', hl'⟩ := Py.bind_eq_ok (Prod.ext hl' rfl)
    have := Prod.mk.inj hl
    cases this.1
    have := Prod.mk.inj hl'
    cases this.1
    exact same_map _ (weightedRegressor_same hp hne' (ofExcept_ok hb) (ofExcept_ok hb'))
  | none =>
    simp only [hk] at hl hl'
    obtain ⟨b, u, hb, hl⟩ := Py.bind_eq_ok (Prod.ext hl rfl)
    obtain ⟨b', u', hb', hl'⟩ := Py.bind_eq_ok (Prod.ext hl' rfl)
    have := Prod.mk.inj hl
    cases this.1
    have := Prod.mk.inj hl'
    cases this.1
    exact same_map _ (equalRegressor_same hp hne' hb hb')

theorem predictStacked_same {S : SetEnv} (hk : S.env.kind = .regression) {rules : List Rule} {w : Option Weights} {c c' : Columns Nat}
    (hc : SameColumns i j c c') (hne : c ≠ []) {l l' : List Cell} (h : predictStacked S rules c w = .ok l)
    (h' : predictStacked S rules c' w = .ok l') : Same i j l l' := by
  obtain ⟨hi, hj⟩ := height_same hc hne
  unfold predictStacked at h h'
  simp only [bind, Except.bind, hk, if_neg (Nat.ne_of_gt (Nat.zero_lt_of_lt hi)), if_neg (Nat.ne_of_gt (Nat.zero_lt_of_lt hj))] at h h'
  split at h
  · cases h
  rename_i _ preds hpreds
  split at h
  · cases h
  rename_i _ p hpn
  rw [hpreds] at h'
  simp only [hpn] at h'
  cases w with
  | none =>
    cases h
    cases h'
    exact same_map _ (equalRegressorStacked_same hi hj (predictionVectors_same hc p))
  | some w =>
    simp only at h h'
    cases hw : weightedRegressorStacked (height c) c (predictionVectors cellNum c p) w with
    | error e => rw [hw] at h; cases h
    | ok v =>
      cases hw' : weightedRegressorStacked (height c') c' (predictionVectors cellNum c' p) w with
      | error e => rw [hw'] at h'; cases h'
      | ok v' =>
        rw [hw] at h
        rw [hw'] at h'
        cases h
        cases h'
        exact same_map _ (weightedRegressorStacked_same hi hj hc (predictionVectors_same hc p) hw hw')

theorem vec_same {n n' : Nat} {on on' : Nat → Bool} (h : Same i j (vec n on) (vec n' on')) : i < n ∧ j < n' ∧ on i = on' j := by
  obtain ⟨x, h1, h2⟩ := h
  unfold vec at h1 h2
  rw [List.getElem?_map] at h1 h2
  obtain ⟨k, hk, rfl⟩ := Option.map_eq_some_iff.1 h1
  obtain ⟨k', hk', e⟩ := Option.map_eq_some_iff.1 h2
  obtain ⟨hi, hki⟩ := List.getElem?_eq_some_iff.1 hk
  obtain ⟨hj, hkj⟩ := List.getElem?_eq_some_iff.1 hk'
  rw [List.length_range] at hi hj
  rw [List.getElem_range] at hki hkj
  subst hki
  subst hkj
  refine ⟨hi, hj, ?_⟩
  cases h1 : on i <;> cases h2 : on' j <;> simp [h1, h2] at e ⊢

theorem isVote_same {rules : List Rule} {on on' : Rule → Nat → Bool} {c : Rule → Label} {wt : Rule → Rat} {n n' : Nat} {l l' : List Label}
    (hi : i < n) (hj : j < n') (hon : ∀ r ∈ rules, on r i = on' r j) (h : IsVote rules on c wt n l) (h' : IsVote rules on' c wt n' l') :
    Same i j l l' := by
  have hv : ∀ k, votes rules on c wt k i = votes rules on' c wt k j := by
    intro k
    unfold votes
    congr 2
    exact List.filter_congr fun r hr => by rw [hon r hr]
  have hw : ∀ k, Wins rules on c wt k i ↔ Wins rules on' c wt k j := by
    intro k
    unfold Wins
    simp only [hv]
  by_cases hex : ∃ k, Wins rules on c wt k i
  · obtain ⟨k, hk⟩ := hex
    exact ⟨k, (h.2 i hi).1 k hk, (h'.2 j hj).1 k ((hw k).1 hk)⟩
  · have hno : ∀ k, ¬ Wins rules on c wt k i := fun k hk => hex ⟨k, hk⟩
    exact ⟨.num .nan, (h.2 i hi).2 hno, (h'.2 j hj).2 fun k hk => hno k ((hw k).2 hk)⟩

theorem on_same {E : Env} {xs xs' : Xs} (hp : SamePoint xs i xs' j) {r : Rule} {n n' : Nat} {on on' : Nat → Bool}
    (h : activationOf E (some xs) r = .ok (some (vec n on))) (h' : activationOf E (some xs') r = .ok (some (vec n' on'))) :
    i < n ∧ j < n' ∧ on i = on' j := by
  obtain ⟨u, u', e, e', hs⟩ := activationOf_same hp h h'
  cases e
  cases e'
  exact vec_same hs

end Verif.Local
