import Verif.RangeSpec
import Verif.VoteLemmas
import Verif.ClassVoteLemmas
import Verif.PredictLemmas
import Mathlib.Tactic.Linarith

/-!
# Lemmas about the range of predictions
-/

namespace Verif.Range

open Verif Spec Vote

variable {lo hi : Rat}

/-! ## Activation vectors -/

theorem zeroOne_replicate (n : Nat) {a : Nat} (h : a = 0 ∨ a = 1) : ZeroOne (List.replicate n a) := by
  intro b hb
  rw [List.eq_of_mem_replicate hb]
  exact h

theorem zeroOne_maskWith {mask : List Nat} (h : ZeroOne mask) (test : Num → Bool) (col : List Num) :
    ZeroOne (Cond.maskWith mask test col) := by
  induction mask generalizing col with
  | nil => intro a ha; simp [Cond.maskWith] at ha
  | cons m mask ih =>
    cases col with
    | nil => intro a ha; simp [Cond.maskWith] at ha
    | cons x col =>
      intro a ha
      simp only [Cond.maskWith, List.zipWith_cons_cons, List.mem_cons] at ha
      rcases ha with rfl | ha
      · rcases h m (by simp) with rfl | rfl <;> cases test x <;> simp
      · exact ih (fun b hb => h b (by simp [hb])) col a ha

theorem zeroOne_conj {a b : List Nat} (h : ZeroOne a) (h' : ZeroOne b) : ZeroOne (Cond.conj a b) := by
  induction a generalizing b with
  | nil => intro x hx; simp [Cond.conj] at hx
  | cons m a ih =>
    cases b with
    | nil => intro x hx; simp [Cond.conj] at hx
    | cons n b =>
      intro x hx
      simp only [Cond.conj, List.zipWith_cons_cons, List.mem_cons] at hx
      rcases hx with rfl | hx
      · rcases h m (by simp) with rfl | rfl <;> rcases h' n (by simp) with rfl | rfl <;> simp
      · exact ih (fun y hy => h y (by simp [hy])) (fun y hy => h' y (by simp [hy])) x hx

theorem zeroOne_evalStep {c : Cond} {mask mask' : List Nat} (h : ZeroOne mask) {i : Nat} {col : Except Err (List Num)}
    (he : Cond.evalStep c mask i col = .ok mask') : ZeroOne mask' := by
  simp only [Cond.evalStep, bind, Except.bind] at he
  split at he; · cases he
  split at he; · cases he
  split at he; · cases he
  split at he; · cases he
  split at he; · cases he
  cases he
  exact zeroOne_maskWith (zeroOne_maskWith (zeroOne_maskWith h _ _) _ _) _ _

theorem zeroOne_foldlM {α} {f : List Nat → α → Except Err (List Nat)} (hf : ∀ m a m', ZeroOne m → f m a = .ok m' → ZeroOne m')
    {l : List α} {m m' : List Nat} (h : ZeroOne m) (he : l.foldlM f m = .ok m') : ZeroOne m' := by
  induction l generalizing m with
  | nil => cases he; exact h
  | cons a l ih =>
    simp only [List.foldlM_cons, bind, Except.bind] at he
    split at he; · cases he
    next _ hm => exact ih (hf _ _ _ h hm) he

theorem zeroOne_evaluate {c : Cond} {xs : Xs} {v : List Nat} (h : Rule.evaluate c xs = .ok v) : ZeroOne v := by
  cases xs with
  | arr x =>
    simp only [Rule.evaluate, Cond.evaluate] at h
    split at h
    · cases h; exact zeroOne_replicate _ (.inl rfl)
    · simp only [bind, Except.bind] at h
      split at h; · cases h
      split at h; · cases h
      split at h; · cases h
      next hm =>
        cases h
        have := zeroOne_foldlM (fun m a m' hm' he => zeroOne_evalStep hm' he) (zeroOne_replicate _ (.inr rfl)) hm
        exact zeroOne_conj (zeroOne_conj this this) this
  | frame x =>
    simp only [Rule.evaluate, Cond.evaluateFrame] at h
    split at h
    · cases h; exact zeroOne_replicate _ (.inl rfl)
    · simp only [bind, Except.bind] at h
      split at h; · cases h
      split at h; · cases h
      split at h; · cases h
      next hm =>
        split at h; · cases h
        cases h
        have := zeroOne_foldlM (fun m a m' hm' he => zeroOne_evalStep hm' he) (zeroOne_replicate _ (.inr rfl)) hm
        exact zeroOne_conj (zeroOne_conj this this) this

theorem zeroOne_evaluateActivation {E : Env} {r : Rule} {xs : Xs} {v : List Nat} (h : r.evaluateActivation E xs = .ok v) : ZeroOne v := by
  simp only [Rule.evaluateActivation, bind, Except.bind] at h
  split at h; · cases h
  next hv =>
    split at h; · cases h
    cases h
    exact zeroOne_evaluate hv

/-- The activations used by predictions are activation vectors. -/
theorem zeroOne_activationOf {E : Env} {xs : Option Xs} {r : Rule} {v : List Nat} (hx : xs = none → ∀ v, r.act = some v → ZeroOne v)
    (h : activationOf E xs r = .ok (some v)) : ZeroOne v := by
  cases xs with
  | none =>
    simp only [activationOf, Except.ok.injEq] at h
    refine hx rfl v ?_
    unfold Rule.activation at h
    cases ha : r.act with
    | none => rw [ha] at h; cases h
    | some u =>
      rw [ha] at h
      simp only at h
      split at h
      · cases h
      · exact h
  | some x =>
    simp only [activationOf] at h
    cases he : r.evaluateActivation E x with
    | error e => rw [he] at h; cases h
    | ok u => rw [he] at h; cases h; exact zeroOne_evaluateActivation he

/-! ## Regression without stacked activations -/

/-- What is cumulated at a point: a weighted sum of numbers between `lo` and `hi` and the sum of the weights, where a sum which is
0 can be NaN. -/
def Acc (lo hi : Rat) (c w : Num) : Prop :=
  ∃ t W : Rat, w = .fin W ∧ 0 ≤ W ∧ lo * W ≤ t ∧ t ≤ hi * W ∧ (c = .fin t ∨ c = .nan ∧ t = 0)

/-- `replace(np.nan, 0)` -/
def fill (c : Num) : Num := if c.isNaN then .fin 0 else c

/-- `replace(0, np.nan)` -/
def clean (x : Num) : Num := if x.beq (.fin 0) then .nan else x

theorem clean_fin (t : Rat) : clean (.fin t) = .fin t ∨ clean (.fin t) = .nan ∧ t = 0 := by
  unfold clean
  rw [beq_fin]
  by_cases h : t = 0
  · right; simp [h]
  · left; simp [h]

theorem Acc.fill {c w : Num} (h : Acc lo hi c w) : ∃ t W : Rat, w = .fin W ∧ 0 ≤ W ∧ lo * W ≤ t ∧ t ≤ hi * W ∧ fill c = .fin t := by
  obtain ⟨t, W, h1, h2, h3, h4, rfl | ⟨rfl, rfl⟩⟩ := h
  · exact ⟨t, W, h1, h2, h3, h4, rfl⟩
  · exact ⟨0, W, h1, h2, h3, h4, rfl⟩

theorem Acc.step {c w : Num} (h : Acc lo hi c w) {p x : Rat} (hx : 0 ≤ x) (h1 : lo ≤ p) (h2 : p ≤ hi) {a : Nat} (ha : a = 0 ∨ a = 1) :
    Acc lo hi (clean (Num.add (Range.fill c) (.fin (a * p * x)))) (Num.add w (.fin (a * x))) := by
  obtain ⟨t, W, rfl, h3, h4, h5, h6⟩ := h.fill
  have hax : (0 : Rat) ≤ a * x := by positivity
  refine ⟨t + a * p * x, W + a * x, rfl, by linarith, ?_, ?_, ?_⟩
  · nlinarith
  · nlinarith
  · rw [h6]
    exact clean_fin _

theorem Acc.div {c w : Num} (h : Acc lo hi c w) : MissingOrBetween lo hi (Num.div c w) := by
  obtain ⟨t, W, rfl, h2, h3, h4, rfl | ⟨rfl, -⟩⟩ := h
  · by_cases hW : W = 0
    · subst hW
      have : t = 0 := by linarith
      subst this
      left
      simp [Num.div, Num.infSign]
    · right
      have hW' : 0 < W := lt_of_le_of_ne h2 (Ne.symm hW)
      refine ⟨t / W, by simp [Num.div, hW], ?_, ?_⟩
      · rwa [le_div_iff₀ hW']
      · rwa [div_le_iff₀ hW']
  · left; rfl

theorem forall₂_step {β γ} {P : Num → β → Prop} {Q : Num → γ → Prop} {f : Nat → Num} {g : β → Nat → γ}
    (h : ∀ c w a, P c w → (a = 0 ∨ a = 1) → Q (clean (Num.add (fill c) (f a))) (g w a)) {cum : List Num} {cumW : List β}
    (hc : List.Forall₂ P cum cumW) {v : List Nat} (hv : ZeroOne v) :
    List.Forall₂ Q ((List.zipWith Num.add (cum.map fill) (v.map f)).map clean) (List.zipWith g cumW v) := by
  induction hc generalizing v with
  | nil => simp
  | cons hcw _ ih =>
    cases v with
    | nil => simp
    | cons a v =>
      simp only [List.map_cons, List.zipWith_cons_cons]
      exact .cons (h _ _ _ hcw (hv a (by simp))) (ih fun b hb => hv b (by simp [hb]))

theorem accumulate_ok {cum term l : List Num} (h : accumulate cum term = .ok l) :
    l = (List.zipWith Num.add (cum.map fill) term).map clean := by
  simp only [accumulate, zipOp] at h
  split at h; · cases h
  simp only [bind, Except.bind] at h
  split at h; · cases h
  next h' =>
    split at h'
    · cases h'; cases h; rfl
    · cases h'

/-- The rule predicts a number between `lo` and `hi`. -/
def Says (E : Env) (lo hi : Rat) (r : Rule) : Prop :=
  ∃ q : Rat, r.getPrediction E = .ok (some (.num (.fin q))) ∧ lo ≤ q ∧ q ≤ hi

theorem firstVector_ok {E : Env} {r : Rule} {q : Rat} (h : r.getPrediction E = .ok (some (.num (.fin q)))) {v : List Nat} {l : List Num}
    (hl : firstVector E r v = .ok l) : l = [] ∨ l = v.map fun a : Nat => if a = 0 then Num.nan else .fin (q * a) := by
  simp only [firstVector, Rule.calcPredictionVector, h, bind, Except.bind] at hl
  by_cases h0 : r.length = 0
  · left
    simp only [h0, if_true] at hl
    cases hl
    rfl
  · right
    simp only [h0, if_false, Option.getD_some] at hl
    have := numbers_map_num (v.map fun a : Nat => if a = 0 then Num.nan else Num.mul (.fin q) (.fin a))
    rw [List.map_map] at this
    have e := Except.ok.inj (hl.symm.trans this)
    rw [e]
    rfl

theorem weightOf_fin {S : SetEnv} {w : Weights} {rules : List Rule} {wt : Rule → Rat} (h : WeightsAre S w rules wt)
    (hpos : ∀ r ∈ rules, 0 ≤ wt r) {r : Rule} (hr : r ∈ rules) {x : Num} (hx : weightOf w (S.condStr r.cond) = some x) :
    x = .fin (wt r) ∧ 0 ≤ wt r := by
  refine ⟨?_, hpos r hr⟩
  unfold weightOf at hx
  rcases h r hr with h1 | ⟨-, h1 | h1⟩ <;> rw [h1] at hx
  · simp only [beq_fin, Num.isNaN] at hx
    split at hx
    · cases hx
    · simpa using hx.symm
  · cases hx
  · simp [Num.beq, Num.isNaN] at hx

theorem weightedStep_range {S : SetEnv} {w : Weights} {xs : Option Xs} {r : Rule} {x0 : Rat} {acc acc' : Option (List Num × List Num)}
    (hw : ∀ x, weightOf w (S.condStr r.cond) = some x → x = .fin x0 ∧ 0 ≤ x0) (hr : Says S.env lo hi r)
    (hx : xs = none → ∀ v, r.act = some v → ZeroOne v) (ha : ∀ p, acc = some p → p.1 = [] ∨ List.Forall₂ (Acc lo hi) p.1 p.2)
    (h : weightedStep S w xs acc r = .ok acc') : ∀ p, acc' = some p → p.1 = [] ∨ List.Forall₂ (Acc lo hi) p.1 p.2 := by
  obtain ⟨q, hq, h1, h2⟩ := hr
  intro P hP
  simp only [weightedStep] at h
  cases hwt : weightOf w (S.condStr r.cond) with
  | none => rw [hwt] at h; cases h; exact ha P hP
  | some x =>
    obtain ⟨rfl, hx0⟩ := hw x hwt
    rw [hwt] at h
    simp only [bind, Except.bind] at h
    split at h; · cases h
    next o hv =>
      cases o with
      | none => cases h; exact ha P hP
      | some v =>
        have hz := zeroOne_activationOf hx hv
        simp only at h
        split at h
        · cases h; exact ha P hP
        · cases acc with
          | none =>
            simp only at h
            split at h; · cases h
            next l hl =>
              cases h
              cases hP
              rcases firstVector_ok hq hl with rfl | rfl
              · left; rfl
              · right
                simp only [scale, List.map_map]
                rw [List.forall₂_map_left_iff, List.forall₂_map_right_iff, List.forall₂_same]
                intro a hav
                rcases hz a hav with rfl | rfl
                · exact ⟨0, 0, by simp [Num.mul], le_refl _, by simp, by simp, .inr ⟨by simp [Num.mul], rfl⟩⟩
                · refine ⟨q * x0, x0, by simp [Num.mul], hx0, ?_, ?_, .inl (by simp [Num.mul])⟩ <;> nlinarith
          | some P0 =>
            obtain ⟨cum, cumW⟩ := P0
            simp only [hq, numberOf] at h
            split at h; · cases h
            next cum' hc =>
              split at h; · cases h
              next cumW' hcw =>
                cases h
                cases hP
                rw [accumulate_ok hc]
                simp only [zipOp] at hcw
                split at hcw
                · cases hcw
                  rcases ha _ rfl with h0 | h0
                  · left
                    simp only at h0
                    simp [h0]
                  · right
                    simp only [scale, List.map_map, List.zipWith_map_right]
                    have := forall₂_step (f := fun a : Nat => .fin (a * q * x0)) (g := fun w (a : Nat) => Num.add w (.fin (a * x0)))
                      (fun c w a hcw hab => Acc.step hcw hx0 h1 h2 hab) h0 hz
                    simp only [List.zipWith_map_right] at this
                    exact this
                · cases hcw

theorem div_range {cum cumW : List Num} (h : List.Forall₂ (Acc lo hi) cum cumW) : ∀ x ∈ List.zipWith Num.div cum cumW, MissingOrBetween lo hi x := by
  induction h with
  | nil => simp
  | cons h1 _ ih =>
    intro x hx
    simp only [List.zipWith_cons_cons, List.mem_cons] at hx
    rcases hx with rfl | hx
    · exact h1.div
    · exact ih x hx

theorem weightedRegressor_range {S : SetEnv} {w : Weights} {xs : Option Xs} {rules : List Rule} {wt : Rule → Rat} {l : List Num}
    (hw : WeightsAre S w rules wt) (hpos : ∀ r ∈ rules, 0 ≤ wt r) (hr : ∀ r ∈ rules, Says S.env lo hi r)
    (hx : xs = none → ∀ r ∈ rules, ∀ v, r.act = some v → ZeroOne v) (h : weightedRegressor S rules w xs = .ok l) :
    ∀ x ∈ l, MissingOrBetween lo hi x := by
  have key : ∀ (rs : List Rule) (acc acc' : Option (List Num × List Num)), (∀ r ∈ rs, r ∈ rules) →
      (∀ p, acc = some p → p.1 = [] ∨ List.Forall₂ (Acc lo hi) p.1 p.2) → rs.foldlM (weightedStep S w xs) acc = .ok acc' →
      ∀ p, acc' = some p → p.1 = [] ∨ List.Forall₂ (Acc lo hi) p.1 p.2 := by
    intro rs
    induction rs with
    | nil => intro acc acc' _ ha h; cases h; exact ha
    | cons r rs ih =>
      intro acc acc' hm ha h
      simp only [List.foldlM_cons, bind, Except.bind] at h
      split at h; · cases h
      next a1 h1 =>
        have hrm := hm r (by simp)
        exact ih a1 acc' (fun r' hr' => hm r' (by simp [hr']))
          (weightedStep_range (fun x hx' => weightOf_fin hw hpos hrm hx') (hr r hrm) (fun e => hx e r hrm) ha h1) h
  simp only [weightedRegressor] at h
  split at h
  · cases h; simp
  · simp only [bind, Except.bind] at h
    split at h; · cases h
    next acc' ha =>
      have := key rules none acc' (fun _ hr => hr) (by simp) ha
      cases acc' with
      | none => cases h
      | some P =>
        obtain ⟨cum, cumW⟩ := P
        simp only [zipOp] at h
        split at h
        · cases h
          rcases this _ rfl with h0 | h0
          · simp only at h0
            simp [h0]
          · exact div_range h0
        · cases h

/-- The same when rules are counted in bytes -/
def Count (lo hi : Rat) (k : Nat) (c : Num) (w : Nat) : Prop := w ≤ k ∧ Acc lo hi c (.fin w)

theorem Count.step {k : Nat} {c : Num} {w : Nat} (h : Count lo hi k c w) (hk : k + 1 < 256) {p : Rat} (h1 : lo ≤ p) (h2 : p ≤ hi)
    {a : Nat} (ha : a = 0 ∨ a = 1) : Count lo hi (k + 1) (clean (Num.add (fill c) (.fin (a * p)))) ((w + a) % 256) := by
  obtain ⟨hw, hA⟩ := h
  have e : (w + a) % 256 = w + a := Nat.mod_eq_of_lt (by omega)
  refine ⟨by omega, ?_⟩
  have := hA.step (x := 1) (by norm_num) h1 h2 ha
  rw [e]
  simpa [Num.add] using this

theorem equalStep_range {S : SetEnv} {xs : Option Xs} {r : Rule} {i k : Nat} {acc acc' : Option (Option Nat × List Num × List Nat)}
    {st st' : List Rule} (hk : k + 1 < 256) (hr : Says S.env lo hi r) (hx : xs = none → ∀ v, r.act = some v → ZeroOne v)
    (ha : ∀ p, acc = some p → p.2.1 = [] ∨ List.Forall₂ (Count lo hi k) p.2.1 p.2.2)
    (h : equalStep S xs i r acc st = (.ok acc', st')) :
    ∀ p, acc' = some p → p.2.1 = [] ∨ List.Forall₂ (Count lo hi (k + 1)) p.2.1 p.2.2 := by
  obtain ⟨q, hq, h1, h2⟩ := hr
  have up : ∀ p, acc = some p → p.2.1 = [] ∨ List.Forall₂ (Count lo hi (k + 1)) p.2.1 p.2.2 := fun p hp =>
    (ha p hp).imp_right fun hf => hf.imp fun _ _ hc => ⟨by have := hc.1; omega, hc.2⟩
  intro P hP
  simp only [equalStep] at h
  obtain ⟨o, s1, h3, h⟩ := Py.bind_eq_ok h
  simp only [Py.ofExcept_run, Prod.mk.injEq] at h3
  obtain ⟨hv, rfl⟩ := h3
  cases o with
  | none => cases h; exact up P hP
  | some v =>
    have hz := zeroOne_activationOf hx hv
    simp only at h
    by_cases h0 : v.length = 0
    · rw [if_pos h0] at h; cases h; exact up P hP
    · rw [if_neg h0] at h
      cases acc with
      | none =>
        simp only at h
        obtain ⟨l, s2, h3, h⟩ := Py.bind_eq_ok h
        simp only [Py.ofExcept_run, Prod.mk.injEq] at h3
        obtain ⟨hl, rfl⟩ := h3
        cases h
        cases hP
        rcases firstVector_ok hq hl with rfl | rfl
        · left; rfl
        · right
          simp only
          rw [List.forall₂_map_left_iff, List.forall₂_same]
          intro a hav
          rcases hz a hav with rfl | rfl
          · exact ⟨by omega, 0, 0, by simp, le_refl _, by simp, by simp, .inr ⟨by simp, rfl⟩⟩
          · exact ⟨by omega, q, 1, by simp, by norm_num, by simpa using h1, by simpa using h2, .inl (by simp)⟩
      | some P0 =>
        obtain ⟨j, cum, cumW⟩ := P0
        simp only at h
        obtain ⟨_, s2, h3, h⟩ := Py.bind_eq_ok h
        simp only [Py.ofExcept_run, Prod.mk.injEq, hq, Except.ok.injEq] at h3
        obtain ⟨rfl, rfl⟩ := h3
        obtain ⟨_, s2, h3, h⟩ := Py.bind_eq_ok h
        simp only [Py.ofExcept_run, Prod.mk.injEq, numberOf, Except.ok.injEq] at h3
        obtain ⟨rfl, rfl⟩ := h3
        obtain ⟨cum', s2, h3, h⟩ := Py.bind_eq_ok h
        simp only [Py.ofExcept_run, Prod.mk.injEq] at h3
        obtain ⟨hc, rfl⟩ := h3
        obtain ⟨cumW', s2, h3, h⟩ := Py.bind_eq_ok h
        simp only [Py.ofExcept_run, Prod.mk.injEq] at h3
        obtain ⟨hcw, rfl⟩ := h3
        obtain ⟨_, s2, h3, h⟩ := Py.bind_eq_ok h
        cases h
        cases hP
        simp only
        rw [accumulate_ok hc]
        simp only [addBytes] at hcw
        split at hcw
        · cases hcw
          rcases ha _ rfl with h0 | h0
          · left
            simp only at h0
            simp [h0]
          · right
            have := forall₂_step (f := fun a : Nat => .fin (a * q)) (g := fun w (a : Nat) => (w + a) % 256)
              (fun c w a hcw hab => Count.step hcw hk h1 h2 hab) h0 hz
            exact this
        · cases hcw

theorem equalLoop_range {S : SetEnv} {xs : Option Xs} {rules : List Rule} {i k : Nat} {acc acc' : Option (Option Nat × List Num × List Nat)}
    {st st' : List Rule} (hk : k + rules.length < 256) (hr : ∀ r ∈ rules, Says S.env lo hi r)
    (hx : xs = none → ∀ r ∈ rules, ∀ v, r.act = some v → ZeroOne v)
    (ha : ∀ p, acc = some p → p.2.1 = [] ∨ List.Forall₂ (Count lo hi k) p.2.1 p.2.2)
    (h : equalLoop S xs i rules acc st = (.ok acc', st')) :
    ∀ p, acc' = some p → p.2.1 = [] ∨ List.Forall₂ (Acc lo hi) p.2.1 (p.2.2.map fun a : Nat => .fin a) := by
  induction rules generalizing i k acc st with
  | nil =>
    cases h
    intro p hp
    refine (ha p hp).imp_right fun hf => ?_
    rw [List.forall₂_map_right_iff]
    exact hf.imp fun _ _ hc => hc.2
  | cons r rules ih =>
    simp only [equalLoop] at h
    obtain ⟨a1, s1, h1, h⟩ := Py.bind_eq_ok h
    simp only [List.length_cons] at hk
    exact ih (k := k + 1) (by omega) (fun r' hr' => hr r' (by simp [hr'])) (fun e r' hr' => hx e r' (by simp [hr']))
      (equalStep_range (by omega) (hr r (by simp)) (fun e => hx e r (by simp)) ha h1) h

theorem equalRegressor_range {S : SetEnv} {xs : Option Xs} {rules st' : List Rule} {l : List Num} (hk : rules.length < 256)
    (hr : ∀ r ∈ rules, Says S.env lo hi r) (hx : xs = none → ∀ r ∈ rules, ∀ v, r.act = some v → ZeroOne v)
    (h : equalRegressor S xs rules = (.ok l, st')) : ∀ x ∈ l, MissingOrBetween lo hi x := by
  simp only [equalRegressor] at h
  obtain ⟨_, s1, h1, h⟩ := Py.bind_eq_ok h
  simp only [Py.get_run, Prod.mk.injEq, Except.ok.injEq] at h1
  obtain ⟨rfl, rfl⟩ := h1
  by_cases h0 : rules.length = 0
  · rw [if_pos h0] at h; cases h; simp
  · rw [if_neg h0] at h
    obtain ⟨o, s1, h1, h⟩ := Py.bind_eq_ok h
    have := equalLoop_range (lo := lo) (hi := hi) (k := 0) (by omega) hr hx (by simp) h1
    cases o with
    | none => cases h
    | some P =>
      obtain ⟨j, cum, cumW⟩ := P
      simp only [Py.ofExcept_run, Prod.mk.injEq, zipOp] at h
      obtain ⟨h, -⟩ := h
      split at h
      · cases h
        rcases this _ rfl with h0 | h0
        · simp only at h0
          simp [h0]
        · exact div_range h0
      · cases h

/-! ## Regression with stacked activations -/

theorem dropna_fin (q : Rat) (l : List Num) : Num.dropna (.fin q :: l) = .fin q :: Num.dropna l := by
  unfold Num.dropna
  rw [List.filter_cons_of_pos (by rfl)]

theorem dropna_between {l : List Num} (h : ∀ x ∈ l, MissingOrBetween lo hi x) :
    ∃ qs : List Rat, Num.dropna l = qs.map .fin ∧ ∀ q ∈ qs, lo ≤ q ∧ q ≤ hi := by
  induction l with
  | nil => exact ⟨[], rfl, by simp⟩
  | cons a l ih =>
    obtain ⟨qs, h1, h2⟩ := ih fun x hx => h x (by simp [hx])
    rcases h a (by simp) with rfl | ⟨q, rfl, h3⟩
    · exact ⟨qs, by simpa [Num.dropna, Num.isNaN] using h1, h2⟩
    · refine ⟨q :: qs, ?_, ?_⟩
      · rw [dropna_fin, h1]
        rfl
      · intro x hx
        rcases List.mem_cons.1 hx with rfl | hx
        · exact h3
        · exact h2 x hx

theorem sum_between {qs : List Rat} (h : ∀ q ∈ qs, lo ≤ q ∧ q ≤ hi) : lo * qs.length ≤ qs.sum ∧ qs.sum ≤ hi * qs.length := by
  induction qs with
  | nil => simp
  | cons a l ih =>
    have := ih fun q hq => h q (by simp [hq])
    have ha := h a (by simp)
    simp only [List.sum_cons, List.length_cons, Nat.cast_add, Nat.cast_one]
    constructor <;> linarith [this.1, this.2, ha.1, ha.2]

theorem mean_between {qs : List Rat} (hne : qs ≠ []) (h : ∀ q ∈ qs, lo ≤ q ∧ q ≤ hi) : Between lo hi (Num.mean (qs.map .fin)) := by
  have hs := sum_between h
  have hl : (0 : Rat) < qs.length := by
    have := List.length_pos_of_ne_nil hne
    exact_mod_cast this
  rw [RFun.mean_fin hne]
  refine ⟨_, rfl, ?_, ?_⟩
  · rw [meanOf, le_div_iff₀ hl]; exact hs.1
  · rw [meanOf, div_le_iff₀ hl]; exact hs.2

theorem mean_range {l : List Num} (h : ∀ x ∈ l, MissingOrBetween lo hi x) : MissingOrBetween lo hi (Num.nanmean l) := by
  obtain ⟨qs, h1, h2⟩ := dropna_between h
  unfold Num.nanmean
  rw [h1]
  by_cases hq : qs = []
  · subst hq; left; decide
  · right; exact mean_between hq h2

/-- A cell of the stacked predictions with its weight -/
def CellOk (lo hi : Rat) (c : Num × Num) : Prop :=
  c.2 = .nan ∨ ∃ q x : Rat, c = (.fin q, .fin x) ∧ 0 ≤ x ∧ lo ≤ q ∧ q ≤ hi

theorem row_range {row : List (Num × Num)} (h : ∀ c ∈ row, CellOk lo hi c) :
    MissingOrBetween lo hi (Num.div (nansum (row.map fun p => Num.mul p.1 p.2)) (nansum (row.map (·.2)))) := by
  have key : ∃ t W : Rat, nansum (row.map fun p => Num.mul p.1 p.2) = .fin t ∧ nansum (row.map (·.2)) = .fin W ∧
      0 ≤ W ∧ lo * W ≤ t ∧ t ≤ hi * W := by
    suffices ∃ ts Ws : List Rat, Num.dropna (row.map fun p => Num.mul p.1 p.2) = ts.map .fin ∧ Num.dropna (row.map (·.2)) = Ws.map .fin ∧
        0 ≤ Ws.sum ∧ lo * Ws.sum ≤ ts.sum ∧ ts.sum ≤ hi * Ws.sum by
      obtain ⟨ts, Ws, h1, h2, h3⟩ := this
      exact ⟨ts.sum, Ws.sum, by rw [nansum, h1, RFun.sum_fin], by rw [nansum, h2, RFun.sum_fin], h3⟩
    induction row with
    | nil => exact ⟨[], [], rfl, rfl, by simp⟩
    | cons c row ih =>
      obtain ⟨ts, Ws, h1, h2, h3, h4, h5⟩ := ih fun c hc => h c (by simp [hc])
      rcases h c (by simp) with hc | ⟨q, x, rfl, h6, h7, h8⟩
      · refine ⟨ts, Ws, ?_, ?_, h3, h4, h5⟩
        · have : Num.mul c.1 c.2 = .nan := by rw [hc]; cases c.1 <;> rfl
          simpa [Num.dropna, this, Num.isNaN] using h1
        · simpa [Num.dropna, hc, Num.isNaN] using h2
      · refine ⟨q * x :: ts, x :: Ws, ?_, ?_, ?_, ?_, ?_⟩
        · rw [List.map_cons, Num.mul, dropna_fin, h1]
          rfl
        · rw [List.map_cons, dropna_fin, h2]
          rfl
        · simp only [List.sum_cons]; linarith
        · simp only [List.sum_cons]; nlinarith
        · simp only [List.sum_cons]; nlinarith
  obtain ⟨t, W, h1, h2, h3, h4, h5⟩ := key
  rw [h1, h2]
  exact Acc.div ⟨t, W, rfl, h3, h4, h5, .inl rfl⟩

theorem lookup_mem {α} {d : List (String × α)} {key : String} {x : α} (h : lookup d key = some x) : (key, x) ∈ d := by
  unfold lookup at h
  cases hf : d.find? (fun q => q.1 = key) with
  | none => rw [hf] at h; cases h
  | some p =>
    rw [hf] at h
    have h1 := List.mem_of_find?_eq_some hf
    have h2 := List.find?_some hf
    cases h
    simp only [decide_eq_true_eq] at h2
    rw [← h2]
    exact h1

theorem mem_rowsOf {α} {n : Nat} {c : Columns α} {row : List α} (h : row ∈ rowsOf n c) {x : α} (hx : x ∈ row) : ∃ p ∈ c, x ∈ p.2 := by
  unfold rowsOf at h
  obtain ⟨i, -, rfl⟩ := List.mem_map.1 h
  obtain ⟨p, hp, hpx⟩ := List.mem_filterMap.1 hx
  exact ⟨p, hp, List.mem_of_getElem? hpx⟩

/-- The numbers of a dictionary of predictions are between `lo` and `hi`. -/
def DictOk (lo hi : Rat) (p : List (String × Num)) : Prop := ∀ q ∈ p, Between lo hi q.2

/-- The columns are activation vectors. -/
def ColsOk (c : Columns Nat) : Prop := ∀ p ∈ c, ZeroOne p.2

theorem vectors_range {acts : Columns Nat} {p : List (String × Num)} (ha : ColsOk acts) (hp : DictOk lo hi p) :
    ∀ c ∈ predictionVectors cellNum acts p, ∀ x ∈ c.2, MissingOrBetween lo hi x := by
  intro c hc x hx
  obtain ⟨a, haa, he⟩ := List.mem_filterMap.1 hc
  cases hl : lookup p a.1 with
  | none => rw [hl] at he; cases he
  | some q =>
    rw [hl] at he
    cases he
    obtain ⟨b, hb, rfl⟩ := List.mem_map.1 hx
    obtain ⟨t, ht, h3⟩ := hp _ (lookup_mem hl)
    simp only at ht
    rcases ha a haa b hb with rfl | rfl
    · left; rfl
    · right; exact ⟨t, by simp [cellNum, ht, Num.mul], h3⟩

theorem equalRegressorStacked_range {n : Nat} {acts : Columns Nat} {p : List (String × Num)} (ha : ColsOk acts) (hp : DictOk lo hi p) :
    ∀ x ∈ equalRegressorStacked n (predictionVectors cellNum acts p), MissingOrBetween lo hi x := by
  intro x hx
  obtain ⟨row, hrow, rfl⟩ := List.mem_map.1 hx
  refine mean_range fun y hy => ?_
  obtain ⟨c, hc, hyc⟩ := mem_rowsOf hrow hy
  exact vectors_range ha hp c hc y hyc

theorem cellWeight_range {w : Weights} {name : String} {a : Nat} (ha : a = 0 ∨ a = 1)
    (hw : ∀ x, w name = some x → x = .nan ∨ ∃ q : Rat, x = .fin q ∧ 0 ≤ q) :
    cellWeight w name a = .nan ∨ ∃ q : Rat, cellWeight w name a = .fin q ∧ 0 ≤ q := by
  unfold cellWeight
  cases hx : w name with
  | none => left; rfl
  | some x =>
    rcases ha with rfl | rfl
    · left; rfl
    · rcases hw x hx with rfl | ⟨q, rfl, hq⟩
      · left; rfl
      · simp only [Nat.cast_one, Num.mul, one_mul, beq_fin]
        by_cases h0 : q = 0
        · left; simp [h0]
        · right; exact ⟨q, by simp [h0], hq⟩

theorem weightedRegressorStacked_range {n : Nat} {acts : Columns Nat} {p : List (String × Num)} {w : Weights} {l : List Num}
    (ha : ColsOk acts) (hp : DictOk lo hi p)
    (hw : ∀ c ∈ acts, ∀ x, w c.1 = some x → x = .nan ∨ ∃ q : Rat, x = .fin q ∧ 0 ≤ q)
    (h : weightedRegressorStacked n acts (predictionVectors cellNum acts p) w = .ok l) : ∀ x ∈ l, MissingOrBetween lo hi x := by
  simp only [weightedRegressorStacked, initWeights, bind, Except.bind] at h
  split at h; · cases h
  next cols hcols =>
    cases h
    split at hcols; · cases hcols
    cases hcols
    intro x hx
    obtain ⟨row, hrow, rfl⟩ := List.mem_map.1 hx
    refine row_range fun y hy => ?_
    obtain ⟨c, hc, hyc⟩ := mem_rowsOf hrow hy
    obtain ⟨a, haa, he⟩ := List.mem_filterMap.1 hc
    unfold weighColumn at he
    cases hl : lookup (predictionVectors cellNum acts p) a.1 with
    | none => rw [hl] at he; cases he
    | some q =>
      rw [hl] at he
      simp only at he
      split at he; · cases he
      cases he
      have hq := vectors_range ha hp _ (lookup_mem hl)
      simp only at hq hyc
      rw [List.zipWith_map_right] at hyc
      obtain ⟨u, b, hu, hb, rfl⟩ : ∃ u b, u ∈ q ∧ b ∈ a.2 ∧ (u, if u.isNaN then Num.nan else cellWeight w a.1 b) = y := by
        rw [← List.map_uncurry_zip_eq_zipWith] at hyc
        obtain ⟨⟨u, b⟩, hub, rfl⟩ := List.mem_map.1 hyc
        exact ⟨u, b, (List.of_mem_zip hub).1, (List.of_mem_zip hub).2, rfl⟩
      rcases hq u hu with rfl | ⟨t, rfl, ht⟩
      · left; rfl
      · rcases cellWeight_range (ha a haa b hb) (hw a haa) with e | ⟨z, e, hz⟩
        · left; simp [Num.isNaN, e]
        · right; exact ⟨t, z, by simp [Num.isNaN, e], hz, ht⟩

theorem mapM_ok_mem {α β} {f : α → Except Err β} {l : List α} {l' : List β} (h : l.mapM f = .ok l') {b : β} (hb : b ∈ l') :
    ∃ a ∈ l, f a = .ok b := by
  induction l generalizing l' with
  | nil => cases h; simp at hb
  | cons a l ih =>
    simp only [List.mapM_cons, bind, Except.bind] at h
    split at h; · cases h
    next x hx =>
      split at h; · cases h
      next l1 hl =>
        cases h
        rcases List.mem_cons.1 hb with rfl | hb
        · exact ⟨a, by simp, hx⟩
        · obtain ⟨a', h1, h2⟩ := ih hl hb
          exact ⟨a', by simp [h1], h2⟩

theorem dictOf_mem {α} {l : List (String × α)} {p : String × α} (h : p ∈ dictOf l) : p ∈ l := by
  have key : ∀ (l acc : List (String × α)) (p : String × α), p ∈ l.foldl (fun acc p =>
      if acc.any (fun q => q.1 = p.1) then acc.map (fun q => if q.1 = p.1 then p else q) else acc ++ [p]) acc → p ∈ acc ∨ p ∈ l := by
    intro l
    induction l with
    | nil => intro acc p h; exact .inl h
    | cons x l ih =>
      intro acc p h
      rw [List.foldl_cons] at h
      rcases ih _ p h with h | h
      · split at h
        · obtain ⟨q, hq, rfl⟩ := List.mem_map.1 h
          split
          · right; simp
          · left; exact hq
        · rcases List.mem_append.1 h with h | h
          · exact .inl h
          · right; simp at h; simp [h]
      · right; simp [h]
  rcases key l [] p h with h | h
  · simp at h
  · exact h

theorem labelsOf_mem {S : SetEnv} {rules : List Rule} {d : List (String × Label)} (h : labelsOf S rules = .ok d) {p : String × Label}
    (hp : p ∈ d) : ∃ r ∈ rules, p.1 = S.condStr r.cond ∧ ∃ o, r.getPrediction S.env = .ok o ∧ p.2 = o.getD (.num .nan) := by
  unfold labelsOf at h
  cases hm : rules.mapM (fun r : Rule => (r.getPrediction S.env).map fun p => (S.condStr r.cond, p.getD (.num .nan))) with
  | error e => rw [hm] at h; cases h
  | ok l =>
    rw [hm] at h
    cases h
    obtain ⟨r, hr, he⟩ := mapM_ok_mem hm (dictOf_mem hp)
    cases hg : r.getPrediction S.env with
    | error e => rw [hg] at he; cases he
    | ok o => rw [hg] at he; cases he; exact ⟨r, hr, rfl, o, hg, rfl⟩

theorem onlyNumbers_dict {S : SetEnv} {rules : List Rule} {d : List (String × Label)} {p : List (String × Num)}
    (hr : ∀ r ∈ rules, Says S.env lo hi r) (h : labelsOf S rules = .ok d) (hp : onlyNumbers d = .ok p) : DictOk lo hi p := by
  intro q hq
  obtain ⟨a, ha, he⟩ := mapM_ok_mem hp hq
  obtain ⟨r, hrr, -, o, ho, e⟩ := labelsOf_mem h ha
  obtain ⟨t, ht, h3⟩ := hr r hrr
  rw [ht] at ho
  cases ho
  rw [e] at he
  cases he
  exact ⟨t, rfl, h3⟩

theorem predictStacked_range {S : SetEnv} {rules : List Rule} {acts : Columns Nat} {w : Option Weights} {l : List Cell}
    (hk : S.env.kind = .regression) (hr : ∀ r ∈ rules, Says S.env lo hi r) (ha : ColsOk acts)
    (hw : ∀ w', w = some w' → ∀ c ∈ acts, ∀ x, w' c.1 = some x → x = .nan ∨ ∃ q : Rat, x = .fin q ∧ 0 ≤ q)
    (h : predictStacked S rules acts w = .ok l) : ∀ c ∈ l, ∃ x, c = .label (.num x) ∧ MissingOrBetween lo hi x := by
  simp only [predictStacked, hk, bind, Except.bind] at h
  split at h; · cases h
  next d hd =>
    split at h
    · cases h; simp
    · split at h; · cases h
      next p hp =>
        have hdict := onlyNumbers_dict hr hd hp
        cases w with
        | none =>
          cases h
          intro c hc
          obtain ⟨x, hx, rfl⟩ := List.mem_map.1 hc
          exact ⟨x, rfl, equalRegressorStacked_range ha hdict x hx⟩
        | some w' =>
          simp only at h
          cases hs : weightedRegressorStacked (height acts) acts (predictionVectors cellNum acts p) w' with
          | error e => rw [hs] at h; cases h
          | ok l' =>
            rw [hs] at h
            cases h
            intro c hc
            obtain ⟨x, hx, rfl⟩ := List.mem_map.1 hc
            exact ⟨x, rfl, weightedRegressorStacked_range ha hdict (hw w' rfl) hs x hx⟩

end Verif.Range
