import Verif.VoteSpec
import Verif.RFunLemmas

/-!
# Combining numbers
-/

namespace Verif.Vote

open Verif Spec

theorem vec_length (n : Nat) (on : Nat → Bool) : (vec n on).length = n := by simp [vec]

/-- The vector of `n` numbers `f i` -/
def table (n : Nat) (f : Nat → Num) : List Num := (List.range n).map f

theorem table_length (n : Nat) (f : Nat → Num) : (table n f).length = n := by simp [table]

theorem table_congr {n : Nat} {f g : Nat → Num} (h : ∀ i < n, f i = g i) : table n f = table n g :=
  List.map_congr_left fun i hi => h i (List.mem_range.1 hi)

theorem map_table (n : Nat) (f : Nat → Num) (g : Num → Num) : (table n f).map g = table n fun i => g (f i) := by
  simp [table, List.map_map, Function.comp_def]

theorem zipWith_range {α β γ} (g : α → β → γ) (n : Nat) (f : Nat → α) (f' : Nat → β) :
    List.zipWith g ((List.range n).map f) ((List.range n).map f') = (List.range n).map fun i => g (f i) (f' i) := by
  generalize List.range n = l
  induction l with
  | nil => rfl
  | cons a l ih => simp [ih]

theorem zipOp_table (g : Num → Num → Num) (n : Nat) (f f' : Nat → Num) :
    zipOp g (table n f) (table n f') = .ok (table n fun i => g (f i) (f' i)) := by
  unfold zipOp
  rw [if_pos (by simp [table_length])]
  exact congrArg _ (zipWith_range g n f f')

theorem scale_vec (n : Nat) (on : Nat → Bool) (q : Rat) :
    scale (vec n on) (.fin q) = table n fun i => .fin (if on i then q else 0) := by
  unfold scale vec table
  rw [List.map_map]
  refine List.map_congr_left fun i _ => ?_
  cases h : on i <;> simp [h, Num.mul]

theorem numbers_map_num (l : List Num) : Rule.numbers (l.map .num) = .ok l := by
  unfold Rule.numbers
  induction l with
  | nil => rfl
  | cons a l ih =>
    simp only [List.map_cons, List.mapM_cons, ih]
    rfl

theorem firstVector_vec {E : Env} {r : Rule} {p : Rat} (hp : r.getPrediction E = .ok (some (.num (.fin p))))
    (hf : r.length ≠ 0) (n : Nat) (on : Nat → Bool) :
    firstVector E r (vec n on) = .ok (table n fun i => if on i then .fin p else .nan) := by
  have : (vec n on).map (fun a : Nat => Label.num (if a = 0 then .nan else Num.mul (.fin p) (.fin a))) =
      (table n fun i => if on i then .fin p else .nan).map .num := by
    simp only [vec, table, List.map_map]
    refine List.map_congr_left fun i _ => ?_
    cases h : on i <;> simp [h, Num.mul]
  simp only [firstVector, Rule.calcPredictionVector, hp, hf, bind, Except.bind, if_false, Option.getD_some]
  rw [this]
  exact numbers_map_num _

theorem beq_fin (a b : Rat) : (Num.fin a).beq (.fin b) = decide (a = b) := by
  simp [Num.beq, Num.le, le_antisymm_iff]

theorem weightOf_eq {S : SetEnv} {w : Weights} {rules : List Rule} {wt : Rule → Rat} (h : WeightsAre S w rules wt)
    {r : Rule} (hr : r ∈ rules) : weightOf w (S.condStr r.cond) = if wt r = 0 then none else some (.fin (wt r)) := by
  unfold weightOf
  rcases h r hr with h | ⟨h0, h | h⟩
  · rw [h]
    simp only [beq_fin, decide_eq_true_eq, Num.isNaN, Bool.false_eq_true, if_false]
  · rw [h]; simp [h0]
  · rw [h, if_pos h0]; rfl

theorem activeSum_nil (on : Rule → Nat → Bool) (f : Rule → Rat) (i : Nat) : activeSum [] on f i = 0 := rfl

theorem activeSum_append (l l' : List Rule) (on : Rule → Nat → Bool) (f : Rule → Rat) (i : Nat) :
    activeSum (l ++ l') on f i = activeSum l on f i + activeSum l' on f i := by
  simp [activeSum]

theorem activeSum_single (r : Rule) (on : Rule → Nat → Bool) (f : Rule → Rat) (i : Nat) :
    activeSum [r] on f i = if on r i then f r else 0 := by
  cases h : on r i <;> simp [activeSum, h]

theorem activeSum_perm {l l' : List Rule} (h : l.Perm l') (on : Rule → Nat → Bool) (f : Rule → Rat) (i : Nat) :
    activeSum l on f i = activeSum l' on f i :=
  ((h.filter _).map f).sum_eq

/-- What the loop has accumulated after the rules `done`, all of them with a weight: the sum at each point, missing where it is
zero — unless there is only one rule, which is missing where it is not active. -/
def cumulated (done : List Rule) (on : Rule → Nat → Bool) (f : Rule → Rat) (i : Nat) : Num :=
  match done with
  | [r] => if on r i then .fin (f r) else .nan
  | _ => if activeSum done on f i = 0 then .nan else .fin (activeSum done on f i)

theorem cumulated_zero (done : List Rule) (hne : done ≠ []) (on : Rule → Nat → Bool) (f : Rule → Rat) (n : Nat) :
    ((table n (cumulated done on f)).any fun c => c.beq (.fin 0)) = true ↔
      done.length = 1 ∧ ZeroFirst done on f n := by
  rw [List.any_eq_true]
  simp only [table, List.mem_map, List.mem_range, exists_exists_and_eq_and]
  match done, hne with
  | [r], _ =>
    simp only [cumulated, List.length_cons, List.length_nil, true_and, ZeroFirst]
    constructor
    · rintro ⟨i, hi, h⟩
      cases ho : on r i with
      | false => simp [ho, Num.beq, Num.le] at h
      | true =>
        simp only [ho, if_true, beq_fin, decide_eq_true_eq] at h
        exact ⟨r, [], rfl, h, i, hi, ho⟩
    · rintro ⟨r', rest, e, h, i, hi, ho⟩
      cases e
      exact ⟨i, hi, by simp [ho, h, beq_fin]⟩
  | r :: r' :: rest, _ =>
    simp only [cumulated]
    constructor
    · rintro ⟨i, hi, h⟩
      split at h
      · simp [Num.beq, Num.le] at h
      · rename_i h0
        simp [beq_fin, h0] at h
    · rintro ⟨h, -⟩
      simp at h

theorem cumulated_fill (done : List Rule) (on : Rule → Nat → Bool) (f : Rule → Rat) (i : Nat) :
    (if (cumulated done on f i).isNaN then Num.fin 0 else cumulated done on f i) = .fin (activeSum done on f i) := by
  match done with
  | [] => simp [cumulated, activeSum, Num.isNaN]
  | [r] =>
    cases h : on r i <;> simp [cumulated, activeSum, h, Num.isNaN]
  | r :: r' :: rest =>
    simp only [cumulated]
    split
    · rename_i h; simp [Num.isNaN, h]
    · simp [Num.isNaN]

theorem accumulate_table {done : List Rule} (hne : done ≠ []) (on : Rule → Nat → Bool) (f : Rule → Rat) (n : Nat) (r : Rule) :
    accumulate (table n (cumulated done on f)) (table n fun i => .fin (if on r i then f r else 0)) =
      if ((table n (cumulated done on f)).any fun c => c.beq (.fin 0)) = true then .error .typeError
      else .ok (table n (cumulated (done ++ [r]) on f)) := by
  unfold accumulate
  split
  · rfl
  · rw [map_table]
    simp only [cumulated_fill]
    rw [zipOp_table]
    simp only [bind, Except.bind]
    rw [map_table]
    refine congrArg _ (table_congr fun i _ => ?_)
    obtain ⟨a, b, l, hl⟩ : ∃ a b l, done ++ [r] = a :: b :: l := by
      match done, hne with
      | [a], _ => exact ⟨a, r, [], rfl⟩
      | a :: b :: l, _ => exact ⟨a, b, l ++ [r], rfl⟩
    have : cumulated (done ++ [r]) on f i =
        if activeSum (done ++ [r]) on f i = 0 then .nan else .fin (activeSum (done ++ [r]) on f i) := by
      rw [hl]; rfl
    rw [this]
    simp only [Num.add, beq_fin, activeSum_append, activeSum_single, decide_eq_true_eq]

open Classical in
theorem weightedStep_voter {S : SetEnv} {w : Weights} {xs : Option Xs} {n : Nat} {on : Rule → Nat → Bool} {p wt : Rule → Rat}
    {rules : List Rule} (h : Regressors S xs rules n on p) (hw : WeightsAre S w rules wt) (done : List Rule) {r : Rule}
    (hr : r ∈ rules) (h0 : wt r ≠ 0) :
    weightedStep S w xs (if done = [] then none
      else some (table n (cumulated done on fun r => p r * wt r), table n fun i => .fin (activeSum done on wt i))) r =
    if done.length = 1 ∧ ZeroFirst done on (fun r => p r * wt r) n then .error .typeError
    else .ok (some (table n (cumulated (done ++ [r]) on fun r => p r * wt r),
      table n fun i => .fin (activeSum (done ++ [r]) on wt i))) := by
  unfold weightedStep
  rw [weightOf_eq hw hr, if_neg h0]
  have hlen : ¬ ((vec n (on r)).length = 0) := by rw [vec_length]; exact Nat.pos_iff_ne_zero.1 h.points
  simp only [h.act r hr, bind, Except.bind, if_neg hlen]
  by_cases hd : done = []
  · subst hd
    simp only [if_true, firstVector_vec (h.pred r hr) (h.feature r hr), scale_vec, map_table]
    rw [if_neg (by simp)]
    refine congrArg (fun x => Except.ok (some x)) (Prod.ext (table_congr fun i _ => ?_) (table_congr fun i _ => ?_))
    · simp only [List.nil_append, cumulated]
      cases on r i <;> rfl
    · rw [List.nil_append, activeSum_single]
  · simp only [hd, if_false, h.pred r hr, numberOf, scale_vec, map_table]
    have hp : (fun i => Num.mul (Num.fin (if on r i = true then p r else 0)) (Num.fin (wt r))) =
        fun i => Num.fin (if on r i then (fun r => p r * wt r) r else 0) := by
      funext i; cases on r i <;> simp [Num.mul]
    rw [hp, accumulate_table hd]
    have hz := cumulated_zero done hd on (fun r => p r * wt r) n
    by_cases hany : ((table n (cumulated done on fun r => p r * wt r)).any fun c => c.beq (.fin 0)) = true
    · rw [if_pos hany, if_pos (hz.1 hany)]
    · rw [if_neg hany, if_neg fun h => hany (hz.2 h)]
      simp only [zipOp_table]
      refine congrArg (fun x => Except.ok (some x)) (Prod.ext rfl (table_congr fun i _ => ?_))
      simp only [activeSum_append, activeSum_single, Num.add]

open Classical in
/-- The numerator and denominator after the rules `done` -/
theorem weighted_loop {S : SetEnv} {w : Weights} {xs : Option Xs} {n : Nat} {on : Rule → Nat → Bool} {p wt : Rule → Rat}
    {rules : List Rule} (h : Regressors S xs rules n on p) (hw : WeightsAre S w rules wt) (done : List Rule)
    (acc : Option (List Num × List Num))
    (hacc : acc = if done = [] then none
      else some (table n (cumulated done on fun r => p r * wt r), table n fun i => .fin (activeSum done on wt i))) :
    rules.foldlM (weightedStep S w xs) acc =
      if 2 ≤ (done ++ voters rules wt).length ∧ done.length ≤ 1 ∧ ZeroFirst (done ++ voters rules wt) on (fun r => p r * wt r) n
      then .error .typeError
      else if done ++ voters rules wt = [] then .ok none
      else .ok (some (table n (cumulated (done ++ voters rules wt) on fun r => p r * wt r),
        table n fun i => .fin (activeSum (done ++ voters rules wt) on wt i))) := by
  induction rules generalizing done acc with
  | nil =>
    simp only [voters, List.filter_nil, List.append_nil, List.foldlM_nil]
    rw [if_neg (by rintro ⟨h1, h2, -⟩; omega), hacc]
    split <;> rfl
  | cons r rules ih =>
    have h' : Regressors S xs rules n on p :=
      ⟨h.points, fun r hr => h.act r (by simp [hr]), fun r hr => h.pred r (by simp [hr]), fun r hr => h.feature r (by simp [hr])⟩
    have hw' : WeightsAre S w rules wt := fun r hr => hw r (by simp [hr])
    rw [List.foldlM_cons]
    by_cases h0 : wt r = 0
    · have : voters (r :: rules) wt = voters rules wt := by simp [voters, h0]
      rw [this]
      have : weightedStep S w xs acc r = .ok acc := by
        unfold weightedStep
        rw [weightOf_eq hw (by simp), if_pos h0]
      rw [this]
      exact ih h' hw' done acc hacc
    · have hv : done ++ voters (r :: rules) wt = (done ++ [r]) ++ voters rules wt := by simp [voters, h0]
      rw [hv, hacc, weightedStep_voter h hw done (by simp) h0]
      by_cases hz : done.length = 1 ∧ ZeroFirst done on (fun r => p r * wt r) n
      · rw [if_pos hz, if_pos]
        · rfl
        · obtain ⟨h1, r0, rest, e, h2⟩ := hz
          refine ⟨by simp; omega, by omega, r0, rest ++ [r] ++ voters rules wt, by simp [e], h2⟩
      · rw [if_neg hz]
        refine (ih h' hw' (done ++ [r]) _ (by rw [if_neg (by simp)])).trans ?_
        by_cases hd : done = []
        · subst hd; simp
        · have hl : 1 ≤ done.length := List.length_pos_iff.2 hd
          rw [if_neg, if_neg (by simp), if_neg]
          · rintro ⟨-, h1, r0, rest, e, h2⟩
            refine hz ⟨by omega, ?_⟩
            match done, hd with
            | a :: l, _ =>
              simp only [List.cons_append, List.cons.injEq] at e
              exact ⟨a, l, rfl, e.1 ▸ h2⟩
          · rintro ⟨-, h1, -⟩
            rw [List.length_append, List.length_singleton] at h1; omega

/-- What `cumulated` is divided by -/
theorem weightedRegressor_eq {S : SetEnv} {w : Weights} {xs : Option Xs} {n : Nat} {on : Rule → Nat → Bool}
    {p wt : Rule → Rat} {rules : List Rule} (h : Regressors S xs rules n on p) (hw : WeightsAre S w rules wt)
    (hne : voters rules wt ≠ []) (hz : 2 ≤ (voters rules wt).length → ¬ ZeroFirst (voters rules wt) on (fun r => p r * wt r) n) :
    weightedRegressor S rules w xs = .ok (table n fun i =>
      Num.div (cumulated (voters rules wt) on (fun r => p r * wt r) i) (.fin (activeSum (voters rules wt) on wt i))) := by
  classical
  unfold weightedRegressor
  have hr : rules.length ≠ 0 := by
    intro h0
    rw [List.length_eq_zero_iff] at h0
    subst h0
    exact hne rfl
  have := weighted_loop h hw [] none (by simp)
  simp only [List.nil_append] at this
  rw [if_neg hr, this, if_neg (fun h => hz h.1 h.2.2), if_neg hne]
  simp only [bind, Except.bind]
  rw [zipOp_table]

/-! ## Equal weights -/

/-- The bytes `cum_w` -/
def bytes (n : Nat) (done : List Rule) (on : Rule → Nat → Bool) : List Nat :=
  (List.range n).map fun i => activeCount done on i % 256

theorem addBytes_vec (n : Nat) (done : List Rule) (on : Rule → Nat → Bool) (r : Rule) :
    addBytes (bytes n done on) (vec n (on r)) = .ok (bytes n (done ++ [r]) on) := by
  unfold addBytes
  rw [if_pos (by simp [bytes, vec])]
  unfold bytes vec
  rw [zipWith_range]
  refine congrArg _ (List.map_congr_left fun i _ => ?_)
  cases h : on r i <;> simp [activeCount, List.filter_append, h]

theorem bytes_single (n : Nat) (on : Rule → Nat → Bool) (r : Rule) : bytes n [r] on = vec n (on r) := by
  unfold bytes vec
  refine List.map_congr_left fun i _ => ?_
  cases h : on r i <;> simp [activeCount, h]

theorem writeBack_twice (k : Option Nat) (v v' : List Nat) (rules : List Rule) :
    writeBack k v' (writeBack k v rules) = writeBack k v' rules := by
  cases k with
  | none => rfl
  | some i =>
    simp only [writeBack, List.modify_modify_eq]
    rfl

theorem equal_loop {S : SetEnv} {xs : Option Xs} {n : Nat} {on : Rule → Nat → Bool} {p : Rule → Rat}
    {rules : List Rule} (h : Regressors S xs rules n on p) (done : List Rule) (hd : done ≠ [])
    (hz : ¬ (done.length = 1 ∧ ZeroFirst done on p n)) (i : Nat) (k : Option Nat) (st : List Rule) :
    equalLoop S xs i rules (some (k, table n (cumulated done on p), bytes n done on)) st =
      (.ok (some (k, table n (cumulated (done ++ rules) on p), bytes n (done ++ rules) on)),
        if rules = [] then st else writeBack k (bytes n (done ++ rules) on) st) := by
  induction rules generalizing done i st with
  | nil => simp [equalLoop]
  | cons r rules ih =>
    have h' : Regressors S xs rules n on p :=
      ⟨h.points, fun r hr => h.act r (by simp [hr]), fun r hr => h.pred r (by simp [hr]), fun r hr => h.feature r (by simp [hr])⟩
    have hlen : ¬ ((vec n (on r)).length = 0) := by rw [vec_length]; exact Nat.pos_iff_ne_zero.1 h.points
    have hstep : equalStep S xs i r (some (k, table n (cumulated done on p), bytes n done on)) st =
        (.ok (some (k, table n (cumulated (done ++ [r]) on p), bytes n (done ++ [r]) on)),
          writeBack k (bytes n (done ++ [r]) on) st) := by
      have hc := cumulated_zero done hd on p n
      unfold equalStep
      rw [Py.bind_run]
      simp only [Py.ofExcept_run, h.act r (by simp), if_neg hlen]
      rw [Py.bind_run]
      simp only [Py.ofExcept_run, h.pred r (by simp)]
      rw [Py.bind_run]
      simp only [Py.ofExcept_run, numberOf]
      rw [Py.bind_run, scale_vec, accumulate_table hd, if_neg fun h => hz (hc.1 h)]
      simp only [Py.ofExcept_run]
      rw [Py.bind_run, addBytes_vec]
      simp only [Py.ofExcept_run]
      rw [Py.bind_run]
      rfl
    unfold equalLoop
    rw [Py.bind_ok hstep, ih h' (done ++ [r]) (by simp) (by
      rintro ⟨h1, -⟩
      have := List.length_pos_iff.2 hd
      rw [List.length_append, List.length_singleton] at h1; omega)]
    refine Prod.ext (by simp) ?_
    simp only [List.append_assoc, List.singleton_append]
    by_cases hr : rules = []
    · subst hr; simp
    · rw [if_neg hr, if_neg (by simp), writeBack_twice]

theorem equalStep_first {S : SetEnv} {xs : Option Xs} {n : Nat} {on : Rule → Nat → Bool} {p : Rule → Rat}
    {r : Rule} (hn : 0 < n) (ha : activationOf S.env xs r = .ok (some (vec n (on r))))
    (hp : r.getPrediction S.env = .ok (some (.num (.fin (p r))))) (hf : r.length ≠ 0) (i : Nat) (st : List Rule) :
    equalStep S xs i r none st =
      (.ok (some (aliased S xs i r, table n (cumulated [r] on p), bytes n [r] on)), st) := by
  have hlen : ¬ ((vec n (on r)).length = 0) := by rw [vec_length]; exact Nat.pos_iff_ne_zero.1 hn
  unfold equalStep
  rw [Py.bind_run]
  simp only [Py.ofExcept_run, ha, if_neg hlen]
  rw [Py.bind_run, firstVector_vec hp hf, bytes_single]
  rfl

/-- The unweighted combination, and what remains of the rules -/
theorem equalRegressor_eq {S : SetEnv} {xs : Option Xs} {n : Nat} {on : Rule → Nat → Bool} {p : Rule → Rat} {r : Rule}
    {rules : List Rule} (h : Regressors S xs (r :: rules) n on p) (hz : rules ≠ [] → ¬ ZeroFirst (r :: rules) on p n) :
    equalRegressor S xs (r :: rules) =
      (.ok (table n fun i => Num.div (cumulated (r :: rules) on p i) (.fin (activeCount (r :: rules) on i % 256 : Nat))),
        if rules = [] then r :: rules else writeBack (aliased S xs 0 r) (bytes n (r :: rules) on) (r :: rules)) := by
  have h' : Regressors S xs rules n on p :=
    ⟨h.points, fun r hr => h.act r (by simp [hr]), fun r hr => h.pred r (by simp [hr]), fun r hr => h.feature r (by simp [hr])⟩
  unfold equalRegressor
  rw [Py.bind_run]
  simp only [Py.get_run, List.length_cons, Nat.add_eq_zero_iff, one_ne_zero, and_false, if_false]
  rw [Py.bind_run, equalLoop, Py.bind_ok (equalStep_first (on := on) h.points (h.act r (by simp)) (h.pred r (by simp))
    (h.feature r (by simp)) 0 _)]
  have hfin : ∀ l, (bytes n l on).map (fun a : Nat => Num.fin a) = table n fun i => .fin (activeCount l on i % 256 : Nat) := by
    intro l; simp [bytes, table, Function.comp_def]
  by_cases hr : rules = []
  · subst hr
    simp only [equalLoop, Py.pure_run, Py.ofExcept_run, hfin, zipOp_table, if_true]
  · rw [equal_loop h' [r] (by simp) (by
      rintro ⟨-, r0, rest, e, h0⟩
      cases e
      exact hz hr ⟨r, rules, rfl, h0⟩)]
    simp only [Py.ofExcept_run, List.singleton_append, hfin, zipOp_table]

/-- The failure of a first prediction of zero -/
theorem equalRegressor_zero {S : SetEnv} {xs : Option Xs} {n : Nat} {on : Rule → Nat → Bool} {p : Rule → Rat} {r r' : Rule}
    {rules : List Rule} (h : Regressors S xs (r :: r' :: rules) n on p) (hz : ZeroFirst (r :: r' :: rules) on p n) :
    equalRegressor S xs (r :: r' :: rules) = (.error .typeError, r :: r' :: rules) := by
  unfold equalRegressor
  rw [Py.bind_run]
  simp only [Py.get_run, List.length_cons, Nat.add_eq_zero_iff, one_ne_zero, and_false, if_false]
  rw [Py.bind_run, equalLoop, Py.bind_ok (equalStep_first (on := on) h.points (h.act r (by simp)) (h.pred r (by simp))
    (h.feature r (by simp)) 0 _), equalLoop]
  have hlen : ¬ ((vec n (on r')).length = 0) := by rw [vec_length]; exact Nat.pos_iff_ne_zero.1 h.points
  have hc := (cumulated_zero [r] (by simp) on p n).2 ⟨rfl, by
    obtain ⟨r0, rest, e, h0⟩ := hz
    cases e
    exact ⟨r, [], rfl, h0⟩⟩
  have hstep : ∀ st, equalStep S xs 1 r' (some (aliased S xs 0 r, table n (cumulated [r] on p), bytes n [r] on)) st =
      (.error .typeError, st) := by
    intro st
    unfold equalStep
    rw [Py.bind_run]
    simp only [Py.ofExcept_run, h.act r' (by simp), if_neg hlen]
    rw [Py.bind_run]
    simp only [Py.ofExcept_run, h.pred r' (by simp)]
    rw [Py.bind_run]
    simp only [Py.ofExcept_run, numberOf]
    rw [Py.bind_run, scale_vec, accumulate_table (by simp), if_pos hc]
    rfl
  rw [Py.bind_err (hstep _)]

end Verif.Vote
