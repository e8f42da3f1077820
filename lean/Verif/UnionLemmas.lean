import Verif.SortLemmas

/-!
# Lemmas about rulesets: the activation is the union of those of the rules
-/

namespace Verif.RuleSet

open Verif Vote Spec

variable {R : RsEnv} {n : Nat}

/-- Where a vector is 1 -/
def isOne (v : List Nat) (i : Nat) : Bool := v[i]? = some 1

theorem vec_congr {f g : Nat → Bool} (h : ∀ i < n, f i = g i) : vec n f = vec n g := by
  unfold vec
  apply List.map_congr_left
  intro i hi
  rw [h i (List.mem_range.1 hi)]

theorem vec_isOne (f : Nat → Bool) : vec n (isOne (vec n f)) = vec n f := by
  apply vec_congr
  intro i hi
  unfold isOne vec
  rw [List.getElem?_map, List.getElem?_range hi]
  cases h : f i <;> simp [h]

theorem isOne_vec {f : Nat → Bool} {i : Nat} (hi : i < n) : isOne (vec n f) i = f i := by
  unfold isOne vec
  rw [List.getElem?_map, List.getElem?_range hi]
  cases h : f i <;> simp [h]

theorem vec_len (f : Nat → Bool) : (vec n f).length = n := by simp [vec]

theorem zipWith_vec (op : Nat → Nat → Nat) (op' : Bool → Bool → Bool)
    (h : ∀ a b : Bool, op (if a then 1 else 0) (if b then 1 else 0) = if op' a b then 1 else 0) (f g : Nat → Bool) :
    List.zipWith op (vec n f) (vec n g) = vec n fun i => op' (f i) (g i) := by
  unfold vec
  rw [List.zipWith_map, List.zipWith_self]
  apply List.map_congr_left
  intro i _
  rw [h]

theorem anyOf_vec (f g : Nat → Bool) : anyOf (vec n f) (vec n g) = vec n fun i => f i || g i :=
  zipWith_vec _ _ (by decide) f g

theorem union_vec {f g : Nat → Bool} {u : List Nat} (h : union R (vec n f) (vec n g) = .ok u) :
    u = vec n fun i => f i || g i := by
  unfold union at h
  split at h
  · cases h
  · simp only [bind, Except.bind] at h
    split at h
    · cases h
    · cases h
      exact zipWith_vec _ _ (by decide) f g

theorem foldl_anyOf {acts : List (List Nat)} (h : ∀ v ∈ acts, ∃ f, v = vec n f) (g : Nat → Bool) :
    acts.foldl anyOf (vec n g) = vec n fun i => g i || acts.any fun v => isOne v i := by
  induction acts generalizing g with
  | nil => simp
  | cons v acts ih =>
    obtain ⟨f, rfl⟩ := h v (by simp)
    rw [List.foldl_cons, anyOf_vec, ih fun v hv => h v (by simp [hv])]
    apply vec_congr
    intro i hi
    simp only [List.any_cons, isOne_vec hi, Bool.or_assoc]

theorem foldlM_union {acts : List (List Nat)} (h : ∀ v ∈ acts, ∃ f, v = vec n f) (g : Nat → Bool) {u : List Nat}
    (hu : acts.foldlM (union R) (vec n g) = .ok u) : u = vec n fun i => g i || acts.any fun v => isOne v i := by
  induction acts generalizing g with
  | nil =>
    simp only [List.foldlM_nil, pure, Except.pure] at hu
    cases hu
    simp
  | cons v acts ih =>
    obtain ⟨f, rfl⟩ := h v (by simp)
    simp only [List.foldlM_cons, bind, Except.bind] at hu
    split at hu
    · cases hu
    · rename_i w hw
      rw [union_vec hw] at hu
      rw [ih (fun v hv => h v (by simp [hv])) _ hu]
      apply vec_congr
      intro i hi
      simp only [List.any_cons, isOne_vec hi, Bool.or_assoc]

/-- Whichever way the union is computed -/
theorem unionAll_vec {acts : List (List Nat)} (h : ∀ v ∈ acts, ∃ f, v = vec n f) {u : List Nat}
    (hu : unionAll R acts = .ok u) : u = vec n fun i => acts.any fun v => isOne v i := by
  cases acts with
  | nil =>
    simp only [unionAll, multiOr] at hu
    cases hu
  | cons v acts =>
    obtain ⟨f, rfl⟩ := h v (by simp)
    have hr : ∀ v ∈ acts, ∃ f, v = vec n f := fun v hv => h v (by simp [hv])
    have e : (vec n fun i => f i || acts.any fun v => isOne v i) =
        vec n fun i => (vec n f :: acts).any fun v => isOne v i := by
      apply vec_congr
      intro i hi
      simp only [List.any_cons, isOne_vec hi]
    rw [← e]
    unfold unionAll at hu
    split at hu
    · exact foldlM_union hr f hu
    · unfold multiOr at hu
      simp only [bind, Except.bind] at hu
      split at hu
      · cases hu
      split at hu
      · cases hu
      · cases hu
        have : (vec n f).map (fun x : Nat => if x = 0 then 0 else 1) = vec n f := by
          unfold vec
          rw [List.map_map]
          apply List.map_congr_left
          intro i _
          cases h : f i <;> simp [h]
        rw [this]
        exact foldl_anyOf hr f

theorem coveredBy_append (l l' : List Member) (i : Nat) : coveredBy (l ++ l') i = (coveredBy l i || coveredBy l' i) := by
  simp [coveredBy, List.any_append]

theorem coveredBy_perm {l l' : List Member} (h : l.Perm l') (i : Nat) : coveredBy l i = coveredBy l' i := by
  unfold coveredBy
  exact h.any_eq

/-- The stored vectors of rules which have one -/
theorem mapM_act {rules : List Member} (h : ∀ m ∈ rules, HasPoints n m) :
    rules.mapM (fun m : Member => m.rule.act) = some (rules.map fun m => m.rule.act.getD []) := by
  induction rules with
  | nil => rfl
  | cons m rules ih =>
    obtain ⟨on, hon⟩ := h m (by simp)
    rw [List.mapM_cons, ih fun m hm => h m (by simp [hm]), hon]
    simp [hon]

theorem stored_vec {rules : List Member} (h : ∀ m ∈ rules, HasPoints n m) :
    ∀ v ∈ rules.map fun m => m.rule.act.getD [], ∃ f, v = vec n f := by
  intro v hv
  obtain ⟨m, hm, rfl⟩ := List.mem_map.1 hv
  obtain ⟨on, hon⟩ := h m hm
  exact ⟨on, by rw [hon]; rfl⟩

theorem coveredBy_stored {rules : List Member} (i : Nat) :
    ((rules.map fun m => m.rule.act.getD []).any fun v => isOne v i) = coveredBy rules i := by
  unfold coveredBy
  rw [List.any_map]
  congr 1
  funext m
  simp only [Function.comp_apply, isOne]
  cases m.rule.act <;> simp

/-- The activation computed from the rules is the union of theirs. -/
theorem evaluateSelf_stored {rules : List Member} (h : ∀ m ∈ rules, HasPoints n m) (hne : rules ≠ []) {a : Option (List Nat)}
    (ha : evaluateSelf R none rules = .ok a) : a = some (vec n (coveredBy rules)) := by
  unfold evaluateSelf at ha
  rw [if_neg fun e => hne (List.length_eq_zero_iff.1 e)] at ha
  simp only [activations, mapM_act h, bind, Except.bind] at ha
  have e : (vec n fun i => (rules.map fun m => m.rule.act.getD []).any fun v => isOne v i) = vec n (coveredBy rules) := by
    apply vec_congr
    intro i _
    exact coveredBy_stored i
  split at ha
  · rename_i hx
    cases hx
  · rename_i v hx
    split at ha
    · cases ha
    · cases ha
      obtain ⟨f, hf⟩ := stored_vec h v (by rw [Option.some.inj hx]; simp)
      rw [← e, Option.some.inj hx]
      simp only [List.any_cons, List.any_nil, Bool.or_false]
      rw [hf, vec_isOne]
  · rename_i acts _ hx
    cases hx
    cases hu : unionAll R (rules.map fun m => m.rule.act.getD []) with
    | error e => rw [hu] at ha; cases ha
    | ok u =>
      rw [hu] at ha
      cases ha
      rw [unionAll_vec (stored_vec h) hu, e]

theorem SameButIndexes.act {l l' : List Member} (h : SameButIndexes l l') :
    l'.map (fun m => m.rule.act) = l.map fun m => m.rule.act := by
  induction h with
  | nil => rfl
  | cons h _ ih =>
    obtain ⟨-, idx, e⟩ := h
    rw [List.map_cons, List.map_cons, ih, e]

theorem coveredBy_acts {l l' : List Member} (h : l'.map (fun m => m.rule.act) = l.map fun m => m.rule.act) (i : Nat) :
    coveredBy l' i = coveredBy l i := by
  have : ∀ l : List Member, coveredBy l i = (l.map fun m => m.rule.act).any fun o => match o with
      | some v => v[i]? = some 1
      | none => false := by
    intro l
    unfold coveredBy
    rw [List.any_map]
    rfl
  rw [this, this, h]

theorem hasPoints_acts {l l' : List Member} (h : l'.map (fun m => m.rule.act) = l.map fun m => m.rule.act)
    (hl : ∀ m ∈ l, HasPoints n m) : ∀ m ∈ l', HasPoints n m := by
  intro m hm
  have : m.rule.act ∈ l.map fun m => m.rule.act := by
    rw [← h]
    exact List.mem_map_of_mem hm
  obtain ⟨m', hm', e⟩ := List.mem_map.1 this
  obtain ⟨on, hon⟩ := hl m' hm'
  exact ⟨on, by rw [← e, hon]⟩

/-- What the activation of a ruleset should be -/
structure UnionOk (n : Nat) (s : RuleSet) : Prop where
  compute : s.compute = true
  points : ∀ m ∈ s.rules, HasPoints n m
  empty : s.rules = [] → s.available = none
  union : s.rules ≠ [] → s.act = some (vec n (coveredBy s.rules))

theorem available_vec (hn : 0 < n) {s : RuleSet} {f : Nat → Bool} (h : s.act = some (vec n f)) :
    s.available = some (vec n f) := by
  unfold available
  rw [h]
  simp only [vec_len]
  rw [if_neg (by omega)]

theorem UnionOk.make {rules : List Member} {stack : Bool} {s : RuleSet} (hp : ∀ m ∈ rules, HasPoints n m)
    (h : Made R rules true stack s) : UnionOk n s := by
  refine ⟨h.compute, hasPoints_acts h.same.act hp, ?_, ?_⟩
  · intro e
    have hl : rules = [] := by
      have := h.same
      rw [e] at this
      cases this
      rfl
    have ha := h.act
    simp only [if_true, hl, evaluateSelf, List.length_nil, bind, Except.bind] at ha
    split at ha
    · cases ha
    · have ha := Except.ok.inj ha
      simp [available, ← ha]
  · intro hne
    have hl : rules ≠ [] := by
      intro e
      have := h.same
      rw [e] at this
      cases hs : s.rules with
      | nil => exact hne hs
      | cons m l => rw [hs] at this; cases this
    have ha := h.act
    simp only [if_true] at ha
    have := evaluateSelf_stored hp hl ha
    rw [this]
    congr 1
    apply vec_congr
    intro i _
    rw [coveredBy_acts h.same.act]

/-- The union of the activation of a ruleset and of another vector -/
theorem UnionOk.newAct (hn : 0 < n) {s : RuleSet} (hs : UnionOk n s) {g : Nat → Bool} {a : Option (List Nat)}
    (h : NewAct R s (some (vec n g)) a) : a = some (vec n fun i => coveredBy s.rules i || g i) := by
  unfold NewAct at h
  simp only at h
  by_cases he : s.rules = []
  · rw [hs.empty he] at h
    simp only at h
    rw [h.2, he]
    congr 1
  · rw [available_vec hn (hs.union he)] at h
    simp only at h
    obtain ⟨u, hu, rfl⟩ := h
    rw [union_vec hu]

theorem UnionOk.iaddRule (hn : 0 < n) {m : Member} {s s' : RuleSet} (hs : UnionOk n s) (hm : HasPoints n m)
    (h : RuleSet.iaddRule R m s = (.ok (), s')) : UnionOk n s' := by
  obtain ⟨idx, na, a, c, -, -, -, -, ha, -, -, rfl⟩ := iaddRule_ok h
  obtain ⟨on, hon⟩ := hm
  have ha := ha hs.compute
  rw [hon] at ha
  have ha := hs.newAct hn ha
  refine ⟨hs.compute, ?_, by simp, ?_⟩
  · intro x hx
    rcases List.mem_append.1 hx with hx | hx
    · exact hs.points x hx
    · rw [List.mem_singleton.1 hx]
      exact ⟨on, hon⟩
  · intro _
    simp only
    rw [ha]
    congr 1
    apply vec_congr
    intro i hi
    rw [coveredBy_append]
    congr 1
    simp only [coveredBy, List.any_cons, List.any_nil, Bool.or_false, hon]
    have := isOne_vec (f := on) hi
    unfold isOne at this
    exact this.symm

theorem UnionOk.iaddSet (hn : 0 < n) {o s s' : RuleSet} (hs : UnionOk n s) (ho : UnionOk n o)
    (h : RuleSet.iaddSet R o s = (.ok (), s')) : UnionOk n s' := by
  obtain ⟨a, c, -, -, ha, -, -, rfl⟩ := iaddSet_ok h
  have ha := ha hs.compute
  have hp : ∀ x ∈ s.rules ++ o.rules, HasPoints n x := by
    intro x hx
    rcases List.mem_append.1 hx with hx | hx
    · exact hs.points x hx
    · exact ho.points x hx
  by_cases he : o.rules = []
  · rw [ho.empty he] at ha
    have ha : a = s.act := ha
    subst ha
    refine ⟨hs.compute, hp, ?_, ?_⟩
    · simp only [he, List.append_nil]
      exact hs.empty
    · simp only [he, List.append_nil]
      exact hs.union
  · rw [available_vec hn (ho.union he)] at ha
    have ha := hs.newAct hn ha
    refine ⟨hs.compute, hp, ?_, ?_⟩
    · simp only [List.append_eq_nil_iff]
      exact fun e => absurd e.2 he
    · intro _
      simp only
      rw [ha]
      congr 1
      apply vec_congr
      intro i hi
      rw [coveredBy_append]

theorem UnionOk.perm {s s' : RuleSet} (hs : UnionOk n s) (hc : s'.compute = s.compute) (hp : s'.rules.Perm s.rules)
    (ha : s'.act = s.act) : UnionOk n s' := by
  refine ⟨hc.trans hs.compute, fun m hm => hs.points m (hp.mem_iff.1 hm), ?_, ?_⟩
  · intro e
    rw [e] at hp
    have := hs.empty hp.symm.eq_nil
    unfold available at this ⊢
    rw [ha]
    exact this
  · intro hne
    rw [ha, hs.union fun e => hne (by rw [e] at hp; exact hp.eq_nil)]
    congr 1
    apply vec_congr
    intro i _
    rw [coveredBy_perm hp]

theorem firsts_sublist {κ α} [DecidableEq κ] (l : List (κ × α)) : (firsts l).Sublist l := by
  induction l with
  | nil => exact .slnil
  | cons p l ih =>
    unfold firsts
    exact (List.filter_sublist.trans ih).cons_cons p

theorem setOf_mem {l l' : List Member} (h : setOf R l = .ok l') {m : Member} (hm : m ∈ l') : m ∈ l := by
  unfold setOf at h
  simp only [bind, Except.bind] at h
  split at h
  · cases h
  rename_i keys hk
  cases h
  have hm := (R.order_perm _).mem_iff.1 hm
  obtain ⟨p, hp, rfl⟩ := List.mem_map.1 hm
  exact (List.of_mem_zip ((firsts_sublist _).subset hp)).2

/-- After any history -/
theorem Built.unionOk (hn : 0 < n) {b : Bool} {s : RuleSet} (h : Built R (HasPoints n) b s) : UnionOk n s := by
  induction h with
  | empty => exact ⟨rfl, by simp [blank], fun _ => rfl, by simp [blank]⟩
  | make hp h => exact .make hp (make_ok h)
  | iaddRule _ hm h ih => exact ih.iaddRule hn hm h
  | append _ hm h ih =>
    obtain ⟨s1, h1, rfl⟩ := append_update h
    have := ih.iaddRule hn hm h1
    exact ⟨rfl, this.points, this.empty, this.union⟩
  | iaddSet _ _ h ih1 ih2 => exact ih1.iaddSet hn ih2 h
  | @addRule s m s' _ hm h ih =>
    unfold RuleSet.addRule at h
    rw [ih.compute] at h
    refine .make ?_ (make_ok h)
    intro x hx
    rcases List.mem_append.1 hx with hx | hx
    · exact ih.points x hx
    · rw [List.mem_singleton.1 hx]
      exact hm
  | @addSet s o s' _ _ h ih1 ih2 =>
    unfold RuleSet.addSet at h
    simp only [bind, Except.bind] at h
    split at h
    · cases h
    rename_i rules hr
    rw [ih1.compute] at h
    refine .make ?_ (make_ok h)
    intro x hx
    rcases List.mem_append.1 (setOf_mem hr hx) with hx | hx
    · exact ih1.points x hx
    · exact ih2.points x hx
  | @setRules s rules s' _ hp h ih =>
    unfold RuleSet.setRules at h
    rw [Py.bind_ok (Py.get_run s)] at h
    obtain ⟨t, s1, h1, h⟩ := Py.bind_eq_ok h
    simp only [Py.ofExcept_run] at h1
    obtain ⟨e1, e2⟩ := Prod.mk.inj h1
    subst e2
    simp only [Py.modify_run] at h
    cases h
    have := UnionOk.make hp (make_ok e1)
    exact ⟨ih.compute, this.points, this.empty, this.union⟩
  | sort _ h ih =>
    rcases sort_ok h with ⟨-, rfl⟩ | ⟨rules, hr, ⟨-, rfl⟩ | ⟨-, c, c', -, -, rfl⟩⟩
    · exact ih
    · exact ih.perm rfl (sortedRules_perm hr) rfl
    · exact ih.perm rfl (sortedRules_perm hr) rfl

end Verif.RuleSet
