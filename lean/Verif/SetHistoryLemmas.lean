import Verif.SetHistory
import Verif.RuleSetMake
import Verif.SortLemmas

/-!
# Lemmas about histories of rulesets
-/

namespace Verif.RuleSet

open Verif Vote Spec

variable {R : RsEnv}

/-- Rulesets whose rules are of the announced class stay so, whether the call raises or not. -/
def Keeps {α} (m : Py RuleSet α) : Prop := ∀ s, Announced s → Announced (m s).2

/-- The rules and the announced class are not touched. -/
def Leaves (f : RuleSet → RuleSet) : Prop := ∀ s, (f s).rules = s.rules ∧ (f s).ruleType = s.ruleType

namespace Keeps

theorem pure {α} (a : α) : Keeps (pure a) := fun _ h => h
theorem throw {α} (e : Err) : Keeps (Py.throw e : Py RuleSet α) := fun _ h => h
theorem get : Keeps (Py.get : Py RuleSet RuleSet) := fun _ h => h
theorem ofExcept {α} (x : Except Err α) : Keeps (Py.ofExcept x : Py RuleSet α) := fun _ h => h

theorem modify {f : RuleSet → RuleSet} (h : Leaves f) : Keeps (Py.modify f) := by
  intro s hs m hm
  rw [Py.modify_run] at hm ⊢
  obtain ⟨e1, e2⟩ := h s
  rw [e1] at hm
  rw [e2]
  exact hs m hm

theorem bind {α β} {m : Py RuleSet α} {f : α → Py RuleSet β} (h : Keeps m) (h' : ∀ a, Keeps (f a)) : Keeps (m >>= f) := by
  intro s hs
  rw [Py.bind_run]
  have := h s hs
  split
  · rename_i a t e
    rw [e] at this
    exact h' a t this
  · rename_i e t e'
    rw [e'] at this
    exact this

theorem ite {α} {c : Prop} [Decidable c] {a b : Py RuleSet α} (ha : Keeps a) (hb : Keeps b) : Keeps (if c then a else b) := by
  split
  · exact ha
  · exact hb

end Keeps

namespace Keeps

theorem computeSelf (xs : Option Xs) : Keeps (computeSelf R xs) :=
  .bind .get fun _ => .bind (.ofExcept _) fun _ => .modify fun _ => ⟨rfl, rfl⟩

theorem computeStacked (xs : Option Xs) : Keeps (computeStacked R xs) :=
  .bind .get fun _ => .bind (.ofExcept _) fun _ => .modify fun _ => ⟨rfl, rfl⟩

theorem updateActivation (o : Option (List Nat)) : Keeps (updateActivation R o) := by
  unfold RuleSet.updateActivation
  split
  · exact .pure _
  · refine .bind .get fun s => ?_
    split
    · exact .ite (.throw _) (.bind (.ofExcept _) fun _ => .modify fun _ => ⟨rfl, rfl⟩)
    · exact .bind (.ofExcept _) fun _ => .modify fun _ => ⟨rfl, rfl⟩

theorem stackRule (r : Rule) : Keeps (stackRule R r) := by
  unfold RuleSet.stackRule
  split
  · exact .pure _
  · refine .ite (.throw _) (.bind .get fun s => ?_)
    split
    · exact .modify fun _ => ⟨rfl, rfl⟩
    · exact .bind (.ofExcept _) fun _ => .modify fun _ => ⟨rfl, rfl⟩

theorem stackSet (o : RuleSet) : Keeps (stackSet o) := by
  unfold RuleSet.stackSet
  split
  · exact .pure _
  · refine .bind .get fun s => ?_
    split
    · exact .modify fun _ => ⟨rfl, rfl⟩
    · exact .modify fun _ => ⟨rfl, rfl⟩

theorem noteIndexes (l : Option (List Int)) : Keeps (noteIndexes R l) := by
  unfold RuleSet.noteIndexes
  split
  · exact .throw _
  · exact .modify fun _ => ⟨rfl, rfl⟩

theorem noteNames (l : Option (List String)) : Keeps (noteNames R l) := by
  unfold RuleSet.noteNames
  split
  · exact .throw _
  · exact .modify fun _ => ⟨rfl, rfl⟩

theorem updateIf (o : Option (List Nat)) : Keeps (updateIf R o) := .bind .get fun _ => .ite (.updateActivation _) (.pure _)

theorem stackIf {m : Py RuleSet Unit} (h : Keeps m) : Keeps (stackIf m) := .bind .get fun _ => .ite h (.pure _)

theorem empty {s : RuleSet} (hs : Announced s) (hk : s.ruleType = none) : s.rules = [] := by
  cases hr : s.rules with
  | nil => rfl
  | cons a l =>
    have := hs a (by rw [hr]; exact List.mem_cons_self ..)
    rw [hk] at this
    cases this

theorem pushRule (m : Member) : Keeps (pushRule m) := by
  intro s hs
  unfold RuleSet.pushRule
  rw [Py.bind_ok (Py.get_run s)]
  cases hk : s.ruleType with
  | none =>
    intro m' hm
    simp only [Py.modify_run, empty hs hk, List.nil_append, List.mem_singleton] at hm ⊢
    rw [hm]
  | some k =>
    by_cases e : k = m.kind
    · intro m' hm
      simp only [if_pos e, Py.modify_run, List.mem_append, List.mem_singleton] at hm ⊢
      rcases hm with hm | rfl
      · exact hs m' hm
      · rw [hk, e]
    · simp only [if_neg e]
      exact hs

theorem pushSet {o : RuleSet} (ho : Announced o) : Keeps (pushSet o) := by
  intro s hs
  unfold RuleSet.pushSet
  rw [Py.bind_ok (Py.get_run s)]
  cases hk' : o.ruleType with
  | none =>
    have : Announced (Py.modify (fun s : RuleSet => { s with rules := s.rules ++ o.rules }) s).2 := by
      intro m hm
      simp only [Py.modify_run, empty ho hk', List.append_nil] at hm ⊢
      exact hs m hm
    cases hk : s.ruleType <;> exact this
  | some k' =>
    cases hk : s.ruleType with
    | none =>
      intro m hm
      simp only [Py.modify_run, empty hs hk, List.nil_append] at hm ⊢
      rw [← hk']
      exact ho m hm
    | some k =>
      by_cases e : k = k'
      · intro m hm
        simp only [if_pos e, Py.modify_run, List.mem_append] at hm ⊢
        rcases hm with hm | hm
        · exact hs m hm
        · rw [hk, e, ← hk']
          exact ho m hm
      · simp only [if_neg e]
        exact hs

theorem iaddRule (m : Member) : Keeps (iaddRule R m) :=
  .bind (.pushRule m) fun _ => .bind (.noteIndexes _) fun _ => .bind (.noteNames _) fun _ => .bind (.updateIf _) fun _ =>
    .stackIf (.stackRule _)

theorem iaddSet {o : RuleSet} (ho : Announced o) : Keeps (iaddSet R o) :=
  .bind (.pushSet ho) fun _ => .bind (.noteIndexes _) fun _ => .bind (.noteNames _) fun _ => .bind (.updateIf _) fun _ =>
    .stackIf (.stackSet _)

theorem append (m : Member) (u : Bool) : Keeps (append R m u) :=
  .bind .get fun _ => .ite (.bind (.iaddRule m) fun _ => .modify fun _ => ⟨rfl, rfl⟩)
    (.bind (.modify fun _ => ⟨rfl, rfl⟩) fun _ => .bind (.iaddRule m) fun _ => .modify fun _ => ⟨rfl, rfl⟩)

theorem appendAll (l : List Member) : Keeps (appendAll R l) := by
  induction l with
  | nil => exact .pure _
  | cons m l ih => exact .bind (.append m false) fun _ => ih

end Keeps

/-- Rules of the same classes -/
theorem Announced.of_kinds {s s' : RuleSet} (h : Announced s) (hr : ∀ m ∈ s'.rules, ∃ m' ∈ s.rules, m'.kind = m.kind)
    (ht : s'.ruleType = s.ruleType) : Announced s' := by
  intro m hm
  obtain ⟨m', hm', e⟩ := hr m hm
  rw [ht, ← e]
  exact h m' hm'

theorem kinds_mem {l l' : List Member} (h : l'.map (·.kind) = l.map (·.kind)) : ∀ m ∈ l', ∃ m' ∈ l, m'.kind = m.kind := by
  intro m hm
  have : m.kind ∈ l.map (·.kind) := h ▸ List.mem_map_of_mem hm
  obtain ⟨m', hm', e⟩ := List.mem_map.1 this
  exact ⟨m', hm', e⟩

theorem made_kinds {rules l : List Member} (h : SameButIndexes rules l) : ∀ m ∈ l, ∃ m' ∈ rules, m'.kind = m.kind := by
  refine kinds_mem ?_
  induction h with
  | nil => rfl
  | cons h _ ih => rw [List.map_cons, List.map_cons, ih, h.1]

theorem make_announced {rules : List Member} {c b : Bool} {s : RuleSet} (h : make R rules c b = .ok s) : Announced s := by
  intro m hm'
  obtain ⟨m', hm'', e⟩ := made_kinds (make_ok h).same m hm'
  rw [← e]
  exact (make_ok h).type m' hm''

theorem eachRule_kinds (f : Env → Py Rule Unit) (l : List Member) : (eachRule R f l).2.map (·.kind) = l.map (·.kind) := by
  induction l with
  | nil => rfl
  | cons m l ih =>
    simp only [eachRule]
    split
    · rename_i e m' he
      have : m' = (onRule R f m).2 := by rw [he]
      simp only [List.map_cons, this, onRule]
    · rename_i m' he
      have : m' = (onRule R f m).2 := by rw [he]
      simp only [List.map_cons, this, onRule, ih]

theorem receiveAll_kinds (mark : Rule → Rule) (vals : List (String × RFun.Series Label)) (i : Nat) (l : List Member) :
    (receiveAll R mark vals i l).2.map (·.kind) = l.map (·.kind) := by
  induction l generalizing i with
  | nil => rfl
  | cons m l ih =>
    have := ih (i + 1)
    simp only [receiveAll]
    split
    · rfl
    · split
      · rename_i e l' he
        rw [he] at this
        simp only [List.map_cons, this]
      · rename_i ns l' he
        rw [he] at this
        simp only [List.map_cons, this]

theorem putBack_kinds (l : List Member) (rs : List Rule) : ∀ m ∈ putBack l rs, ∃ m' ∈ l, m'.kind = m.kind := by
  induction l generalizing rs with
  | nil => intro m hm; simp [putBack] at hm
  | cons a l ih =>
    intro m hm
    cases rs with
    | nil => simp [putBack] at hm
    | cons r rs =>
      simp only [putBack, List.zipWith_cons_cons, List.mem_cons] at hm
      rcases hm with rfl | hm
      · exact ⟨a, List.mem_cons_self .., rfl⟩
      · obtain ⟨m', hm', e⟩ := ih rs m hm
        exact ⟨m', List.mem_cons_of_mem _ hm', e⟩

namespace Keeps

theorem forRules (f : Env → Py Rule Unit) : Keeps (forRules R f) := fun _ hs =>
  Announced.of_kinds hs (kinds_mem (eachRule_kinds f _)) rfl

theorem receiveRules (mark : Rule → Rule) (vals : List (String × RFun.Series Label)) : Keeps (receiveRules R mark vals) :=
  fun _ hs => Announced.of_kinds hs (kinds_mem (receiveAll_kinds mark vals 0 _)) rfl

theorem clearActivation : Keeps (clearActivation R) := by
  refine .bind .get fun s => ?_
  split
  · exact .pure _
  · exact .bind (.ofExcept _) fun _ => .modify fun _ => ⟨rfl, rfl⟩

theorem dropRules (drops : List (Member × Nat)) : Keeps (dropRules R drops) := by
  refine .bind .get fun s => .bind (.ofExcept _) fun kept => .bind ?_ fun _ => .bind .clearActivation fun _ =>
    .bind (.modify fun _ => ⟨rfl, rfl⟩) fun _ => .appendAll _
  intro s _ m hm
  simp [Py.modify_run] at hm

theorem recomputeSelf : Keeps (recomputeSelf R) := .bind (.modify fun _ => ⟨rfl, rfl⟩) fun _ => .computeSelf _

theorem recomputeStacked : Keeps (recomputeStacked R) := .bind (.modify fun _ => ⟨rfl, rfl⟩) fun _ => .computeStacked _

theorem whenSet {c : RuleSet → Bool} {m : Py RuleSet Unit} (h : Keeps m) : Keeps (whenSet c m) :=
  .bind .get fun _ => .ite h (.pure _)

theorem afterFit (drops : List (Member × Nat)) (given : Bool) : Keeps (afterFit R drops given) :=
  .ite (.bind (.dropRules _) fun _ => .bind .recomputeSelf fun _ => .whenSet .recomputeStacked)
    (.bind (.whenSet .recomputeSelf) fun _ => .whenSet .recomputeStacked)

theorem afterEval (drops : List (Member × Nat)) (given : Bool) : Keeps (afterEval R drops given) :=
  .ite (.bind (.dropRules _) fun _ => .bind (.whenSet .recomputeSelf) fun _ => .whenSet .recomputeStacked)
    (.bind (.whenSet .recomputeSelf) fun _ => .whenSet .recomputeStacked)

theorem afterFitStacked (drops : List (Member × Nat)) : Keeps (afterFitStacked R drops) :=
  .ite (.bind (.dropRules _) fun _ => .bind .recomputeSelf fun _ => .whenSet .recomputeStacked) (.pure _)

theorem afterEvalStacked (drops : List (Member × Nat)) (given : Bool) : Keeps (afterEvalStacked R drops given) :=
  .ite (.bind (.dropRules _) fun _ => .bind (.whenSet .recomputeSelf) fun _ => .whenSet .recomputeStacked) (.pure _)

theorem needType : Keeps needType := by
  refine .bind .get fun s => ?_
  split
  · exact .throw _
  · exact .pure _

theorem fit (y : List Label) (xs : Option Xs) (force : Bool) (kw : Rule.Kw) : Keeps (fit R y xs force kw) :=
  .bind .needType fun _ => .ite (.throw _) <| .bind .get fun _ => .ite (.pure _) <| .ite (.pure _) <| .ite (.pure _) <|
    .bind (.forRules _) fun _ => .bind .get fun _ => .bind (.afterFit _ _) fun _ => .bind (.modify fun _ => ⟨rfl, rfl⟩) fun _ =>
      .pure _

theorem predictUnstacked (k : Kind) (xs : Option Xs) (w : Option WeightsArg) : Keeps (predictUnstacked R k xs w) :=
  .bind .get fun _ => .bind (.ofExcept _) fun _ =>
    .bind (fun _ hs => Announced.of_kinds hs (putBack_kinds _ _) rfl) fun _ => .bind (.ofExcept _) fun _ => .pure _

theorem predict (xs : Option Xs) (w : Option WeightsArg) : Keeps (predict R xs w) := by
  refine .bind .get fun s => .ite (.pure _) ?_
  split
  · exact .pure _
  · split
    · exact .bind (.ofExcept _) fun _ => .bind (.ofExcept _) fun _ => .ofExcept _
    · exact .predictUnstacked _ _ _

theorem criterionActivation (xs : Option Xs) : Keeps (criterionActivation R xs) := by
  unfold RuleSet.criterionActivation
  split
  · exact .bind .get fun _ => .bind (.ofExcept _) fun _ => .pure _
  · refine .bind (.whenSet (.computeSelf _)) fun _ => .bind .get fun s => ?_
    split
    · exact .throw _
    · exact .pure _

theorem calcCriterion (y : List Label) (xs : Option Xs) (w : Option WeightsArg) (kw : Rule.Kw) :
    Keeps (calcCriterion R y xs w kw) := by
  refine .bind .get fun s => .ite (.pure _) ?_
  split
  · exact .pure _
  · refine .bind (.predict _ _) fun p => .ite (.modify fun _ => ⟨rfl, rfl⟩) (.bind (.ofExcept _) fun _ => ?_)
    split
    · exact .bind (.criterionActivation _) fun _ => .bind (.ofExcept _) fun _ => .modify fun _ => ⟨rfl, rfl⟩
    · exact .bind (.ofExcept _) fun _ => .bind (.ofExcept _) fun _ => .bind (.ofExcept _) fun _ => .modify fun _ => ⟨rfl, rfl⟩

theorem eval (y : List Label) (xs : Option Xs) (keep : Bool) (w : Option WeightsArg) (force : Bool) (kw : Rule.Kw) :
    Keeps (eval R y xs keep w force kw) :=
  .bind .needType fun _ => .ite (.throw _) <| .bind .get fun _ => .ite (.pure _) <| .ite (.pure _) <| .ite (.throw _) <|
    .bind (.forRules _) fun _ => .bind .get fun _ => .bind (.afterEval _ _) fun _ => .bind (.calcCriterion _ _ _ _) fun _ =>
      .bind (.modify fun _ => ⟨rfl, rfl⟩) fun _ => .pure _

theorem calcActivation (xs : Xs) : Keeps (calcActivation R xs) :=
  .bind .get fun _ => .ite (.throw _) <| .ite (.pure _) <| .bind (.forRules _) fun _ => .bind .recomputeSelf fun _ =>
    .whenSet .recomputeStacked

theorem whileStacking {f : Py RuleSet Unit} (h : Keeps f) : Keeps (whileStacking f) :=
  .bind .get fun _ => .bind (.modify fun _ => ⟨rfl, rfl⟩) fun _ => .bind h fun _ => .bind (.modify fun _ => ⟨rfl, rfl⟩) fun _ =>
    .pure _

theorem cleanIf (c : Bool) : Keeps (cleanIf c) := .ite (.modify fun _ => ⟨rfl, rfl⟩) (.pure _)

theorem prepareFit (xs : Option Xs) : Keeps (prepareFit R xs) := by
  unfold RuleSet.prepareFit
  split
  · exact .whileStacking (.calcActivation _)
  · exact .bind .get fun _ => .ite (.whileStacking (.computeStacked _)) (.pure _)

theorem fitStacked (y : List Label) (xs : Option Xs) (kw : Rule.Kw) : Keeps (fitStacked R y xs kw) :=
  .bind .needType fun _ => .ite (.throw _) <| .bind .get fun _ => .ite (.pure _) <| .ite (.pure _) <| .ite (.pure _) <|
    .bind (.prepareFit _) fun _ => .bind .get fun _ => .bind (.ofExcept _) fun _ => .bind (.ofExcept _) fun _ =>
      .bind (.cleanIf _) fun _ => .bind (.receiveRules _ _) fun _ => .bind .get fun _ => .bind (.afterFitStacked _) fun _ =>
        .bind (.modify fun _ => ⟨rfl, rfl⟩) fun _ => .pure _

theorem prepareEval (xs : Option Xs) (keep : Bool) : Keeps (prepareEval R xs keep) := by
  unfold RuleSet.prepareEval
  split
  · exact .ite (.bind (.whileStacking (.calcActivation _)) fun _ => .bind .get fun _ => .pure _)
      (.bind .get fun _ => .bind (.ofExcept _) fun _ => .bind (.ofExcept _) fun _ => .pure _)
  · refine .bind .get fun _ => ?_
    exact .ite (.bind (.whileStacking (.bind (.computeStacked _) fun _ => .bind (.computeSelf _) fun _ =>
      .bind .get fun _ => .ite (.throw _) (.pure _))) fun _ => .bind .get fun _ => .pure _)
      (.bind (.pure _) fun _ => .bind .get fun _ => .pure _)

theorem evalStacked (y : List Label) (xs : Option Xs) (keep : Bool) (w : Option WeightsArg) (kw : Rule.Kw) :
    Keeps (evalStacked R y xs keep w kw) :=
  .bind .needType fun _ => .ite (.throw _) <| .bind .get fun _ => .ite (.pure _) <| .ite (.pure _) <| .ite (.throw _) <|
    .bind (.prepareEval _ _) fun _ => .bind .get fun _ => .bind (.ofExcept _) fun _ => .bind (.ofExcept _) fun _ =>
      .bind (.cleanIf _) fun _ => .bind (.receiveRules _ _) fun _ => .bind .get fun _ => .bind (.afterEvalStacked _ _) fun _ =>
        .bind (.calcCriterion _ _ _ _) fun _ => .bind (.modify fun _ => ⟨rfl, rfl⟩) fun _ => .pure _

theorem sort (c : Option String) (rev : Bool) : Keeps (sort R c rev) := by
  intro s hs
  unfold RuleSet.sort
  rw [Py.bind_ok (Py.get_run s)]
  split
  · exact hs
  · cases hr : sortedRules R c rev s with
    | error e => exact hs
    | ok rules =>
      have h1 : Announced { s with rules := rules } :=
        Announced.of_kinds hs (fun m hm => ⟨m, (sortedRules_perm hr).mem_iff.1 hm, rfl⟩) rfl
      have h2 : Keeps (RuleSet.stackIf (reorderStacked R)) := by
        refine .stackIf (.bind .get fun s => ?_)
        split
        · exact .throw _
        · exact .bind (.ofExcept _) fun _ => .modify fun _ => ⟨rfl, rfl⟩
      exact h2 _ h1

theorem setLoaded {rules : List Member} {k : Kind} (hk : ∀ m ∈ rules, m.kind = k) : Keeps (Save.setLoaded R rules) := by
  refine .bind ?_ fun _ => .bind (.computeSelf _) fun _ => .bind (.stackIf (.computeStacked _)) fun _ => .modify fun _ => ⟨rfl, rfl⟩
  intro s hs m hm
  simp only [Py.modify_run] at hm ⊢
  obtain ⟨m', hm', rfl⟩ := List.mem_map.1 hm
  cases rules with
  | nil => cases hm'
  | cons a l =>
    show some a.kind = some m'.kind
    rw [hk a (List.mem_cons_self ..), hk m' hm']

theorem load (W : Save.Texts) (by_ : String) (t : Option Save.Table) : Keeps (Save.load W R by_ t) := by
  unfold Save.load
  split
  · exact .setLoaded (k := .regression) (by simp)
  · rename_i t
    refine .bind (.modify fun _ => ⟨rfl, rfl⟩) fun _ => .bind (.ofExcept _) fun _ => .bind (.modify fun _ => ⟨rfl, rfl⟩) fun _ =>
      .bind (.ofExcept _) fun _ => .bind (.modify fun _ => ⟨rfl, rfl⟩) fun _ => ?_
    intro s hs
    cases hr : t.lines.mapM fun l => Save.lineToRule W by_ t.kind (Save.rereadLine W t l) with
    | error e => exact hs
    | ok rules =>
      have hk : ∀ m ∈ rules, m.kind = t.kind := by
        have := mapM_eq_ok hr
        generalize t.lines = lines at this
        clear hr
        induction this with
        | nil => intro m hm; cases hm
        | cons h _ ih =>
          intro m hm
          rcases List.mem_cons.1 hm with rfl | hm
          · simp only [Save.lineToRule, Bind.bind, Except.bind] at h
            iterate 6
              split at h
              · cases h
            cases h
            rfl
          · exact ih m hm
      exact setLoaded hk s hs

theorem call (c : SetCall) {s : RuleSet} (hs : Announced s) : Announced (c.after R s) := by
  cases c with
  | iaddRule m => exact iaddRule m s hs
  | append m u => exact append m u s hs
  | sort c r => exact sort c r s hs
  | fit y xs force kw =>
    simp only [SetCall.after]
    split
    · exact fitStacked y xs kw s hs
    · exact fit y xs force kw s hs
  | eval y xs keep w force kw =>
    simp only [SetCall.after]
    split
    · exact evalStacked y xs keep w kw s hs
    · exact eval y xs keep w force kw s hs
  | predict xs w => exact predict xs w s hs
  | calcCriterion y xs w kw => exact calcCriterion y xs w kw s hs
  | calcActivation xs => exact calcActivation xs s hs
  | computeSelf xs => exact computeSelf xs s hs
  | computeStacked xs => exact computeStacked xs s hs
  | load W by_ t => exact load W by_ t s hs

theorem visit (I : Tree.Input) (names : List String) (fuel : Nat) (node : Int) (c : Option Cond) :
    Keeps (Tree.visit R I names fuel node c) := by
  have add : ∀ node c, Keeps (Tree.addRule R I node c) := fun node c =>
    .bind (.ofExcept _) fun _ => .bind (.ofExcept _) fun _ => .append _ _
  have turn : ∀ node c, Keeps (Tree.addTurn R I node c) := fun node c => .ite (.pure _) (add node c)
  induction fuel generalizing node c with
  | zero => exact .throw _
  | succ fuel ih =>
    refine .bind (.ofExcept _) fun _ => .ite ?_ (.ite ?_ (.pure _))
    · exact .bind (.ofExcept _) fun _ => .bind (.ofExcept _) fun _ => .bind (.ofExcept _) fun _ => .bind (.ofExcept _) fun _ =>
        .bind (turn _ _) fun _ => .bind (.ofExcept _) fun _ => .bind (ih _ _) fun _ => .bind (.ofExcept _) fun _ =>
        .bind (.ofExcept _) fun _ => .bind (turn _ _) fun _ => .bind (.ofExcept _) fun _ => ih _ _
    · split
      · exact .throw _
      · exact add _ _

theorem setRules {rules : List Member} {s : RuleSet} (hs : Announced s) (h : ∀ m ∈ rules, s.ruleType = some m.kind) :
    Announced (setRules R rules s).2 := by
  unfold RuleSet.setRules
  rw [Py.bind_ok (Py.get_run s)]
  cases hm : make R rules true s.stack with
  | error e =>
    rw [Py.bind_err (s' := s) (e := e) (by rw [Py.ofExcept_run])]
    exact hs
  | ok t =>
    rw [Py.bind_ok (s' := s) (a := t) (by rw [Py.ofExcept_run]), Py.modify_run]
    intro m hm'
    obtain ⟨m', hm'', e⟩ := made_kinds (make_ok hm).same m hm'
    rw [← e]
    exact h m' hm''

end Keeps

theorem Lived.announced {A : RuleSet → List Member → Prop} (hA : ∀ s rules, A s rules → ∀ m ∈ rules, s.ruleType = some m.kind)
    {s : RuleSet} (h : Lived R A s) : Announced s := by
  induction h with
  | blank b => intro m hm; cases hm
  | make h => exact make_announced h
  | @extract I s h =>
    unfold Tree.extract at h
    simp only [bind, Except.bind] at h
    split at h
    · cases h
    rename_i names _
    split at h
    · rename_i t he
      cases h
      have := Keeps.visit (R := R) I names I.limit 0 none (RuleSet.blank I.stack) (fun m hm => by cases hm)
      rw [he] at this
      exact this
    · cases h
  | call c _ ih => exact Keeps.call c ih
  | iaddSet _ _ ih1 ih2 => exact Keeps.iaddSet ih2 _ ih1
  | addRule _ h => exact make_announced h
  | addSet _ _ h =>
    unfold RuleSet.addSet at h
    simp only [bind, Except.bind] at h
    split at h
    · cases h
    exact make_announced h
  | slice _ h =>
    unfold RuleSet.slice at h
    simp only [bind, Except.bind] at h
    split at h
    · cases h
    split at h
    · cases h
    exact make_announced h
  | setRules _ ha ih => exact Keeps.setRules ih (hA _ _ ha)

end Verif.RuleSet
