import Verif.CondHeapRun

/-!
# C54: conditions do not share their lists, unless the caller makes them
-/

namespace Verif.CondHeap

open Verif

/-- `HyperrectangleCondition([1, 0], [0, 1], [5, 6], ["b", "a"])` and one on `b` and `c` -/
def twoConds : List Op :=
  [.build "index" (some [1, 0]) [.fin 0, .fin 1] [.fin 5, .fin 6] (some ["b", "a"]) true,
   .build "index" (some [1, 2]) [.fin 2, .fin 0] [.fin 9, .fin 9] (some ["b", "c"]) true]

/-- Their intersection, with changes afterwards on all sides -/
def demoOps : List Op :=
  twoConds ++ [.meet "index" 0 1, .putBmin 0 1 (.fin 4), .putBmax 2 0 (.fin 3), .setBmins 1 [.fin 7, .fin 7], .putName 2 0 "z",
    .normalize 1, .meet "index" 2 0, .sort "index" 0]

/-- The store after a program -/
def after (ops : List Op) : Store := runAll ops start

/-- **C54 (programs).** A program which makes conditions, intersects them, sorts them, assigns their attributes and changes the lists
of their attributes in place, without keeping these lists in variables, sees conditions which are values: the conditions at the end,
and whether the next step raises, are those of the program on values, in which no two conditions share anything.  Every program; every
step may raise. -/
theorem C54_program (ops : List Op) : shown (runAll ops start) = valueAll ops [] ∧
    ∀ op : Op, (op.run (runAll ops start)).1 = (op.value (valueAll ops [])).1 := by
  have h := run_ok ops start [] start_ok
  exact ⟨h.eq, fun op => (step_ok op _ _ h).1⟩

example : (shown (after demoOps)).length = 3 ∧ (shown (after demoOps))[0]? =
    some ⟨some [0, 1], some [.fin 1, .fin 4], some [.fin 6, .fin 5], some ["a", "b"], false⟩ ∧ (shown (after demoOps))[2]? =
    some ⟨some [0, 1, 2], some [.fin 1, .fin 2, .fin 0], some [.fin 3, .fin 5, .fin 9], some ["z", "b", "c"], false⟩ := by
  decide +kernel

/-- **C54 (nothing else changes).** A step of such a program changes at most the condition it is about; all others are as before,
including the operands of `&`. -/
theorem C54_others (ops : List Op) (op : Op) (k : Nat) (c : Cond) (hk : (shown (runAll ops start))[k]? = some c)
    (ht : ∀ i, Op.target op = some i → i ≠ k) : (shown (op.run (runAll ops start)).2)[k]? = some c := by
  have h := run_ok ops start [] start_ok
  have h' := (step_ok op _ _ h).2
  rw [h.eq] at hk
  rw [h'.eq]
  have lk : k < (valueAll ops []).length := (List.getElem?_eq_some_iff.1 hk).1
  have add : ∀ x : Except Err Cond, (addCond x (valueAll ops [])).2[k]? = some c := by
    intro x
    unfold addCond
    cases x with
    | error e => exact hk
    | ok d => simp only []; rw [List.getElem?_append_left lk, hk]
  have upd : ∀ (i : Nat) (m : Py Cond Unit), i ≠ k → (onCond i m (valueAll ops [])).2[k]? = some c := by
    intro i m hi
    unfold onCond
    cases (valueAll ops [])[i]? with
    | none => exact hk
    | some d => simp only []; rw [List.getElem?_set_ne hi, hk]
  cases op with
  | build => exact add _
  | meet by_ i j =>
    unfold Op.value
    simp only []
    split
    · exact add _
    · exact hk
  | setIdx i l => exact upd i _ (ht i rfl)
  | setNames i l => exact upd i _ (ht i rfl)
  | setBmins i l => exact upd i _ (ht i rfl)
  | setBmaxs i l => exact upd i _ (ht i rfl)
  | putIdx i k v => exact upd i _ (ht i rfl)
  | putName i k v => exact upd i _ (ht i rfl)
  | putBmin i k v => exact upd i _ (ht i rfl)
  | putBmax i k v => exact upd i _ (ht i rfl)
  | sort b i => exact upd i _ (ht i rfl)
  | normalize i => exact upd i _ (ht i rfl)

example : (∀ i, Op.target (.putBmax 0 0 (.fin 0)) = some i → i ≠ 2) ∧
    (shown (after demoOps))[2]? ≠ none ∧ shown ((Op.putBmax 0 0 (.fin 0)).run (after demoOps)).2 ≠ shown (after demoOps) := by
  refine ⟨?_, by decide +kernel, by decide +kernel⟩
  rintro i ⟨⟩
  decide

/-- **C54 (`&` whatever is shared).** Also when the conditions share lists with each other or with the caller: `a & b` is what it is of
the values, whether or not it raises every list and every condition that existed is unchanged, and none of the lists of the result
existed before. -/
theorem C54_meet (by_ : String) (s : Store) (a b : CObj) (ha : Valid s a) (hb : Valid s b) :
    Ext s (meet by_ a b s).2 ∧
      match (meet by_ a b s).1 with
      | .error e => Cond.and by_ (view s a) (view s b) = .error e
      | .ok o => Cond.and by_ (view s a) (view s b) = .ok (view (meet by_ a b s).2 o) ∧ Own s o := by
  obtain ⟨x, h⟩ := meet_spec by_ ha hb
  refine ⟨x, ?_⟩
  rcases h with ⟨e, h1, h2⟩ | ⟨c, o, h1, h2, -, h4, h5⟩
  · rw [h2]
    exact h1
  · rw [h2]
    exact ⟨by rw [h1, h4], h5⟩

/-- One list for everything: `l = [1]; a = HyperrectangleCondition([1], l, l, ["b"])`, `a & a` -/
def tied : Store := ⟨[[1]], [[.fin 1]], [["b"]], [⟨some 0, some 0, some 0, some 0, false⟩]⟩

example : Valid tied ⟨some 0, some 0, some 0, some 0, false⟩ ∧
    (meet "index" ⟨some 0, some 0, some 0, some 0, false⟩ ⟨some 0, some 0, some 0, some 0, false⟩ tied).1.toOption ≠ none := by
  refine ⟨⟨?_, ?_, ?_, ?_⟩, by decide +kernel⟩ <;> (rintro r ⟨⟩; decide)

/-- **C54 (the lists given, partial).** A condition on several features made with sorting keeps none of the lists given: later changes of
these lists do not show.  Missing: one feature, or `sort=False` (`C54_given_false`). -/
theorem C54_given_partial (by_ : String) (s s' : Store) (idx lo hi names : Option Nat) (o : CObj)
    (vi : ∀ r, idx = some r → r < s.ints.length) (vn : ∀ r, names = some r → r < s.strs.length)
    (h : make by_ idx lo hi names true s = (.ok o, s')) (hl : (view s' o).length > 1) : Own s o ∧ Ext s s' := by
  obtain ⟨x, g⟩ := make_spec by_ (lo := lo) (hi := hi) true vi vn
  rw [h] at x g
  rcases g with ⟨e, -, g2⟩ | ⟨c, o', -, g2, -, g4, g5⟩
  · cases g2
  · cases g2
    refine ⟨?_, x⟩
    rcases g5 with ⟨g5, -⟩ | g5
    · rw [← g4] at g5
      have := g5 rfl
      simp only at this hl
      omega
    · exact g5

/-- The lists of a caller -/
def lists2 : Store := ⟨[[1, 0]], [[.fin 0, .fin 1], [.fin 5, .fin 6]], [["b", "a"]], []⟩

example : ∃ o s', make "index" (some 0) (some 0) (some 1) (some 0) true lists2 = (.ok o, s') ∧ (view s' o).length > 1 ∧
    o.lo = some 2 := ⟨_, _, rfl, by decide +kernel, by decide +kernel⟩

/-- **C54 (the lists given) is false.** With one feature, or with `sort=False`, the condition keeps the four lists given: two conditions
made from the same lists change together (`a.bmins[0] = 3` and so on change `b`). -/
theorem C54_given_false : ∀ sort_ : Bool, ∃ (s s1 s2 s3 s4 s5 s6 : Store) (a b : CObj),
    make "index" (some 0) (some 0) (some 1) (some 0) sort_ s = (.ok a, s1) ∧
    make "index" (some 0) (some 0) (some 1) (some 0) sort_ s1 = (.ok b, s2) ∧
    setNum a.lo 0 (.fin 3) s2 = (.ok (), s3) ∧ setNum a.hi 0 (.fin 4) s3 = (.ok (), s4) ∧ setInt a.idx 0 7 s4 = (.ok (), s5) ∧
    setStr a.names 0 "c" s5 = (.ok (), s6) ∧ view s2 b = ⟨some [1], some [.fin 0], some [.fin 5], some ["b"], false⟩ ∧
    view s6 b = ⟨some [7], some [.fin 3], some [.fin 4], some ["c"], false⟩ := by
  intro sort_
  refine ⟨⟨[[1]], [[.fin 0], [.fin 5]], [["b"]], []⟩, ⟨[[1]], [[.fin 0], [.fin 5]], [["b"]], []⟩,
    ⟨[[1]], [[.fin 0], [.fin 5]], [["b"]], []⟩, ⟨[[1]], [[.fin 3], [.fin 5]], [["b"]], []⟩, ⟨[[1]], [[.fin 3], [.fin 4]], [["b"]], []⟩,
    ⟨[[7]], [[.fin 3], [.fin 4]], [["b"]], []⟩, ⟨[[7]], [[.fin 3], [.fin 4]], [["c"]], []⟩,
    ⟨some 0, some 0, some 1, some 0, false⟩, ⟨some 0, some 0, some 1, some 0, false⟩, ?_⟩
  cases sort_ <;> decide +kernel

/-- **C54 (assigned lists) is false.** After `b.bmins = a.bmins` the two conditions share the list: `a.bmins[0] = 3` changes `b`, though
`a` and `b` were made from lists of their own. -/
theorem C54_assigned_false : ∃ (s s1 s2 : Store) (a b : CObj) (l : List Num), s = after twoConds ∧ s.conds = [a, b] ∧
    (∃ r, a.lo = some r ∧ s.nums[r]? = some l ∧ assignBmins 1 b r l s = (.ok (), s1)) ∧
    ((Op.putBmin 0 0 (.fin 3)).run s1) = (.ok (), s2) ∧
    (shown s1)[1]?.bind (·.bmins) = some [.fin 1, .fin 0] ∧ (shown s2)[1]?.bind (·.bmins) = some [.fin 3, .fin 0] := by
  refine ⟨after twoConds, _, _, _, _, _, rfl, rfl, ⟨_, rfl, rfl, rfl⟩, rfl, by decide +kernel, by decide +kernel⟩

/-- **C54 (bounds changed in place are not checked).** `c.bmins[k] = v` changes this bound and nothing else: unlike after
`c.bmins = […]`, a lower bound above its upper bound does not make the condition impossible. -/
theorem C54_put (ops : List Op) (i k : Nat) (v : Num) (c : Cond) (l : List Num) (hc : (shown (runAll ops start))[i]? = some c)
    (hl : c.bmins = some l) (hk : k < l.length) :
    ((Op.putBmin i k v).run (runAll ops start)).1 = .ok () ∧
    (shown ((Op.putBmin i k v).run (runAll ops start)).2)[i]? = some { c with bmins := some (l.set k v) } := by
  have h := run_ok ops start [] start_ok
  obtain ⟨h1, h2⟩ := step_ok (.putBmin i k v) _ _ h
  rw [h.eq] at hc
  rw [h1, h2.eq]
  have li : i < (valueAll ops []).length := (List.getElem?_eq_some_iff.1 hc).1
  have e : change (fun c => putAt c.bmins k v) (fun c l => { c with bmins := some l }) c =
      (.ok (), { c with bmins := some (l.set k v) }) := by
    refine change_ok ?_
    rw [hl]
    simp only [putAt]
    rw [if_pos hk]
  show (onCond i _ _).1 = _ ∧ (onCond i _ _).2[i]? = _
  unfold onCond
  simp only [hc, e]
  refine ⟨trivial, ?_⟩
  rw [List.getElem?_set_self li]

example : ∃ c, (shown (after twoConds))[0]? = some c ∧ c.bmins = some [.fin 1, .fin 0] ∧ c.impossible = false ∧
    (shown ((Op.putBmin 0 0 (.fin 100)).run (after twoConds)).2)[0]?.map (·.impossible) = some false :=
  ⟨_, rfl, by decide +kernel, by decide +kernel, by decide +kernel⟩

end Verif.CondHeap
