import Verif.CondHeapLemmas

/-!
# Lemmas on programs with conditions
-/

namespace Verif.CondHeap

open Verif Verif.Cond

/-- Two conditions refer to no common list. -/
structure Apart (o o' : CObj) : Prop where
  idx : ∀ r, o.idx = some r → o'.idx ≠ some r
  nums : ∀ r, (o.lo = some r ∨ o.hi = some r) → o'.lo ≠ some r ∧ o'.hi ≠ some r
  names : ∀ r, o.names = some r → o'.names ≠ some r

/-- The invariant of programs -/
structure Inv (s : Store) : Prop where
  valid : ∀ (k : Nat) (o : CObj), s.conds[k]? = some o → Valid s o ∧ o.lo ≠ o.hi
  apart : ∀ (k k' : Nat) (o o' : CObj), s.conds[k]? = some o → s.conds[k']? = some o' → k ≠ k' → Apart o o'

theorem Apart.symm {o o' : CObj} (h : Apart o o') : Apart o' o :=
  ⟨fun r e e' => h.idx r e' e, fun r e => ⟨fun e' => e.elim (h.nums r (.inl e')).1 (h.nums r (.inl e')).2,
    fun e' => e.elim (h.nums r (.inr e')).1 (h.nums r (.inr e')).2⟩, fun r e e' => h.names r e' e⟩

/-- Each list of `o'` is one of `o` or did not exist. -/
structure From (s : Store) (o o' : CObj) : Prop where
  idx : ∀ r, o'.idx = some r → o.idx = some r ∨ s.ints.length ≤ r
  nums : ∀ r, (o'.lo = some r ∨ o'.hi = some r) → (o.lo = some r ∨ o.hi = some r) ∨ s.nums.length ≤ r
  names : ∀ r, o'.names = some r → o.names = some r ∨ s.strs.length ≤ r

theorem Own.from {s : Store} {o' : CObj} (h : Own s o') (o : CObj) : From s o o' := by
  obtain ⟨⟨a, a1, a2⟩, ⟨b, b1, b2⟩, ⟨c, c1, c2⟩, ⟨d, d1, d2⟩, n⟩ := h
  refine ⟨fun r hr => .inr ?_, fun r hr => .inr ?_, fun r hr => .inr ?_⟩
  · rw [a1] at hr; cases hr; exact a2
  · rw [b1, c1] at hr
    rcases hr with hr | hr <;> cases hr
    · exact b2
    · exact c2
  · rw [d1] at hr; cases hr; exact d2

theorem From.apart {s : Store} {o o' x : CObj} (h : From s o o') (vx : Valid s x) (a : Apart o x) : Apart o' x := by
  refine ⟨fun r hr hx => ?_, fun r hr => ⟨fun hx => ?_, fun hx => ?_⟩, fun r hr hx => ?_⟩
  · rcases h.idx r hr with h | h
    · exact a.idx r h hx
    · have := vx.idx r hx; omega
  · rcases h.nums r hr with h | h
    · exact (a.nums r h).1 hx
    · have := vx.lo r hx; omega
  · rcases h.nums r hr with h | h
    · exact (a.nums r h).2 hx
    · have := vx.hi r hx; omega
  · rcases h.names r hr with h | h
    · exact a.names r h hx
    · have := vx.names r hx; omega

theorem Own.apart {s : Store} {o x : CObj} (h : Own s o) (vx : Valid s x) : Apart o x :=
  (h.from ⟨none, none, none, none, false⟩).apart vx ⟨by simp, by simp, by simp⟩

/-- The conditions of the program have these values. -/
structure Agree (s : Store) (cs : List Cond) : Prop where
  inv : Inv s
  eq : shown s = cs

theorem Agree.ext {s s' : Store} {cs : List Cond} (h : Agree s cs) (x : Ext s s') : Agree s' cs := by
  refine ⟨⟨fun k o hk => ?_, fun k k' o o' hk hk' => ?_⟩, ?_⟩
  · rw [x.conds] at hk
    have := h.inv.valid k o hk
    exact ⟨this.1.ext x, this.2⟩
  · rw [x.conds] at hk hk'
    exact h.inv.apart k k' o o' hk hk'
  · rw [← h.eq]
    unfold shown
    rw [x.conds]
    refine List.map_congr_left fun o ho => ?_
    obtain ⟨k, hk⟩ := List.mem_iff_getElem?.1 ho
    exact x.view (h.inv.valid k o hk).1

theorem view_conds (s : Store) (l : List CObj) (o : CObj) : view { s with conds := l } o = view s o := rfl

theorem valid_conds {s : Store} {o : CObj} (h : Valid s o) (l : List CObj) : Valid { s with conds := l } o := ⟨h.idx, h.lo, h.hi, h.names⟩

theorem Agree.add {s s' : Store} {cs : List Cond} {o : CObj} (h : Agree s cs) (x : Ext s s') (v : Valid s' o) (own : Own s o) :
    Agree { s' with conds := s'.conds ++ [o] } (cs ++ [view s' o]) := by
  have h' := h.ext x
  have app : ∀ (k : Nat) (y : CObj), (s'.conds ++ [o])[k]? = some y → s'.conds[k]? = some y ∨ (k = s'.conds.length ∧ y = o) := by
    intro k y hk
    rw [List.getElem?_append] at hk
    split at hk
    · exact .inl hk
    · rename_i hlt
      have hlen := (List.getElem?_eq_some_iff.1 hk).1
      simp at hlen
      have : k = s'.conds.length := by omega
      subst this
      simp at hk
      exact .inr ⟨rfl, hk.symm⟩
  refine ⟨⟨fun k y hk => ?_, fun k k' y y' hk hk' ne => ?_⟩, ?_⟩
  · rcases app k y hk with hk | ⟨-, rfl⟩
    · have := h'.inv.valid k y hk
      exact ⟨valid_conds this.1 _, this.2⟩
    · exact ⟨valid_conds v _, own.ne⟩
  · have old : ∀ (k : Nat) (y : CObj), s'.conds[k]? = some y → Apart o y := fun k y hk => by
      rw [x.conds] at hk
      exact own.apart (h.inv.valid k y hk).1
    rcases app k y hk with q1 | ⟨e, q1⟩ <;> rcases app k' y' hk' with q2 | ⟨e', q2⟩
    · exact h'.inv.apart k k' y y' q1 q2 ne
    · rw [q2]; exact (old k y q1).symm
    · rw [q1]; exact old k' y' q2
    · exact absurd (e.trans e'.symm) ne
  · rw [← h'.eq]
    show (s'.conds ++ [o]).map (view s') = _
    simp [shown]

theorem Agree.upd {s s' : Store} {cs : List Cond} {o o' : CObj} {i : Nat} (h : Agree s cs) (x : Ext s s') (hi : s.conds[i]? = some o)
    (v : Valid s' o') (fr : From s o o') (ne : o'.lo ≠ o'.hi) :
    Agree { s' with conds := s'.conds.set i o' } (cs.set i (view s' o')) := by
  have h' := h.ext x
  have li : i < s'.conds.length := by rw [x.conds]; exact (List.getElem?_eq_some_iff.1 hi).1
  have app : ∀ (k : Nat) (y : CObj), (s'.conds.set i o')[k]? = some y → (k ≠ i ∧ s'.conds[k]? = some y) ∨ (k = i ∧ y = o') := by
    intro k y hk
    by_cases e : i = k
    · subst e
      rw [List.getElem?_set_self li] at hk
      cases hk
      exact .inr ⟨rfl, rfl⟩
    · rw [List.getElem?_set_ne e] at hk
      exact .inl ⟨Ne.symm e, hk⟩
  refine ⟨⟨fun k y hk => ?_, fun k k' y y' hk hk' nk => ?_⟩, ?_⟩
  · rcases app k y hk with ⟨-, hk⟩ | ⟨-, rfl⟩
    · have := h'.inv.valid k y hk
      exact ⟨valid_conds this.1 _, this.2⟩
    · exact ⟨valid_conds v _, ne⟩
  · have old : ∀ (k : Nat) (y : CObj), k ≠ i → s'.conds[k]? = some y → Apart o' y := fun k y ne hk => by
      rw [x.conds] at hk
      exact fr.apart (h.inv.valid k y hk).1 (h.inv.apart i k o y hi hk (Ne.symm ne))
    rcases app k y hk with ⟨e, q1⟩ | ⟨e, q1⟩ <;> rcases app k' y' hk' with ⟨e', q2⟩ | ⟨e', q2⟩
    · exact h'.inv.apart k k' y y' q1 q2 nk
    · rw [q2]; exact (old k y e q1).symm
    · rw [q1]; exact old k' y' e' q2
    · exact absurd (e.trans e'.symm) nk
  · rw [← h'.eq]
    show (s'.conds.set i o').map (view s') = _
    rw [List.map_set]
    rfl

/-- Changing lists which only condition `i` refers to -/
theorem Agree.put {s s' : Store} {cs : List Cond} {o : CObj} {i : Nat} (h : Agree s cs) (hi : s.conds[i]? = some o)
    (hc : s'.conds = s.conds) (l1 : s'.ints.length = s.ints.length) (l2 : s'.nums.length = s.nums.length)
    (l3 : s'.strs.length = s.strs.length) (e1 : ∀ r, o.idx ≠ some r → s'.ints[r]? = s.ints[r]?)
    (e2 : ∀ r, o.lo ≠ some r → o.hi ≠ some r → s'.nums[r]? = s.nums[r]?) (e3 : ∀ r, o.names ≠ some r → s'.strs[r]? = s.strs[r]?) :
    Agree s' (cs.set i (view s' o)) := by
  refine ⟨⟨fun k y hk => ?_, fun k k' y y' hk hk' => ?_⟩, ?_⟩
  · rw [hc] at hk
    obtain ⟨v, ne⟩ := h.inv.valid k y hk
    exact ⟨⟨by rw [l1]; exact v.idx, by rw [l2]; exact v.lo, by rw [l2]; exact v.hi, by rw [l3]; exact v.names⟩, ne⟩
  · rw [hc] at hk hk'
    exact h.inv.apart k k' y y' hk hk'
  · rw [← h.eq]
    unfold shown
    rw [hc]
    apply List.ext_getElem?
    intro k
    rw [List.getElem?_map, List.getElem?_set]
    split
    · rename_i e
      subst e
      have li := (List.getElem?_eq_some_iff.1 hi).1
      rw [hi]
      simp [li]
    · rename_i ne
      rw [List.getElem?_map]
      cases hk : s.conds[k]? with
      | none => rfl
      | some y =>
        have a := h.inv.apart i k o y hi hk ne
        simp only [Option.map_some, Option.some.injEq]
        have keepI : ∀ r, y.idx = some r → s'.ints[r]? = s.ints[r]? := fun r hr => e1 r fun e => a.idx r e hr
        have keepN : ∀ r, y.names = some r → s'.strs[r]? = s.strs[r]? := fun r hr => e3 r fun e => a.names r e hr
        have keepL : ∀ r, (y.lo = some r ∨ y.hi = some r) → s'.nums[r]? = s.nums[r]? := fun r hr =>
          e2 r (fun e => hr.elim (a.nums r (.inl e)).1 (a.nums r (.inl e)).2)
            (fun e => hr.elim (a.nums r (.inr e)).1 (a.nums r (.inr e)).2)
        obtain ⟨yi, yl, yh, yn, yb⟩ := y
        simp only at keepI keepN keepL
        unfold view
        simp only [Cond.mk.injEq, vals, and_true]
        refine ⟨?_, ?_, ?_, ?_⟩
        · cases yi with
          | none => rfl
          | some r => exact keepI r rfl
        · cases yl with
          | none => rfl
          | some r => exact keepL r (.inl rfl)
        · cases yh with
          | none => rfl
          | some r => exact keepL r (.inr rfl)
        · cases yn with
          | none => rfl
          | some r => exact keepN r rfl

theorem Agree.get {s : Store} {cs : List Cond} (h : Agree s cs) (i : Nat) : cs[i]? = s.conds[i]?.map (view s) := by
  rw [← h.eq, shown, List.getElem?_map]

/-! ## The steps -/

/-- A step does the same with objects as with values. -/
def StepOk (op : Op) : Prop := ∀ (s : Store) (cs : List Cond), Agree s cs →
  (op.run s).1 = (op.value cs).1 ∧ Agree (op.run s).2 (op.value cs).2

theorem lookup_run {s : Store} {i : Nat} : lookup i s = (match s.conds[i]? with | some o => .ok o | none => .error .indexError, s) := by
  unfold lookup
  cases s.conds[i]? <;> rfl

/-- A step which changes one condition -/
theorem onCond_step {i : Nat} {p : CObj → Py Store Unit} {m : Py Cond Unit} {s : Store} {cs : List Cond} (h : Agree s cs)
    (hp : ∀ o, s.conds[i]? = some o → (p o s).1 = (m (view s o)).1 ∧ Agree (p o s).2 (cs.set i (m (view s o)).2)) :
    ((lookup i >>= p) s).1 = (onCond i m cs).1 ∧ Agree ((lookup i >>= p) s).2 (onCond i m cs).2 := by
  unfold onCond
  rw [h.get i]
  cases ho : s.conds[i]? with
  | none =>
    have e : lookup i s = (.error .indexError, s) := by rw [lookup_run, ho]
    rw [Py.bind_err e]
    exact ⟨rfl, h⟩
  | some o =>
    have e : lookup i s = (.ok o, s) := by rw [lookup_run, ho]
    rw [Py.bind_ok e]
    exact hp o ho

theorem cs_set_self {s : Store} {cs : List Cond} (h : Agree s cs) {i : Nat} {o : CObj} (ho : s.conds[i]? = some o) :
    cs.set i (view s o) = cs := by
  apply List.ext_getElem?
  intro k
  rw [List.getElem?_set]
  split
  · rename_i e
    subst e
    have := h.get i
    rw [ho] at this
    rw [this]
    split
    · rfl
    · rename_i hl
      rw [List.getElem?_eq_none (by omega)] at this
      cases this
  · rfl

theorem build_ok (by_ : String) (idx : Option (List Int)) (lo hi : List Num) (names : Option (List String)) (sort_ : Bool) :
    StepOk (.build by_ idx lo hi names sort_) := by
  intro s cs h
  have w1 : ∃ r s1, writeInts idx s = (.ok r, s1) ∧ Ext s s1 ∧ vals s1.ints r = idx ∧ s1.nums = s.nums ∧ s1.strs = s.strs ∧
      ∀ k, r = some k → s.ints.length ≤ k ∧ k < s1.ints.length := by
    cases idx with
    | none => exact ⟨none, s, rfl, Ext.refl s, rfl, rfl, rfl, by simp⟩
    | some l => exact ⟨some s.ints.length, _, rfl, ext_ints s l, by simp [vals], rfl, rfl, by simp⟩
  obtain ⟨i, s1, e1, x1, v1, n1, t1, f1⟩ := w1
  have w2 : ∃ r s2, writeStrs names ⟨s1.ints, s.nums ++ [lo] ++ [hi], s.strs, s1.conds⟩ = (.ok r, s2) ∧
      Ext ⟨s1.ints, s.nums ++ [lo] ++ [hi], s.strs, s1.conds⟩ s2 ∧ vals s2.strs r = names ∧
      s2.nums = s.nums ++ [lo] ++ [hi] ∧ s2.ints = s1.ints ∧
      ∀ k, r = some k → s.strs.length ≤ k ∧ k < s2.strs.length := by
    cases names with
    | none => exact ⟨none, _, rfl, Ext.refl _, rfl, rfl, rfl, by simp⟩
    | some l => exact ⟨some s.strs.length, _, rfl, ext_strs _ l, by simp [vals], rfl, rfl, by simp⟩
  obtain ⟨n, s2, e2, x2, v2, n2, i2, f2⟩ := w2
  have x : Ext s s2 := by
    refine (x1.trans ((ext_nums s1 lo).trans (ext_nums _ hi))).trans ?_
    simpa [n1, t1] using x2
  have run : (Op.build by_ idx lo hi names sort_).run s =
      (make by_ i (some s.nums.length) (some (s.nums ++ [lo]).length) n sort_ >>= keep) s2 := by
    show (writeInts idx >>= _) s = _
    rw [Py.bind_ok e1]
    show (newNums lo >>= _) s1 = _
    have a1 : newNums lo s1 = (.ok s.nums.length, ⟨s1.ints, s.nums ++ [lo], s.strs, s1.conds⟩) := by
      unfold newNums; rw [n1, ← t1]
    rw [Py.bind_ok a1]
    have a2 : newNums hi ⟨s1.ints, s.nums ++ [lo], s.strs, s1.conds⟩ =
        (.ok (s.nums ++ [lo]).length, ⟨s1.ints, s.nums ++ [lo] ++ [hi], s.strs, s1.conds⟩) := rfl
    rw [Py.bind_ok a2, Py.bind_ok e2]
  rw [run]
  have g := make_spec by_ (s := s2) (idx := i) (lo := some s.nums.length) (hi := some (s.nums ++ [lo]).length) (names := n) sort_
    (fun r hr => by rw [i2]; exact (f1 r hr).2) (fun r hr => (f2 r hr).2)
  have v3 : vals s2.nums (some s.nums.length) = some lo := by rw [n2]; simp [vals]
  have v4 : vals s2.nums (some (s.nums ++ [lo]).length) = some hi := by rw [n2]; simp [vals]
  have v5 : vals s2.ints i = idx := by rw [i2]; exact v1
  rw [v5, v2, v3, v4] at g
  obtain ⟨gx, g⟩ := g
  rw [Py.bind_run]
  show _ = (addCond _ cs).1 ∧ Agree _ (addCond _ cs).2
  generalize make by_ i (some s.nums.length) (some (s.nums ++ [lo]).length) n sort_ s2 = p at g gx
  obtain ⟨r, s3⟩ := p
  rcases g with ⟨e, q1, q2⟩ | ⟨c, o, q1, q2, q3, q4, q5⟩
  · simp only at q2
    subst q2
    simp only [Option.map_some] at q1
    rw [q1]
    exact ⟨rfl, h.ext (x.trans gx)⟩
  · simp only at q2 q3 q4
    subst q2
    simp only [Option.map_some] at q1
    rw [q1]
    refine ⟨rfl, ?_⟩
    have own : Own s o := by
      rcases q5 with ⟨-, q5⟩ | q5
      · exact q5.own x (fun r hr => (f1 r hr).1) (fun r hr => (f2 r hr).1) (le_refl _) (by simp) (by simp)
      · exact q5.mono x
    have := h.add (x.trans gx) q3 own
    rw [q4] at this
    exact this

theorem meet_ok (by_ : String) (i j : Nat) : StepOk (.meet by_ i j) := by
  intro s cs h
  show ((lookup i >>= _) s).1 = _ ∧ Agree ((lookup i >>= _) s).2 _
  unfold Op.value
  simp only []
  rw [h.get i, h.get j]
  cases hi : s.conds[i]? with
  | none =>
    have e : lookup i s = (.error .indexError, s) := by rw [lookup_run, hi]
    rw [Py.bind_err e]
    exact ⟨rfl, h⟩
  | some a =>
    have e : lookup i s = (.ok a, s) := by rw [lookup_run, hi]
    rw [Py.bind_ok e]
    cases hj : s.conds[j]? with
    | none =>
      have e : lookup j s = (.error .indexError, s) := by rw [lookup_run, hj]
      rw [Py.bind_err e]
      exact ⟨rfl, h⟩
    | some b =>
      have e : lookup j s = (.ok b, s) := by rw [lookup_run, hj]
      rw [Py.bind_ok e]
      obtain ⟨gx, g⟩ := meet_spec by_ (h.inv.valid i a hi).1 (h.inv.valid j b hj).1
      rw [Py.bind_run]
      generalize CondHeap.meet by_ a b s = p at g gx
      obtain ⟨r, s3⟩ := p
      simp only [Option.map_some]
      rcases g with ⟨e, q1, q2⟩ | ⟨c, o, q1, q2, q3, q4, q5⟩
      · simp only at q2
        subst q2
        rw [q1]
        exact ⟨rfl, h.ext gx⟩
      · simp only at q2 q3 q4
        subst q2
        rw [q1]
        refine ⟨rfl, ?_⟩
        have := h.add gx q3 q5
        rw [q4] at this
        exact this

theorem change_err {α : Type} {f : Cond → Except Err α} {g : Cond → α → Cond} {c : Cond} {e : Err} (h : f c = .error e) :
    change f g c = (.error e, c) := by
  unfold change
  rw [h]

theorem change_ok {α : Type} {f : Cond → Except Err α} {g : Cond → α → Cond} {c : Cond} {a : α} (h : f c = .ok a) :
    change f g c = (.ok (), g c a) := by
  unfold change
  rw [h]

theorem sort_ok (by_ : String) (i : Nat) : StepOk (.sort by_ i) := by
  intro s cs h
  refine onCond_step h fun o ho => ?_
  obtain ⟨v, ne⟩ := h.inv.valid i o ho
  obtain ⟨gx, g⟩ := sort_spec by_ v
  rw [Py.bind_run]
  generalize CondHeap.sort by_ o s = p at g gx
  obtain ⟨r, s3⟩ := p
  rcases g with ⟨e, q1, q2⟩ | ⟨c, o', q1, q2, q3, q4, q5⟩
  · simp only at q2
    subst q2
    rw [change_err q1, cs_set_self h ho]
    exact ⟨rfl, h.ext gx⟩
  · simp only at q2 q3 q4
    subst q2
    rw [change_ok q1]
    refine ⟨rfl, ?_⟩
    have fr : From s o o' ∧ o'.lo ≠ o'.hi := by
      rcases q5 with ⟨-, rfl⟩ | q5
      · exact ⟨⟨fun r h => .inl h, fun r h => .inl h, fun r h => .inl h⟩, ne⟩
      · exact ⟨q5.from o, q5.ne⟩
    have := h.upd gx ho q3 fr.1 fr.2
    rw [q4] at this
    exact this

theorem putBmin_ok (i k : Nat) (v : Num) : StepOk (.putBmin i k v) := by
  intro s cs h
  refine onCond_step h fun o ho => ?_
  obtain ⟨hv, ne⟩ := h.inv.valid i o ho
  cases hl : o.lo with
  | none =>
    have : (view s o).bmins = none := by unfold view; rw [hl]; rfl
    rw [change_err (e := .typeError) (by rw [this]; rfl), cs_set_self h ho]
    exact ⟨rfl, h⟩
  | some p =>
    obtain ⟨l, -, gl⟩ := vals_some (hv.lo p hl)
    have hb : (view s o).bmins = some l := by unfold view; rw [hl]; exact gl
    by_cases hk : k < l.length
    · have e : setNum (some p) k v s = (.ok (), { s with nums := s.nums.set p (l.set k v) }) := by
        simp only [setNum, gl]; rw [if_pos hk]
      have e' : putAt (view s o).bmins k v = .ok (l.set k v) := by rw [hb]; simp only [putAt]; rw [if_pos hk]
      rw [e, change_ok e']
      refine ⟨rfl, ?_⟩
      have := h.put (s' := { s with nums := s.nums.set p (l.set k v) }) ho rfl rfl (by simp) rfl (fun _ _ => rfl)
        (fun r h1 _ => by
          show (s.nums.set p (l.set k v))[r]? = _
          rw [List.getElem?_set_ne (fun e => h1 (by rw [hl, e]))]) (fun _ _ => rfl)
      have w : view { s with nums := s.nums.set p (l.set k v) } o = { view s o with bmins := some (l.set k v) } := by
        unfold view
        simp only [Cond.mk.injEq, true_and, and_true]
        refine ⟨?_, ?_⟩
        · rw [hl]; show (s.nums.set p _)[p]? = _; rw [List.getElem?_set_self (hv.lo p hl)]
        · cases hh : o.hi with
          | none => rfl
          | some q =>
            show (s.nums.set p _)[q]? = s.nums[q]?
            rw [List.getElem?_set_ne (fun e => ne (by rw [hl, hh, e]))]
      rw [w] at this
      exact this
    · have e : setNum (some p) k v s = (.error .indexError, s) := by
        simp only [setNum, gl]; rw [if_neg hk]
      have e' : putAt (view s o).bmins k v = .error .indexError := by rw [hb]; simp only [putAt]; rw [if_neg hk]
      rw [e, change_err e', cs_set_self h ho]
      exact ⟨rfl, h⟩

theorem putBmax_ok (i k : Nat) (v : Num) : StepOk (.putBmax i k v) := by
  intro s cs h
  refine onCond_step h fun o ho => ?_
  obtain ⟨hv, ne⟩ := h.inv.valid i o ho
  cases hl : o.hi with
  | none =>
    have : (view s o).bmaxs = none := by unfold view; rw [hl]; rfl
    rw [change_err (e := .typeError) (by rw [this]; rfl), cs_set_self h ho]
    exact ⟨rfl, h⟩
  | some p =>
    obtain ⟨l, -, gl⟩ := vals_some (hv.hi p hl)
    have hb : (view s o).bmaxs = some l := by unfold view; rw [hl]; exact gl
    by_cases hk : k < l.length
    · have e : setNum (some p) k v s = (.ok (), { s with nums := s.nums.set p (l.set k v) }) := by
        simp only [setNum, gl]; rw [if_pos hk]
      have e' : putAt (view s o).bmaxs k v = .ok (l.set k v) := by rw [hb]; simp only [putAt]; rw [if_pos hk]
      rw [e, change_ok e']
      refine ⟨rfl, ?_⟩
      have := h.put (s' := { s with nums := s.nums.set p (l.set k v) }) ho rfl rfl (by simp) rfl (fun _ _ => rfl)
        (fun r _ h1 => by
          show (s.nums.set p (l.set k v))[r]? = _
          rw [List.getElem?_set_ne (fun e => h1 (by rw [hl, e]))]) (fun _ _ => rfl)
      have w : view { s with nums := s.nums.set p (l.set k v) } o = { view s o with bmaxs := some (l.set k v) } := by
        unfold view
        simp only [Cond.mk.injEq, true_and, and_true]
        refine ⟨?_, ?_⟩
        · cases hh : o.lo with
          | none => rfl
          | some q =>
            show (s.nums.set p _)[q]? = s.nums[q]?
            rw [List.getElem?_set_ne (fun e => ne (by rw [hl, hh, e]))]
        · rw [hl]; show (s.nums.set p _)[p]? = _; rw [List.getElem?_set_self (hv.hi p hl)]
      rw [w] at this
      exact this
    · have e : setNum (some p) k v s = (.error .indexError, s) := by
        simp only [setNum, gl]; rw [if_neg hk]
      have e' : putAt (view s o).bmaxs k v = .error .indexError := by rw [hb]; simp only [putAt]; rw [if_neg hk]
      rw [e, change_err e', cs_set_self h ho]
      exact ⟨rfl, h⟩

theorem putIdx_ok (i k : Nat) (v : Int) : StepOk (.putIdx i k v) := by
  intro s cs h
  refine onCond_step h fun o ho => ?_
  obtain ⟨hv, -⟩ := h.inv.valid i o ho
  cases hl : o.idx with
  | none =>
    have : (view s o).indexes = none := by unfold view; rw [hl]; rfl
    rw [change_err (e := .typeError) (by rw [this]; rfl), cs_set_self h ho]
    exact ⟨rfl, h⟩
  | some p =>
    obtain ⟨l, -, gl⟩ := vals_some (hv.idx p hl)
    have hb : (view s o).indexes = some l := by unfold view; rw [hl]; exact gl
    by_cases hk : k < l.length
    · have e : setInt (some p) k v s = (.ok (), { s with ints := s.ints.set p (l.set k v) }) := by
        simp only [setInt, gl]; rw [if_pos hk]
      have e' : putAt (view s o).indexes k v = .ok (l.set k v) := by rw [hb]; simp only [putAt]; rw [if_pos hk]
      rw [e, change_ok e']
      refine ⟨rfl, ?_⟩
      have := h.put (s' := { s with ints := s.ints.set p (l.set k v) }) ho rfl (by simp) rfl rfl
        (fun r h1 => by
          show (s.ints.set p (l.set k v))[r]? = _
          rw [List.getElem?_set_ne (fun e => h1 (by rw [hl, e]))]) (fun _ _ _ => rfl) (fun _ _ => rfl)
      have w : view { s with ints := s.ints.set p (l.set k v) } o = { view s o with indexes := some (l.set k v) } := by
        unfold view
        simp only [Cond.mk.injEq, and_true]
        rw [hl]; show (s.ints.set p _)[p]? = _; rw [List.getElem?_set_self (hv.idx p hl)]
      rw [w] at this
      exact this
    · have e : setInt (some p) k v s = (.error .indexError, s) := by
        simp only [setInt, gl]; rw [if_neg hk]
      have e' : putAt (view s o).indexes k v = .error .indexError := by rw [hb]; simp only [putAt]; rw [if_neg hk]
      rw [e, change_err e', cs_set_self h ho]
      exact ⟨rfl, h⟩

theorem putName_ok (i k : Nat) (v : String) : StepOk (.putName i k v) := by
  intro s cs h
  refine onCond_step h fun o ho => ?_
  obtain ⟨hv, -⟩ := h.inv.valid i o ho
  cases hl : o.names with
  | none =>
    have : (view s o).names = none := by unfold view; rw [hl]; rfl
    rw [change_err (e := .typeError) (by rw [this]; rfl), cs_set_self h ho]
    exact ⟨rfl, h⟩
  | some p =>
    obtain ⟨l, -, gl⟩ := vals_some (hv.names p hl)
    have hb : (view s o).names = some l := by unfold view; rw [hl]; exact gl
    by_cases hk : k < l.length
    · have e : setStr (some p) k v s = (.ok (), { s with strs := s.strs.set p (l.set k v) }) := by
        simp only [setStr, gl]; rw [if_pos hk]
      have e' : putAt (view s o).names k v = .ok (l.set k v) := by rw [hb]; simp only [putAt]; rw [if_pos hk]
      rw [e, change_ok e']
      refine ⟨rfl, ?_⟩
      have := h.put (s' := { s with strs := s.strs.set p (l.set k v) }) ho rfl rfl rfl (by simp) (fun _ _ => rfl)
        (fun _ _ _ => rfl) (fun r h1 => by
          show (s.strs.set p (l.set k v))[r]? = _
          rw [List.getElem?_set_ne (fun e => h1 (by rw [hl, e]))])
      have w : view { s with strs := s.strs.set p (l.set k v) } o = { view s o with names := some (l.set k v) } := by
        unfold view
        simp only [Cond.mk.injEq, true_and, and_true]
        rw [hl]; show (s.strs.set p _)[p]? = _; rw [List.getElem?_set_self (hv.names p hl)]
      rw [w] at this
      exact this
    · have e : setStr (some p) k v s = (.error .indexError, s) := by
        simp only [setStr, gl]; rw [if_neg hk]
      have e' : putAt (view s o).names k v = .error .indexError := by rw [hb]; simp only [putAt]; rw [if_neg hk]
      rw [e, change_err e', cs_set_self h ho]
      exact ⟨rfl, h⟩

/-! ## Setters -/

theorem setIndexes_run (l : List Int) (c : Cond) : Cond.setIndexes (.list l) c =
    if ¬ l.Nodup then (.error .duplicatedFeatures, c)
    else if c.length > 0 ∧ c.length ≠ l.length then (.error .indexError, c)
    else (.ok (), { c with indexes := some l }) := by
  unfold Cond.setIndexes
  show (ite (¬ l.Nodup) _ _ : Py Cond Unit) c = _
  by_cases h1 : ¬ l.Nodup
  · rw [if_pos h1, if_pos h1]; rfl
  · rw [if_neg h1, if_neg h1]
    by_cases h2 : c.length > 0 ∧ c.length ≠ l.length
    · rw [if_pos h2]
      show (ite (c.length > 0 ∧ c.length ≠ l.length) _ _ : Py Cond Unit) c = _
      rw [if_pos h2]; rfl
    · rw [if_neg h2]
      show (ite (c.length > 0 ∧ c.length ≠ l.length) _ _ : Py Cond Unit) c = _
      rw [if_neg h2]; rfl

theorem setNames_run (l : List String) (c : Cond) : Cond.setNames (.list l) c =
    if ¬ l.Nodup then (.error .duplicatedFeatures, c)
    else if c.length > 0 ∧ c.length ≠ l.length then (.error .indexError, c)
    else (.ok (), { c with names := some l }) := by
  unfold Cond.setNames
  show (ite (¬ l.Nodup) _ _ : Py Cond Unit) c = _
  by_cases h1 : ¬ l.Nodup
  · rw [if_pos h1, if_pos h1]; rfl
  · rw [if_neg h1, if_neg h1]
    by_cases h2 : c.length > 0 ∧ c.length ≠ l.length
    · rw [if_pos h2]
      show (ite (c.length > 0 ∧ c.length ≠ l.length) _ _ : Py Cond Unit) c = _
      rw [if_pos h2]; rfl
    · rw [if_neg h2]
      show (ite (c.length > 0 ∧ c.length ≠ l.length) _ _ : Py Cond Unit) c = _
      rw [if_neg h2]; rfl

/-- The check after bounds have been replaced -/
def checked (c : Cond) : Except Err Unit × Cond :=
  match c.bmins, c.bmaxs with
  | some lo, some hi => (.ok (), if someInverted lo hi then { c with impossible := true } else c)
  | _, _ => (.error .typeError, c)

theorem checkImpossible_value (c : Cond) : Cond.checkImpossible c = checked c := by
  unfold Cond.checkImpossible checked
  obtain ⟨i, lo, hi, n, b⟩ := c
  cases lo <;> cases hi <;> try rfl
  rename_i lo hi
  show (ite (someInverted lo hi = true) _ _ : Py Cond Unit) _ = _
  by_cases h : someInverted lo hi = true
  · simp only [if_pos h]; rfl
  · simp only [if_neg h]; rfl

theorem setBmins_run (l : List Num) (c : Cond) : Cond.setBmins (.list l) c =
    if c.length > 0 ∧ c.length ≠ l.length then (.error .indexError, c) else checked { c with bmins := some l } := by
  unfold Cond.setBmins
  by_cases h2 : c.length > 0 ∧ c.length ≠ l.length
  · rw [if_pos h2]
    show (ite (c.length > 0 ∧ c.length ≠ l.length) _ _ : Py Cond Unit) c = _
    rw [if_pos h2]; rfl
  · rw [if_neg h2, ← checkImpossible_value]
    show (ite (c.length > 0 ∧ c.length ≠ l.length) _ _ : Py Cond Unit) c = _
    rw [if_neg h2]; rfl

theorem setBmaxs_run (l : List Num) (c : Cond) : Cond.setBmaxs (.list l) c =
    if c.length > 0 ∧ c.length ≠ l.length then (.error .indexError, c) else checked { c with bmaxs := some l } := by
  unfold Cond.setBmaxs
  by_cases h2 : c.length > 0 ∧ c.length ≠ l.length
  · rw [if_pos h2]
    show (ite (c.length > 0 ∧ c.length ≠ l.length) _ _ : Py Cond Unit) c = _
    rw [if_pos h2]; rfl
  · rw [if_neg h2, ← checkImpossible_value]
    show (ite (c.length > 0 ∧ c.length ≠ l.length) _ _ : Py Cond Unit) c = _
    rw [if_neg h2]; rfl

/-- The check on objects: the condition `i`, which is now `o`, is checked. -/
theorem checkImpossible_run (i : Nat) (o : CObj) (s : Store) :
    (checkImpossible i o s).1 = (checked (view s o)).1 ∧
      (((checkImpossible i o s).2 = s ∧ (checked (view s o)).2 = view s o) ∨
       ((checkImpossible i o s).2 = { s with conds := s.conds.set i { o with impossible := true } } ∧
        (checked (view s o)).2 = view s { o with impossible := true })) := by
  unfold checkImpossible checked
  simp only [Py.bind_run, Py.get_run, Py.ofExcept_run, need]
  cases h1 : (view s o).bmins with
  | none => exact ⟨rfl, .inl ⟨rfl, rfl⟩⟩
  | some lo =>
    cases h2 : (view s o).bmaxs with
    | none => exact ⟨rfl, .inl ⟨rfl, rfl⟩⟩
    | some hi =>
      simp only []
      by_cases h : someInverted lo hi = true
      · simp only [if_pos h]
        refine ⟨rfl, .inr ⟨rfl, ?_⟩⟩
        rw [← h1, ← h2]
        rfl
      · simp only [if_neg h]
        exact ⟨rfl, .inl ⟨rfl, trivial⟩⟩

theorem setIdx_ok (i : Nat) (l : List Int) : StepOk (.setIdx i l) := by
  intro s cs h
  refine onCond_step h fun o ho => ?_
  obtain ⟨hv, ne⟩ := h.inv.valid i o ho
  have x := ext_ints s l
  have e : newInts l s = (.ok s.ints.length, { s with ints := s.ints ++ [l] }) := rfl
  rw [Py.bind_ok e, setIndexes_run]
  unfold assignIdx
  simp only [Py.bind_run, Py.get_run]
  rw [x.view hv]
  by_cases h1 : ¬ l.Nodup
  · simp only [if_pos h1]
    rw [cs_set_self h ho]
    exact ⟨rfl, h.ext x⟩
  · simp only [if_neg h1]
    by_cases h2 : (view s o).length > 0 ∧ (view s o).length ≠ l.length
    · simp only [if_pos h2]
      rw [cs_set_self h ho]
      exact ⟨rfl, h.ext x⟩
    · simp only [if_neg h2]
      refine ⟨rfl, ?_⟩
      have v : Valid { s with ints := s.ints ++ [l] } { o with idx := some s.ints.length } :=
        ⟨by rintro r ⟨⟩; simp, hv.lo, hv.hi, hv.names⟩
      have := h.upd x ho v ⟨by rintro r ⟨⟩; exact .inr (le_refl _), fun r hr => .inl hr, fun r hr => .inl hr⟩ ne
      have w : view { s with ints := s.ints ++ [l] } { o with idx := some s.ints.length } = { view s o with indexes := some l } := by
        simp [view, vals]
      rw [w] at this
      exact this

theorem setNames_ok (i : Nat) (l : List String) : StepOk (.setNames i l) := by
  intro s cs h
  refine onCond_step h fun o ho => ?_
  obtain ⟨hv, ne⟩ := h.inv.valid i o ho
  have x := ext_strs s l
  have e : newStrs l s = (.ok s.strs.length, { s with strs := s.strs ++ [l] }) := rfl
  rw [Py.bind_ok e, setNames_run]
  unfold assignNames
  simp only [Py.bind_run, Py.get_run]
  rw [x.view hv]
  by_cases h1 : ¬ l.Nodup
  · simp only [if_pos h1]
    rw [cs_set_self h ho]
    exact ⟨rfl, h.ext x⟩
  · simp only [if_neg h1]
    by_cases h2 : (view s o).length > 0 ∧ (view s o).length ≠ l.length
    · simp only [if_pos h2]
      rw [cs_set_self h ho]
      exact ⟨rfl, h.ext x⟩
    · simp only [if_neg h2]
      refine ⟨rfl, ?_⟩
      have v : Valid { s with strs := s.strs ++ [l] } { o with names := some s.strs.length } :=
        ⟨hv.idx, hv.lo, hv.hi, by rintro r ⟨⟩; simp⟩
      have := h.upd x ho v ⟨fun r hr => .inl hr, fun r hr => .inl hr, by rintro r ⟨⟩; exact .inr (le_refl _)⟩ ne
      have w : view { s with strs := s.strs ++ [l] } { o with names := some s.strs.length } = { view s o with names := some l } := by
        simp [view, vals]
      rw [w] at this
      exact this

/-- Replacing condition `i` by an object with new bounds, then the check -/
theorem assign_checked {s s1 : Store} {cs : List Cond} {i : Nat} {o o' : CObj} (h : Agree s cs) (x : Ext s s1)
    (ho : s.conds[i]? = some o) (v : Valid s1 o') (fr : From s o o') (ne : o'.lo ≠ o'.hi) :
    ((replace i o' >>= fun _ => checkImpossible i o') s1).1 = (checked (view s1 o')).1 ∧
      Agree ((replace i o' >>= fun _ => checkImpossible i o') s1).2 (cs.set i (checked (view s1 o')).2) := by
  have e : replace i o' s1 = (.ok (), { s1 with conds := s1.conds.set i o' }) := rfl
  rw [Py.bind_ok e]
  obtain ⟨c1, c2⟩ := checkImpossible_run i o' { s1 with conds := s1.conds.set i o' }
  rw [view_conds] at c1 c2
  refine ⟨c1, ?_⟩
  rcases c2 with ⟨c2, c3⟩ | ⟨c2, c3⟩
  · rw [c2, c3]
    exact h.upd x ho v fr ne
  · rw [c2, c3, view_conds]
    have := h.upd (o' := { o' with impossible := true }) x ho ⟨v.idx, v.lo, v.hi, v.names⟩ ⟨fr.idx, fr.nums, fr.names⟩ ne
    simp only [List.set_set]
    exact this

theorem setBmins_ok (i : Nat) (l : List Num) : StepOk (.setBmins i l) := by
  intro s cs h
  refine onCond_step h fun o ho => ?_
  obtain ⟨hv, ne⟩ := h.inv.valid i o ho
  have x := ext_nums s l
  have e : newNums l s = (.ok s.nums.length, { s with nums := s.nums ++ [l] }) := rfl
  rw [Py.bind_ok e, setBmins_run]
  unfold assignBmins
  rw [Py.bind_run, Py.get_run]
  simp only []
  rw [x.view hv]
  by_cases h2 : (view s o).length > 0 ∧ (view s o).length ≠ l.length
  · simp only [if_pos h2]
    rw [cs_set_self h ho]
    exact ⟨rfl, h.ext x⟩
  · simp only [if_neg h2]
    have v : Valid { s with nums := s.nums ++ [l] } { o with lo := some s.nums.length } :=
      ⟨hv.idx, by rintro r ⟨⟩; simp, fun r hr => lt_of_lt_of_le (hv.hi r hr) x.nNums, hv.names⟩
    have fr : From s o { o with lo := some s.nums.length } :=
      ⟨fun r hr => .inl hr, by
        rintro r (hr | hr)
        · cases hr; exact .inr (le_refl _)
        · exact .inl (.inr hr), fun r hr => .inl hr⟩
    have := assign_checked h x ho v fr (fun e => by
      have := hv.hi _ e.symm
      omega)
    have w : view { s with nums := s.nums ++ [l] } { o with lo := some s.nums.length } = { view s o with bmins := some l } := by
      have hx := x.view hv
      have hh : vals (s.nums ++ [l]) o.hi = vals s.nums o.hi := congrArg Cond.bmaxs hx
      unfold view
      simp only [hh]
      simp [vals]
    rw [w] at this
    exact this

theorem setBmaxs_ok (i : Nat) (l : List Num) : StepOk (.setBmaxs i l) := by
  intro s cs h
  refine onCond_step h fun o ho => ?_
  obtain ⟨hv, ne⟩ := h.inv.valid i o ho
  have x := ext_nums s l
  have e : newNums l s = (.ok s.nums.length, { s with nums := s.nums ++ [l] }) := rfl
  rw [Py.bind_ok e, setBmaxs_run]
  unfold assignBmaxs
  rw [Py.bind_run, Py.get_run]
  simp only []
  rw [x.view hv]
  by_cases h2 : (view s o).length > 0 ∧ (view s o).length ≠ l.length
  · simp only [if_pos h2]
    rw [cs_set_self h ho]
    exact ⟨rfl, h.ext x⟩
  · simp only [if_neg h2]
    have v : Valid { s with nums := s.nums ++ [l] } { o with hi := some s.nums.length } :=
      ⟨hv.idx, fun r hr => lt_of_lt_of_le (hv.lo r hr) x.nNums, by rintro r ⟨⟩; simp, hv.names⟩
    have fr : From s o { o with hi := some s.nums.length } :=
      ⟨fun r hr => .inl hr, by
        rintro r (hr | hr)
        · exact .inl (.inl hr)
        · cases hr; exact .inr (le_refl _), fun r hr => .inl hr⟩
    have := assign_checked h x ho v fr (fun e => by
      have := hv.lo _ e
      omega)
    have w : view { s with nums := s.nums ++ [l] } { o with hi := some s.nums.length } = { view s o with bmaxs := some l } := by
      have hx := x.view hv
      have hh : vals (s.nums ++ [l]) o.lo = vals s.nums o.lo := congrArg Cond.bmins hx
      unfold view
      simp only [hh]
      simp [vals]
    rw [w] at this
    exact this

theorem normalize_ok (i : Nat) : StepOk (.normalize i) := by
  intro s cs h
  refine onCond_step h fun o ho => ?_
  obtain ⟨hv, ne⟩ := h.inv.valid i o ho
  unfold CondHeap.normalize Cond.normalizeIndexes
  simp only [Py.bind_run, Py.get_run, Py.ofExcept_run, Py.modify_run]
  cases hi : (view s o).indexes with
  | none =>
    simp only [need]
    rw [cs_set_self h ho]
    exact ⟨trivial, h⟩
  | some l =>
    simp only [need]
    refine ⟨rfl, ?_⟩
    have x := ext_ints s ((List.range l.length).map Int.ofNat)
    have v : Valid { s with ints := s.ints ++ [(List.range l.length).map Int.ofNat] } { o with idx := some s.ints.length } :=
      ⟨by rintro r ⟨⟩; simp, hv.lo, hv.hi, hv.names⟩
    have := h.upd x ho v ⟨by rintro r ⟨⟩; exact .inr (le_refl _), fun r hr => .inl hr, fun r hr => .inl hr⟩ ne
    have w : view { s with ints := s.ints ++ [(List.range l.length).map Int.ofNat] } { o with idx := some s.ints.length } =
        { view s o with indexes := some ((List.range l.length).map Int.ofNat) } := by simp [view, vals]
    rw [w] at this
    exact this

theorem step_ok : ∀ op : Op, StepOk op
  | .build by_ idx lo hi names sort_ => build_ok by_ idx lo hi names sort_
  | .meet by_ i j => meet_ok by_ i j
  | .setIdx i l => setIdx_ok i l
  | .setNames i l => setNames_ok i l
  | .setBmins i l => setBmins_ok i l
  | .setBmaxs i l => setBmaxs_ok i l
  | .putIdx i k v => putIdx_ok i k v
  | .putName i k v => putName_ok i k v
  | .putBmin i k v => putBmin_ok i k v
  | .putBmax i k v => putBmax_ok i k v
  | .sort by_ i => sort_ok by_ i
  | .normalize i => normalize_ok i

theorem run_ok : ∀ (ops : List Op) (s : Store) (cs : List Cond), Agree s cs → Agree (runAll ops s) (valueAll ops cs)
  | [], _, _, h => h
  | op :: rest, s, cs, h => run_ok rest _ _ (step_ok op s cs h).2

theorem start_ok : Agree start [] := ⟨⟨by simp [start], by simp [start]⟩, rfl⟩

end Verif.CondHeap
