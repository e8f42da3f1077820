import Verif.CondHeapSpec
import Verif.ConditionLemmas

/-!
# Lemmas on conditions and their lists
-/

namespace Verif.CondHeap

open Verif Verif.Cond

theorem Ext.refl (s : Store) : Ext s s := ⟨fun _ _ h => h, fun _ _ h => h, fun _ _ h => h, rfl, le_refl _, le_refl _, le_refl _⟩

theorem Ext.trans {a b c : Store} (h : Ext a b) (k : Ext b c) : Ext a c :=
  ⟨fun r l e => k.ints r l (h.ints r l e), fun r l e => k.nums r l (h.nums r l e), fun r l e => k.strs r l (h.strs r l e),
    k.conds.trans h.conds, h.nInts.trans k.nInts, h.nNums.trans k.nNums, h.nStrs.trans k.nStrs⟩

theorem getElem?_append_some {α} {l : List α} {r : Nat} {x : α} (h : l[r]? = some x) (m : List α) : (l ++ m)[r]? = some x := by
  rw [List.getElem?_append_left (List.getElem?_eq_some_iff.1 h).1, h]

theorem ext_ints (s : Store) (l : List Int) : Ext s { s with ints := s.ints ++ [l] } :=
  ⟨fun _ _ h => getElem?_append_some h _, fun _ _ h => h, fun _ _ h => h, rfl, by simp, le_refl _, le_refl _⟩

theorem ext_nums (s : Store) (l : List Num) : Ext s { s with nums := s.nums ++ [l] } :=
  ⟨fun _ _ h => h, fun _ _ h => getElem?_append_some h _, fun _ _ h => h, rfl, le_refl _, by simp, le_refl _⟩

theorem ext_strs (s : Store) (l : List String) : Ext s { s with strs := s.strs ++ [l] } :=
  ⟨fun _ _ h => h, fun _ _ h => h, fun _ _ h => getElem?_append_some h _, rfl, le_refl _, le_refl _, by simp⟩

theorem Valid.ext {s s' : Store} {o : CObj} (h : Valid s o) (e : Ext s s') : Valid s' o :=
  ⟨fun r hr => lt_of_lt_of_le (h.idx r hr) e.nInts, fun r hr => lt_of_lt_of_le (h.lo r hr) e.nNums,
    fun r hr => lt_of_lt_of_le (h.hi r hr) e.nNums, fun r hr => lt_of_lt_of_le (h.names r hr) e.nStrs⟩

theorem Own.mono {s s' : Store} {o : CObj} (h : Own s' o) (e : Ext s s') : Own s o := by
  obtain ⟨⟨a, a1, a2⟩, ⟨b, b1, b2⟩, ⟨c, c1, c2⟩, ⟨d, d1, d2⟩, n⟩ := h
  exact ⟨⟨a, a1, e.nInts.trans a2⟩, ⟨b, b1, e.nNums.trans b2⟩, ⟨c, c1, e.nNums.trans c2⟩, ⟨d, d1, e.nStrs.trans d2⟩, n⟩

theorem bind_keep {α : Type} {l l' : List (List α)} {r : Option Nat} (hv : ∀ k, r = some k → k < l.length)
    (h : ∀ (k : Nat) (x : List α), l[k]? = some x → l'[k]? = some x) : vals l' r = vals l r := by
  cases r with
  | none => rfl
  | some k =>
    have hk := hv k rfl
    show l'[k]? = l[k]?
    rw [List.getElem?_eq_getElem hk]
    exact h k _ (List.getElem?_eq_getElem hk)

theorem Ext.view {s s' : Store} {o : CObj} (e : Ext s s') (h : Valid s o) : view s' o = view s o := by
  unfold CondHeap.view
  rw [bind_keep h.idx e.ints, bind_keep h.lo e.nums, bind_keep h.hi e.nums, bind_keep h.names e.strs]

/-- `newLists` of a condition with four lists -/
theorem newLists_spec (s : Store) {i : List Int} {lo hi : List Num} {n : List String} {b : Bool} :
    ∃ o s', newLists ⟨some i, some lo, some hi, some n, b⟩ s = (.ok o, s') ∧ Ext s s' ∧ Valid s' o ∧ Own s o ∧
      view s' o = ⟨some i, some lo, some hi, some n, b⟩ := by
  refine ⟨⟨some s.ints.length, some s.nums.length, some (s.nums ++ [lo]).length, some s.strs.length, b⟩,
    ⟨s.ints ++ [i], s.nums ++ [lo] ++ [hi], s.strs ++ [n], s.conds⟩, rfl, ?_, ?_, ?_, ?_⟩
  · exact (ext_nums s lo).trans ((ext_nums _ hi).trans ((ext_strs _ n).trans (ext_ints _ i)))
  · constructor <;> simp
  · exact ⟨⟨_, rfl, le_refl _⟩, ⟨_, rfl, le_refl _⟩, ⟨_, rfl, by simp⟩, ⟨_, rfl, le_refl _⟩, by simp⟩
  · simp [view, vals]

/-- What a function on conditions gives, compared with the function on values. -/
def Gives (s : Store) (p : Except Err CObj × Store) (x : Except Err Cond) (P : Cond → CObj → Prop) : Prop :=
  Ext s p.2 ∧ ((∃ e, x = .error e ∧ p.1 = .error e) ∨ ∃ c o, x = .ok c ∧ p.1 = .ok o ∧ Valid p.2 o ∧ view p.2 o = c ∧ P c o)

theorem Gives.mono {s : Store} {p : Except Err CObj × Store} {x : Except Err Cond} {P Q : Cond → CObj → Prop} (h : Gives s p x P)
    (hpq : ∀ c o, P c o → Q c o) : Gives s p x Q := by
  refine ⟨h.1, h.2.imp id ?_⟩
  rintro ⟨c, o, h1, h2, h3, h4, h5⟩
  exact ⟨c, o, h1, h2, h3, h4, hpq c o h5⟩

theorem Gives.base {s s' : Store} {p : Except Err CObj × Store} {x : Except Err Cond} {P : Cond → CObj → Prop} (h : Gives s' p x P)
    (e : Ext s s') : Gives s p x P := ⟨e.trans h.1, h.2⟩

/-- `sort` -/
theorem sort_spec (by_ : String) {s : Store} {o : CObj} (hv : Valid s o) :
    Gives s (CondHeap.sort by_ o s) ((view s o).sort by_) fun c o' =>
      (c.length ≤ 1 ∧ o' = o) ∨ Own s o' := by
  unfold CondHeap.sort
  simp only [Py.bind_run, Py.get_run]
  by_cases hl : (view s o).length > 1
  · simp only [if_pos hl]
    rw [Py.bind_run, Py.ofExcept_run]
    cases hc : (view s o).sort by_ with
    | error e => exact ⟨Ext.refl s, .inl ⟨e, rfl, rfl⟩⟩
    | ok c =>
      have hsh : ∃ i lo hi n b, c = ⟨some i, some lo, some hi, some n, b⟩ := by
        unfold Cond.sort at hc
        rw [if_pos hl] at hc
        simp only [bind, Except.bind] at hc
        repeat' (split at hc)
        all_goals first
          | (cases hc; done)
          | (cases hc; exact ⟨_, _, _, _, _, rfl⟩)
      obtain ⟨i, lo, hi, n, b, rfl⟩ := hsh
      obtain ⟨o', s', e1, e2, e3, e4, e5⟩ := newLists_spec s (i := i) (lo := lo) (hi := hi) (n := n) (b := b)
      simp only [e1]
      exact ⟨e2, .inr ⟨_, o', rfl, rfl, e3, e5, .inr e4⟩⟩
  · simp only [if_neg hl]
    refine ⟨Ext.refl s, .inr ⟨view s o, o, ?_, rfl, hv, rfl, .inl ⟨by omega, rfl⟩⟩⟩
    unfold Cond.sort
    rw [if_neg hl]

/-! ## The constructor -/

theorem init_sort (by_ : String) (i lo hi n : Option (List V)) :
    Cond.init by_ i lo hi n false true = (Cond.init by_ i lo hi n false false >>= fun c => c.sort by_) := by
  unfold Cond.init
  cases lo <;> cases hi <;> simp only [bind, Except.bind, Bool.false_eq_true, if_false, if_true]
  repeat' (split; try rfl)
  all_goals simp_all

/-- The lists of a condition made from typed lists -/
theorem init_lists {by_ : String} {i : Option (List Int)} {lo hi : Option (List Num)} {n : Option (List String)} {c : Cond}
    (h : Cond.init by_ (i.map (·.map V.int)) (lo.map (·.map V.float)) (hi.map (·.map V.float)) (n.map (·.map V.str)) false false = .ok c) :
    ∃ i' lo' hi' n' b, c = ⟨some i', some lo', some hi', some n', b⟩ ∧ lo = some lo' ∧ hi = some hi' ∧ (∀ x, i = some x → x = i') ∧
      ∀ x, n = some x → x = n' := by
  unfold Cond.init at h
  cases lo with
  | none => cases h
  | some lo =>
    cases hi with
    | none => cases h
    | some hi =>
      simp only [Option.map_some, Bool.false_eq_true, if_false, checkAll_float, bind, Except.bind] at h
      cases n with
      | none =>
        cases i with
        | none => simp at h
        | some i =>
          simp only [Option.map_some, Option.map_none, checkAll_int] at h
          repeat' (split at h)
          all_goals first
            | (cases h; done)
            | (cases h; exact ⟨_, _, _, _, _, rfl, rfl, rfl, by simp, by simp⟩)
      | some n =>
        cases i with
        | none =>
          simp only [Option.map_some, Option.map_none, checkAll_str, Except.map] at h
          repeat' (split at h)
          all_goals first
            | (cases h; done)
            | (cases h; exact ⟨_, _, _, _, _, rfl, rfl, rfl, by simp, by simp⟩)
        | some i =>
          simp only [Option.map_some, checkAll_int, checkAll_str, Except.map] at h
          repeat' (split at h)
          all_goals first
            | (cases h; done)
            | (cases h; exact ⟨_, _, _, _, _, rfl, rfl, rfl, by simp, by simp⟩)

/-- The lists given are kept, those not given are new. -/
structure Kept (s : Store) (idx lo hi names : Option Nat) (o : CObj) : Prop where
  idx : (∀ r, idx = some r → o.idx = some r) ∧ (idx = none → ∃ r, o.idx = some r ∧ s.ints.length ≤ r)
  lo : o.lo = lo
  hi : o.hi = hi
  names : (∀ r, names = some r → o.names = some r) ∧ (names = none → ∃ r, o.names = some r ∧ s.strs.length ≤ r)

theorem vals_some {α : Type} {l : List (List α)} {r : Nat} (h : r < l.length) : ∃ x, vals l (some r) = some x ∧ l[r]? = some x :=
  ⟨l[r], by simp [vals, h], by simp [h]⟩

theorem vals_none {α : Type} {l : List (List α)} {r : Option Nat} (hv : ∀ k, r = some k → k < l.length) (h : vals l r = none) : r = none := by
  cases r with
  | none => rfl
  | some k =>
    obtain ⟨x, hx, -⟩ := vals_some (hv k rfl)
    rw [hx] at h
    cases h

theorem vals_ref {α : Type} {l : List (List α)} {r : Option Nat} {x : List α} (h : vals l r = some x) : ∃ k, r = some k ∧ l[k]? = some x := by
  cases r with
  | none => cases h
  | some k => exact ⟨k, rfl, h⟩

theorem make_spec (by_ : String) {s : Store} {idx lo hi names : Option Nat} (sort_ : Bool)
    (vi : ∀ r, idx = some r → r < s.ints.length) (vn : ∀ r, names = some r → r < s.strs.length) :
    Gives s (make by_ idx lo hi names sort_ s)
      (Cond.init by_ ((vals s.ints idx).map (·.map V.int)) ((vals s.nums lo).map (·.map V.float))
        ((vals s.nums hi).map (·.map V.float)) ((vals s.strs names).map (·.map V.str)) false sort_)
      fun c o => ((sort_ = true → c.length ≤ 1) ∧ Kept s idx lo hi names o) ∨ Own s o := by
  unfold make
  simp only [Py.bind_run, Py.get_run, Py.ofExcept_run]
  cases hc : Cond.init by_ ((vals s.ints idx).map (·.map V.int)) ((vals s.nums lo).map (·.map V.float))
        ((vals s.nums hi).map (·.map V.float)) ((vals s.strs names).map (·.map V.str)) false false with
  | error e =>
    refine ⟨Ext.refl s, .inl ⟨e, ?_, rfl⟩⟩
    cases sort_
    · exact hc
    · rw [init_sort, hc]; rfl
  | ok c =>
    obtain ⟨i', lo', hi', n', b, rfl, rlo, rhi, ri, rn⟩ := init_lists hc
    obtain ⟨klo, rfl, glo⟩ := vals_ref rlo
    obtain ⟨khi, rfl, ghi⟩ := vals_ref rhi
    have llo : klo < s.nums.length := (List.getElem?_eq_some_iff.1 glo).1
    have lhi : khi < s.nums.length := (List.getElem?_eq_some_iff.1 ghi).1
    -- the list of indexes
    have step1 : ∃ i s1, orInts idx ((some i').getD []) s = (.ok i, s1) ∧ Ext s s1 ∧
        s1.ints[i]? = some i' ∧ s1.nums = s.nums ∧ s1.strs = s.strs ∧
        (∀ r, idx = some r → i = r) ∧ (idx = none → s.ints.length ≤ i) := by
      cases idx with
      | some r =>
        obtain ⟨x, hx, hx'⟩ := vals_some (vi r rfl)
        refine ⟨r, s, rfl, Ext.refl s, ?_, rfl, rfl, by simp, by simp⟩
        rw [hx', ri x hx]
      | none => exact ⟨s.ints.length, _, rfl, ext_ints s i', by simp, rfl, rfl, by simp, by simp⟩
    obtain ⟨i, s1, e1, x1, g1, n1, t1, k1, k2⟩ := step1
    have step2 : ∃ n s2, orStrs names ((some n').getD []) s1 = (.ok n, s2) ∧ Ext s1 s2 ∧
        s2.strs[n]? = some n' ∧ s2.nums = s1.nums ∧ s2.ints = s1.ints ∧
        (∀ r, names = some r → n = r) ∧ (names = none → s.strs.length ≤ n) := by
      cases names with
      | some r =>
        obtain ⟨x, hx, hx'⟩ := vals_some (vn r rfl)
        refine ⟨r, s1, rfl, Ext.refl s1, ?_, rfl, rfl, by simp, by simp⟩
        rw [t1, hx', rn x hx]
      | none => exact ⟨s1.strs.length, _, rfl, ext_strs s1 n', by simp, rfl, rfl, by simp, by simp [t1]⟩
    obtain ⟨n, s2, e2, x2, g2, n2, t2, k3, k4⟩ := step2
    have x : Ext s s2 := x1.trans x2
    simp only [e1, e2]
    have hv : Valid s2 ⟨some i, some klo, some khi, some n, b⟩ := by
      constructor
      · rintro r ⟨⟩; exact (List.getElem?_eq_some_iff.1 (t2 ▸ g1)).1
      · rintro r ⟨⟩; rw [n2, n1]; exact llo
      · rintro r ⟨⟩; rw [n2, n1]; exact lhi
      · rintro r ⟨⟩; exact (List.getElem?_eq_some_iff.1 g2).1
    have hview : view s2 ⟨some i, some klo, some khi, some n, b⟩ = ⟨some i', some lo', some hi', some n', b⟩ := by
      simp only [view, vals, Option.bind_some, t2, g1, n2, n1, glo, ghi, g2]
    have hk : Kept s idx (some klo) (some khi) names ⟨some i, some klo, some khi, some n, b⟩ :=
      ⟨⟨fun r hr => by rw [k1 r hr], fun h => ⟨i, rfl, k2 h⟩⟩, rfl, rfl, ⟨fun r hr => by rw [k3 r hr], fun h => ⟨n, rfl, k4 h⟩⟩⟩
    cases sort_ with
    | false =>
      exact ⟨x, .inr ⟨_, _, hc, rfl, hv, hview, .inl ⟨by simp, hk⟩⟩⟩
    | true =>
      have hs := sort_spec by_ hv
      rw [hview] at hs
      have e : Cond.init by_ ((vals s.ints idx).map (·.map V.int)) ((vals s.nums (some klo)).map (·.map V.float))
        ((vals s.nums (some khi)).map (·.map V.float)) ((vals s.strs names).map (·.map V.str)) false true =
          Cond.sort by_ ⟨some i', some lo', some hi', some n', b⟩ := by rw [init_sort, hc]; rfl
      rw [e]
      refine (hs.base x).mono ?_
      rintro c o (⟨h1, rfl⟩ | h)
      · exact .inl ⟨fun _ => h1, hk⟩
      · exact .inr (h.mono x)

/-! ## `&` -/

theorem init_true_lists {by_ : String} {i : Option (List Int)} {lo hi : Option (List Num)} {n : Option (List String)} {c : Cond}
    (h : initTyped by_ i lo hi n = .ok c) : ∃ i' lo' hi' n' b, c = ⟨some i', some lo', some hi', some n', b⟩ := by
  unfold initTyped at h
  rw [init_sort] at h
  simp only [bind, Except.bind] at h
  split at h
  · cases h
  rename_i c0 hc
  obtain ⟨i', lo', hi', n', b, rfl, -⟩ := init_lists hc
  unfold Cond.sort at h
  simp only [need, bind, Except.bind] at h
  repeat' (split at h)
  all_goals first
    | (cases h; done)
    | (cases h; exact ⟨_, _, _, _, _, rfl⟩)

/-- The copies of the four lists -/
theorem copies_spec {s : Store} {a : CObj} (va : Valid s a) :
    ∃ i lo hi n s1 s2 s3 s4, copyInts a.idx s = (.ok i, s1) ∧ copyNums a.lo s1 = (.ok lo, s2) ∧ copyNums a.hi s2 = (.ok hi, s3) ∧
      copyStrs a.names s3 = (.ok n, s4) ∧ Ext s s4 ∧
      vals s4.ints i = vals s.ints a.idx ∧ vals s4.nums lo = vals s.nums a.lo ∧ vals s4.nums hi = vals s.nums a.hi ∧
      vals s4.strs n = vals s.strs a.names ∧
      (∀ r, i = some r → s.ints.length ≤ r ∧ r < s4.ints.length) ∧ (∀ r, lo = some r → s.nums.length ≤ r) ∧
      (∀ r, hi = some r → s.nums.length ≤ r) ∧ (∀ r, n = some r → s.strs.length ≤ r ∧ r < s4.strs.length) ∧
      (∀ r, lo = some r → hi ≠ some r) := by
  have ci : ∃ i s1, copyInts a.idx s = (.ok i, s1) ∧ Ext s s1 ∧ s1.nums = s.nums ∧ s1.strs = s.strs ∧
      vals s1.ints i = vals s.ints a.idx ∧ ∀ r, i = some r → s.ints.length ≤ r ∧ r < s1.ints.length := by
    unfold copyInts
    cases h : vals s.ints a.idx with
    | none => exact ⟨none, s, rfl, Ext.refl s, rfl, rfl, rfl, by simp⟩
    | some l => exact ⟨some s.ints.length, _, rfl, ext_ints s l, rfl, rfl, by simp [vals, newInts], by simp [newInts]⟩
  have cn : ∀ (s : Store) (r : Option Nat), ∃ r' s1, copyNums r s = (.ok r', s1) ∧ Ext s s1 ∧ s1.ints = s.ints ∧ s1.strs = s.strs ∧
      vals s1.nums r' = vals s.nums r ∧ (∀ k, r' = some k → s.nums.length ≤ k ∧ k < s1.nums.length) := by
    intro s r
    unfold copyNums
    cases h : vals s.nums r with
    | none => exact ⟨none, s, rfl, Ext.refl s, rfl, rfl, rfl, by simp⟩
    | some l => exact ⟨some s.nums.length, _, rfl, ext_nums s l, rfl, rfl, by simp [vals, newNums], by simp [newNums]⟩
  obtain ⟨i, s1, e1, x1, n1, t1, v1, f1⟩ := ci
  obtain ⟨lo, s2, e2, x2, i2, t2, v2, f2⟩ := cn s1 a.lo
  obtain ⟨hi, s3, e3, x3, i3, t3, v3, f3⟩ := cn s2 a.hi
  have cs : ∃ n s4, copyStrs a.names s3 = (.ok n, s4) ∧ Ext s3 s4 ∧ s4.nums = s3.nums ∧ s4.ints = s3.ints ∧
      vals s4.strs n = vals s3.strs a.names ∧ ∀ r, n = some r → s3.strs.length ≤ r ∧ r < s4.strs.length := by
    unfold copyStrs
    cases h : vals s3.strs a.names with
    | none => exact ⟨none, s3, rfl, Ext.refl s3, rfl, rfl, rfl, by simp⟩
    | some l => exact ⟨some s3.strs.length, _, rfl, ext_strs s3 l, rfl, rfl, by simp [vals, newStrs], by simp [newStrs]⟩
  obtain ⟨n, s4, e4, x4, n4, i4, v4, f4⟩ := cs
  refine ⟨i, lo, hi, n, s1, s2, s3, s4, e1, e2, e3, e4, x1.trans (x2.trans (x3.trans x4)), ?_, ?_, ?_, ?_, ?_, ?_, ?_, ?_, ?_⟩
  · rw [i4, i3, i2, v1]
  · rw [n4, bind_keep (fun k hk => (f2 k hk).2) x3.nums, v2, n1]
  · rw [n4, v3, bind_keep (fun k hk => by rw [n1]; exact va.hi k hk) x2.nums, n1]
  · rw [v4, t3, t2, t1]
  · rw [i4, i3, i2]; exact f1
  · intro r hr; have := (f2 r hr).1; rw [n1] at this; exact this
  · intro r hr; have := (f3 r hr).1; have h2 := x2.nNums; rw [n1] at h2; omega
  · intro r hr; have := f4 r hr; rw [t3, t2, t1] at this; exact this
  · intro r hr hr'
    have := (f2 r hr).2
    have := (f3 r hr').1
    omega

theorem Kept.own {s s1 : Store} {idx names : Option Nat} {lo hi : Nat} {o : CObj} (h : Kept s1 idx (some lo) (some hi) names o)
    (x : Ext s s1) (fi : ∀ r, idx = some r → s.ints.length ≤ r) (fn : ∀ r, names = some r → s.strs.length ≤ r)
    (fl : s.nums.length ≤ lo) (fh : s.nums.length ≤ hi) (ne : lo ≠ hi) : Own s o := by
  refine ⟨?_, ⟨lo, h.lo, fl⟩, ⟨hi, h.hi, fh⟩, ?_, by rw [h.lo, h.hi]; simpa using ne⟩
  · cases idx with
    | some r => exact ⟨r, h.idx.1 r rfl, fi r rfl⟩
    | none => obtain ⟨r, h1, h2⟩ := h.idx.2 rfl; exact ⟨r, h1, x.nInts.trans h2⟩
  · cases names with
    | some r => exact ⟨r, h.names.1 r rfl, fn r rfl⟩
    | none => obtain ⟨r, h1, h2⟩ := h.names.2 rfl; exact ⟨r, h1, x.nStrs.trans h2⟩

/-- The copy of `self` -/
theorem clone_spec (by_ : String) {s : Store} {a : CObj} (va : Valid s a) :
    ∃ m : Py Store CObj, (∀ b : CObj, meet by_ a b = (m >>= fun clone => meetRest by_ clone b >>= concat by_ clone)) ∧
      Gives s (m s) (initTyped by_ (view s a).indexes (view s a).bmins (view s a).bmaxs (view s a).names) fun _ o => Own s o := by
  refine ⟨do
    let i ← copyInts a.idx
    let lo ← copyNums a.lo
    let hi ← copyNums a.hi
    let n ← copyStrs a.names
    make by_ i lo hi n true, ?_, ?_⟩
  · intro b
    funext s
    unfold meet
    simp only [Py.bind_run]
    rcases copyInts a.idx s with ⟨_ | i, s1⟩ <;> simp only []
    rcases copyNums a.lo s1 with ⟨_ | lo, s2⟩ <;> simp only []
    rcases copyNums a.hi s2 with ⟨_ | hi, s3⟩ <;> simp only []
    rcases copyStrs a.names s3 with ⟨_ | n, s4⟩ <;> simp only []
  · obtain ⟨i, lo, hi, n, s1, s2, s3, s4, e1, e2, e3, e4, x, v1, v2, v3, v4, f1, f2, f3, f4, ne⟩ := copies_spec va
    rw [Py.bind_ok e1, Py.bind_ok e2, Py.bind_ok e3, Py.bind_ok e4]
    have h := make_spec by_ (lo := lo) (hi := hi) true (fun r hr => (f1 r hr).2) (fun r hr => (f4 r hr).2)
    rw [v1, v2, v3, v4] at h
    refine ⟨x.trans h.1, h.2.imp id ?_⟩
    rintro ⟨c, o, h1, h2, h3, h4, h5⟩
    refine ⟨c, o, h1, h2, h3, h4, ?_⟩
    rcases h5 with ⟨-, h5⟩ | h5
    · obtain ⟨i', lo', hi', n', b, rfl⟩ := init_true_lists h1
      have q1 : vals (make by_ i lo hi n true s4).2.nums o.lo = some lo' := congrArg Cond.bmins h4
      have q2 : vals (make by_ i lo hi n true s4).2.nums o.hi = some hi' := congrArg Cond.bmaxs h4
      rw [h5.lo] at q1
      rw [h5.hi] at q2
      obtain ⟨kl, rfl, -⟩ := vals_ref q1
      obtain ⟨kh, rfl, -⟩ := vals_ref q2
      exact h5.own x (fun r hr => (f1 r hr).1) (fun r hr => (f4 r hr).1) (f2 kl rfl) (f3 kh rfl)
        (fun e => ne kl rfl (by rw [e]))
    · exact h5.mono x

/-- The four lists of a condition -/
def listsOf (c : Cond) : Except Err (List Int × List Num × List Num × List String) :=
  match c.indexes, c.bmins, c.bmaxs, c.names with
  | some i, some lo, some hi, some n => .ok (i, lo, hi, n)
  | _, _, _, _ => .error .typeError

theorem lists_run (o : CObj) (s : Store) : lists o s = (listsOf (view s o), s) := by
  unfold lists listsOf
  simp only [Py.bind_run, Py.get_run, Py.ofExcept_run]
  cases (view s o).names <;> cases (view s o).indexes <;> cases (view s o).bmins <;> cases (view s o).bmaxs <;> rfl

/-- The middle of `Cond.and`, when there are common features -/
def andCommon (by_ : String) (c d : List Int × List Num × List Num × List String) (common : List String) :
    Except Err (List Num × List Num × Cond) := do
  let posS := common.map fun f => c.2.2.2.idxOf f
  let posO := common.map fun f => d.2.2.2.idxOf f
  let idxS ← posS.mapM (item c.1)
  let loS ← posS.mapM (item c.2.1)
  let hiS ← posS.mapM (item c.2.2.1)
  let idxO ← posO.mapM (item d.1)
  let loO ← posO.mapM (item d.2.1)
  let hiO ← posO.mapM (item d.2.2.1)
  if idxS ≠ idxO then .error .indexError
  else do
    let rest ← initTyped by_ (some (without d.1 posO)) (some (without d.2.1 posO)) (some (without d.2.2.1 posO))
      (some (d.2.2.2.filter fun f => decide (f ∉ common)))
    .ok (assign c.2.1 posS (List.zipWith Num.max loS loO), assign c.2.2.1 posS (List.zipWith Num.min hiS hiO), rest)

/-- The middle of `Cond.and` -/
def andMid (by_ : String) (c d : List Int × List Num × List Num × List String) (other : Cond) :
    Except Err (List Num × List Num × Cond) :=
  if (c.2.2.2.filter fun f => decide (f ∈ d.2.2.2)).length > 0 then
    andCommon by_ c d (c.2.2.2.filter fun f => decide (f ∈ d.2.2.2))
  else .ok (c.2.1, c.2.2.1, other)

/-- The end of `Cond.and` -/
def andEnd (by_ : String) (c r : List Int × List Num × List Num × List String) (lo hi : List Num) : Except Err Cond :=
  if ¬ (c.1 ++ r.1).Nodup then .error .indexError
  else initTyped by_ (some (c.1 ++ r.1)) (some (lo ++ r.2.1)) (some (hi ++ r.2.2.1)) (some (c.2.2.2 ++ r.2.2.2))

theorem and_parts (by_ : String) (a b : Cond) :
    Cond.and by_ a b = (initTyped by_ a.indexes a.bmins a.bmaxs a.names >>= fun clone => listsOf clone >>= fun c =>
      listsOf b >>= fun d => andMid by_ c d b >>= fun m => listsOf m.2.2 >>= fun r => andEnd by_ c r m.1 m.2.1) := by
  unfold Cond.and
  cases hcl : initTyped by_ a.indexes a.bmins a.bmaxs a.names with
  | error e => rfl
  | ok clone =>
    obtain ⟨i, lo, hi, n, im, rfl⟩ := init_true_lists hcl
    obtain ⟨bi, bl, bh, bn, bb⟩ := b
    cases bi <;> cases bl <;> cases bh <;> cases bn <;> try rfl
    rename_i bi bl bh bn
    simp only [need, listsOf, bind, Except.bind, andMid, andCommon]
    by_cases hc : (List.filter (fun f => decide (f ∈ bn)) n).length > 0
    · simp only [if_pos hc]
      cases List.mapM (item i) (List.map (fun f => List.idxOf f n) (List.filter (fun f => decide (f ∈ bn)) n)) with
      | error e => rfl
      | ok idxS =>
      cases List.mapM (item lo) (List.map (fun f => List.idxOf f n) (List.filter (fun f => decide (f ∈ bn)) n)) with
      | error e => rfl
      | ok loS =>
      cases List.mapM (item hi) (List.map (fun f => List.idxOf f n) (List.filter (fun f => decide (f ∈ bn)) n)) with
      | error e => rfl
      | ok hiS =>
      cases List.mapM (item bi) (List.map (fun f => List.idxOf f bn) (List.filter (fun f => decide (f ∈ bn)) n)) with
      | error e => rfl
      | ok idxO =>
      cases List.mapM (item bl) (List.map (fun f => List.idxOf f bn) (List.filter (fun f => decide (f ∈ bn)) n)) with
      | error e => rfl
      | ok loO =>
      cases List.mapM (item bh) (List.map (fun f => List.idxOf f bn) (List.filter (fun f => decide (f ∈ bn)) n)) with
      | error e => rfl
      | ok hiO =>
      simp only []
      by_cases hi' : idxS ≠ idxO
      · simp only [if_pos hi']
      · simp only [if_neg hi']
        cases initTyped by_
            (some (without bi (List.map (fun f => List.idxOf f bn) (List.filter (fun f => decide (f ∈ bn)) n))))
            (some (without bl (List.map (fun f => List.idxOf f bn) (List.filter (fun f => decide (f ∈ bn)) n))))
            (some (without bh (List.map (fun f => List.idxOf f bn) (List.filter (fun f => decide (f ∈ bn)) n))))
            (some (List.filter (fun f => decide (f ∉ List.filter (fun f => decide (f ∈ bn)) n)) bn)) with
        | error e => rfl
        | ok rest =>
          obtain ⟨ri, rl, rh, rn, rb⟩ := rest
          cases ri <;> cases rl <;> cases rh <;> cases rn <;> rfl
    · simp only [if_neg hc]
      rfl

/-! ## Writing into the copy -/

theorem item_len {α : Type} {l : List α} : ∀ {ks : List Nat} {vs : List α}, ks.mapM (item l) = .ok vs →
    vs.length = ks.length ∧ ∀ k ∈ ks, k < l.length
  | [], vs, h => by
    cases h
    simp
  | k :: ks, vs, h => by
    rw [List.mapM_cons] at h
    simp only [bind, Except.bind] at h
    split at h
    · cases h
    rename_i v hv
    split at h
    · cases h
    rename_i vs' hvs
    cases h
    obtain ⟨h1, h2⟩ := item_len hvs
    refine ⟨by simp [h1], ?_⟩
    intro k' hk'
    rcases List.mem_cons.1 hk' with rfl | hk'
    · unfold item at hv
      split at hv
      · rename_i x hx
        exact (List.getElem?_eq_some_iff.1 hx).1
      · cases hv
    · exact h2 k' hk'

theorem assignBoth_spec {p q : Nat} (ne : p ≠ q) : ∀ (ts : List (Nat × Num × Num)) (s : Store) (l h : List Num),
    s.nums[p]? = some l → s.nums[q]? = some h → (∀ t ∈ ts, t.1 < l.length ∧ t.1 < h.length) →
    ∃ s', assignBoth (some p) (some q) ts s = (.ok (), s') ∧ s'.ints = s.ints ∧ s'.strs = s.strs ∧ s'.conds = s.conds ∧
      s'.nums.length = s.nums.length ∧ s'.nums[p]? = some (ts.foldl (fun l t => l.set t.1 t.2.1) l) ∧
      s'.nums[q]? = some (ts.foldl (fun l t => l.set t.1 t.2.2) h) ∧ ∀ r, r ≠ p → r ≠ q → s'.nums[r]? = s.nums[r]?
  | [], s, l, h, hl, hh, _ => ⟨s, rfl, rfl, rfl, rfl, rfl, hl, hh, fun _ _ _ => rfl⟩
  | (k, a, b) :: ts, s, l, h, hl, hh, hk => by
    obtain ⟨k1, k2⟩ := hk _ List.mem_cons_self
    have lp : p < s.nums.length := (List.getElem?_eq_some_iff.1 hl).1
    have lq : q < s.nums.length := (List.getElem?_eq_some_iff.1 hh).1
    have e1 : setNum (some p) k a s = (.ok (), { s with nums := s.nums.set p (l.set k a) }) := by
      simp only [setNum, hl]
      rw [if_pos k1]
    have hh' : (s.nums.set p (l.set k a))[q]? = some h := by
      rw [List.getElem?_set_ne ne, hh]
    have e2 : setNum (some q) k b { s with nums := s.nums.set p (l.set k a) } =
        (.ok (), { s with nums := (s.nums.set p (l.set k a)).set q (h.set k b) }) := by
      simp only [setNum, hh']
      rw [if_pos k2]
    obtain ⟨s', f, g1, g2, g3, g4, g5, g6, g7⟩ := assignBoth_spec ne ts
      { s with nums := (s.nums.set p (l.set k a)).set q (h.set k b) } (l.set k a) (h.set k b)
      (by simp only []; rw [List.getElem?_set_ne (Ne.symm ne), List.getElem?_set_self lp])
      (by simp only []; rw [List.getElem?_set_self (by simpa using lq)])
      (fun t ht => by simpa using hk t (List.mem_cons_of_mem _ ht))
    refine ⟨s', ?_, g1, g2, g3, by simpa using g4, g5, g6, ?_⟩
    · show (setNum (some p) k a >>= fun _ => setNum (some q) k b >>= fun _ => assignBoth (some p) (some q) ts) s = _
      rw [Py.bind_ok e1, Py.bind_ok e2, f]
    · intro r h1 h2
      rw [g7 r h1 h2]
      simp only []
      rw [List.getElem?_set_ne (Ne.symm h2), List.getElem?_set_ne (Ne.symm h1)]

theorem foldl_zip {α : Type} : ∀ (ks : List Nat) (as bs : List α) (l : List α), as.length = bs.length →
    (ks.zip (as.zip bs)).foldl (fun l t => l.set t.1 t.2.1) l = assign l ks as ∧
      (ks.zip (as.zip bs)).foldl (fun l t => l.set t.1 t.2.2) l = assign l ks bs
  | [], _, _, _, _ => by simp [assign]
  | _ :: _, [], [], _, _ => by simp [assign]
  | k :: ks, a :: as, b :: bs, l, h => by
    have h1 := (foldl_zip ks as bs (l.set k a) (by simpa using h)).1
    have h2 := (foldl_zip ks as bs (l.set k b) (by simpa using h)).2
    unfold assign at h1 h2 ⊢
    exact ⟨h1, h2⟩

theorem zip_fst {α β : Type} (ks : List α) (l : List β) : ∀ t ∈ ks.zip l, t.1 ∈ ks := fun _ ht => (List.of_mem_zip ht).1

theorem fresh_spec (by_ : String) (s : Store) (i : List Int) (lo hi : List Num) (n : List String) :
    Gives s (fresh by_ i lo hi n s) (initTyped by_ (some i) (some lo) (some hi) (some n)) fun _ o => Own s o := by
  have x : Ext s ⟨s.ints ++ [i], s.nums ++ [lo] ++ [hi], s.strs ++ [n], s.conds⟩ :=
    (ext_nums s lo).trans ((ext_nums _ hi).trans ((ext_strs _ n).trans (ext_ints _ i)))
  have e : fresh by_ i lo hi n s = make by_ (some s.ints.length) (some s.nums.length) (some (s.nums ++ [lo]).length)
      (some s.strs.length) true ⟨s.ints ++ [i], s.nums ++ [lo] ++ [hi], s.strs ++ [n], s.conds⟩ := rfl
  rw [e]
  have h := make_spec by_ (s := ⟨s.ints ++ [i], s.nums ++ [lo] ++ [hi], s.strs ++ [n], s.conds⟩)
    (idx := some s.ints.length) (lo := some s.nums.length) (hi := some (s.nums ++ [lo]).length) (names := some s.strs.length)
    true (by simp) (by simp)
  have v : (vals (s.ints ++ [i]) (some s.ints.length), vals (s.nums ++ [lo] ++ [hi]) (some s.nums.length),
      vals (s.nums ++ [lo] ++ [hi]) (some (s.nums ++ [lo]).length), vals (s.strs ++ [n]) (some s.strs.length)) =
      (some i, some lo, some hi, some n) := by simp [vals]
  simp only [Prod.mk.injEq] at v
  obtain ⟨v1, v2, v3, v4⟩ := v
  simp only [v1, v2, v3, v4] at h
  refine (Gives.base h x).mono ?_
  rintro c o (⟨-, h⟩ | h)
  · exact h.own x (by simp) (by simp) (le_refl _) (by simp) (by simp)
  · exact h.mono x

/-- Lines 215-271 -/
theorem meetCommon_spec (by_ : String) {s s1 : Store} {clone : CObj} (x : Ext s s1) (own : Own s clone) (vc : Valid s1 clone)
    {i : List Int} {lo hi : List Num} {n : List String} {im : Bool}
    (hview : view s1 clone = ⟨some i, some lo, some hi, some n, im⟩) (d : List Int × List Num × List Num × List String)
    (common : List String) :
    Ext s (meetCommon by_ clone (i, lo, hi, n) d common s1).2 ∧
      ((∃ e, andCommon by_ (i, lo, hi, n) d common = .error e ∧
          (meetCommon by_ clone (i, lo, hi, n) d common s1).1 = .error e) ∨
       ∃ nl nh rv rest, andCommon by_ (i, lo, hi, n) d common = .ok (nl, nh, rv) ∧
          (meetCommon by_ clone (i, lo, hi, n) d common s1).1 = .ok rest ∧
          Valid (meetCommon by_ clone (i, lo, hi, n) d common s1).2 rest ∧
          view (meetCommon by_ clone (i, lo, hi, n) d common s1).2 rest = rv ∧
          view (meetCommon by_ clone (i, lo, hi, n) d common s1).2 clone = ⟨some i, some nl, some nh, some n, im⟩) := by
  unfold meetCommon andCommon
  simp only [bind, Except.bind]
  cases h1 : List.mapM (item i) (List.map (fun f => List.idxOf f n) common) with
  | error e => exact ⟨x, .inl ⟨e, rfl, rfl⟩⟩
  | ok idxS =>
  cases h2 : List.mapM (item lo) (List.map (fun f => List.idxOf f n) common) with
  | error e => exact ⟨x, .inl ⟨e, rfl, rfl⟩⟩
  | ok loS =>
  cases h3 : List.mapM (item hi) (List.map (fun f => List.idxOf f n) common) with
  | error e => exact ⟨x, .inl ⟨e, rfl, rfl⟩⟩
  | ok hiS =>
  cases h4 : List.mapM (item d.1) (List.map (fun f => List.idxOf f d.2.2.2) common) with
  | error e => exact ⟨x, .inl ⟨e, rfl, rfl⟩⟩
  | ok idxO =>
  cases h5 : List.mapM (item d.2.1) (List.map (fun f => List.idxOf f d.2.2.2) common) with
  | error e => exact ⟨x, .inl ⟨e, rfl, rfl⟩⟩
  | ok loO =>
  cases h6 : List.mapM (item d.2.2.1) (List.map (fun f => List.idxOf f d.2.2.2) common) with
  | error e => exact ⟨x, .inl ⟨e, rfl, rfl⟩⟩
  | ok hiO =>
  by_cases hne : idxS ≠ idxO
  · simp only [Py.bind, Py.ofExcept, if_pos hne]
    exact ⟨x, .inl ⟨_, rfl, rfl⟩⟩
  simp only [Py.bind, Py.ofExcept, if_neg hne]
  obtain ⟨fx, hf⟩ := fresh_spec by_ s1 (without d.1 (List.map (fun f => List.idxOf f d.2.2.2) common))
    (without d.2.1 (List.map (fun f => List.idxOf f d.2.2.2) common))
    (without d.2.2.1 (List.map (fun f => List.idxOf f d.2.2.2) common))
    (d.2.2.2.filter fun f => decide (f ∉ common))
  rcases hf with ⟨e, f1, f2⟩ | ⟨c, rest, f1, f2, f3, f4, f5⟩
  · simp only [f1]
    generalize fresh by_ _ _ _ _ s1 = g at f2 fx ⊢
    obtain ⟨r, s2⟩ := g
    simp only at f2 fx
    subst f2
    exact ⟨x.trans fx, .inl ⟨e, rfl, rfl⟩⟩
  · simp only [f1]
    generalize fresh by_ _ _ _ _ s1 = g at f2 f3 f4 fx ⊢
    obtain ⟨r, s2⟩ := g
    simp only at f2 f3 f4 fx
    subst f2
    have q1 : vals s1.nums clone.lo = some lo := congrArg Cond.bmins hview
    have q2 : vals s1.nums clone.hi = some hi := congrArg Cond.bmaxs hview
    obtain ⟨p, hp, gp⟩ := vals_ref q1
    obtain ⟨q, hq, gq⟩ := vals_ref q2
    have ne : p ≠ q := fun e => own.ne (by rw [hp, hq, e])
    have l2 := item_len h2
    have l3 := item_len h3
    have l5 := item_len h5
    have l6 := item_len h6
    obtain ⟨s3, a0, a1, a2, a3, a4, a5, a6, a7⟩ := assignBoth_spec ne
      ((List.map (fun f => List.idxOf f n) common).zip ((List.zipWith Num.max loS loO).zip (List.zipWith Num.min hiS hiO)))
      s2 lo hi (fx.nums _ _ gp) (fx.nums _ _ gq) (fun t ht => ⟨l2.2 _ (zip_fst _ _ t ht), l3.2 _ (zip_fst _ _ t ht)⟩)
    have hz := foldl_zip (List.map (fun f => List.idxOf f n) common) (List.zipWith Num.max loS loO) (List.zipWith Num.min hiS hiO)
    have hlen : (List.zipWith Num.max loS loO).length = (List.zipWith Num.min hiS hiO).length := by
      simp [l2.1, l3.1, l5.1, l6.1]
    rw [(hz lo hlen).1] at a5
    rw [(hz hi hlen).2] at a6
    rw [hp, hq]
    simp only [a0, Py.pure_run]
    have pl : s.nums.length ≤ p := by
      obtain ⟨r, r1, r2⟩ := own.lo
      rw [hp] at r1; cases r1; exact r2
    have ql : s.nums.length ≤ q := by
      obtain ⟨r, r1, r2⟩ := own.hi
      rw [hq] at r1; cases r1; exact r2
    have y := x.trans fx
    have pl1 : p < s1.nums.length := (List.getElem?_eq_some_iff.1 gp).1
    have ql1 : q < s1.nums.length := (List.getElem?_eq_some_iff.1 gq).1
    refine ⟨⟨fun r l h => by rw [a1]; exact y.ints r l h, fun r l h => ?_, fun r l h => by rw [a2]; exact y.strs r l h,
      a3.trans y.conds, by rw [a1]; exact y.nInts, by rw [a4]; exact y.nNums, by rw [a2]; exact y.nStrs⟩, .inr
      ⟨_, _, c, rest, rfl, rfl, ?_, ?_, ?_⟩⟩
    · have lr := (List.getElem?_eq_some_iff.1 h).1
      rw [a7 r (by omega) (by omega)]
      exact y.nums r l h
    · exact ⟨by rw [a1]; exact f3.idx, by rw [a4]; exact f3.lo, by rw [a4]; exact f3.hi, by rw [a2]; exact f3.names⟩
    · rw [← f4]
      obtain ⟨rl, e1, e2⟩ := f5.lo
      obtain ⟨rh, e3, e4⟩ := f5.hi
      unfold view
      rw [a1, a2, e1, e3]
      simp only [vals, Option.bind_some]
      rw [a7 rl (by omega) (by omega), a7 rh (by omega) (by omega)]
    · have w := fx.view vc
      rw [hview] at w
      unfold view at w ⊢
      simp only [Cond.mk.injEq] at w ⊢
      refine ⟨by rw [a1]; exact w.1, by rw [hp]; exact a5, by rw [hq]; exact a6, by rw [a2]; exact w.2.2.2.1, w.2.2.2.2⟩

/-- Lines 203-273 -/
theorem meetRest_spec (by_ : String) {s s1 : Store} {clone b : CObj} (x : Ext s s1) (own : Own s clone) (vc : Valid s1 clone)
    (vb : Valid s b) {i : List Int} {lo hi : List Num} {n : List String} {im : Bool}
    (hview : view s1 clone = ⟨some i, some lo, some hi, some n, im⟩) :
    Ext s (meetRest by_ clone b s1).2 ∧
      ((∃ e, (listsOf (view s b) >>= fun d => andMid by_ (i, lo, hi, n) d (view s b)) = .error e ∧
          (meetRest by_ clone b s1).1 = .error e) ∨
       ∃ nl nh rv rest, (listsOf (view s b) >>= fun d => andMid by_ (i, lo, hi, n) d (view s b)) = .ok (nl, nh, rv) ∧
          (meetRest by_ clone b s1).1 = .ok rest ∧ Valid (meetRest by_ clone b s1).2 rest ∧
          view (meetRest by_ clone b s1).2 rest = rv ∧
          view (meetRest by_ clone b s1).2 clone = ⟨some i, some nl, some nh, some n, im⟩) := by
  unfold meetRest
  have hc : lists clone s1 = (.ok (i, lo, hi, n), s1) := by rw [lists_run, hview]; rfl
  rw [Py.bind_ok hc]
  have hb := lists_run b s1
  rw [x.view vb] at hb
  cases hd : listsOf (view s b) with
  | error e =>
    rw [hd] at hb
    rw [Py.bind_err hb]
    exact ⟨x, .inl ⟨e, rfl, rfl⟩⟩
  | ok d =>
    rw [hd] at hb
    rw [Py.bind_ok hb]
    simp only [bind, Except.bind, andMid]
    by_cases hcm : (List.filter (fun f => decide (f ∈ d.2.2.2)) n).length > 0
    · simp only [if_pos hcm]
      exact meetCommon_spec by_ x own vc hview d _
    · simp only [if_neg hcm]
      exact ⟨x, .inr ⟨lo, hi, view s b, b, rfl, rfl, vb.ext x, x.view vb, hview⟩⟩

/-- Lines 275-289 -/
theorem concat_spec (by_ : String) {s : Store} {clone rest : CObj} {i : List Int} {lo hi : List Num} {n : List String} {im : Bool}
    (hview : view s clone = ⟨some i, some lo, some hi, some n, im⟩) (lo' hi' : List Num) :
    Gives s (concat by_ clone rest s) (listsOf (view s rest) >>= fun r => andEnd by_ (i, lo', hi', n) r lo hi) fun _ o => Own s o := by
  unfold concat
  have hc : lists clone s = (.ok (i, lo, hi, n), s) := by rw [lists_run, hview]; rfl
  rw [Py.bind_ok hc]
  have hb := lists_run rest s
  cases hd : listsOf (view s rest) with
  | error e =>
    rw [hd] at hb
    rw [Py.bind_err hb]
    exact ⟨Ext.refl s, .inl ⟨e, rfl, rfl⟩⟩
  | ok r =>
    rw [hd] at hb
    rw [Py.bind_ok hb]
    simp only [bind, Except.bind, andEnd]
    by_cases hn : ¬ (i ++ r.1).Nodup
    · simp only [if_pos hn]
      exact ⟨Ext.refl s, .inl ⟨_, rfl, rfl⟩⟩
    · simp only [if_neg hn]
      exact fresh_spec by_ s _ _ _ _

/-- `&` gives what `Cond.and` gives of the values, changes no list and no condition, and the lists of the result are new. -/
theorem meet_spec (by_ : String) {s : Store} {a b : CObj} (va : Valid s a) (vb : Valid s b) :
    Gives s (meet by_ a b s) (Cond.and by_ (view s a) (view s b)) fun _ o => Own s o := by
  obtain ⟨m, hm, hx, hg⟩ := clone_spec by_ va
  rw [hm b, and_parts, Py.bind_run]
  rcases hg with ⟨e, g1, g2⟩ | ⟨c, clone, g1, g2, g3, g4, g5⟩
  · rcases hms : m s with ⟨r, s1⟩
    rw [hms] at g2 hx
    subst g2
    rw [g1]
    exact ⟨hx, .inl ⟨e, rfl, rfl⟩⟩
  · rcases hms : m s with ⟨r, s1⟩
    rw [hms] at g2 g3 g4 hx
    subst g2
    rw [g1]
    obtain ⟨i, lo, hi, n, im, rfl⟩ := init_true_lists g1
    simp only at g3 g4 hx ⊢
    obtain ⟨y, hr⟩ := meetRest_spec by_ hx g5 g3 vb g4
    rw [Py.bind_run]
    rcases hmr : meetRest by_ clone b s1 with ⟨r, s2⟩
    rw [hmr] at hr y
    have hsame : ((Except.ok ⟨some i, some lo, some hi, some n, im⟩ : Except Err Cond) >>= fun clone => listsOf clone >>= fun c =>
      listsOf (view s b) >>= fun d => andMid by_ c d (view s b) >>= fun m => listsOf m.2.2 >>= fun r => andEnd by_ c r m.1 m.2.1) =
      ((listsOf (view s b) >>= fun d => andMid by_ (i, lo, hi, n) d (view s b)) >>= fun m =>
        listsOf m.2.2 >>= fun r => andEnd by_ (i, lo, hi, n) r m.1 m.2.1) := by
      show (listsOf (view s b) >>= _) = _
      cases listsOf (view s b) <;> rfl
    rw [hsame]
    rcases hr with ⟨e, r1, r2⟩ | ⟨nl, nh, rv, rest, r1, r2, r3, r4, r5⟩
    · simp only at r2
      subst r2
      rw [r1]
      exact ⟨y, .inl ⟨e, rfl, rfl⟩⟩
    · simp only at r2 r3 r4 r5 y
      subst r2
      rw [r1]
      have h := concat_spec by_ (rest := rest) r5 lo hi
      rw [r4] at h
      exact (h.base y).mono fun _ o ho => ho.mono y

end Verif.CondHeap
