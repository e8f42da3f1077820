import Verif.RuleSpec

/-!
# Lemmas about thresholds
-/

namespace Verif.Thresholds

open Verif Spec

theorem get?_none {α} {d : Dict α} {k : String} : Dict.get? d k = none ↔ ∀ p ∈ d, p.1 ≠ k := by
  simp [Dict.get?]

theorem get?_mem {α} {d : Dict α} {k : String} {v : α} (h : Dict.get? d k = some v) : (k, v) ∈ d := by
  simp only [Dict.get?, Option.map_eq_some_iff] at h
  obtain ⟨⟨a, b⟩, h1, h2⟩ := h
  have h3 := List.find?_some h1
  have h4 := List.mem_of_find?_eq_some h1
  simp only [beq_iff_eq] at h3 h2
  subst h3 h2
  exact h4

theorem get?_cons {α} (k k' : String) (v : α) (d : Dict α) :
    Dict.get? ((k, v) :: d) k' = if k = k' then some v else Dict.get? d k' := by
  unfold Dict.get?
  by_cases h : k = k' <;> simp [h]

theorem get?_append_one {α} (d : Dict α) (k k' : String) (v : α) :
    Dict.get? (d ++ [(k, v)]) k' = (Dict.get? d k').or (if k = k' then some v else none) := by
  induction d with
  | nil => rw [List.nil_append, get?_cons]; rfl
  | cons p d ih =>
    obtain ⟨a, b⟩ := p
    rw [List.cons_append, get?_cons, get?_cons, ih]
    by_cases h : a = k' <;> simp [h]

theorem get?_map_set {α} (d : Dict α) (k k' : String) (v : α) :
    Dict.get? (d.map fun p => if p.1 == k then (k, v) else p) k' =
      if k = k' then (Dict.get? d k').map (fun _ => v) else Dict.get? d k' := by
  induction d with
  | nil => simp [Dict.get?]
  | cons p d ih =>
    obtain ⟨a, b⟩ := p
    by_cases ha : a = k
    · subst ha
      simp only [List.map_cons, beq_self_eq_true, if_true, get?_cons, ih]
      by_cases h : a = k' <;> simp [h]
    · rw [List.map_cons, if_neg (by simpa using ha), get?_cons, get?_cons, ih]
      by_cases h : k = k'
      · subst h; simp [ha]
      · simp [h]

theorem get?_set_same {α} (d : Dict α) (k : String) (v : α) : Dict.get? (Dict.set d k v) k = some v := by
  unfold Dict.set
  by_cases h : (d.any fun p => p.1 == k) = true
  · rw [if_pos h, get?_map_set, if_pos rfl]
    cases hg : Dict.get? d k with
    | some x => rfl
    | none =>
      exfalso
      obtain ⟨p, hp, hpk⟩ := List.any_eq_true.1 h
      exact get?_none.1 hg p hp (by simpa using hpk)
  · rw [if_neg h, get?_append_one]
    have : Dict.get? d k = none := by
      rw [get?_none]
      intro p hp e
      exact h (List.any_eq_true.2 ⟨p, hp, by simpa using e⟩)
    simp [this]

theorem get?_set_other {α} (d : Dict α) {k k' : String} (v : α) (h : k' ≠ k) :
    Dict.get? (Dict.set d k v) k' = Dict.get? d k' := by
  unfold Dict.set
  split
  · rw [get?_map_set, if_neg (Ne.symm h)]
  · rw [get?_append_one, if_neg (Ne.symm h)]; simp

theorem LimitIs.unique {getattr : String → Except Err Attr} {l : Lim} {m m' : Num} (h : LimitIs getattr l m)
    (h' : LimitIs getattr l m') : m = m' := by
  rcases h with rfl | ⟨s, rfl, h⟩ <;> rcases h' with h' | ⟨s', h1, h'⟩
  · cases h'; rfl
  · cases h1
  · cases h'
  · cases h1; rw [h] at h'; cases h'; rfl

theorem resolve_ok {getattr : String → Except Err Attr} {l : Lim} {m : Num} :
    resolve getattr l = .ok m ↔ LimitIs getattr l m := by
  cases l with
  | num x => simp [resolve, LimitIs]
  | other => simp [resolve, LimitIs]
  | str s =>
    simp only [resolve, LimitIs, bind, Except.bind]
    cases h : getattr s with
    | error e => simp [h]
    | ok a => cases a <;> simp [h]

theorem resolveAll_ok {getattr : String → Except Err Attr} {th : Dict Lim}
    (h : ∀ p ∈ th, p.1 ≠ "arg" → ∃ m, LimitIs getattr p.2 m) :
    ∃ r, resolveAll getattr th = .ok r ∧
      ∀ name, name ≠ "arg" → ∀ m, Dict.get? r name = some m ↔ ∃ l, Dict.get? th name = some l ∧ LimitIs getattr l m := by
  induction th with
  | nil => exact ⟨[], rfl, by simp [Dict.get?]⟩
  | cons p th ih =>
    obtain ⟨k, l⟩ := p
    obtain ⟨r, hr, hget⟩ := ih fun p hp => h p (List.mem_cons_of_mem _ hp)
    by_cases hk : k = "arg"
    · refine ⟨r, by simp [resolveAll, hk, hr], ?_⟩
      intro name hn m
      rw [hget name hn m, get?_cons, if_neg (by rw [hk]; exact Ne.symm hn)]
    · obtain ⟨m0, hm0⟩ := h (k, l) List.mem_cons_self hk
      refine ⟨(k, m0) :: r, by simp [resolveAll, hk, hr, resolve_ok.2 hm0, bind, Except.bind], ?_⟩
      intro name hn m
      rw [get?_cons, get?_cons]
      by_cases e : k = name
      · simp only [e, if_true, Option.some.injEq]
        constructor
        · rintro rfl; exact ⟨l, rfl, hm0⟩
        · rintro ⟨l', rfl, h'⟩; exact LimitIs.unique hm0 h'
      · simp only [e, if_false]; exact hget name hn m

theorem resolveAll_error {getattr : String → Except Err Attr} {th : Dict Lim}
    (h : ∃ p ∈ th, p.1 ≠ "arg" ∧ ∀ m, ¬ LimitIs getattr p.2 m) : ∃ e, resolveAll getattr th = .error e := by
  induction th with
  | nil => obtain ⟨p, hp, -⟩ := h; cases hp
  | cons p th ih =>
    obtain ⟨k, l⟩ := p
    obtain ⟨q, hq, hqa, hql⟩ := h
    by_cases hk : k = "arg"
    · rcases List.mem_cons.1 hq with rfl | hq
      · exact absurd hk hqa
      · obtain ⟨e, he⟩ := ih ⟨q, hq, hqa, hql⟩
        exact ⟨e, by simp [resolveAll, hk, he]⟩
    · cases hr : resolve getattr l with
      | error e => exact ⟨e, by simp [resolveAll, hk, hr, bind, Except.bind]⟩
      | ok m =>
        rcases List.mem_cons.1 hq with rfl | hq
        · exact absurd (resolve_ok.1 hr) (hql m)
        · obtain ⟨e, he⟩ := ih ⟨q, hq, hqa, hql⟩
          exact ⟨e, by simp [resolveAll, hk, hr, he, bind, Except.bind]⟩

theorem applyArg_of {M : Math} {f : String} {v : Attr} {x : Num} (h : ArgIs M f v x) : applyArg M f v = .ok (.num x) := by
  rcases h with ⟨rfl, y, rfl, h⟩ | ⟨rfl, y, rfl, h⟩ | ⟨rfl, y, rfl, h⟩ | ⟨rfl, y, rfl, h⟩ |
    ⟨rfl, ⟨q, rfl, h⟩ | ⟨s, rfl, h⟩⟩ <;> simp [applyArg, h, Except.map, Cond.toInt]

theorem measured_of {M : Math} {th : Dict Lim} {v : Attr} {x : Num} (h : Measured M th v x) :
    measured M th v = .ok (.num x) := by
  rcases h with ⟨h, rfl⟩ | ⟨f, h1, h2⟩
  · simp [measured, h]
  · simp [measured, h1, applyArg_of h2]

/-- The answer for a number. -/
def accepts (x : Num) (t : Dict Num) : Bool :=
  !((Dict.get? t "min").any (fun m => x.lt m)) && !((Dict.get? t "max").any (fun m => m.lt x)) &&
    !((Dict.get? t "equal").any (fun m => !x.beq m)) && !((Dict.get? t "different").any (fun m => x.beq m))

theorem verdict_num (x : Num) (t : Dict Num) : verdict (.num x) t = .ok (accepts x t) := by
  have test_eq : ∀ (name : String) (f : Num → Bool), test t name (fun m => .ok (f m)) = .ok ((Dict.get? t name).any f) := by
    intro name f
    unfold test
    cases Dict.get? t name <;> rfl
  have e1 : test t "min" (Attr.num x).lt = _ := test_eq "min" (fun m => x.lt m)
  have e2 : test t "max" (Attr.num x).gt = _ := test_eq "max" (fun m => m.lt x)
  have e3 := test_eq "equal" (fun m => !x.beq m)
  have e4 := test_eq "different" (fun m => x.beq m)
  unfold verdict accepts
  simp only [e1, e2, Attr.eqNum, e3, e4, bind, Except.bind]
  generalize (Dict.get? t "min").any _ = b1
  generalize (Dict.get? t "max").any _ = b2
  generalize (Dict.get? t "equal").any _ = b3
  generalize (Dict.get? t "different").any _ = b4
  cases b1 <;> cases b2 <;> cases b3 <;> cases b4 <;> rfl

theorem accepts_iff {x : Num} {t : Dict Num} (hx : x ≠ .nan) (h1 : ∀ m, Dict.get? t "min" = some m → m ≠ .nan)
    (h2 : ∀ m, Dict.get? t "max" = some m → m ≠ .nan) :
    accepts x t = true ↔ (∀ m, Dict.get? t "min" = some m → m.le x = true) ∧
      (∀ m, Dict.get? t "max" = some m → x.le m = true) ∧ (∀ m, Dict.get? t "equal" = some m → x.beq m = true) ∧
      (∀ m, Dict.get? t "different" = some m → x.beq m = false) := by
  have key : ∀ a b : Num, a ≠ .nan → b ≠ .nan → (a.lt b = false ↔ b.le a = true) := by
    intro a b ha hb
    rw [← Bool.not_eq_true, ← Num.not_le_iff_lt hb ha]; simp
  have any_false : ∀ (o : Option Num) (f : Num → Bool), o.any f = false ↔ ∀ m, o = some m → f m = false := by
    intro o f
    cases o <;> simp
  unfold accepts
  simp only [Bool.and_eq_true, Bool.not_eq_true', any_false, Bool.not_eq_false']
  constructor
  · rintro ⟨⟨⟨a, b⟩, c⟩, d⟩
    exact ⟨fun m hm => (key _ _ hx (h1 m hm)).1 (a m hm), fun m hm => (key _ _ (h2 m hm) hx).1 (b m hm), c, d⟩
  · rintro ⟨a, b, c, d⟩
    exact ⟨⟨⟨fun m hm => (key _ _ hx (h1 m hm)).2 (a m hm), fun m hm => (key _ _ (h2 m hm) hx).2 (b m hm)⟩, c⟩, d⟩

theorem accepts_all_iff {x : Num} {t : Dict Num} (hx : x ≠ .nan) :
    accepts x t = true ↔ (∀ m, Dict.get? t "min" = some m → m ≠ .nan → m.le x = true) ∧
      (∀ m, Dict.get? t "max" = some m → m ≠ .nan → x.le m = true) ∧ (∀ m, Dict.get? t "equal" = some m → x.beq m = true) ∧
      (∀ m, Dict.get? t "different" = some m → x.beq m = false) := by
  have key : ∀ a b : Num, a ≠ .nan → b ≠ .nan → (a.lt b = false ↔ b.le a = true) := by
    intro a b ha hb
    rw [← Bool.not_eq_true, ← Num.not_le_iff_lt hb ha]; simp
  have any_false : ∀ (o : Option Num) (f : Num → Bool), o.any f = false ↔ ∀ m, o = some m → f m = false := by
    intro o f
    cases o <;> simp
  have l1 : ∀ m : Num, x.lt m = false ↔ (m ≠ .nan → m.le x = true) := by
    intro m
    by_cases hm : m = .nan
    · subst hm; cases x <;> simp [Num.lt, Num.le]
    · rw [key _ _ hx hm]; simp [hm]
  have l2 : ∀ m : Num, m.lt x = false ↔ (m ≠ .nan → x.le m = true) := by
    intro m
    by_cases hm : m = .nan
    · subst hm; cases x <;> simp [Num.lt, Num.le]
    · rw [key _ _ hm hx]; simp [hm]
  unfold accepts
  simp only [Bool.and_eq_true, Bool.not_eq_true', any_false, Bool.not_eq_false', l1, l2, and_assoc]

theorem measured_text {M : Math} {th : Dict Lim} {v : Attr} {s : String} (h : MeasuredText M th v s) :
    measured M th v = .ok (.str s) := by
  rcases h with ⟨h, rfl⟩ | ⟨h, rfl⟩
  · simp [measured, h]
  · simp [measured, h, applyArg]

theorem verdict_text (s : String) (t : Dict Num) :
    verdict (.str s) t = if (Dict.get? t "min").isSome ∨ (Dict.get? t "max").isSome then .error .typeError
      else .ok (Dict.get? t "equal").isNone := by
  unfold verdict test
  cases Dict.get? t "min" <;> cases Dict.get? t "max" <;> cases Dict.get? t "equal" <;> cases Dict.get? t "different" <;> rfl

theorem verdict_nan (t : Dict Num) : verdict (.num .nan) t = .ok (Dict.get? t "equal").isNone := by
  have l : ∀ x : Num, Num.le .nan x = false := by intro x; cases x <;> rfl
  have g : ∀ x : Num, Num.le x .nan = false := by intro x; cases x <;> rfl
  unfold verdict test
  cases Dict.get? t "min" <;> cases Dict.get? t "max" <;> cases Dict.get? t "equal" <;> cases Dict.get? t "different" <;>
    simp [bind, Except.bind, Attr.lt, Attr.gt, Attr.eqNum, Num.lt, Num.beq, l, g]

/-- The same names are limited after the attributes were looked up. -/
theorem resolveAll_isSome {getattr : String → Except Err Attr} {th : Dict Lim} {r : Dict Num} {name : String} (hn : name ≠ "arg")
    (h : resolveAll getattr th = .ok r) : (Dict.get? r name).isSome = (Dict.get? th name).isSome := by
  induction th generalizing r with
  | nil =>
    simp only [resolveAll] at h
    cases h
    rfl
  | cons p th ih =>
    obtain ⟨k, l⟩ := p
    unfold resolveAll at h
    rw [get?_cons]
    split at h
    · rename_i e
      rw [if_neg fun e' => hn (e'.symm.trans e), ih h]
    · simp only [bind, Except.bind] at h
      split at h
      · cases h
      split at h
      · cases h
      rename_i hr
      cases h
      rw [get?_cons]
      split
      · rfl
      · exact ih hr

end Verif.Thresholds
