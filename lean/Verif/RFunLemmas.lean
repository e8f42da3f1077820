import Verif.RuleSpec
import Mathlib.Algebra.BigOperators.Group.List.Lemmas
import Mathlib.Algebra.Order.BigOperators.Group.List
import Mathlib.Tactic.FieldSimp
import Mathlib.Tactic.Positivity
import Mathlib.Tactic.Ring

/-!
# Lemmas about the figures of a rule
-/

namespace Verif.RFun

open Verif Spec

theorem extract_arr {α} {u : List Bool} {y : List α} (h : y.length = u.length) : extract (arr u) y = .ok (activated u y) := by
  induction u generalizing y with
  | nil => simp [extract, arr, activated]
  | cons b u ih =>
    cases y with
    | nil => simp at h
    | cons x y =>
      have := ih (y := y) (by simpa using h)
      simp only [arr, activated] at this
      cases b <;> simp [arr, extract, this, Except.map, activated]

theorem numbers_ofOption (y : List (Option Rat)) :
    Rule.numbers (y.map fun q => Label.num (Num.ofOption q)) = .ok (y.map Num.ofOption) := by
  unfold Rule.numbers
  induction y with
  | nil => rfl
  | cons a y ih => simp only [List.map_cons, List.mapM_cons, ih]; rfl

theorem activated_map {α β} (f : α → β) (u : List Bool) (y : List α) : activated u (y.map f) = (activated u y).map f := by
  simp only [activated, List.zip_map_right, List.filter_map, List.map_map]
  rfl

theorem dropna_ofOption (y : List (Option Rat)) : Num.dropna (y.map Num.ofOption) = (present y).map .fin := by
  induction y with
  | nil => rfl
  | cons a y ih =>
    simp only [Num.dropna, present] at ih ⊢
    cases a with
    | none => rw [List.map_cons, List.filter_cons_of_neg (by simp [Num.ofOption, Num.isNaN]), ih]; rfl
    | some q => rw [List.map_cons, List.filter_cons_of_pos (by simp [Num.ofOption, Num.isNaN]), ih]; rfl

theorem foldl_add (l : List Rat) (a : Rat) : (l.map Num.fin).foldl Num.add (.fin a) = .fin (a + l.sum) := by
  induction l generalizing a with
  | nil => simp
  | cons x l ih => simp only [List.map_cons, List.foldl_cons, Num.add, ih, List.sum_cons, add_assoc]

theorem sum_fin (l : List Rat) : Num.sum (l.map .fin) = .fin l.sum := by
  simp [Num.sum, foldl_add]

theorem mean_fin {l : List Rat} (h : l ≠ []) : Num.mean (l.map .fin) = .fin (meanOf l) := by
  have : (l.length : Rat) ≠ 0 := by simpa using h
  simp [Num.mean, sum_fin, Num.div, meanOf, this]

theorem conditionalMean_spec {u : List Bool} {y : List (Option Rat)} (h : y.length = u.length) :
    conditionalMean (arr u) (y.map Num.ofOption) =
      .ok (if present (activated u y) = [] then .nan else .fin (meanOf (present (activated u y)))) := by
  simp only [conditionalMean, extract_arr (y := y.map Num.ofOption) (u := u) (by simpa using h), bind, Except.bind, activated_map,
    dropna_ofOption, List.length_map, List.length_eq_zero_iff]
  split
  · rfl
  · next hne => rw [mean_fin hne]

theorem nanvar_spec {y : List (Option Rat)} (h : 2 ≤ (present y).length) :
    nanvar 1 (y.map Num.ofOption) = .fin (varianceOf (present y)) := by
  have hne : present y ≠ [] := by intro e; simp [e] at h
  have hne' : ((present y).length : Rat) - 1 ≠ 0 := by
    have : (2 : Rat) ≤ (present y).length := by exact_mod_cast h
    intro e; linarith
  simp only [nanvar, dropna_ofOption, mean_fin hne, List.length_map]
  rw [if_neg (by omega), List.map_map]
  have : ((fun x => Num.mul (Num.sub x (Num.fin (meanOf (present y)))) (Num.sub x (Num.fin (meanOf (present y))))) ∘ Num.fin)
      = Num.fin ∘ fun x => (x - meanOf (present y)) ^ 2 := by
    funext x
    simp [Num.sub, Num.neg, Num.add, Num.mul]
    ring
  rw [this, ← List.map_map, sum_fin]
  simp [Num.div, hne', varianceOf]

theorem conditionalVar_spec {u : List Bool} {y : List (Option Rat)} (h : y.length = u.length) :
    conditionalVar (arr u) (y.map Num.ofOption) =
      .ok (if (activated u y).length = 1 then .fin 0
        else if (present (activated u y)).length < 2 then .nan else .fin (varianceOf (present (activated u y)))) := by
  simp only [conditionalVar, extract_arr (y := y.map Num.ofOption) (u := u) (by simpa using h), bind, Except.bind, activated_map,
    List.length_map]
  by_cases h0 : (activated u y).length = 0
  · have : activated u y = [] := by simpa using h0
    simp [this, present]
  · rw [if_neg h0]
    split
    · rfl
    · split
      · next hl =>
        simp only [nanvar, dropna_ofOption, List.length_map]
        rw [if_pos (by omega)]
      · next hl => rw [nanvar_spec (by omega)]

theorem meanOf_bounds {l : List Rat} (h : l ≠ []) : (∃ a ∈ l, a ≤ meanOf l) ∧ ∃ b ∈ l, meanOf l ≤ b := by
  have hpos : (0 : Rat) < l.length := by
    have := List.length_pos_iff.2 h
    exact_mod_cast this
  constructor
  · by_contra hc
    push Not at hc
    have : ∀ x ∈ l, meanOf l ≤ x := fun x hx => (hc x hx).le
    have h2 : meanOf l * l.length < l.sum := by
      have := List.sum_lt_sum_of_ne_nil h (fun _ : Rat => meanOf l) id hc
      simpa [mul_comm] using this
    have h3 : meanOf l * l.length = l.sum := by rw [meanOf]; field_simp
    linarith
  · by_contra hc
    push Not at hc
    have h2 : l.sum < meanOf l * l.length := by
      have := List.sum_lt_sum_of_ne_nil h id (fun _ : Rat => meanOf l) hc
      simpa [mul_comm] using this
    have h3 : meanOf l * l.length = l.sum := by rw [meanOf]; field_simp
    linarith

theorem sum_nonneg' {l : List Rat} (h : ∀ x ∈ l, 0 ≤ x) : 0 ≤ l.sum := List.sum_nonneg h

theorem sum_eq_zero {l : List Rat} (h : ∀ x ∈ l, 0 ≤ x) (hs : l.sum = 0) : ∀ x ∈ l, x = 0 := by
  induction l with
  | nil => simp
  | cons a l ih =>
    have h1 : 0 ≤ a := h a List.mem_cons_self
    have h2 : 0 ≤ l.sum := sum_nonneg' fun x hx => h x (List.mem_cons_of_mem _ hx)
    rw [List.sum_cons] at hs
    intro x hx
    rcases List.mem_cons.1 hx with rfl | hx
    · linarith
    · exact ih (fun x hx => h x (List.mem_cons_of_mem _ hx)) (by linarith) x hx

theorem varianceOf_nonneg {l : List Rat} (h : 2 ≤ l.length) : 0 ≤ varianceOf l := by
  have : (2 : Rat) ≤ l.length := by exact_mod_cast h
  unfold varianceOf
  apply div_nonneg
  · apply sum_nonneg'
    intro x hx
    obtain ⟨y, -, rfl⟩ := List.mem_map.1 hx
    positivity
  · linarith

theorem varianceOf_eq_zero {l : List Rat} (h : 2 ≤ l.length) : varianceOf l = 0 ↔ ∀ x ∈ l, ∀ y ∈ l, x = y := by
  have h2 : (2 : Rat) ≤ l.length := by exact_mod_cast h
  have hne : (l.length : Rat) - 1 ≠ 0 := by intro e; linarith
  unfold varianceOf
  rw [div_eq_zero_iff, or_iff_left hne]
  constructor
  · intro hs
    have := sum_eq_zero (l := l.map fun x => (x - meanOf l) ^ 2)
      (by intro x hx; obtain ⟨y, -, rfl⟩ := List.mem_map.1 hx; positivity) hs
    have key : ∀ x ∈ l, x = meanOf l := by
      intro x hx
      have := this _ (List.mem_map.2 ⟨x, hx, rfl⟩)
      have := pow_eq_zero_iff (two_ne_zero) |>.1 this
      linarith
    intro x hx y hy
    rw [key x hx, key y hy]
  · intro hc
    have hl : l ≠ [] := by intro e; simp [e] at h
    obtain ⟨a, ha⟩ := List.exists_mem_of_ne_nil l hl
    obtain ⟨⟨b, hb, hb'⟩, c, hc1, hc2⟩ := meanOf_bounds hl
    have hm : meanOf l = a := le_antisymm (hc2.trans (hc c hc1 a ha).le) ((hc a ha b hb).le.trans hb')
    apply List.sum_eq_zero
    intro x hx
    obtain ⟨y, hy, rfl⟩ := List.mem_map.1 hx
    rw [hm, hc y hy a ha]
    ring

/-! ## Classes -/

theorem eq_iff {a b : Label} (ha : IsClass a) (hb : IsClass b) : a.eq b = true ↔ a = b := by
  rcases ha with ⟨p, rfl⟩ | ⟨s, rfl⟩ <;> rcases hb with ⟨q, rfl⟩ | ⟨t, rfl⟩ <;> simp [Label.eq, Num.beq, Num.le]
  exact ⟨fun h => le_antisymm h.1 h.2, fun h => ⟨h.le, h.ge⟩⟩

/-- One step of `counter` -/
def countStep (acc : List (Label × Nat)) (x : Label) : List (Label × Nat) :=
  if acc.any (fun p => p.1.eq x) then acc.map (fun p => if p.1.eq x then (p.1, p.2 + 1) else p)
  else acc ++ [(x, 1)]

/-- `acc` counts the classes of `l`. -/
structure Counts (acc : List (Label × Nat)) (l : List Label) : Prop where
  nodup : (acc.map (·.1)).Nodup
  mem : ∀ c, c ∈ acc.map (·.1) ↔ c ∈ l
  count : ∀ p ∈ acc, p.2 = l.count p.1

theorem countStep_counts {acc : List (Label × Nat)} {l : List Label} {x : Label} (h : Counts acc l) (hl : ∀ c ∈ l, IsClass c)
    (hx : IsClass x) : Counts (countStep acc x) (l ++ [x]) := by
  have cls : ∀ p ∈ acc, IsClass p.1 := fun p hp => hl _ ((h.mem _).1 (List.mem_map_of_mem hp))
  unfold countStep
  by_cases hin : x ∈ l
  · have hany : acc.any (fun p => p.1.eq x) = true := by
      obtain ⟨p, hp, hpx⟩ := List.mem_map.1 ((h.mem x).2 hin)
      exact List.any_eq_true.2 ⟨p, hp, (eq_iff (cls p hp) hx).2 hpx⟩
    rw [if_pos hany]
    have hkeys : (acc.map (fun p => if p.1.eq x then (p.1, p.2 + 1) else p)).map (·.1) = acc.map (·.1) := by
      rw [List.map_map]
      apply List.map_congr_left
      intro p _
      simp only [Function.comp_apply]
      split <;> rfl
    refine ⟨by rw [hkeys]; exact h.nodup, ?_, ?_⟩
    · intro c
      rw [hkeys, h.mem, List.mem_append, List.mem_singleton]
      exact ⟨.inl, fun hc => hc.elim id fun e => e ▸ hin⟩
    · intro p hp
      obtain ⟨q, hq, rfl⟩ := List.mem_map.1 hp
      rw [List.count_append, List.count_singleton]
      by_cases e : q.1 = x
      · have : q.1.eq x = true := (eq_iff (cls q hq) hx).2 e
        simp only [this, if_true]
        rw [h.count q hq, e]
        simp
      · have : ¬ q.1.eq x = true := fun h' => e ((eq_iff (cls q hq) hx).1 h')
        rw [if_neg this, h.count q hq]
        simp [Ne.symm e]
  · have hany : ¬ acc.any (fun p => p.1.eq x) = true := by
      intro ha
      obtain ⟨p, hp, hpx⟩ := List.any_eq_true.1 ha
      have := (eq_iff (cls p hp) hx).1 hpx
      exact hin ((h.mem x).1 (this ▸ List.mem_map_of_mem hp))
    rw [if_neg hany]
    refine ⟨?_, ?_, ?_⟩
    · rw [List.map_append, List.nodup_append]
      refine ⟨h.nodup, by simp, ?_⟩
      intro a ha b hb
      simp at hb
      subst hb
      intro e
      subst e
      exact hin ((h.mem _).1 ha)
    · intro c
      rw [List.map_append, List.mem_append, h.mem, List.mem_append]
      simp
    · intro p hp
      rw [List.count_append, List.count_singleton]
      rcases List.mem_append.1 hp with hp | hp
      · have : p.1 ≠ x := by
          intro e
          exact hin ((h.mem x).1 (e ▸ List.mem_map_of_mem hp))
        rw [h.count p hp]
        simp [Ne.symm this]
      · simp only [List.mem_singleton] at hp
        subst hp
        simp [List.count_eq_zero_of_not_mem hin]

theorem counter_counts {l : List Label} (hl : ∀ c ∈ l, IsClass c) : Counts (counter l) l := by
  have key : ∀ (l done : List Label) (acc : List (Label × Nat)), (∀ c ∈ done, IsClass c) → (∀ c ∈ l, IsClass c) →
      Counts acc done → Counts (l.foldl countStep acc) (done ++ l) := by
    intro l
    induction l with
    | nil => intro done acc _ _ h; simpa using h
    | cons x l ih =>
      intro done acc hd hl h
      have := ih (done ++ [x]) (countStep acc x)
        (by intro c hc
            rcases List.mem_append.1 hc with hc | hc
            · exact hd c hc
            · rw [List.mem_singleton] at hc; exact hc ▸ hl x List.mem_cons_self)
        (fun c hc => hl c (List.mem_cons_of_mem _ hc)) (countStep_counts h hd (hl x List.mem_cons_self))
      simpa using this
  exact key l [] [] (by simp) hl ⟨by simp, by simp, by simp⟩

theorem labelLe_total (a b : Label) : labelLe a b = true ∨ labelLe b a = true := by
  cases a with
  | num x =>
    cases b with
    | num y =>
      by_cases hx : x = .nan
      · subst hx; right; simp [labelLe, Num.isNaN]
      · by_cases hy : y = .nan
        · subst hy; left; simp [labelLe, Num.isNaN]
        · rcases Num.le_total_of hx hy with h | h <;> simp [labelLe, h]
    | text t => simp [labelLe]
  | text s =>
    cases b with
    | num y => simp [labelLe]
    | text t => simpa [labelLe] using String.le_total s t

theorem labelLe_trans {a b c : Label} (h1 : labelLe a b = true) (h2 : labelLe b c = true) : labelLe a c = true := by
  cases a <;> cases b <;> cases c <;> simp_all [labelLe]
  · next x y z =>
    rcases h2 with h2 | h2
    · rcases h1 with h1 | h1
      · exact .inl (Num.le_trans' h1 h2)
      · cases y <;> simp_all [Num.isNaN, Num.le]
    · exact .inr h2
  · next x y z => exact String.le_trans h1 h2

/-- The order of the array of probabilities -/
def byClass (a b : Label × Rat) : Prop := labelLe a.1 b.1 = true

instance : DecidableRel byClass := fun a b => inferInstanceAs (Decidable (_ = true))
instance : Std.Total byClass := ⟨fun a b => labelLe_total a.1 b.1⟩
instance : IsTrans _ byClass := ⟨fun _ _ _ h1 h2 => labelLe_trans h1 h2⟩

theorem classLt_of_le {a b : Label} (ha : IsClass a) (hb : IsClass b) (hs : (∃ p q, a = .num p ∧ b = .num q) ∨ ∃ s t, a = .text s ∧ b = .text t)
    (h : labelLe a b = true) (hne : a ≠ b) : ClassLt a b := by
  rcases ha with ⟨p, rfl⟩ | ⟨s, rfl⟩ <;> rcases hb with ⟨q, rfl⟩ | ⟨t, rfl⟩
  · simp [labelLe, Num.le, Num.isNaN] at h
    exact .num (lt_of_le_of_ne h (by simpa using hne))
  · rcases hs with ⟨p', q', h1, h2⟩ | ⟨p', q', h1, h2⟩ <;> simp at h1 h2
  · rcases hs with ⟨p', q', h1, h2⟩ | ⟨p', q', h1, h2⟩ <;> simp at h1 h2
  · simp only [labelLe, decide_eq_true_eq] at h
    exact .text (String.not_le.1 fun h' => hne (by rw [String.le_antisymm h h']))

/-- What `class_probabilities` returns. -/
structure Frequencies (p : List (Label × Rat)) (l : List Label) : Prop where
  sorted : (p.map (·.1)).Pairwise ClassLt
  mem : ∀ c, c ∈ p.map (·.1) ↔ c ∈ l
  freq : ∀ x ∈ p, x.2 = frequency x.1 l

theorem sameType_isClass {l : List Label} (h : SameType l) : ∀ c ∈ l, IsClass c := by
  intro c hc
  rcases h with h | h
  · exact .inl (h c hc)
  · exact .inr (h c hc)

theorem classProbabilities_spec {u : List Bool} {y : List Label} (h : y.length = u.length) (ht : SameType (activated u y))
    (hne : activated u y ≠ []) :
    ∃ p, classProbabilities (arr u) y = .ok p ∧ Frequencies p (activated u y) := by
  have hc := counter_counts (sameType_isClass ht)
  have hne' : counter (activated u y) ≠ [] := by
    obtain ⟨c, hcm⟩ := List.exists_mem_of_ne_nil _ hne
    have := (hc.mem c).2 hcm
    intro e
    simp [e] at this
  refine ⟨(((counter (activated u y)).map fun p => (p.1, (p.2 : Rat) / (activated u y).length)).insertionSort byClass), ?_, ?_⟩
  · simp only [classProbabilities, extract_arr h, bind, Except.bind, List.length_map, List.length_eq_zero_iff]
    rw [if_neg hne']
    rfl
  · set proba := (counter (activated u y)).map fun p => (p.1, (p.2 : Rat) / (activated u y).length) with hp
    have perm : (proba.insertionSort byClass).Perm proba := List.perm_insertionSort _ _
    have keys : proba.map (·.1) = (counter (activated u y)).map (·.1) := by simp [hp, List.map_map, Function.comp_def]
    have kperm : ((proba.insertionSort byClass).map (·.1)).Perm ((counter (activated u y)).map (·.1)) := keys ▸ perm.map _
    have hsort : (proba.insertionSort byClass).Pairwise byClass := List.pairwise_insertionSort _ _
    refine ⟨?_, ?_, ?_⟩
    · show ((proba.insertionSort byClass).map (·.1)).Pairwise ClassLt
      have nd : ((proba.insertionSort byClass).map (·.1)).Nodup := kperm.nodup_iff.2 hc.nodup
      rw [List.pairwise_map]
      rw [List.Nodup, List.pairwise_map] at nd
      refine (hsort.and nd).imp_of_mem ?_
      rintro a b ha hb ⟨h1, h2⟩
      have ma : a.1 ∈ activated u y := (hc.mem _).1 (kperm.mem_iff.1 (List.mem_map_of_mem ha))
      have mb : b.1 ∈ activated u y := (hc.mem _).1 (kperm.mem_iff.1 (List.mem_map_of_mem hb))
      refine classLt_of_le (sameType_isClass ht _ ma) (sameType_isClass ht _ mb) ?_ h1 h2
      rcases ht with ht | ht
      · obtain ⟨p, hp⟩ := ht _ ma
        obtain ⟨q, hq⟩ := ht _ mb
        exact .inl ⟨_, _, hp, hq⟩
      · obtain ⟨p, hp⟩ := ht _ ma
        obtain ⟨q, hq⟩ := ht _ mb
        exact .inr ⟨_, _, hp, hq⟩
    · intro c
      show c ∈ (proba.insertionSort byClass).map (·.1) ↔ _
      rw [kperm.mem_iff, hc.mem]
    · intro x hx
      have hx' : x ∈ proba := perm.mem_iff.1 hx
      rw [hp] at hx'
      obtain ⟨q, hq, rfl⟩ := List.mem_map.1 hx'
      simp only [frequency, hc.count q hq]

/-- The class found by `bestClass` is the first one whose frequency is the greatest, when probabilities are compared as
their values are. -/
theorem bestClass_spec (S : FloatStr) {p : List (Label × Rat)} (hp : p ≠ [])
    (hlt : ∀ a ∈ p, ∀ b ∈ p, probaLt S a b = true ↔ a.2 < b.2) :
    ∃ pre b post, p = pre ++ b :: post ∧ bestClass S p = .ok b.1 ∧ (∀ a ∈ pre, a.2 < b.2) ∧ ∀ a ∈ p, a.2 ≤ b.2 := by
  have key : ∀ (rest pre mid : List (Label × Rat)) (b : Label × Rat), (∀ a ∈ pre ++ b :: mid ++ rest, a ∈ p) →
      (∀ a ∈ pre, a.2 < b.2) → (∀ a ∈ pre ++ b :: mid, a.2 ≤ b.2) →
      ∃ pre' b' post', pre ++ b :: mid ++ rest = pre' ++ b' :: post' ∧
        (rest.foldl (fun best q => if probaLt S best q then q else best) b) = b' ∧ (∀ a ∈ pre', a.2 < b'.2) ∧
          ∀ a ∈ pre ++ b :: mid ++ rest, a.2 ≤ b'.2 := by
    intro rest
    induction rest with
    | nil => intro pre mid b _ h1 h2; exact ⟨pre, b, mid, by simp, rfl, h1, by simpa using h2⟩
    | cons q rest ih =>
      intro pre mid b hm h1 h2
      have mb : b ∈ p := hm b (by simp)
      have mq : q ∈ p := hm q (by simp)
      by_cases hbq : probaLt S b q = true
      · have hbq' := (hlt b mb q mq).1 hbq
        obtain ⟨pre', b', post', e1, e2, e3, e4⟩ := ih (pre ++ b :: mid) [] q (by simpa using hm)
          (fun a ha => lt_of_le_of_lt (h2 a ha) hbq')
          (by
            intro a ha
            rcases List.mem_append.1 ha with ha | ha
            · exact (lt_of_le_of_lt (h2 a ha) hbq').le
            · simp at ha; subst ha; exact le_refl _)
        exact ⟨pre', b', post', by simpa using e1, by simpa [hbq] using e2, e3, by simpa using e4⟩
      · have hbq' : q.2 ≤ b.2 := not_lt.1 fun h => hbq ((hlt b mb q mq).2 h)
        obtain ⟨pre', b', post', e1, e2, e3, e4⟩ := ih pre (mid ++ [q]) b (by simpa using hm) h1
          (by
            intro a ha
            simp only [List.mem_append, List.mem_cons, List.mem_singleton] at ha
            by_cases haq : a = q
            · exact haq ▸ hbq'
            · exact h2 a (by simp only [List.mem_append, List.mem_cons]; simp only [List.not_mem_nil, or_false] at ha; tauto))
        exact ⟨pre', b', post', by simpa using e1, by simpa [hbq] using e2, e3, by simpa using e4⟩
  cases p with
  | nil => exact absurd rfl hp
  | cons a l =>
    obtain ⟨pre, b, post, e1, e2, e3, e4⟩ := key l [] [] a (by simp) (by simp) (by simp)
    exact ⟨pre, b, post, by simpa using e1, by simp [bestClass, e2], e3, by simpa using e4⟩

theorem _root_.Verif.Spec.ClassLt.irrefl {a : Label} (h : ClassLt a a) : False := by
  cases h with
  | num h => exact absurd h (lt_irrefl _)
  | text h => exact String.not_lt.2 (String.le_refl _) h

theorem Frequencies.nodup {p : List (Label × Rat)} {l : List Label} (h : Frequencies p l) : (p.map (·.1)).Nodup := by
  refine h.sorted.imp ?_
  intro a b hab e
  subst e
  exact hab.irrefl

/-- Frequencies sum to one. -/
theorem Frequencies.sum {p : List (Label × Rat)} {l : List Label} (h : Frequencies p l) (hne : l ≠ []) :
    (p.map (·.2)).sum = 1 := by
  have e : p.map (·.2) = (p.map (·.1)).map fun c => (l.count c : Rat) / l.length := by
    rw [List.map_map]
    apply List.map_congr_left
    intro x hx
    exact h.freq x hx
  have perm : (p.map (·.1)).Perm l.dedup := by
    rw [List.perm_ext_iff_of_nodup h.nodup (List.nodup_dedup l)]
    intro c
    rw [h.mem, List.mem_dedup]
  rw [e]
  have hs : ((p.map (·.1)).map fun c => (l.count c : Rat) / l.length).sum = (l.dedup.map fun c => (l.count c : Rat) / l.length).sum :=
    (perm.map _).sum_eq
  rw [hs]
  have hl : (l.length : Rat) ≠ 0 := by simpa using hne
  have hd : ∀ k : List Label, (k.map fun c => (l.count c : Rat) / l.length).sum = ((k.map fun c => l.count c).sum : Nat) / (l.length : Rat) := by
    intro k
    induction k with
    | nil => simp
    | cons a k ih => simp only [List.map_cons, List.sum_cons, ih]; push_cast; ring
  rw [hd, List.sum_map_count_dedup_eq_length, div_self hl]

theorem Frequencies.pos {p : List (Label × Rat)} {l : List Label} (h : Frequencies p l) : ∀ x ∈ p, 0 < x.2 := by
  intro x hx
  have hm := (h.mem x.1).1 (List.mem_map_of_mem hx)
  rw [h.freq x hx, frequency]
  have h1 : 0 < l.count x.1 := List.count_pos_iff.2 hm
  have h2 : 0 < l.length := List.length_pos_of_mem hm
  have h1' : (0 : Rat) < l.count x.1 := by exact_mod_cast h1
  have h2' : (0 : Rat) < l.length := by exact_mod_cast h2
  exact div_pos h1' h2'

theorem Frequencies.ne_nil {p : List (Label × Rat)} {l : List Label} (h : Frequencies p l) (hne : l ≠ []) : p ≠ [] := by
  obtain ⟨c, hc⟩ := List.exists_mem_of_ne_nil _ hne
  have := (h.mem c).2 hc
  intro e
  simp [e] at this

/-- The class chosen is a most frequent one and all smaller classes are less frequent. -/
theorem bestClass_frequencies {S : FloatStr} {p : List (Label × Rat)} {l : List Label} (h : Frequencies p l) (hne : l ≠ [])
    (hlt : ∀ a ∈ p, ∀ b ∈ p, probaLt S a b = true ↔ a.2 < b.2) :
    ∃ c, bestClass S p = .ok c ∧ c ∈ l ∧ (∀ d ∈ l, frequency d l ≤ frequency c l) ∧
      ∀ d ∈ l, ClassLt d c → frequency d l < frequency c l := by
  obtain ⟨pre, b, post, rfl, hb, h1, h2⟩ := bestClass_spec S (h.ne_nil hne) hlt
  have fb := h.freq b (by simp)
  refine ⟨b.1, hb, (h.mem _).1 (by simp), ?_, ?_⟩
  · intro d hd
    obtain ⟨x, hx, rfl⟩ := List.mem_map.1 ((h.mem d).2 hd)
    rw [← fb, ← h.freq x hx]
    exact h2 x hx
  · intro d hd hlt
    obtain ⟨x, hx, rfl⟩ := List.mem_map.1 ((h.mem d).2 hd)
    rw [← fb, ← h.freq x hx]
    rcases List.mem_append.1 hx with hx | hx
    · exact h1 x hx
    · exfalso
      have hs := h.sorted
      rw [List.map_append, List.pairwise_append] at hs
      have hs2 := hs.2.1
      rw [List.map_cons, List.pairwise_cons] at hs2
      rcases List.mem_cons.1 hx with rfl | hx
      · exact ClassLt.irrefl hlt
      · have := hs2.1 x.1 (List.mem_map_of_mem hx)
        generalize x.1 = a at this hlt
        generalize b.1 = c at this hlt
        cases hlt with
        | num h =>
          cases this with
          | num h' => exact absurd h (not_lt.2 h'.le)
        | text h =>
          cases this with
          | text h' => exact String.lt_asymm h h'

/-- Texts of probabilities which are in the order of the probabilities -/
theorem probaLt_texts {S : FloatStr} {l : List Label} (ht : ∀ c ∈ l, ∃ s, c = .text s)
    (hS : ∀ i j : Nat, 0 < i → i < j → j ≤ l.length → S ((i : Rat) / l.length) < S ((j : Rat) / l.length))
    {p : List (Label × Rat)} (hf : Frequencies p l) : ∀ a ∈ p, ∀ b ∈ p, probaLt S a b = true ↔ a.2 < b.2 := by
  intro a ha b hb
  have ma := (hf.mem _).1 (List.mem_map_of_mem ha)
  have mb := (hf.mem _).1 (List.mem_map_of_mem hb)
  obtain ⟨s, hs⟩ := ht a.1 ma
  obtain ⟨t, ht'⟩ := ht b.1 mb
  have fa := hf.freq a ha
  have fb := hf.freq b hb
  obtain ⟨a1, a2⟩ := a
  obtain ⟨b1, b2⟩ := b
  simp only at hs ht' fa fb ma mb
  subst hs ht'
  simp only [probaLt, decide_eq_true_eq]
  rw [fa, fb]
  have pos : (0 : Rat) < l.length := by
    have := List.length_pos_of_mem ma
    exact_mod_cast this
  have ca : 0 < l.count (.text s) := List.count_pos_iff.2 ma
  have cb : 0 < l.count (.text t) := List.count_pos_iff.2 mb
  simp only [frequency]
  rw [div_lt_div_iff_of_pos_right pos]
  constructor
  · intro hlt
    by_contra hc
    rcases Nat.lt_or_eq_of_le (Nat.cast_le.1 (not_lt.1 hc)) with hc | hc
    · exact String.lt_asymm hlt (hS _ _ cb hc List.count_le_length)
    · rw [hc] at hlt
      exact String.lt_irrefl _ hlt
  · intro hlt
    exact hS _ _ ca (by exact_mod_cast hlt) List.count_le_length

end Verif.RFun
