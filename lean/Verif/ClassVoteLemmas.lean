import Verif.StackLemmas

/-!
# Class votes
-/

namespace Verif.Vote

open Verif Spec RFun

theorem votes_nil (on : Rule → Nat → Bool) (c : Rule → Label) (wt : Rule → Rat) (k : Label) (i : Nat) :
    votes [] on c wt k i = 0 := rfl

theorem votes_append (l l' : List Rule) (on : Rule → Nat → Bool) (c : Rule → Label) (wt : Rule → Rat) (k : Label) (i : Nat) :
    votes (l ++ l') on c wt k i = votes l on c wt k i + votes l' on c wt k i := by
  simp [votes]

theorem votes_single (r : Rule) (on : Rule → Nat → Bool) (c : Rule → Label) (wt : Rule → Rat) (k : Label) (i : Nat) :
    votes [r] on c wt k i = if on r i = true ∧ c r = k then wt r else 0 := by
  unfold votes
  by_cases h : on r i = true ∧ c r = k
  · rw [List.filter_cons_of_pos (by simpa using h), if_pos h]; simp
  · rw [List.filter_cons_of_neg (by simpa using h), if_neg h]; simp

theorem votes_cons (r : Rule) (l : List Rule) (on : Rule → Nat → Bool) (c : Rule → Label) (wt : Rule → Rat) (k : Label) (i : Nat) :
    votes (r :: l) on c wt k i = (if on r i = true ∧ c r = k then wt r else 0) + votes l on c wt k i := by
  rw [← votes_single, ← votes_append]; rfl

theorem votes_absent {l : List Rule} {c : Rule → Label} {k : Label} (h : ∀ r ∈ l, c r ≠ k) (on : Rule → Nat → Bool)
    (wt : Rule → Rat) (i : Nat) : votes l on c wt k i = 0 := by
  induction l with
  | nil => rfl
  | cons r l ih => rw [votes_cons, ih fun s hs => h s (by simp [hs]), if_neg fun e => h r (by simp) e.2, zero_add]

theorem votes_heard {rules : List Rule} {wt : Rule → Rat} {on : Rule → Nat → Bool} {n : Nat} {c : Rule → Label} {k : Label}
    {i : Nat} (hi : i < n) : votes (heard rules wt on n) on c wt k i = votes rules on c wt k i := by
  induction rules with
  | nil => rfl
  | cons r rules ih =>
    rw [votes_cons, ← ih]
    unfold heard
    by_cases hh : wt r ≠ 0 ∧ ∃ i ∈ List.range n, on r i = true
    · rw [List.filter_cons_of_pos (by simpa using hh), votes_cons]
    · rw [List.filter_cons_of_neg (by simpa using hh)]
      have : (if on r i = true ∧ c r = k then wt r else 0) = 0 := by
        by_cases h0 : wt r = 0
        · rw [h0]; split <;> rfl
        · rw [if_neg]
          rintro ⟨ho, -⟩
          exact hh ⟨h0, i, List.mem_range.2 hi, ho⟩
      rw [this, zero_add]

/-- The table holds the votes of the rules `done`. -/
structure Holds (t : Table) (done : List Rule) (n : Nat) (on : Rule → Nat → Bool) (c : Rule → Label) (wt : Rule → Rat) :
    Prop where
  nodup : (t.map (·.1)).Nodup
  mem : ∀ k, k ∈ t.map (·.1) ↔ ∃ r ∈ done, c r = k
  row : ∀ x ∈ t, x.2 = table n fun i => .fin (votes done on c wt x.1 i)

theorem addRow_eq {t : Table} {done : List Rule} {n : Nat} {on : Rule → Nat → Bool} {c : Rule → Label} {wt : Rule → Rat}
    (h : Holds t done n on c wt) (hd : ∀ r ∈ done, IsClass (c r)) {r : Rule} (hr : IsClass (c r)) :
    ∃ t', addRow t (c r) (table n fun i => .fin (if on r i then wt r else 0)) = .ok t' ∧ Holds t' (done ++ [r]) n on c wt := by
  have hcls : ∀ k ∈ t.map (·.1), IsClass k := by
    intro k hk
    obtain ⟨s, hs, rfl⟩ := (h.mem k).1 hk
    exact hd s hs
  have key : ∀ t : Table, (t.map (·.1)).Nodup → (∀ k ∈ t.map (·.1), IsClass k) →
      (∀ x ∈ t, x.2 = table n fun i => .fin (votes done on c wt x.1 i)) →
      ∃ t', addRow t (c r) (table n fun i => .fin (if on r i then wt r else 0)) = .ok t' ∧
        ((c r ∈ t.map (·.1) ∧ t'.map (·.1) = t.map (·.1)) ∨ (c r ∉ t.map (·.1) ∧ t'.map (·.1) = t.map (·.1) ++ [c r])) ∧
        ∀ x ∈ t', (x.1 ∈ t.map (·.1) ∧ x.2 = table n fun i => .fin (votes (done ++ [r]) on c wt x.1 i)) ∨
          (x.1 = c r ∧ c r ∉ t.map (·.1) ∧ x.2 = table n fun i => .fin (if on r i then wt r else 0)) := by
    intro t
    induction t with
    | nil =>
      intro _ _ _
      exact ⟨_, rfl, .inr ⟨by simp, rfl⟩, by simp⟩
    | cons x t ih =>
      intro hn hc hrow
      obtain ⟨k, v⟩ := x
      have hv : v = table n fun i => .fin (votes done on c wt k i) := hrow (k, v) (by simp)
      unfold addRow
      rw [if_neg (by rw [hv]; simp [table_length])]
      by_cases e : k = c r
      · rw [if_pos ((eq_iff (hc k (by simp)) hr).2 e)]
        refine ⟨_, rfl, .inl ⟨by simp [e], rfl⟩, ?_⟩
        intro y hy
        rcases List.mem_cons.1 hy with rfl | hy
        · refine .inl ⟨by simp, ?_⟩
          simp only
          rw [hv]
          refine (zipWith_range _ _ _ _).trans (table_congr fun i _ => ?_)
          simp only [Num.add, votes_append, votes_single, e]
          congr 2
          cases on r i <;> simp
        · refine .inl ⟨by simp only [List.map_cons, List.mem_cons]; exact .inr (List.mem_map_of_mem hy), ?_⟩
          rw [hrow y (by simp [hy])]
          refine table_congr fun i _ => ?_
          have : y.1 ≠ c r := by
            rintro e'
            rw [List.map_cons, List.nodup_cons] at hn
            exact hn.1 (by simp only [e, ← e']; exact List.mem_map_of_mem hy)
          rw [votes_append, votes_single, if_neg fun h => this h.2.symm, add_zero]
      · rw [if_neg fun h => e ((eq_iff (hc k (by simp)) hr).1 h)]
        rw [List.map_cons, List.nodup_cons] at hn
        obtain ⟨t', h1, h2, h3⟩ := ih hn.2 (fun k hk => hc k (by simp [hk])) (fun y hy => hrow y (by simp [hy]))
        rw [h1]
        refine ⟨(k, v) :: t', rfl, ?_, ?_⟩
        · rcases h2 with ⟨ha, hb⟩ | ⟨ha, hb⟩
          · exact .inl ⟨by rw [List.map_cons]; exact List.mem_cons_of_mem _ ha, by simp [hb]⟩
          · refine .inr ⟨?_, by simp [hb]⟩
            rw [List.map_cons, List.mem_cons]
            rintro (e' | h')
            · exact e e'.symm
            · exact ha h'
        · intro y hy
          rcases List.mem_cons.1 hy with rfl | hy
          · refine .inl ⟨by simp, ?_⟩
            simp only
            rw [hv]
            refine table_congr fun i _ => ?_
            rw [votes_append, votes_single, if_neg fun h => e h.2.symm, add_zero]
          · rcases h3 y hy with ⟨ha, hb⟩ | ⟨ha, hb, hc⟩
            · exact .inl ⟨by rw [List.map_cons]; exact List.mem_cons_of_mem _ ha, hb⟩
            · refine .inr ⟨ha, ?_, hc⟩
              rw [List.map_cons, List.mem_cons]
              rintro (e' | h')
              · exact e e'.symm
              · exact hb h'
  obtain ⟨t', h1, h2, h3⟩ := key t h.nodup hcls h.row
  refine ⟨t', h1, ?_, ?_, ?_⟩
  · rcases h2 with ⟨ha, hb⟩ | ⟨ha, hb⟩
    · rw [hb]; exact h.nodup
    · rw [hb, List.nodup_append]
      refine ⟨h.nodup, by simp, ?_⟩
      intro a h' b hb' e
      rw [List.mem_singleton] at hb'
      subst hb'; subst e
      exact ha h'
  · intro k
    have : (∃ s ∈ done ++ [r], c s = k) ↔ (∃ s ∈ done, c s = k) ∨ c r = k := by
      constructor
      · rintro ⟨s, hs, e⟩
        rcases List.mem_append.1 hs with hs | hs
        · exact .inl ⟨s, hs, e⟩
        · rw [List.mem_singleton] at hs
          exact .inr (hs ▸ e)
      · rintro (⟨s, hs, e⟩ | e)
        · exact ⟨s, by simp [hs], e⟩
        · exact ⟨r, by simp, e⟩
    rw [this, ← h.mem]
    rcases h2 with ⟨ha, hb⟩ | ⟨ha, hb⟩
    · rw [hb]
      exact ⟨.inl, fun h' => h'.elim id fun e => e ▸ ha⟩
    · rw [hb, List.mem_append, List.mem_singleton]
      exact ⟨fun h' => h'.imp_right Eq.symm, fun h' => h'.imp_right Eq.symm⟩
  · intro x hx
    rcases h3 x hx with ⟨_, hb⟩ | ⟨ha, hnot, hb⟩
    · exact hb
    · rw [hb]
      refine table_congr fun i _ => ?_
      rw [votes_append, votes_single, ha,
        votes_absent (fun s hs e => hnot ((h.mem _).2 ⟨s, hs, e⟩)) _ _ _, zero_add]
      cases on r i <;> simp

theorem nones_vec (n : Nat) (on : Nat → Bool) : Rule.nones (vec n on) = 0 ↔ ¬ ∃ i ∈ List.range n, on i = true := by
  unfold Rule.nones vec
  rw [List.length_eq_zero_iff, List.filter_eq_nil_iff]
  constructor
  · rintro h ⟨i, hi, ho⟩
    exact h 1 (List.mem_map.2 ⟨i, hi, by simp [ho]⟩) (by simp)
  · intro h a ha
    obtain ⟨i, hi, rfl⟩ := List.mem_map.1 ha
    have : on i = false := by
      cases ho : on i
      · rfl
      · exact absurd ⟨i, hi, ho⟩ h
    simp [this]

/-- The table after the loop -/
theorem class_loop {S : SetEnv} {w : Weights} {xs : Option Xs} {n : Nat} {on : Rule → Nat → Bool} {c : Rule → Label}
    {wt : Rule → Rat} {rules : List Rule} (h : Classifiers S xs rules n on c) (hw : WeightsAre S w rules wt)
    (done : List Rule) (hd : ∀ r ∈ done, IsClass (c r)) (t : Table) (ht : Holds t done n on c wt) :
    ∃ t', rules.foldlM (classStep S w xs) t = .ok t' ∧ Holds t' (done ++ heard rules wt on n) n on c wt := by
  induction rules generalizing done t with
  | nil => exact ⟨t, rfl, by simpa [heard] using ht⟩
  | cons r rules ih =>
    have h' : Classifiers S xs rules n on c :=
      ⟨h.points, fun r hr => h.act r (by simp [hr]), fun r hr => h.pred r (by simp [hr]), fun r hr => h.isClass r (by simp [hr])⟩
    have hw' : WeightsAre S w rules wt := fun r hr => hw r (by simp [hr])
    rw [List.foldlM_cons]
    by_cases hh : wt r ≠ 0 ∧ ∃ i ∈ List.range n, on r i = true
    · have hheard : heard (r :: rules) wt on n = r :: heard rules wt on n := by
        unfold heard; rw [List.filter_cons_of_pos]; simpa using hh
      obtain ⟨t', h1, h2⟩ := addRow_eq ht hd (h.isClass r (by simp))
      have hstep : classStep S w xs t r = .ok t' := by
        unfold classStep
        rw [weightOf_eq hw (by simp), if_neg hh.1]
        simp only [h.act r (by simp), bind, Except.bind]
        rw [if_neg fun h0 => (nones_vec _ _).1 h0 hh.2]
        simp only [h.pred r (by simp), scale_vec]
        exact h1
      rw [hstep, hheard]
      have := ih h' hw' (done ++ [r]) (by
        intro s hs
        rcases List.mem_append.1 hs with hs | hs
        · exact hd s hs
        · rw [List.mem_singleton] at hs
          exact hs ▸ h.isClass r (by simp)) t' h2
      rw [List.append_assoc, List.singleton_append] at this
      exact this
    · have hheard : heard (r :: rules) wt on n = heard rules wt on n := by
        unfold heard; rw [List.filter_cons_of_neg]; simpa using hh
      have hstep : classStep S w xs t r = .ok t := by
        unfold classStep
        rw [weightOf_eq hw (by simp)]
        by_cases h0 : wt r = 0
        · rw [if_pos h0]
        · rw [if_neg h0]
          simp only [h.act r (by simp), bind, Except.bind]
          rw [if_pos ((nones_vec _ _).2 fun hx => hh ⟨h0, hx⟩)]
      rw [hstep, hheard]
      exact ih h' hw' done hd t ht

/-! ## The decision at one point -/

theorem lt_fin (a b : Rat) : (Num.fin a).lt (.fin b) = decide (a < b) := by
  simp only [Num.lt, Num.le]
  by_cases h : a < b
  · simp [h, h.le, not_le.2 h]
  · simp [h, not_lt.1 h]

theorem foldl_max (l : List Rat) (a : Rat) :
    ∃ m, (l.map Num.fin).foldl Num.max (.fin a) = .fin m ∧ (m = a ∨ m ∈ l) ∧ a ≤ m ∧ ∀ x ∈ l, x ≤ m := by
  induction l generalizing a with
  | nil => exact ⟨a, rfl, .inl rfl, le_refl _, by simp⟩
  | cons b l ih =>
    rw [List.map_cons, List.foldl_cons]
    by_cases h : a < b
    · have : Num.max (.fin a) (.fin b) = .fin b := by simp [Num.max, lt_fin, h]
      rw [this]
      obtain ⟨m, h1, h2, h3, h4⟩ := ih b
      refine ⟨m, h1, .inr ?_, h.le.trans h3, ?_⟩
      · rcases h2 with rfl | h2
        · simp
        · simp [h2]
      · intro x hx
        rcases List.mem_cons.1 hx with rfl | hx
        · exact h3
        · exact h4 x hx
    · have : Num.max (.fin a) (.fin b) = .fin a := by simp [Num.max, lt_fin, h]
      rw [this]
      obtain ⟨m, h1, h2, h3, h4⟩ := ih a
      refine ⟨m, h1, ?_, h3, ?_⟩
      · rcases h2 with rfl | h2
        · exact .inl rfl
        · exact .inr (by simp [h2])
      · intro x hx
        rcases List.mem_cons.1 hx with rfl | hx
        · exact (not_lt.1 h).trans h3
        · exact h4 x hx

theorem dropna_fin (l : List Rat) : Num.dropna (l.map .fin) = l.map .fin := by
  unfold Num.dropna
  rw [List.filter_eq_self]
  intro x hx
  obtain ⟨a, _, rfl⟩ := List.mem_map.1 hx
  rfl

theorem nanmax_fin {l : List Rat} (h : l ≠ []) : ∃ m ∈ l, nanmax (l.map .fin) = .fin m ∧ ∀ x ∈ l, x ≤ m := by
  unfold nanmax
  rw [dropna_fin]
  match l, h with
  | a :: l, _ =>
    rw [List.map_cons]
    simp only
    obtain ⟨m, h1, h2, h3, h4⟩ := foldl_max l a
    refine ⟨m, by rcases h2 with rfl | h2 <;> simp [*], h1, ?_⟩
    intro x hx
    rcases List.mem_cons.1 hx with rfl | hx
    · exact h3
    · exact h4 x hx

/-- Exactly one class has the greatest total. -/
theorem decideClass_wins {ks : List Label} (hn : ks.Nodup) {f : Label → Rat} {k : Label} (hk : k ∈ ks) (h0 : f k ≠ 0)
    (h : ∀ k' ∈ ks, k' ≠ k → f k' < f k) : decideClass (ks.map fun k => (k, .fin (f k))) = k := by
  unfold decideClass
  have hmap : (ks.map fun k => (k, Num.fin (f k))).map (·.2) = (ks.map f).map .fin := by simp [List.map_map, Function.comp_def]
  rw [hmap]
  obtain ⟨m, hm, h1, h2⟩ := nanmax_fin (l := ks.map f) (by rintro e; rw [List.map_eq_nil_iff] at e; simp [e] at hk)
  rw [h1]
  obtain ⟨k1, hk1, rfl⟩ := List.mem_map.1 hm
  have e : k1 = k := by
    by_contra e
    exact absurd (h2 (f k) (List.mem_map_of_mem hk)) (not_le.2 (h k1 hk1 e))
  subst e
  simp only [beq_fin, h0, decide_false, Bool.false_eq_true, if_false]
  rw [if_neg (by simp [List.any_eq_true, Num.isNaN])]
  have : (ks.map fun k => (k, Num.fin (f k))).filter (fun p => p.2.beq (.fin (f k1))) = [(k1, .fin (f k1))] := by
    rw [List.filter_map]
    have hf : ks.filter ((fun p => p.2.beq (Num.fin (f k1))) ∘ fun k => (k, Num.fin (f k))) = [k1] := by
      have e1 : ks.filter ((fun p => p.2.beq (Num.fin (f k1))) ∘ fun k => (k, Num.fin (f k))) = ks.filter (· = k1) := by
        refine List.filter_congr fun k' hk' => ?_
        simp only [Function.comp_apply, beq_fin]
        by_cases e : k' = k1
        · simp [e]
        · simp [e, (h k' hk' e).ne]
      rw [e1]
      clear h h0 hmap hm h1 h2 e1 hk1
      induction ks with
      | nil => cases hk
      | cons a ks ih =>
        rw [List.nodup_cons] at hn
        rcases List.mem_cons.1 hk with rfl | hk
        · rw [List.filter_cons_of_pos (by simp), List.filter_eq_nil_iff.2]
          intro b hb
          simp only [decide_eq_true_eq]
          rintro rfl
          exact hn.1 hb
        · rw [List.filter_cons_of_neg (by
            simp only [decide_eq_true_eq]
            rintro rfl
            exact hn.1 hk)]
          exact ih hn.2 hk
    rw [hf]
    rfl
  rw [this]

/-- No class has the greatest total alone, or it is zero. -/
theorem decideClass_none {ks : List Label} {f : Label → Rat} (hn : ks.Nodup) (hne : ks ≠ [])
    (h : ∀ k ∈ ks, f k ≠ 0 → ∃ k' ∈ ks, k' ≠ k ∧ f k ≤ f k') : decideClass (ks.map fun k => (k, .fin (f k))) = .num .nan := by
  unfold decideClass
  have hmap : (ks.map fun k => (k, Num.fin (f k))).map (·.2) = (ks.map f).map .fin := by simp [List.map_map, Function.comp_def]
  rw [hmap]
  obtain ⟨m, hm, h1, h2⟩ := nanmax_fin (l := ks.map f) (by simpa using hne)
  rw [h1]
  obtain ⟨k, hk, rfl⟩ := List.mem_map.1 hm
  simp only [beq_fin]
  by_cases h0 : f k = 0
  · rw [if_pos (by simp [h0])]
  · rw [if_neg (by simp [h0]), if_neg (by simp [List.any_eq_true, Num.isNaN])]
    obtain ⟨k', hk', hne', hle⟩ := h k hk h0
    have e : f k' = f k := le_antisymm (h2 _ (List.mem_map_of_mem hk')) hle
    split
    · rename_i p hp
      have h1 : (k, Num.fin (f k)) ∈ (ks.map fun k => (k, Num.fin (f k))).filter (fun p => p.2.beq (.fin (f k))) :=
        List.mem_filter.2 ⟨List.mem_map.2 ⟨k, hk, rfl⟩, by simp [beq_fin]⟩
      have h2 : (k', Num.fin (f k')) ∈ (ks.map fun k => (k, Num.fin (f k))).filter (fun p => p.2.beq (.fin (f k))) :=
        List.mem_filter.2 ⟨List.mem_map.2 ⟨k', hk', rfl⟩, by simp [beq_fin, e]⟩
      rw [hp, List.mem_singleton] at h1 h2
      exact absurd (congrArg Prod.fst (h2.trans h1.symm)) hne'
    · rfl

/-- The columns of the table -/
theorem columns_eq {t : Table} {done : List Rule} {n : Nat} {on : Rule → Nat → Bool} {c : Rule → Label} {wt : Rule → Rat}
    (h : Holds t done n on c wt) (hne : t ≠ []) :
    columns t = (List.range n).map fun i => (t.map (·.1)).map fun k => (k, .fin (votes done on c wt k i)) := by
  match t, hne with
  | (k, v) :: t, _ =>
    have hv : v.length = n := by
      have := h.row (k, v) (by simp)
      simp only at this
      rw [this, table_length]
    unfold columns
    simp only
    rw [hv]
    refine List.map_congr_left fun i hi => ?_
    rw [List.map_map]
    refine List.map_congr_left fun x hx => Prod.ext rfl ?_
    simp only [h.row x hx, table, List.getElem?_map, List.getElem?_range (List.mem_range.1 hi), Option.map_some,
      Option.getD_some, Function.comp_apply]

/-- The unstacked vote: the table is not empty, and every point is decided by its column. -/
theorem weightedClassifier_eq {S : SetEnv} {w : Weights} {xs : Option Xs} {n : Nat} {on : Rule → Nat → Bool}
    {c : Rule → Label} {wt : Rule → Rat} {rules : List Rule} (h : Classifiers S xs rules n on c) (hw : WeightsAre S w rules wt)
    (hh : heard rules wt on n ≠ []) :
    ∃ ks : List Label, ks.Nodup ∧ ks ≠ [] ∧ (∀ k, k ∈ ks ↔ ∃ r ∈ heard rules wt on n, c r = k) ∧
      weightedClassifier S rules w xs = .ok ((List.range n).map fun i =>
        decideClass (ks.map fun k => (k, .fin (votes rules on c wt k i)))) := by
  obtain ⟨t, h1, h2⟩ := class_loop h hw [] (by simp) [] ⟨by simp, by simp, by simp⟩
  rw [List.nil_append] at h2
  obtain ⟨r, hr⟩ := List.exists_mem_of_ne_nil _ hh
  have ht : t ≠ [] := by
    rintro rfl
    have := (h2.mem (c r)).2 ⟨r, hr, rfl⟩
    simp at this
  have hne : rules.length ≠ 0 := by
    intro h0
    rw [List.length_eq_zero_iff] at h0
    subst h0
    exact hh rfl
  refine ⟨t.map (·.1), h2.nodup, by simpa using ht, h2.mem, ?_⟩
  unfold weightedClassifier
  rw [if_neg hne, h1]
  simp only [bind, Except.bind]
  rw [if_neg (by simpa using ht), columns_eq h2 ht, List.map_map]
  refine congrArg _ (List.map_congr_left fun i hi => ?_)
  simp only [Function.comp_apply]
  congr 1
  refine List.map_congr_left fun k _ => ?_
  rw [votes_heard (List.mem_range.1 hi)]

theorem votes_nonneg {rules : List Rule} {on : Rule → Nat → Bool} {c : Rule → Label} {wt : Rule → Rat}
    (h : ∀ r ∈ rules, 0 ≤ wt r) (k : Label) (i : Nat) : 0 ≤ votes rules on c wt k i := by
  unfold votes
  refine List.sum_nonneg fun x hx => ?_
  obtain ⟨r, hr, rfl⟩ := List.mem_map.1 hx
  exact h r (List.mem_of_mem_filter hr)

/-- With weights which are not negative, the vote at a point gives the class with the most votes. -/
theorem decideClass_votes {rules : List Rule} {on : Rule → Nat → Bool} {c : Rule → Label} {wt : Rule → Rat} {n i : Nat}
    (hi : i < n) (hpos : ∀ r ∈ rules, 0 ≤ wt r) {ks : List Label} (hn : ks.Nodup) (hne : ks ≠ [])
    (hks : ∀ k, k ∈ ks ↔ ∃ r ∈ heard rules wt on n, c r = k) :
    (∀ k, Wins rules on c wt k i → decideClass (ks.map fun k => (k, .fin (votes rules on c wt k i))) = k) ∧
    ((∀ k, ¬ Wins rules on c wt k i) → decideClass (ks.map fun k => (k, .fin (votes rules on c wt k i))) = .num .nan) := by
  have habs : ∀ k, k ∉ ks → votes rules on c wt k i = 0 := by
    intro k hk
    rw [← votes_heard (n := n) hi]
    exact votes_absent (fun r hr e => hk ((hks k).2 ⟨r, hr, e⟩)) _ _ _
  constructor
  · rintro k ⟨h0, hk⟩
    have hin : k ∈ ks := by
      by_contra hin
      exact h0.ne' (habs k hin)
    exact decideClass_wins hn hin h0.ne' fun k' _ hne => hk k' hne
  · intro h
    refine decideClass_none hn hne fun k _ h0 => ?_
    by_contra hcon
    push Not at hcon
    have hk0 : 0 < votes rules on c wt k i := lt_of_le_of_ne (votes_nonneg hpos k i) (Ne.symm h0)
    refine h k ⟨hk0, fun k' hk' => ?_⟩
    by_cases hin : k' ∈ ks
    · exact hcon k' hin hk'
    · rw [habs k' hin]; exact hk0

/-! ## The most frequent value of a row -/

/-- Number of occurrences of the most frequent value -/
theorem foldl_natmax (l : List (Label × Nat)) (m : Nat) :
    m ≤ l.foldl (fun m p => Nat.max m p.2) m ∧ (∀ p ∈ l, p.2 ≤ l.foldl (fun m p => Nat.max m p.2) m) ∧
      (l.foldl (fun m p => Nat.max m p.2) m = m ∨ ∃ p ∈ l, l.foldl (fun m p => Nat.max m p.2) m = p.2) := by
  induction l generalizing m with
  | nil => simp
  | cons q l ih =>
    rw [List.foldl_cons]
    obtain ⟨h1, h2, h3⟩ := ih (Nat.max m q.2)
    refine ⟨(Nat.le_max_left _ _).trans h1, ?_, ?_⟩
    · intro p hp
      rcases List.mem_cons.1 hp with rfl | hp
      · exact (Nat.le_max_right _ _).trans h1
      · exact h2 p hp
    · rcases h3 with h3 | ⟨p, hp, h3⟩
      · rcases Nat.le_total m q.2 with h | h
        · exact .inr ⟨q, by simp, h3.trans (Nat.max_eq_right h)⟩
        · exact .inl (h3.trans (Nat.max_eq_left h))
      · exact .inr ⟨p, by simp [hp], h3⟩

theorem modes_eq {row : List Label} (hl : ∀ k ∈ row.filter (fun l => !l.isNaN), IsClass k) (k : Label) :
    modes row = [k] ↔ 0 < (row.filter fun l => !l.isNaN).count k ∧
      ∀ k', k' ≠ k → (row.filter fun l => !l.isNaN).count k' < (row.filter fun l => !l.isNaN).count k := by
  unfold modes
  simp only
  generalize hL : row.filter (fun l => !l.isNaN) = L at hl
  have hc := counter_counts hl
  generalize counter L = C at hc
  obtain ⟨-, hmax, hatt⟩ := foldl_natmax C 0
  generalize C.foldl (fun m p => Nat.max m p.2) 0 = m at hmax hatt
  have hmem : ∀ k', k' ∈ (C.filter fun p => p.2 = m).map (·.1) ↔ k' ∈ L ∧ L.count k' = m := by
    intro k'
    rw [List.mem_map]
    constructor
    · rintro ⟨p, hp, rfl⟩
      obtain ⟨hp, hpm⟩ := List.mem_filter.1 hp
      exact ⟨(hc.mem _).1 (List.mem_map_of_mem hp), (hc.count p hp).symm.trans (by simpa using hpm)⟩
    · rintro ⟨h1, h2⟩
      obtain ⟨p, hp, rfl⟩ := List.mem_map.1 ((hc.mem k').2 h1)
      exact ⟨p, List.mem_filter.2 ⟨hp, by simp [hc.count p hp, h2]⟩, rfl⟩
  have hnd : ((C.filter fun p => p.2 = m).map (·.1)).Nodup := hc.nodup.sublist (List.filter_sublist.map _)
  have hle : ∀ k', L.count k' ≤ m := by
    intro k'
    by_cases hk : k' ∈ L
    · obtain ⟨p, hp, rfl⟩ := List.mem_map.1 ((hc.mem k').2 hk)
      rw [← hc.count p hp]
      exact hmax p hp
    · rw [List.count_eq_zero_of_not_mem hk]; exact Nat.zero_le _
  constructor
  · intro h
    have hk := (hmem k).1 (by rw [h]; simp)
    refine ⟨List.count_pos_iff.2 hk.1, fun k' hne => ?_⟩
    rw [hk.2]
    refine lt_of_le_of_ne (hle k') fun e => ?_
    have hpos : 0 < L.count k' := by rw [e, ← hk.2]; exact List.count_pos_iff.2 hk.1
    have := (hmem k').2 ⟨List.count_pos_iff.1 hpos, e⟩
    rw [h, List.mem_singleton] at this
    exact hne this
  · rintro ⟨h0, h⟩
    have hkm : L.count k = m := by
      rcases hatt with rfl | ⟨p, hp, e⟩
      · exact absurd (hle k) (by omega)
      · refine le_antisymm (hle k) ?_
        rw [e, hc.count p hp]
        by_cases e' : p.1 = k
        · rw [e']
        · exact (h _ e').le
    have hall : ∀ k', k' ∈ (C.filter fun p => p.2 = m).map (·.1) ↔ k' = k := by
      intro k'
      rw [hmem]
      constructor
      · rintro ⟨_, h2⟩
        by_contra hne
        have := h k' hne
        omega
      · rintro rfl
        exact ⟨List.count_pos_iff.1 h0, hkm⟩
    match hM : (C.filter fun p => p.2 = m).map (·.1) with
    | [] => rw [hM] at hall; exact absurd ((hall k).2 rfl) (by simp)
    | [a] => rw [hM] at hall; exact hM.trans (by rw [(hall a).1 (by simp)])
    | a :: b :: l =>
      rw [hM] at hall hnd
      have ha := (hall a).1 (by simp)
      have hb := (hall b).1 (by simp)
      rw [ha, hb] at hnd
      simp at hnd

/-- A class is not NaN. -/
theorem isClass_not_nan {k : Label} (h : IsClass k) : k.isNaN = false := by
  rcases h with ⟨q, rfl⟩ | ⟨s, rfl⟩ <;> rfl

/-- The row of a point: the classes of the active rules -/
theorem row_filter {rules : List Rule} {on : Rule → Nat → Bool} {c : Rule → Label} (hc : ∀ r ∈ rules, IsClass (c r)) (i : Nat) :
    (rules.map fun r => if on r i then c r else Label.num .nan).filter (fun l => !l.isNaN) =
      (rules.filter fun r => on r i).map c := by
  induction rules with
  | nil => rfl
  | cons r rules ih =>
    have ih := ih fun s hs => hc s (by simp [hs])
    rw [List.map_cons]
    cases ho : on r i with
    | false =>
      rw [List.filter_cons_of_neg (by simp [Label.isNaN, Num.isNaN]), List.filter_cons_of_neg (by simp [ho])]
      exact ih
    | true =>
      rw [List.filter_cons_of_pos (by simp [isClass_not_nan (hc r (by simp))]), List.filter_cons_of_pos (by simp [ho]),
        List.map_cons]
      exact congrArg _ ih

/-- Number of active rules predicting a class -/
theorem votes_count (rules : List Rule) (on : Rule → Nat → Bool) (c : Rule → Label) (k : Label) (i : Nat) :
    votes rules on c (fun _ => 1) k i = (((rules.filter fun r => on r i).map c).count k : Rat) := by
  induction rules with
  | nil => rfl
  | cons r rules ih =>
    rw [votes_cons, ih]
    cases ho : on r i with
    | false => rw [List.filter_cons_of_neg (by simp [ho])]; simp
    | true =>
      rw [List.filter_cons_of_pos (by simp [ho]), List.map_cons, List.count_cons]
      by_cases e : c r = k
      · simp [e, add_comm]
      · simp [e]

theorem modes_wins {rules : List Rule} {on : Rule → Nat → Bool} {c : Rule → Label} (hc : ∀ r ∈ rules, IsClass (c r)) (i : Nat)
    (k : Label) : modes (rules.map fun r => if on r i then c r else Label.num .nan) = [k] ↔
      Wins rules on c (fun _ => 1) k i := by
  rw [modes_eq (by
    rw [row_filter hc]
    intro k hk
    obtain ⟨r, hr, rfl⟩ := List.mem_map.1 hk
    exact hc r (List.mem_of_mem_filter hr)), row_filter hc]
  unfold Wins
  simp only [votes_count]
  norm_cast

theorem winner_eq {row : List Label} {k : Label} : winner row = some k ↔ modes row = [k] := by
  unfold winner
  split
  · rename_i l h; rw [h]; simp
  · rename_i h
    simp only [reduceCtorEq, false_iff]
    exact fun e => h k e

/-- Number of the rows with a winner -/
theorem two_winners : ∀ (rows : List (List Label)) (i j : Nat), i < j → ∀ ri rj, rows[i]? = some ri → rows[j]? = some rj →
    (winner ri).isSome → (winner rj).isSome → 2 ≤ ((rows.map winner).filterMap id).length := by
  intro rows
  induction rows with
  | nil => intro i j _ ri rj h; simp at h
  | cons r rows ih =>
    intro i j hlt ri rj h1 h2 ha hb
    cases i with
    | zero =>
      cases h1
      obtain ⟨a, ha⟩ := Option.isSome_iff_exists.1 ha
      obtain ⟨b, hb⟩ := Option.isSome_iff_exists.1 hb
      have hm : b ∈ (rows.map winner).filterMap id := by
        refine List.mem_filterMap.2 ⟨some b, List.mem_map.2 ⟨rj, ?_, hb⟩, rfl⟩
        cases j with
        | zero => omega
        | succ j => exact List.mem_of_getElem? (by simpa using h2)
      have := List.length_pos_of_mem hm
      rw [List.map_cons, List.filterMap_cons_some (b := a) (by rw [ha]; rfl), List.length_cons]
      omega
    | succ i =>
      cases j with
      | zero => omega
      | succ j =>
        have := ih i j (by omega) ri rj (by simpa using h1) (by simpa using h2) ha hb
        rw [List.map_cons, List.filterMap_cons]
        split
        · exact this
        · rw [List.length_cons]; omega

/-- The winner of each point, if any -/
theorem voteRows_two {rows : List (List Label)} {i j : Nat} (hij : i ≠ j) {ri rj : List Label}
    (hi : rows[i]? = some ri) (hj : rows[j]? = some rj) (ha : (winner ri).isSome) (hb : (winner rj).isSome) :
    voteRows rows = rows.map fun row => .label ((winner row).getD (.num .nan)) := by
  unfold voteRows
  simp only
  have hlen : 2 ≤ ((rows.map winner).filterMap id).length := by
    rcases lt_or_gt_of_ne hij with h | h
    · exact two_winners rows i j h ri rj hi hj ha hb
    · exact two_winners rows j i h rj ri hj hi hb ha
  split
  · rename_i e; rw [e] at hlen; simp at hlen
  · rename_i e; rw [e] at hlen; simp at hlen
  · rw [List.map_map]; rfl

end Verif.Vote
