import Verif.FrameHeapSpec

/-!
# Lemmas about stacked activations as objects
-/

namespace Verif.FrameHeap

open Verif Spec RuleSet

variable {R : RsEnv}

/-- The stacked activations are left. -/
def Quiet {α} (m : Py RuleSet α) : Prop := ∀ s, (m s).2.stacked = s.stacked ∧ (m s).2.stack = s.stack

namespace Quiet

theorem pure {α} (a : α) : Quiet (pure a) := fun _ => ⟨rfl, rfl⟩
theorem throw {α} (e : Err) : Quiet (Py.throw e : Py RuleSet α) := fun _ => ⟨rfl, rfl⟩
theorem get : Quiet (Py.get : Py RuleSet RuleSet) := fun _ => ⟨rfl, rfl⟩
theorem ofExcept {α} (x : Except Err α) : Quiet (Py.ofExcept x : Py RuleSet α) := fun _ => ⟨rfl, rfl⟩

theorem modify {f : RuleSet → RuleSet} (h : ∀ s, (f s).stacked = s.stacked ∧ (f s).stack = s.stack) : Quiet (Py.modify f) := h

theorem bind {α β} {m : Py RuleSet α} {f : α → Py RuleSet β} (h : Quiet m) (h' : ∀ a, Quiet (f a)) : Quiet (m >>= f) := by
  intro s
  rw [Py.bind_run]
  have := h s
  split
  · rename_i a t e
    rw [e] at this
    have h2 := h' a t
    exact ⟨h2.1.trans this.1, h2.2.trans this.2⟩
  · rename_i e t e'
    rw [e'] at this
    exact this

theorem ite {α} {c : Prop} [Decidable c] {a b : Py RuleSet α} (ha : Quiet a) (hb : Quiet b) : Quiet (if c then a else b) := by
  split
  · exact ha
  · exact hb

theorem updateActivation (o : Option (List Nat)) : Quiet (updateActivation R o) := by
  unfold RuleSet.updateActivation
  split
  · exact .pure _
  · refine .bind .get fun s => ?_
    split
    · exact .ite (.throw _) (.bind (.ofExcept _) fun _ => .modify fun _ => ⟨rfl, rfl⟩)
    · exact .bind (.ofExcept _) fun _ => .modify fun _ => ⟨rfl, rfl⟩

theorem noteIndexes (l : Option (List Int)) : Quiet (noteIndexes R l) := by
  unfold RuleSet.noteIndexes
  split
  · exact .throw _
  · exact .modify fun _ => ⟨rfl, rfl⟩

theorem noteNames (l : Option (List String)) : Quiet (noteNames R l) := by
  unfold RuleSet.noteNames
  split
  · exact .throw _
  · exact .modify fun _ => ⟨rfl, rfl⟩

theorem pushSet (o : RuleSet) : Quiet (pushSet o) := by
  refine .bind .get fun s => ?_
  split
  · exact .ite (.modify fun _ => ⟨rfl, rfl⟩) (.throw _)
  · exact .modify fun _ => ⟨rfl, rfl⟩
  · exact .modify fun _ => ⟨rfl, rfl⟩

end Quiet

/-- `+=` of a ruleset leaves a ruleset without stacked activations so, unless both have to be joined. -/
theorem iaddSet_none {o s : RuleSet} (hs : s.stacked = none)
    (hj : ¬ (s.stack = true ∧ o.stacked ≠ none ∧ o.available ≠ none)) : (iaddSet R o s).2.stacked = none := by
  have key : ∀ t : RuleSet, t.stacked = s.stacked ∧ t.stack = s.stack → (stackIf (stackSet o) t).2.stacked = none := by
    intro t ht
    rw [hs] at ht
    unfold stackIf
    rw [Py.bind_ok (Py.get_run t)]
    cases hb : t.stack with
    | false => exact ht.1
    | true =>
      simp only [if_true]
      unfold stackSet
      cases hv : o.available with
      | none => exact ht.1
      | some v =>
        simp only
        rw [Py.bind_ok (Py.get_run t), ht.1]
        simp only [Py.modify_run]
        by_contra hne
        exact hj ⟨by rw [← ht.2, hb], hne, by rw [hv]; exact fun e => by cases e⟩
  unfold iaddSet
  rw [Py.bind_run]
  have h1 := Quiet.pushSet o s
  split
  · rename_i a t e
    rw [e] at h1
    rw [Py.bind_run]
    have h2 := Quiet.noteIndexes (R := R) (some o.indexes) t
    split
    · rename_i a t' e
      rw [e] at h2
      rw [Py.bind_run]
      have h3 := Quiet.noteNames (R := R) (some o.names) t'
      split
      · rename_i a t'' e
        rw [e] at h3
        rw [Py.bind_run]
        have h4 : Quiet (updateIf R o.available) := .bind .get fun _ => .ite (.updateActivation _) (.pure _)
        have h4 := h4 t''
        split
        · rename_i a t3 e
          rw [e] at h4
          exact key t3 ⟨(h4.1.trans h3.1).trans (h2.1.trans h1.1), (h4.2.trans h3.2).trans (h2.2.trans h1.2)⟩
        · rename_i e' t3 e
          rw [e] at h4
          exact ((h4.1.trans h3.1).trans (h2.1.trans h1.1)).trans hs
      · rename_i e' t3 e
        rw [e] at h3
        exact (h3.1.trans (h2.1.trans h1.1)).trans hs
    · rename_i e' t3 e
      rw [e] at h2
      exact (h2.1.trans h1.1).trans hs
  · rename_i e' t3 e
    rw [e] at h1
    exact h1.1.trans hs

/-- No two rulesets refer to the same DataFrame, and the DataFrames exist. -/
structure Separate (w : World) : Prop where
  exists_ : ∀ (i : Nat) (o : Obj) (k : Nat), w.sets[i]? = some o → o.frame = some k → k < w.frames.length
  apart : ∀ (i j : Nat) (o o' : Obj) (k : Nat), w.sets[i]? = some o → w.sets[j]? = some o' → o.frame = some k → o'.frame = some k → i = j

theorem view_some {w : World} {i : Nat} {o : Obj} (h : w.sets[i]? = some o) : view w i = some (shown w o) := by
  unfold view
  rw [h]
  rfl

/-- One object changes, with a DataFrame of its own. -/
theorem set_separate {w : World} (hw : Separate w) {i : Nat} {o : Obj} (ho : w.sets[i]? = some o) {s : RuleSet} {f : Option Nat}
    {frames : List (Vote.Columns Nat)} (hlen : w.frames.length ≤ frames.length)
    (hold : ∀ k, k < w.frames.length → o.frame ≠ some k → frames[k]? = w.frames[k]?)
    (hf : (f.bind fun k => frames[k]?) = s.stacked) (hk : ∀ k, f = some k → k < frames.length ∧ (f = o.frame ∨ w.frames.length ≤ k)) :
    Separate { sets := w.sets.set i { rest := s, frame := f }, frames := frames } ∧
      ∀ j, view { sets := w.sets.set i { rest := s, frame := f }, frames := frames } j = onlyOne (view w) (some (i, s)) j := by
  have hi : i < w.sets.length := (List.getElem?_eq_some_iff.1 ho).1
  have hget : ∀ j, (w.sets.set i { rest := s, frame := f })[j]? = if i = j then some { rest := s, frame := f } else w.sets[j]? := by
    intro j
    rw [List.getElem?_set]
    by_cases e : i = j
    · subst e
      simp [hi]
    · simp [e]
  constructor
  · constructor
    · intro j o' k hj hk'
      rw [hget] at hj
      split at hj
      · cases hj
        exact (hk k hk').1
      · exact lt_of_lt_of_le (hw.exists_ j o' k hj hk') hlen
    · intro j j' o1 o2 k h1 h2 e1 e2
      rw [hget] at h1 h2
      have clash : ∀ (j : Nat) (o' : Obj), i ≠ j → w.sets[j]? = some o' → o'.frame = some k → f = some k → False := by
        intro j o' hne hj ej ef
        rcases (hk k ef).2 with h | h
        · exact hne (hw.apart i j o o' k ho hj (h ▸ ef) ej)
        · exact absurd (hw.exists_ j o' k hj ej) (by omega)
      split at h1 <;> split at h2
      · rename_i a b
        rw [← a, ← b]
      · rename_i a b
        cases h1
        exact (clash j' o2 b h2 e2 e1).elim
      · rename_i a b
        cases h2
        exact (clash j o1 a h1 e1 e2).elim
      · exact hw.apart j j' o1 o2 k h1 h2 e1 e2
  · intro j
    unfold view onlyOne
    rw [hget]
    by_cases e : i = j
    · subst e
      simp only [if_true, Option.map_some, shown, hf]
    · simp only [if_neg e, if_neg (Ne.symm e)]
      cases hj : w.sets[j]? with
      | none => rfl
      | some o' =>
        simp only [Option.map_some, shown]
        cases hfj : o'.frame with
        | none => rfl
        | some k =>
          have : frames[k]? = w.frames[k]? := hold k (hw.exists_ j o' k hj hfj) fun e' => e (hw.apart i j o o' k ho hj e' hfj)
          simp only [Option.bind_some, this]

theorem place_separate {w : World} (hw : Separate w) {i : Nat} {o : Obj} (ho : w.sets[i]? = some o) (s : RuleSet) :
    Separate (place w i o s) ∧ ∀ j, view (place w i o s) j = onlyOne (view w) (some (i, s)) j := by
  unfold place
  split
  · rename_i e
    exact set_separate hw ho le_rfl (fun _ _ _ => rfl) e.symm fun k hk => ⟨hw.exists_ i o k ho hk, Or.inl rfl⟩
  · split
    · rename_i e
      exact set_separate hw ho le_rfl (fun _ _ _ => rfl) e.symm (fun k hk => by cases hk)
    · rename_i c e
      refine set_separate hw ho (by simp) (fun k hk _ => ?_) ?_ (fun k hk => ?_)
      · rw [List.getElem?_append_left hk]
      · rw [e]; simp
      · cases hk
        exact ⟨by simp, Or.inr le_rfl⟩

theorem write_separate {w : World} (hw : Separate w) {i : Nat} {o : Obj} (ho : w.sets[i]? = some o) (s : RuleSet) :
    Separate (write w i o s) ∧ ∀ j, view (write w i o s) j = onlyOne (view w) (some (i, s)) j := by
  unfold write
  split
  · rename_i k c hf hs
    have hk := hw.exists_ i o k ho hf
    refine set_separate hw ho (by simp) (fun k' _ hne => ?_) ?_ (fun k' hk' => ?_)
    · rw [List.getElem?_set_ne]
      intro e
      exact hne (e ▸ hf)
    · rw [hs]
      simp [hk]
    · cases hk'
      exact ⟨by simpa using hk, Or.inl hf.symm⟩
  · exact place_separate hw ho s

theorem create_separate {w : World} (hw : Separate w) (s : RuleSet) :
    Separate (create w s) ∧ ∀ j, view (create w s) j = onlyOne (view w) (some (w.sets.length, s)) j := by
  have main : ∀ (f : Option Nat) (frames : List (Vote.Columns Nat)), w.frames.length ≤ frames.length →
      (∀ k, k < w.frames.length → frames[k]? = w.frames[k]?) → (f.bind fun k => frames[k]?) = s.stacked →
      (∀ k, f = some k → k < frames.length ∧ w.frames.length ≤ k) →
      Separate { sets := w.sets ++ [{ rest := s, frame := f }], frames := frames } ∧
        ∀ j, view { sets := w.sets ++ [{ rest := s, frame := f }], frames := frames } j =
          onlyOne (view w) (some (w.sets.length, s)) j := by
    intro f frames hlen hold hf hk
    have hget : ∀ j, (w.sets ++ [{ rest := s, frame := f }])[j]? =
        if j = w.sets.length then some { rest := s, frame := f } else w.sets[j]? := by
      intro j
      rcases lt_trichotomy j w.sets.length with h | h | h
      · rw [List.getElem?_append_left h, if_neg (by omega)]
      · subst h
        simp
      · rw [if_neg (by omega), List.getElem?_eq_none (by simp; omega), List.getElem?_eq_none (by omega)]
    constructor
    · constructor
      · intro j o' k hj hk'
        simp only [hget] at hj
        split at hj
        · cases hj
          exact (hk k hk').1
        · exact lt_of_lt_of_le (hw.exists_ j o' k hj hk') hlen
      · intro j j' o1 o2 k h1 h2 e1 e2
        simp only [hget] at h1 h2
        split at h1 <;> split at h2
        · rename_i a b
          rw [a, b]
        · cases h1
          have := hw.exists_ j' o2 k h2 e2
          have := (hk k e1).2
          omega
        · cases h2
          have := hw.exists_ j o1 k h1 e1
          have := (hk k e2).2
          omega
        · exact hw.apart j j' o1 o2 k h1 h2 e1 e2
    · intro j
      unfold view onlyOne
      simp only [hget]
      by_cases e : j = w.sets.length
      · simp only [if_pos e, Option.map_some, shown, hf]
      · rw [if_neg e, if_neg e]
        cases hj : w.sets[j]? with
        | none => rfl
        | some o' =>
          simp only [Option.map_some, shown]
          cases hfj : o'.frame with
          | none => rfl
          | some k => simp only [Option.bind_some, hold k (hw.exists_ j o' k hj hfj)]
  unfold create
  split
  · rename_i e
    exact main none w.frames le_rfl (fun _ _ => rfl) e.symm (fun k hk => by cases hk)
  · rename_i c e
    refine main (some w.frames.length) (w.frames ++ [c]) (by simp) (fun k hk => ?_) ?_ (fun k hk => ?_)
    · rw [List.getElem?_append_left hk]
    · rw [e]; simp
    · cases hk
      exact ⟨by simp, le_rfl⟩

theorem step_separate {w : World} (hw : Separate w) (op : Op) (hj : ¬ Joins (view w) op) :
    Separate (step R w op) ∧ ∀ j, view (step R w op) j = onlyOne (view w) (asked R w.sets.length (view w) op) j := by
  have absent : ∀ {i}, w.sets[i]? = none → view w i = none := fun {i} h => by unfold view; rw [h]; rfl
  cases op with
  | create s => exact create_separate hw s
  | iaddRule i m =>
    simp only [step, asked]
    cases ho : w.sets[i]? with
    | none =>
      rw [absent ho]
      exact ⟨hw, fun _ => rfl⟩
    | some o =>
      rw [view_some ho]
      exact write_separate hw ho _
  | append i m u =>
    simp only [step, asked]
    cases ho : w.sets[i]? with
    | none =>
      rw [absent ho]
      exact ⟨hw, fun _ => rfl⟩
    | some o =>
      rw [view_some ho]
      exact write_separate hw ho _
  | change i f =>
    simp only [step, asked]
    cases ho : w.sets[i]? with
    | none =>
      rw [absent ho]
      exact ⟨hw, fun _ => rfl⟩
    | some o =>
      rw [view_some ho]
      exact place_separate hw ho _
  | iaddSet i j =>
    simp only [step, asked]
    cases ho : w.sets[i]? with
    | none =>
      rw [absent ho]
      exact ⟨hw, fun _ => rfl⟩
    | some o =>
      cases ho' : w.sets[j]? with
      | none =>
        rw [absent ho', view_some ho]
        exact ⟨hw, fun _ => rfl⟩
      | some o' =>
        rw [view_some ho, view_some ho']
        simp only [Option.bind_some, Option.map_some, share]
        split
        · exact place_separate hw ho _
        · rename_i hf
          have hn : (shown w o).stacked = none := by simp [shown, hf]
          have := iaddSet_none (R := R) (o := shown w o') hn fun hh => hj ⟨_, _, view_some ho, view_some ho', hn, hh⟩
          rw [this]
          refine set_separate hw ho le_rfl (fun _ _ _ => rfl) this.symm (fun k hk => by cases hk)

theorem place_sets (w : World) (i : Nat) (o : Obj) (s : RuleSet) : ∃ o', (place w i o s).sets = w.sets.set i o' := by
  unfold place
  split
  · exact ⟨_, rfl⟩
  · split <;> exact ⟨_, rfl⟩

theorem write_sets (w : World) (i : Nat) (o : Obj) (s : RuleSet) : ∃ o', (write w i o s).sets = w.sets.set i o' := by
  unfold write
  split
  · exact ⟨_, rfl⟩
  · exact place_sets ..

theorem share_sets (w : World) (i : Nat) (o o2 : Obj) (s : RuleSet) : ∃ o', (share w i o o2 s).sets = w.sets.set i o' := by
  unfold share
  split
  · exact place_sets ..
  · exact ⟨_, rfl⟩

/-- A call leaves the objects, replaces the one it is about, or makes a new one. -/
theorem step_sets (R : RsEnv) (w : World) (op : Op) : (step R w op).sets = w.sets ∨
    (∃ k o' t, (step R w op).sets = w.sets.set k o' ∧ asked R w.sets.length (view w) op = some (k, t)) ∨
    ∃ o', (step R w op).sets = w.sets ++ [o'] := by
  cases op with
  | create s =>
    right; right
    simp only [step, create]
    split <;> exact ⟨_, rfl⟩
  | iaddRule i m =>
    simp only [step, asked, view]
    cases e : w.sets[i]? with
    | none => exact .inl rfl
    | some o => obtain ⟨o', h⟩ := write_sets w i o (RuleSet.iaddRule R m (shown w o)).2; exact .inr (.inl ⟨i, o', _, h, rfl⟩)
  | append i m u =>
    simp only [step, asked, view]
    cases e : w.sets[i]? with
    | none => exact .inl rfl
    | some o => obtain ⟨o', h⟩ := write_sets w i o (RuleSet.append R m u (shown w o)).2; exact .inr (.inl ⟨i, o', _, h, rfl⟩)
  | iaddSet i j =>
    simp only [step, asked, view]
    cases e : w.sets[i]? with
    | none => exact .inl rfl
    | some o =>
      cases e' : w.sets[j]? with
      | none => exact .inl rfl
      | some o2 =>
        obtain ⟨o', h⟩ := share_sets w i o o2 (RuleSet.iaddSet R (shown w o2) (shown w o)).2
        exact .inr (.inl ⟨i, o', _, h, rfl⟩)
  | change i f =>
    simp only [step, asked, view]
    cases e : w.sets[i]? with
    | none => exact .inl rfl
    | some o => obtain ⟨o', h⟩ := place_sets w i o (f (shown w o)); exact .inr (.inl ⟨i, o', _, h, rfl⟩)

end Verif.FrameHeap
