import Verif.RuleHeap
import Verif.ActivationProps

/-!
# Helper lemmas: rules over the heap of activations
-/

namespace Verif.RuleHeap

open Verif Verif.Activation Verif.ActivationProps Verif.Spec

theorem truthy_live {w₀ : World} {h : Heap} {us : Values} {i : Nat} {u : List Bool} (hr : Activation.Reach w₀ h us)
    (hi : us[i]? = some (some u)) : truthy (some i) h = (.ok true, h) := by
  obtain ⟨hne, a, ha, hra⟩ := hr.abs.rep i u hi
  have : u.length ≠ 0 := fun hc => hne (List.length_eq_zero_iff.1 hc)
  simp [truthy, look, Py.bind_run, ha, hra.length, this]

theorem contains_live {w₀ : World} {h : Heap} {us : Values} {i j : Nat} {u v : List Bool} {s o : HRule}
    (hr : Activation.Reach w₀ h us) (hs : s.act = some i) (ho : o.act = some j) (hi : us[i]? = some (some u))
    (hj : us[j]? = some (some v)) : contains s o h = Activation.contains i j h := by
  simp [contains, hs, ho, Py.bind_run, truthy_live hr hi, truthy_live hr hj]

/-- From an answer of the rules to one of the activations. -/
theorem contains_step {w₀ : World} {h h' : Heap} {us : Values} {i j : Nat} {u v : List Bool} {s o : HRule} {r : Bool}
    (hr : Activation.Reach w₀ h us) (hs : s.act = some i) (ho : o.act = some j) (hi : us[i]? = some (some u))
    (hj : us[j]? = some (some v)) :
    contains s o h = (.ok r, h') ↔ step (.contains i j) h = (.ok (.truth r), h') := by
  rw [contains_live hr hs ho hi hj]
  simp only [step, Py.bind_run]
  rcases Activation.contains i j h with ⟨e | b, h1⟩ <;> simp

theorem correlation_live {w₀ : World} {h : Heap} {us : Values} {i j : Nat} {u v : List Bool} {s o : HRule} {x y : Num}
    (hr : Activation.Reach w₀ h us) (hs : s.act = some i) (ho : o.act = some j) (hi : us[i]? = some (some u))
    (hj : us[j]? = some (some v)) (hl : u.length = v.length) (hf : s.features = o.features)
    (hx : signOf s.prediction = .ok x) (hy : signOf o.prediction = .ok y) :
    ∃ h', correlation s o h = (.ok ((Num.fin ((agreements u v : Rat) / u.length)).mul (x.mul y)), h') ∧
      ∀ (k : Nat) (x : List Bool), us[k]? = some (some x) → Shows h' k x := by
  obtain ⟨h', r1, r2, _⟩ := correlation_abs hr.abs hi hj hl
  refine ⟨h', ?_, fun k x hk => r2.shows hk⟩
  simp [correlation, hf, hx, hy, hs, ho, Py.bind_run, r1, agreements, Py.ofExcept]

/-- The state after deleting a live activation. -/
theorem delete_at {h : Heap} {i : Nat} {a : Act} (ha : h.objs[i]? = some a) :
    ∃ a' w', onObj i delete h = (.ok (), ⟨h.objs.set i a', w'⟩) ∧
      a' = { a with data := a'.data } ∧
      ((∃ c, a'.data = .deleted c) ∨ ∃ p, a'.data = .file p ∧ w'.files p = none) := by
  rcases hd : a.data with b | n | t | c | r | p | c
  case file =>
    refine ⟨a, { h.w with files := fun q => if q = p then none else h.w.files q }, ?_, rfl, Or.inr ⟨p, hd, by simp⟩⟩
    simp [onObj, ha, delete, Py.bind_run, hd, setWorld]
  case text => exact ⟨{ a with data := .deleted true }, h.w, by simp [onObj, ha, delete, Py.bind_run, hd, setSelf], rfl, Or.inl ⟨_, rfl⟩⟩
  case carr => exact ⟨{ a with data := .deleted true }, h.w, by simp [onObj, ha, delete, Py.bind_run, hd, setSelf], rfl, Or.inl ⟨_, rfl⟩⟩
  case deleted =>
    cases c
    · exact ⟨{ a with data := .deleted false }, h.w, by simp [onObj, ha, delete, Py.bind_run, hd, setSelf], rfl, Or.inl ⟨_, rfl⟩⟩
    · exact ⟨{ a with data := .deleted true }, h.w, by simp [onObj, ha, delete, Py.bind_run, hd, setSelf], rfl, Or.inl ⟨_, rfl⟩⟩
  all_goals exact ⟨{ a with data := .deleted false }, h.w, by simp [onObj, ha, delete, Py.bind_run, hd, setSelf], rfl, Or.inl ⟨_, rfl⟩⟩

theorem nones_keeps {o o' : Obj} {k : Nat} (h : nones o = (.ok k, o')) :
    o'.act.nones = some k ∧ ∃ c, o'.act.coverage = some c := by
  have key : ∀ x : Obj, (match x.act.nones with
        | none => (Py.throw .typeError : Meth Nat)
        | some k => do
          if x.act.coverage.isNone then
            let c ← divLength k
            setSelf fun a => { a with coverage := some c }
          pure k) x = (.ok k, o') → o'.act.nones = some k ∧ ∃ c, o'.act.coverage = some c := by
    intro x hx
    cases hn : x.act.nones with
    | none => simp [hn] at hx
    | some m =>
      cases hc : x.act.coverage with
      | some c =>
        simp [hn, hc, Py.bind_run] at hx
        obtain ⟨rfl, rfl⟩ := hx
        exact ⟨hn, c, hc⟩
      | none =>
        rcases hd : divLength m x with ⟨e | f, x'⟩
        · simp [hn, hc, Py.bind_run, hd] at hx
        · simp [hn, hc, Py.bind_run, hd, setSelf] at hx
          obtain ⟨rfl, rfl⟩ := hx
          have : x' = x := by
            unfold divLength at hd
            split at hd
            · cases hd
            · split at hd <;> cases hd <;> rfl
            · cases hd; rfl
          subst this
          exact ⟨hn, f, rfl⟩
  unfold nones at h
  rw [Py.bind_run] at h
  simp only [Py.get_run] at h
  cases hn : o.act.nones with
  | some m =>
    simp only [hn, Option.isNone_some, Bool.false_eq_true, if_false, Py.bind_run, Py.pure_run, Py.get_run] at h
    exact key o (by simpa only [hn] using h)
  | none =>
    simp only [hn, Option.isNone_none, if_true, Py.bind_run] at h
    rcases hr : raw o with ⟨e | v, x⟩
    · simp [hr] at h
    · simp only [hr, Py.pure_run, Py.get_run] at h
      exact key x h

theorem coverage_keeps {o o' : Obj} {c : Frac} (h : Activation.coverage o = (.ok c, o')) : o'.act.coverage = some c := by
  unfold Activation.coverage at h
  rw [Py.bind_run] at h
  simp only [Py.get_run] at h
  have key : ∀ x : Obj, (match x.act.coverage with
      | none => (Py.throw .typeError : Meth Frac)
      | some c => pure c) x = (.ok c, o') → o'.act.coverage = some c := by
    intro x hx
    cases hc : x.act.coverage with
    | none => simp [hc] at hx
    | some f =>
      simp [hc] at hx
      obtain ⟨rfl, rfl⟩ := hx
      exact hc
  cases hc : o.act.coverage with
  | some f =>
    simp only [hc, Option.isNone_some, Bool.false_eq_true, if_false, Py.bind_run, Py.pure_run, Py.get_run] at h
    exact key o (by simpa only [hc, Py.pure_run] using h)
  | none =>
    simp only [hc, Option.isNone_none, if_true, Py.bind_run] at h
    rcases hr : nones o with ⟨e | v, x⟩
    · simp [hr] at h
    · simp only [hr, Py.pure_run, Py.get_run] at h
      exact key x h

theorem entropy_keeps {o o' : Obj} {k : Nat} (h : entropy o = (.ok k, o')) :
    o'.act.entropy = some k ∧ ∃ c, o'.act.relEntropy = some c := by
  have key : ∀ x : Obj, (match x.act.entropy with
        | none => (Py.throw .typeError : Meth Nat)
        | some k => do
          if x.act.relEntropy.isNone then
            let c ← divLength k
            setSelf fun a => { a with relEntropy := some c }
          pure k) x = (.ok k, o') → o'.act.entropy = some k ∧ ∃ c, o'.act.relEntropy = some c := by
    intro x hx
    cases hn : x.act.entropy with
    | none => simp [hn] at hx
    | some m =>
      cases hc : x.act.relEntropy with
      | some c =>
        simp [hn, hc, Py.bind_run] at hx
        obtain ⟨rfl, rfl⟩ := hx
        exact ⟨hn, c, hc⟩
      | none =>
        rcases hd : divLength m x with ⟨e | f, x'⟩
        · simp [hn, hc, Py.bind_run, hd] at hx
        · simp [hn, hc, Py.bind_run, hd, setSelf] at hx
          obtain ⟨rfl, rfl⟩ := hx
          have : x' = x := by
            unfold divLength at hd
            split at hd
            · cases hd
            · split at hd <;> cases hd <;> rfl
            · cases hd; rfl
          subst this
          exact ⟨hn, f, rfl⟩
  unfold entropy at h
  obtain ⟨x, o1, h1, h⟩ := Py.bind_eq_ok h
  cases h1
  cases hn : o.act.entropy with
  | some m =>
    simp only [hn] at h
    obtain ⟨x, o1, h1, h⟩ := Py.bind_eq_ok h
    cases h1
    exact key _ h
  | none =>
    simp only [hn] at h
    cases hd : o.act.data <;> simp only [hd] at h <;>
      obtain ⟨v, o1, h1, h⟩ := Py.bind_eq_ok h <;>
      obtain ⟨e, o2, h2, h⟩ := Py.bind_eq_ok h <;>
      obtain ⟨_, o3, h3, h⟩ := Py.bind_eq_ok h <;>
      obtain ⟨x, o4, h4, h⟩ := Py.bind_eq_ok h <;>
      cases h4 <;> exact key _ h

theorem relEntropy_keeps {o o' : Obj} {c : Frac} (h : relEntropy o = (.ok c, o')) : o'.act.relEntropy = some c := by
  unfold relEntropy at h
  obtain ⟨x, o1, h1, h⟩ := Py.bind_eq_ok h
  cases h1
  have key : ∀ x : Obj, (match x.act.relEntropy with
      | none => (Py.throw .typeError : Meth Frac)
      | some c => pure c) x = (.ok c, o') → o'.act.relEntropy = some c := by
    intro x hx
    cases hc : x.act.relEntropy with
    | none => simp [hc] at hx
    | some f =>
      simp [hc] at hx
      obtain ⟨rfl, rfl⟩ := hx
      exact hc
  cases hc : o.act.relEntropy with
  | some f =>
    simp only [hc, Option.isNone_some, Bool.false_eq_true, if_false, Py.bind_run, Py.pure_run, Py.get_run] at h
    exact key o (by simpa only [hc, Py.pure_run] using h)
  | none =>
    simp only [hc, Option.isNone_none, if_true, Py.bind_run] at h
    rcases hr : entropy o with ⟨e | v, x⟩
    · simp [hr] at h
    · simp only [hr, Py.pure_run, Py.get_run] at h
      exact key x h

/-- The figures of an activation: what is a number. -/
def Figure (r : Read) : Prop := r = .nones ∨ r = .coverage ∨ r = .entropy ∨ r = .relEntropy

/-- A figure which was read once is answered from memory, whatever became of the data. -/
theorem figure_again {r : Read} {o o' : Obj} {x : Out} (hf : Figure r) (h : r.run o = (.ok x, o')) (d : Data) (w : World) :
    r.run ⟨{ o'.act with data := d }, w⟩ = (.ok x, ⟨{ o'.act with data := d }, w⟩) := by
  rcases hf with rfl | rfl | rfl | rfl <;> simp only [Read.run] at h ⊢ <;>
    obtain ⟨k, o1, h1, h⟩ := Py.bind_eq_ok h <;> cases h
  · obtain ⟨h2, c, h3⟩ := nones_keeps h1
    simp [Py.bind_run, nones, h2, h3]
  · simp [Py.bind_run, Activation.coverage, coverage_keeps h1]
  · obtain ⟨h2, c, h3⟩ := entropy_keeps h1
    simp [Py.bind_run, entropy, h2, h3]
  · simp [Py.bind_run, relEntropy, relEntropy_keeps h1]

end Verif.RuleHeap
