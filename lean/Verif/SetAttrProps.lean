import Verif.SetAttrSpec
import Verif.SetHeapProps

/-!
# Properties of the attributes which a ruleset takes from its activation (C82)
-/

namespace Verif.SetHeapProps

open Verif Verif.Activation Verif.RuleHeap Verif.SetHeap Verif.ActivationProps Verif.RuleHeapProps Verif.Spec

theorem actGet_shows {w₀ : World} {h : Heap} {us : Values} {i : Nat} {u : List Bool} (hr : Activation.Reach w₀ h us) (hi : us[i]? = some (some u))
    (item : Item) : ∃ o h', actGet i item h = (.ok o, h') ∧ Item.Expected u item o ∧ Activation.Reach w₀ h' us := by
  have hs := hr.abs.shows hi
  cases item with
  | length =>
    obtain ⟨⟨a, ha, hl⟩, -⟩ := hs
    refine ⟨.nat u.length, h, ?_, rfl, hr⟩
    simp [actGet, look, ha, hl, Py.bind_run]
  | read r =>
    obtain ⟨o, ho, ha⟩ := hs.2 r
    have hstep := Activation.Reach.step (.read r i) hr ⟨u, by simp [Vectors, hi]⟩
    rw [ho] at hstep
    exact ⟨o, (Activation.step (.read r i) h).2, Prod.ext ho rfl, ha, hstep⟩

theorem setGet_run {st : State} {item : Item} {i : Nat} (hs : st.s.act = some i) {o o' : Out} {h1 h2 : Heap}
    (e1 : actGet i item st.h = (.ok o, h1)) (e2 : actGet i item h1 = (.ok o', h2)) :
    setGet item st = (.ok o', { st with h := h2 }) := by
  have e : actHas i item st.h = (.ok true, h1) := by unfold actHas; rw [e1]
  unfold setGet
  rw [Py.bind_ok (Py.get_run _)]
  simp only [hs]
  rw [Py.bind_ok (a := true) (s' := { st with h := h1 }) (by simp [onHeap, e]), if_pos rfl]
  simp [onHeap, e2]

/-- **C82.** `ruleset.length`, `.raw`, `.ones`, `.nones`, `.coverage`, `.entropy`, `.rel_entropy` and the encodings, which a ruleset takes from
its activation, are those of the vector which the activation stands for; reading them changes neither the ruleset nor what any
activation of the program stands for. -/
theorem C82_read {w₀ : World} {st : State} {us : Values} {i : Nat} {u : List Bool} (hr : Activation.Reach w₀ st.h us)
    (hs : st.s.act = some i) (hi : us[i]? = some (some u)) (item : Item) :
    ∃ o st', setGet item st = (.ok o, st') ∧ Item.Expected u item o ∧ st'.s = st.s ∧
      ∀ k x, us[k]? = some (some x) → Shows st'.h k x := by
  obtain ⟨o, h1, e1, -, r1⟩ := actGet_shows hr hi item
  obtain ⟨o', h2, e2, g, r2⟩ := actGet_shows r1 hi item
  exact ⟨o', { st with h := h2 }, setGet_run hs e1 e2, g, rfl, fun k x hx => r2.abs.shows hx⟩

/-- **C82 (coverage).** While the activation of a ruleset is there, `ruleset.coverage` is `ruleset.ruleset_coverage`. -/
theorem C82_coverage {w₀ : World} {st : State} {us : Values} {i : Nat} {u : List Bool} (hr : Activation.Reach w₀ st.h us)
    (hs : st.s.act = some i) (hi : us[i]? = some (some u)) :
    (setGet (.read .coverage) st).1 = .ok (.quotient ⟨u.count true, u.length⟩) ∧ (setCoverage st).1 = .ok (some ⟨u.count true, u.length⟩) := by
  obtain ⟨o, st', e, g, -⟩ := C82_read hr hs hi (.read .coverage)
  refine ⟨by rw [e, show o = .quotient ⟨u.count true, u.length⟩ from g], (C52_live hr hs hi).2.2⟩

/-- **C82 (no activation).** Without activation all these names raise `AttributeError`. -/
theorem C82_none {st : State} (hs : st.s.act = none) (item : Item) : (setGet item st).1 = .error .attributeError := by
  unfold setGet
  rw [Py.bind_ok (Py.get_run _)]
  simp only [hs]
  rfl

/-- A ruleset without rules, its activation computed -/
def noRules : State := (computeSelf enough ⟨⟨[], none, none, false⟩, demo⟩).2

/-- **C82 is false of a ruleset without rules**: its activation is the empty vector; `ruleset.coverage`, and so
`hasattr(ruleset, "coverage")`, raises `ZeroDivisionError`, while `ruleset.ruleset_coverage` is `None` and `ruleset.length` is 0. -/
theorem C82_empty_false :
    ∃ st : State, st.s.rules = [] ∧ (setGet .length st).1 = .ok (.nat 0) ∧ (setCoverage st).1 = .ok none ∧
      (setGet (.read .coverage) st).1 = .error .zeroDivisionError :=
  ⟨noRules, List.length_eq_zero_iff.1 (by decide +kernel), by decide +kernel, by decide +kernel, by decide +kernel⟩

/-- **C82 is false after `del_activation`**: `ruleset.coverage` still answers while `ruleset.ruleset_coverage` is `None`; `ruleset.length`
is the number of points, and `ruleset.raw` raises `TypeError`, so that `hasattr(ruleset, "raw")` raises as well. -/
theorem C82_deleted_false :
    ∃ (st : State) (c : Frac), (SetHeap.delActivation st).1 = .ok () ∧
      (setCoverage (SetHeap.delActivation st).2).1 = .ok none ∧
      (setGet (.read .coverage) (SetHeap.delActivation st).2).1 = .ok (.quotient c) ∧
      (setGet .length (SetHeap.delActivation st).2).1 = .ok (.nat 3) ∧
      (setGet (.read .raw) (SetHeap.delActivation st).2).1 = .error .typeError :=
  ⟨full, ⟨2, 3⟩, by decide +kernel, by decide +kernel, by decide +kernel, by decide +kernel, by decide +kernel⟩

/-- **C82 is false of a loaded ruleset**: its coverage was read from the file, and `ruleset.ruleset_coverage` is that; `ruleset.coverage`
raises `AttributeError`. -/
theorem C82_loaded_false (s : HSet) (h : Heap) (c : Frac) (ha : s.act = none) (hc : s.coverage = some c) :
    (setCoverage ⟨s, h⟩).1 = .ok (some c) ∧ (setGet (.read .coverage) ⟨s, h⟩).1 = .error .attributeError :=
  ⟨by simp [setCoverage, setAvailable, Py.bind_run, ha, hc], C82_none ha _⟩

/-- The hypotheses of the theorems above: the activation of `full` stands for the union of those of its two rules, and there are
rulesets with a coverage and without activation. -/
example : (∃ us, Activation.Reach demoWorld full.h us ∧ us[4]? = some (some [true, true, false])) ∧ full.s.act = some 4 ∧
    (setGet (.read .coverage) full).1 = .ok (.quotient ⟨2, 3⟩) ∧ (setGet .length full).1 = .ok (.nat 3) ∧
    (setGet (.read .ones) full).1 = .ok (.array [0, 1]) ∧
    pair.s.act = none ∧ ({ pair.s with coverage := some ⟨1, 2⟩ } : HSet).coverage = some ⟨1, 2⟩ := by
  refine ⟨?_, by decide +kernel, by decide +kernel, by decide +kernel, by decide +kernel, rfl, rfl⟩
  obtain ⟨us, g, -, h⟩ := computeSelf_goes enough pair_inv (by decide)
    (⟨[1, 2], rfl, rfl⟩ : Held demoValues pair.s.rules [[true, true, false], [true, false, false]]) (by decide)
  obtain ⟨m, h1, -, h3⟩ := h (by decide +kernel)
  have e : (computeSelf enough pair).2.s.act = some 4 := by decide +kernel
  obtain rfl : m = 4 := by rw [e] at h1; cases h1; rfl
  exact ⟨us, g.inv.reach, h3⟩

/-- **C82 (no encoding after `del_activation`).** Once `del_activation` has deleted an activation which is not in a file, the compressed forms
of the ruleset raise `AttributeError`, and nothing changes. -/
theorem C82_deleted_encodings {st : State} {i : Nat} {a : Act} (hs : st.s.act = some i) (hi : st.h.objs[i]? = some a)
    (hf : ∀ p, a.data ≠ .file p) {r : Read} (hr : r = .compressedArray ∨ r = .compressedStr) :
    (SetHeap.delActivation st).1 = .ok () ∧
      (setGet (.read r) (SetHeap.delActivation st).2).1 = .error .attributeError ∧
      (setGet (.read r) (SetHeap.delActivation st).2).2.s = st.s := by
  obtain ⟨b, a', hd, hg⟩ : ∃ b a', a'.data = .deleted b ∧ onObj i delete st.h = (.ok (), ⟨st.h.objs.set i a', st.h.w⟩) := by
    cases hdata : a.data with
    | file p => exact absurd hdata (hf p)
    | text t => exact ⟨true, { a with data := .deleted true }, rfl, by simp [onObj, hi, delete, Py.bind_run, hdata, setSelf]⟩
    | carr t => exact ⟨true, { a with data := .deleted true }, rfl, by simp [onObj, hi, delete, Py.bind_run, hdata, setSelf]⟩
    | deleted t =>
      cases t with
      | true => exact ⟨true, { a with data := .deleted true }, rfl, by simp [onObj, hi, delete, Py.bind_run, hdata, setSelf]⟩
      | false => exact ⟨false, { a with data := .deleted false }, rfl, by simp [onObj, hi, delete, Py.bind_run, hdata, setSelf]⟩
    | raw t => exact ⟨false, { a with data := .deleted false }, rfl, by simp [onObj, hi, delete, Py.bind_run, hdata, setSelf]⟩
    | int t => exact ⟨false, { a with data := .deleted false }, rfl, by simp [onObj, hi, delete, Py.bind_run, hdata, setSelf]⟩
    | bits t => exact ⟨false, { a with data := .deleted false }, rfl, by simp [onObj, hi, delete, Py.bind_run, hdata, setSelf]⟩
  have hdel : SetHeap.delActivation st = (.ok (), ⟨st.s, ⟨st.h.objs.set i a', st.h.w⟩⟩) := by
    simp [SetHeap.delActivation, Py.bind_run, hs, onHeap, hg]
  have hlt : i < st.h.objs.length := (List.getElem?_eq_some_iff.1 hi).1
  have hget : ∃ h', actGet i (.read r) ⟨st.h.objs.set i a', st.h.w⟩ = (.error .attributeError, h') := by
    rcases hr with rfl | rfl
    · exact ⟨_, by simp [actGet, onObj, hlt, Read.run, asCompressedArray, Py.bind_run, hd]; rfl⟩
    · exact ⟨_, by simp [actGet, onObj, hlt, Read.run, asCompressedStr, Py.bind_run, hd]; rfl⟩
  obtain ⟨h', hget⟩ := hget
  have hrun : setGet (.read r) ⟨st.s, ⟨st.h.objs.set i a', st.h.w⟩⟩ = (.error .attributeError, ⟨st.s, h'⟩) := by
    unfold setGet
    rw [Py.bind_ok (Py.get_run _)]
    simp only [hs]
    have : actHas i (.read r) ⟨st.h.objs.set i a', st.h.w⟩ = (.ok false, h') := by simp [actHas, hget]
    rw [Py.bind_ok (a := false) (s' := ⟨st.s, h'⟩) (by simp [onHeap, this])]
    rfl
  rw [hdel]
  exact ⟨rfl, by rw [hrun], by rw [hrun]⟩

example : full.s.act = some 4 ∧ ∃ a, full.h.objs[4]? = some a ∧ ∀ p, a.data ≠ .file p := by
  refine ⟨by decide +kernel, ?_⟩
  have h : (full.h.objs[4]?.any fun a => !a.data.inFile) = true := by decide +kernel
  cases ho : full.h.objs[4]? with
  | none => rw [ho] at h; cases h
  | some a =>
    refine ⟨a, rfl, fun p hp => ?_⟩
    rw [ho] at h
    simp [hp, Data.inFile] at h

/-- **C82 (`ruleset.activation`).** Without activation, or with the one of no points which a ruleset without rules has, `ruleset.activation` is
`None`. -/
theorem C82_activation_none {st : State} (hs : st.s.act = none ∨ ∃ i a, st.s.act = some i ∧ st.h.objs[i]? = some a ∧ a.length = some 0) :
    setActivation st = (.ok none, st) := by
  rcases hs with hs | ⟨i, a, hs, hi, hl⟩
  · simp [setActivation, Py.bind_run, hs, onHeap, truthy]
  · simp [setActivation, Py.bind_run, hs, onHeap, truthy, look, hi, hl]

example : (∃ i a, noRules.s.act = some i ∧ noRules.h.objs[i]? = some a ∧ a.length = some 0) ∧ pair.s.act = none := by
  refine ⟨?_, rfl⟩
  have h : ((noRules.s.act.bind fun i => noRules.h.objs[i]?).map (·.length)) = some (some 0) := by decide +kernel
  cases ha : noRules.s.act with
  | none => rw [ha] at h; cases h
  | some i =>
    rw [ha] at h
    simp only [Option.bind_some] at h
    cases ho : noRules.h.objs[i]? with
    | none => rw [ho] at h; cases h
    | some a => exact ⟨i, a, rfl, ho, by rw [ho] at h; simpa using h⟩

end Verif.SetHeapProps
