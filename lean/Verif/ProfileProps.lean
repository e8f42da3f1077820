import Verif.ActivationProps

/-!
# Property C64: measuring an activation does not change it

With `Activation.FORCE_STAT` set, reading a profiling figure of an activation (`sizeof_*`, `time_*`) makes it do
the work again: write itself to a file and remove it, or hold its vector in another format for a while.  Histories
(`Reach`) may measure at any moment, so all theorems about them (C03-C10, C31, C36) hold with measures in between;
here is what one measure does.
-/

namespace Verif.ActivationProps

open Verif Verif.Spec Verif.Codec Verif.Activation

/-- **C64 (vectors), partial.** Reading any profiling figure of a live activation, whether it raises or not, leaves
every live activation showing the vector it stood for.  Left out of `Reach` (and false, see below): `lasy=True`. -/
theorem C64_shows_partial {w₀ : World} {h : Heap} {us : Values} {i j : Nat} {u v : List Bool} (g : Gauge)
    (missing forced : Bool) (hr : Reach w₀ h us) (hi : us[i]? = some (some u)) (hj : us[j]? = some (some v)) :
    Shows (step (.measure g missing forced i) h).2 j v := by
  have hs := hr.step (.measure g missing forced i) ⟨u, by simp [Vectors, hi]⟩
  exact hs.abs.shows (after_keep _ _ _ hj (by intro h; cases h) (by intro h; cases h))

example : Shows (step (.measure .timeRead true true 1) demo).2 1 [true, true, false] :=
  C64_shows_partial .timeRead true true demo_reach (u := [true, true, false]) rfl rfl
example : Shows (step (.measure (.time .bitarray .compressed) true true 2) demo).2 2 [true, false, false] :=
  C64_shows_partial (.time .bitarray .compressed) true true demo_reach (u := [true, false, false]) rfl rfl

/-- **C64 (storage), partial.** It leaves every object stored as it was, with the same options, and no object is
added or removed; all that can change is what the measured object remembers. -/
theorem C64_storage_partial {w₀ : World} {h : Heap} {us : Values} {i : Nat} {u : List Bool} (g : Gauge)
    (missing forced : Bool) (hr : Reach w₀ h us) (hi : us[i]? = some (some u)) :
    (step (.measure g missing forced i) h).2.objs.map
        (fun a => (a.data, a.optimize, a.toFile, a.lasy)) =
      h.objs.map (fun a => (a.data, a.optimize, a.toFile, a.lasy)) := by
  obtain ⟨r, h', h0, r1, _, s, ho, _⟩ := measure_abs g missing forced hr.abs hi
  have hh : (step (.measure g missing forced i) h).2 = h' := by
    simp only [step]
    cases r with
    | ok x => rw [Py.bind_ok r1]; rfl
    | error e => rw [Py.bind_err r1]
  rw [hh, ho]
  apply List.ext_getElem?
  intro k
  rw [List.getElem?_map, List.getElem?_map]
  cases hk : h.objs[k]? with
  | none =>
    rw [List.getElem?_eq_none_iff] at hk
    rw [List.getElem?_eq_none (by rw [s.length]; exact hk)]
  | some a =>
    obtain ⟨a', ha', hb⟩ := s.objs k a hk
    rw [ha']
    simp [hb.data, hb.optimize, hb.toFile, hb.lasy]

example : (step (.measure .sizeofFile true true 0) demo).2.objs.map (·.data) =
    [.bits [true, false, true], .file (.vec 0), .text "1,1,3".toList, .file (.vec 1)] := by decide +kernel

/-- **C64 (files and settings), partial.** It leaves all files and all class-wide settings as they were, whether it
raises or not: the file it writes is gone afterwards, and no other file is touched. -/
theorem C64_files_partial {w₀ : World} {h : Heap} {us : Values} {i : Nat} {u : List Bool} (g : Gauge)
    (missing forced : Bool) (hr : Reach w₀ h us) (hi : us[i]? = some (some u)) :
    (step (.measure g missing forced i) h).2.w.files = h.w.files ∧
      (step (.measure g missing forced i) h).2.w.dtype = h.w.dtype ∧
      (step (.measure g missing forced i) h).2.w.willCompare = h.w.willCompare ∧
      (step (.measure g missing forced i) h).2.w.storeRaw = h.w.storeRaw := by
  obtain ⟨r, h', h0, r1, _, _, _, hw, _⟩ := measure_abs g missing forced hr.abs hi
  have hh : (step (.measure g missing forced i) h).2 = h' := by
    simp only [step]
    cases r with
    | ok x => rw [Py.bind_ok r1]; rfl
    | error e => rw [Py.bind_err r1]
  rw [hh]
  rcases hw with hw | hw <;> rw [hw] <;> exact ⟨rfl, rfl, rfl, rfl⟩

example : (step (.measure .timeWrite true true 1) demo).2.w.files = demo.w.files :=
  (C64_files_partial .timeWrite true true demo_reach (u := [true, true, false]) rfl).1

/-- **C64 (when it raises), partial.** It raises only when a file must be written (`sizeof_path`, `sizeof_file`,
`time_write`, `time_read`), the figure is missing, measuring is forced, and the name drawn for the file is taken. -/
theorem C64_raises_partial {w₀ : World} {h : Heap} {us : Values} {i : Nat} {u : List Bool} {e : Err} (g : Gauge)
    (missing forced : Bool) (hr : Reach w₀ h us) (hi : us[i]? = some (some u))
    (he : (step (.measure g missing forced i) h).1 = .error e) :
    (g = .sizeofPath ∨ g = .sizeofFile ∨ g = .timeWrite ∨ g = .timeRead) ∧ missing = true ∧ forced = true ∧
      h.w.files (.vec (h.w.rands h.w.nRands)) ≠ none := by
  obtain ⟨r, h', h0, r1, _, _, _, _, hx⟩ := measure_abs g missing forced hr.abs hi
  cases r with
  | ok x =>
    have : (step (.measure g missing forced i) h).1 = .ok .done := by
      simp only [step]; rw [Py.bind_ok r1]; rfl
    rw [this] at he; cases he
  | error e' =>
    obtain ⟨h1, h2, h3, h4⟩ := hx ⟨e', rfl⟩
    refine ⟨?_, h2, h3, h4⟩
    cases g <;> simp [Gauge.writes] at h1 <;> simp

/-- The name drawn next is taken: the measure raises. -/
example : (step (.measure .timeWrite true true 0) { demo with w := { demo.w with rands := fun _ => 1 } }).1 =
    .error .valueError := by decide +kernel

/-- **C64 (not asked for).** When the figure is known or `FORCE_STAT` is off, reading it does nothing at all. -/
theorem C64_idle {h : Heap} {i : Nat} {a : Act} (g : Gauge) (missing forced : Bool) (ha : h.objs[i]? = some a)
    (hm : missing = false ∨ forced = false) : step (.measure g missing forced i) h = (.ok .done, h) := by
  have hb : (missing && forced) = false := by rcases hm with rfl | rfl <;> simp
  have hs : h.objs.set i a = h.objs := by
    apply List.ext_getElem?
    intro k
    rw [List.getElem?_set]
    split
    · next hk =>
      subst hk
      rw [ha]
      simp [(List.getElem?_eq_some_iff.1 ha).1]
    · rfl
  have h1 : onObj i (g.measure missing forced) h = (.ok (), h) := by
    rw [onObj_run ha]
    simp [Gauge.measure, hb, hs]
  simp only [step]
  rw [Py.bind_ok h1]
  rfl

example : step (.measure .timeWrite true false 1) demo = (.ok .done, demo) :=
  have ⟨_, _, ha, _⟩ := demo_reach.abs.rep 1 [true, true, false] rfl
  C64_idle .timeWrite true false ha (Or.inr rfl)

/-- **C64, violation (lasy).** Measuring a lasy activation which was not read yet loads it into a file of its own,
then forgets this file: it stays behind, and deleting the activation then removes the file the user gave instead
of that copy, which is what `delete` removes when the activation was read without being measured. -/
theorem C64_lasy_false :
    ∃ h h' h'' r r' : Heap,
      step (.measure (.time .raw .bitarray) true true 0) h = (.ok .done, h') ∧
      step (.delete 0) h' = (.ok .done, h'') ∧
      h.w.files (.vec 0) = none ∧ h''.w.files (.vec 0) = some [1, 0] ∧
      h.w.files (.user 0) = some [1, 0] ∧ h''.w.files (.user 0) = none ∧
      step (.read .raw 0) h = (.ok (.array [1, 0]), r) ∧ step (.delete 0) r = (.ok .done, r') ∧
      r'.w.files (.vec 0) = none ∧ r'.w.files (.user 0) = some [1, 0] := by
  let h := lasyHeap [true, false]
  let h1 := (step (.measure (.time .raw .bitarray) true true 0) h).2
  let r := (step (.read .raw 0) h).2
  refine ⟨h, h1, (step (.delete 0) h1).2, r, (step (.delete 0) r).2, Prod.ext ?_ rfl, Prod.ext ?_ rfl, ?_, ?_, ?_,
    ?_, Prod.ext ?_ rfl, Prod.ext ?_ rfl, ?_, ?_⟩ <;> decide +kernel

/-- **C64, violation (no point).** A measure which raises half way leaves the activation in the format it was timing:
an activation without points made from a bitarray is then stored as a raw array. -/
theorem C64_halfway_false :
    ∃ (h h' : Heap) (e : Err), step (.measure (.time .raw .compressed) true true 0) h = (.error e, h') ∧
      h.objs.map (·.data) = [.bits []] ∧ h'.objs.map (·.data) = [.raw []] := by
  let h := (step (.new [] (.bits []) false none false) ⟨[], world .str false (fun _ => true)⟩).2
  refine ⟨h, (step (.measure (.time .raw .compressed) true true 0) h).2, .valueError, Prod.ext ?_ rfl, ?_, ?_⟩ <;>
    decide +kernel

end Verif.ActivationProps
