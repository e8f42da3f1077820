import Verif.SetHeapLemmas
import Verif.RuleHeapProps

/-!
# Properties of the activations of rulesets (C52)
-/

namespace Verif.SetHeapProps

open Verif Verif.Activation Verif.RuleHeap Verif.SetHeap Verif.ActivationProps Verif.RuleHeapProps Verif.Spec

/-! ## C52 -/

/-- **C52 (rules are left alone).** Whatever a program does with a ruleset - compute its activation, append rules, clear its
activation, in any order, whether or not the calls raise - every other activation of the program, in particular those of its
rules, shows the same vector afterwards, and is not the one of the ruleset. -/
theorem C52_separate {w₀ : World} {n : Nat} {st : State} {us : Values} (ops : List SetOp) (hi : Inv w₀ n st us)
    (hne : st.s.rules ≠ []) (hf : ∀ op ∈ ops, op.Fine n st us) :
    ∀ (k : Nat) (x : List Bool), us[k]? = some (some x) → st.s.act ≠ some k →
      Shows (runOps ops st).h k x ∧ (runOps ops st).s.act ≠ some k := by
  intro k x hx ho
  obtain ⟨us', g⟩ := runOps_goes ops hi hne hf
  exact ⟨g.inv.reach.abs.shows (g.kept k x hx ho).1, (g.kept k x hx ho).2⟩

/-- **C52 (computed activation).** When `compute_self_activation` goes through, the activation of the ruleset is an object which
was not there before, showing the points activated by one of the rules. -/
theorem C52_union {w₀ : World} {n : Nat} {st st' : State} {us : Values} {vs : List (List Bool)} (mem : Mem)
    (hi : Inv w₀ n st us) (hne : st.s.rules ≠ []) (hh : Held us st.s.rules vs) (hl : ∀ v ∈ vs, v.length = n)
    (hrun : computeSelf mem st = (.ok (), st')) :
    ∃ m, st'.s.act = some m ∧ st.h.objs.length ≤ m ∧ Shows st'.h m (markedBySome n vs) := by
  obtain ⟨us', g, -, h⟩ := computeSelf_goes mem hi hne hh hl
  rw [hrun] at g h
  obtain ⟨m, h1, h2, h3⟩ := h rfl
  exact ⟨m, h1, by rw [hi.reach.abs.size]; exact h2, g.inv.reach.abs.shows h3⟩

/-- **C52 (the activation can be computed), partial.** With enough memory, and unless a file name drawn at random is taken,
`compute_self_activation` goes through.  Missing: without enough memory two activations stored as integers raise, see
`C05_integers_raise`. -/
theorem C52_computes_partial {w₀ : World} {n : Nat} {st : State} {us : Values} (mem : Mem) (hi : Inv w₀ n st us)
    (hne : st.s.rules ≠ []) (hmem : 2 * (mem.before - mem.after) ≤ mem.before ∧ mem.oomPairs = false)
    (hfile : st.h.w.storeRaw = true ∨ st.h.w.files (.vec (st.h.w.rands st.h.w.nRands)) = none) :
    ∃ st', computeSelf mem st = (.ok (), st') := by
  obtain ⟨vs, hh, hl⟩ := hi.held
  obtain ⟨a, h', e⟩ := evaluateSelf_ok mem hi.reach hne hh hl hi.fits hmem hfile
  exact ⟨⟨{ st.s with act := a }, h'⟩, by simp [computeSelf, Py.bind_run, onHeap, e]⟩

/-- **C52 (unavailable activations).** If the activation of one rule is not available, `compute_self_activation` leaves the ruleset
without activation, and changes no object. -/
theorem C52_unavailable {st : State} (mem : Mem) (ha : ∀ r ∈ st.s.rules, ∃ b, (available r st.h).1 = .ok b)
    (hf : ∃ r ∈ st.s.rules, (available r st.h).1 = .ok false) :
    computeSelf mem st = (.ok (), { st with s := { st.s with act := none } }) := by
  have e := allAvailable_false ha hf
  have hne : st.s.rules ≠ [] := by
    obtain ⟨r, hr, -⟩ := hf
    intro hc
    rw [hc] at hr
    cases hr
  have e2 : evaluateSelf mem st.s.rules st.h = (.ok none, st.h) := by
    cases hrs : st.s.rules with
    | nil => exact absurd hrs hne
    | cons r rest =>
      rw [hrs] at e
      show (allAvailable (r :: rest) >>= _) st.h = _
      rw [Py.bind_ok e]
      rfl
  simp [computeSelf, Py.bind_run, onHeap, e2]

/-- A rule with activation and one without. -/
example : let st : State := ⟨⟨[rule 1, ⟨1, none, .none⟩], some 0, none, false⟩, demo⟩
    (available (rule 1) st.h).1 = .ok true ∧ (available ⟨1, none, .none⟩ st.h).1 = .ok false := by
  decide +kernel

/-- **C52 (appended rules).** When `append` goes through, the activation of the ruleset is a new object: it shows the vector of
the rule if the ruleset had no activation, and the union with it otherwise. -/
theorem C52_append {w₀ : World} {n : Nat} {st st' : State} {us : Values} {r : HRule} {i : Nat} {x : List Bool} (toFile : Bool)
    (hi : Inv w₀ n st us) (hr : r.act = some i) (hx : us[i]? = some (some x)) (hn : x.length = n) (ho : st.s.act ≠ some i)
    (hrun : append toFile r st = (.ok (), st')) :
    st'.s.rules = st.s.rules ++ [r] ∧ ∃ m, st'.s.act = some m ∧ st.h.objs.length ≤ m ∧
      (st.s.act = none → Shows st'.h m x) ∧
      ∀ k y, st.s.act = some k → us[k]? = some (some y) → Shows st'.h m (List.zipWith (· || ·) y x) := by
  obtain ⟨us', g, hr', h⟩ := append_goes toFile hi hr hx hn ho
  rw [hrun] at g h hr'
  obtain ⟨m, h1, h2, h3, h4⟩ := h rfl
  exact ⟨hr', m, h1, by rw [hi.reach.abs.size]; exact h2, fun hs => g.inv.reach.abs.shows (h3 hs),
    fun k y hk hy => g.inv.reach.abs.shows (h4 k y hk hy)⟩

/-- **C52 (cleared activation).** Clearing the activation of the ruleset goes through and sets it to zeros. -/
theorem C52_clear {w₀ : World} {n : Nat} {st : State} {us : Values} (hi : Inv w₀ n st us) :
    (clearOwn st).1 = .ok () ∧ ∀ i, st.s.act = some i → Shows (clearOwn st).2.h i (List.replicate n false) := by
  obtain ⟨us', g, -, h1, h2⟩ := clearOwn_goes hi
  exact ⟨h1, fun i hs => g.inv.reach.abs.shows (h2 i hs)⟩

/-- **C52 (what a ruleset with a live activation shows).** -/
theorem C52_live {w₀ : World} {st : State} {us : Values} {i : Nat} {u : List Bool} (hr : Activation.Reach w₀ st.h us)
    (hs : st.s.act = some i) (hi : us[i]? = some (some u)) :
    (setAvailable st).1 = .ok true ∧ (setActivation st).1 = .ok (some (arr u)) ∧
      (setCoverage st).1 = .ok (some ⟨u.count true, u.length⟩) := by
  have h1 := setAvailable_live hr hs hi
  refine ⟨by rw [h1], ?_, ?_⟩
  · obtain ⟨h', e, -⟩ := onObj_raw hr.abs hi
    simp [setActivation, Py.bind_run, hs, onHeap, truthy_live hr hi, e]
  · obtain ⟨o, ho, ha⟩ := (hr.abs.shows hi).2 .coverage
    have ha' : o = .quotient ⟨u.count true, u.length⟩ := ha
    subst ha'
    simp only [step, Read.run, onObj] at ho
    simp only [setCoverage]
    rw [Py.bind_ok h1]
    simp only [if_true, Py.bind_run, Py.get_run, hs, onHeap, onObj]
    cases hob : st.h.objs[i]? with
    | none => simp [hob] at ho
    | some a =>
      simp only [hob, Py.bind_run] at ho ⊢
      rcases hc : Activation.coverage ⟨a, st.h.w⟩ with ⟨e | f, o'⟩ <;> simp [hc] at ho ⊢
      exact ho

/-- **C52 (deleting the activations of the rules).** `del_activations` goes through; afterwards no rule has its activation
available; the activation of the ruleset and all others which do not belong to a rule show the same vectors. -/
theorem C52_deleted {w₀ : World} {st : State} {us : Values} {ids : List Nat} {vs : List (List Bool)}
    (hr : Activation.Reach w₀ st.h us) (hids : st.s.rules.map (·.act) = ids.map some) (hv : Vectors us ids vs)
    (hd : ids.Nodup) :
    ∃ st', delActivations st = (.ok (), st') ∧ st'.s = st.s ∧ (∀ r ∈ st.s.rules, (available r st'.h).1 = .ok false) ∧
      ∀ (k : Nat) (x : List Bool), us[k]? = some (some x) → k ∉ ids → Shows st'.h k x ∧
        (st.s.act = some k → (setAvailable st').1 = .ok true ∧ (setActivation st').1 = .ok (some (arr x))) := by
  obtain ⟨h', us', e, r', g, kk⟩ := delEach_live hr hids hv hd
  refine ⟨⟨st.s, h'⟩, ?_, rfl, ?_, ?_⟩
  · simp [delActivations, Py.bind_run, onHeap, e]
  · intro r hrr
    have hm : r.act ∈ ids.map some := by rw [← hids]; exact List.mem_map.2 ⟨r, hrr, rfl⟩
    obtain ⟨i, hi, hri⟩ := List.mem_map.1 hm
    rw [(g i hi).available hri.symm]
  · intro k x hx hk
    refine ⟨r'.abs.shows (kk k x hx hk), fun hs => ?_⟩
    have := C52_live (st := ⟨st.s, h'⟩) r' hs (kk k x hx hk)
    exact ⟨this.1, this.2.1⟩

/-- **C52 (deleting the activation of the ruleset).** `del_activation` goes through; afterwards the activation of the ruleset is
not available, and every other activation, in particular of its rules, shows the same vector. -/
theorem C52_own_deleted {w₀ : World} {st : State} {us : Values} {i : Nat} {u : List Bool} (hr : Activation.Reach w₀ st.h us)
    (hs : st.s.act = some i) (hi : us[i]? = some (some u)) :
    ∃ st', SetHeap.delActivation st = (.ok (), st') ∧ st'.s = st.s ∧ (setAvailable st').1 = .ok false ∧
      ∀ (k : Nat) (x : List Bool), us[k]? = some (some x) → k ≠ i → Shows st'.h k x := by
  obtain ⟨-, a, ha, -⟩ := hr.abs.rep i u hi
  obtain ⟨h', e, g, -⟩ := delete_gone ha
  refine ⟨⟨st.s, h'⟩, by simp [SetHeap.delActivation, Py.bind_run, hs, onHeap, e], rfl, ?_, ?_⟩
  · rw [setAvailable_gone (st := ⟨st.s, h'⟩) hs g]
  · intro k x hx hk
    have hleg : Legal st.h.w us (.delete i) := ⟨u, by simp [Vectors, hi]⟩
    have hst : step (.delete i) st.h = (.ok .done, h') := by simp only [step]; rw [Py.bind_ok e]; rfl
    have hr1 := hr.step (.delete i) hleg
    rw [hst] at hr1
    exact hr1.abs.shows (after_keep _ _ _ hx (by simp) (by intro hc; cases hc; exact hk rfl))

/-- A ruleset of two rules, the activations of which are objects 1 and 2 of `demo`, without activation of its own. -/
def pair : State := ⟨⟨[rule 1, rule 2], none, none, false⟩, demo⟩

/-- Enough memory. -/
def enough : Mem := ⟨100, 99, 1, false, false⟩

theorem pair_inv : Inv demoWorld 3 pair demoValues := by
  refine ⟨demo_reach, Or.inr (by decide), ?_, (fun i h => by cases h)⟩
  intro r hr
  simp only [pair, List.mem_cons, List.not_mem_nil, or_false] at hr
  rcases hr with rfl | rfl
  · exact ⟨1, [true, true, false], rfl, rfl, rfl, by simp [pair]⟩
  · exact ⟨2, [true, false, false], rfl, rfl, rfl, by simp [pair]⟩

/-- The hypotheses of the theorems above are met by `pair`; the ruleset then has the activation 4. -/
example : pair.s.rules ≠ [] ∧ Held demoValues pair.s.rules [[true, true, false], [true, false, false]] ∧
    (SetOp.append true (rule 0)).Fine 3 pair demoValues ∧
    (computeSelf enough pair).1 = .ok () ∧ (computeSelf enough pair).2.s.act = some 4 ∧
    (setActivation (computeSelf enough pair).2).1 = .ok (some [1, 1, 0]) ∧
    (setActivation (runOps [.compute enough, .append true (rule 0), .clear] pair)).1 = .ok (some [0, 0, 0]) ∧
    (setActivation (runOps [.compute enough, .append true (rule 0)] pair)).1 = .ok (some [1, 1, 1]) ∧
    (append true (rule 3) pair).1 = .ok () ∧ [1, 2].Nodup ∧ pair.s.rules.map (·.act) = [1, 2].map some := by
  refine ⟨by decide, ⟨[1, 2], rfl, rfl⟩, ⟨0, [true, false, true], rfl, rfl, rfl, by simp [pair]⟩, ?_, ?_, ?_, ?_, ?_, ?_, by decide, rfl⟩ <;>
    decide +kernel

/-- The ruleset `pair` with its activation computed. -/
def full : State := (computeSelf enough pair).2

/-- **C52 is false of computed attributes**: `del_activation` is documented to leave computed attributes available; the coverage
of a ruleset, read before, is `None` after it.  The rules keep theirs (`C49_coverage`). -/
theorem C52_coverage_false :
    ∃ (st : State) (c : Frac), (setCoverage st).1 = .ok (some c) ∧
      (SetHeap.delActivation (setCoverage st).2).1 = .ok () ∧
      (setCoverage (SetHeap.delActivation (setCoverage st).2).2).1 = .ok none ∧
      (setActivation (SetHeap.delActivation (setCoverage st).2).2).1 ≠ .ok none :=
  ⟨full, ⟨2, 3⟩, by decide +kernel, by decide +kernel, by decide +kernel, by decide +kernel⟩

/-- **C52, coverage after deletion (exact).** It is the coverage which was loaded from a file, if any. -/
theorem C52_coverage_deleted {w₀ : World} {st : State} {us : Values} {i : Nat} {u : List Bool} (hr : Activation.Reach w₀ st.h us)
    (hs : st.s.act = some i) (hi : us[i]? = some (some u)) :
    (setCoverage (SetHeap.delActivation st).2).1 = .ok st.s.coverage := by
  obtain ⟨-, a, ha, -⟩ := hr.abs.rep i u hi
  obtain ⟨h', e, g, -⟩ := delete_gone ha
  have e1 : SetHeap.delActivation st = (.ok (), ⟨st.s, h'⟩) := by simp [SetHeap.delActivation, Py.bind_run, hs, onHeap, e]
  rw [e1]
  simp only [setCoverage]
  rw [Py.bind_ok (setAvailable_gone (st := ⟨st.s, h'⟩) hs g)]
  simp [Py.bind_run]

/-- **C52 is false of appending after deletion**: `append` raises, though the rule has been added, since the ruleset still has an
activation object, without data. -/
theorem C52_append_false :
    ∃ (st : State) (r : HRule), (SetHeap.delActivation st).1 = .ok () ∧ (available r (SetHeap.delActivation st).2.h).1 = .ok true ∧
      (append true r (SetHeap.delActivation st).2).1 = .error .typeError ∧
      (append true r (SetHeap.delActivation st).2).2.s.rules.length = st.s.rules.length + 1 ∧
      (append true r st).1 = .ok () :=
  ⟨full, rule 0, by decide +kernel, by decide +kernel, by decide +kernel, by decide +kernel, by decide +kernel⟩

/-- **C52 is false of `stacked_activations_available`**: it raises for a ruleset without activation, and answers `True` for one with
an activation, whether or not there are stacked activations. -/
theorem C52_stacked_false :
    (∀ st : State, st.s.act = none → (stackedAvailable st).1 = .error .attributeError) ∧
    (∀ (w₀ : World) (st : State) (us : Values) (i : Nat) (u : List Bool), Activation.Reach w₀ st.h us → st.s.act = some i →
      us[i]? = some (some u) → (stackedAvailable (delStacked st).2).1 = .ok true ∧ (delStacked st).2.s.stacked = false) := by
  refine ⟨fun st hs => by simp [stackedAvailable, Py.bind_run, hs], fun w₀ st us i u hr hs hi => ?_⟩
  obtain ⟨hne, a, ha, hra⟩ := hr.abs.rep i u hi
  have hz : u.length ≠ 0 := fun hc => hne (List.length_eq_zero_iff.1 hc)
  refine ⟨?_, rfl⟩
  simp [stackedAvailable, delStacked, Py.bind_run, hs, onHeap, look, ha, hra.length, hz]

end Verif.SetHeapProps
