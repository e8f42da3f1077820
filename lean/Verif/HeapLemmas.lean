import Verif.Heap
import Verif.ActivationLemmas

/-!
# Lemmas about operations on several activations
-/

namespace Verif.Activation

open Verif Verif.Codec Verif.Spec

set_option linter.unusedSimpArgs false
set_option linter.unusedVariables false

/-- The heap stands for the list `us`: object `i` stands for the vector `us[i]`, unless this is `none` (an
object nothing is known of, e.g. deleted).  `d` are the files which do not belong to the library. -/
structure Abs (d : Nat → Option Arr) (h : Heap) (us : List (Option (List Bool))) : Prop where
  size : h.objs.length = us.length
  rep : ∀ (i : Nat) (u : List Bool), us[i]? = some (some u) → u ≠ [] ∧ ∃ a, h.objs[i]? = some a ∧ Rep h.w a u
  own : ∀ (i j : Nat) (u v : List Bool) (a b : Act) (p : Path), us[i]? = some (some u) → us[j]? = some (some v) → h.objs[i]? = some a →
    h.objs[j]? = some b → a.data = .file p → b.data = .file p → i = j
  vec : ∀ (i : Nat) (u : List Bool) (a : Act) (p : Path), us[i]? = some (some u) → h.objs[i]? = some a → a.data = .file p → ∃ n, p = .vec n
  user : ∀ n, h.w.files (.user n) = d n
  eager : ∀ (i : Nat) (u : List Bool) (a : Act), us[i]? = some (some u) → h.objs[i]? = some a → a.lasy = false

/-- Nothing changed but what objects remember. -/
structure SameObjs (h h' : Heap) : Prop where
  w : h'.w = h.w
  length : h'.objs.length = h.objs.length
  objs : ∀ (i : Nat) (a : Act), h.objs[i]? = some a → ∃ a', h'.objs[i]? = some a' ∧ SameBut a a'

theorem SameObjs.refl (h : Heap) : SameObjs h h := ⟨rfl, rfl, fun i a ha => ⟨a, ha, SameBut.refl a⟩⟩

theorem SameObjs.trans {h h' h'' : Heap} (s : SameObjs h h') (s' : SameObjs h' h'') : SameObjs h h'' := by
  refine ⟨s'.w.trans s.w, s'.length.trans s.length, fun i a ha => ?_⟩
  obtain ⟨a', h1, h2⟩ := s.objs i a ha
  obtain ⟨a'', h3, h4⟩ := s'.objs i a' h1
  exact ⟨a'', h3, h2.trans h4⟩

theorem onObj_run {α} {h : Heap} {i : Nat} {a : Act} (hi : h.objs[i]? = some a) (m : Meth α) :
    onObj i m h = ((m ⟨a, h.w⟩).1, ⟨h.objs.set i (m ⟨a, h.w⟩).2.act, (m ⟨a, h.w⟩).2.w⟩) := by
  simp [onObj, hi]

/-- A reader which answers rightly on every object standing for `u` does so on a live object, and leaves
all that matters as it was. -/
theorem onObj_reader {α} {d : Nat → Option Arr} {h : Heap} {us : List (Option (List Bool))} {i : Nat}
    {u : List Bool} (habs : Abs d h us) (hi : us[i]? = some (some u)) (m : Meth α) (x : α)
    (hm : ∀ a, h.objs[i]? = some a → Rep h.w a u → ∃ a', m ⟨a, h.w⟩ = (.ok x, ⟨a', h.w⟩) ∧ Rep h.w a' u ∧ SameBut a a') :
    ∃ h', onObj i m h = (.ok x, h') ∧ Abs d h' us ∧ SameObjs h h' := by
  obtain ⟨hne, a, ha, hr⟩ := habs.rep i u hi
  obtain ⟨a', r1, r2, r3⟩ := hm a ha hr
  have hlt : i < h.objs.length := (List.getElem?_eq_some_iff.1 ha).1
  have key : ∀ (j : Nat) (b : Act), (h.objs.set i a')[j]? = some b →
      ∃ b', h.objs[j]? = some b' ∧ b.data = b'.data ∧ b.lasy = b'.lasy := by
    intro j b hb
    rw [List.getElem?_set] at hb
    split at hb
    · next hij =>
      subst hij
      simp [hlt] at hb
      subst hb
      exact ⟨a, ha, r3.data, r3.lasy⟩
    · exact ⟨b, hb, rfl, rfl⟩
  refine ⟨⟨h.objs.set i a', h.w⟩, by rw [onObj_run ha, r1], ⟨?_, ?_, ?_, ?_, habs.user, ?_⟩, ⟨rfl, by simp, ?_⟩⟩
  · simpa using habs.size
  · intro j v hj
    by_cases hij : i = j
    · subst hij
      rw [hi] at hj
      cases hj
      exact ⟨hne, a', by simp [hlt], r2⟩
    · obtain ⟨h1, b, hb, h2⟩ := habs.rep j v hj
      exact ⟨h1, b, by simp [List.getElem?_set, hij, hb], h2⟩
  · intro j k v v' b b' p hj hk hb hb' hp hp'
    obtain ⟨c, hc, h1, _⟩ := key j b hb
    obtain ⟨c', hc', h2, _⟩ := key k b' hb'
    exact habs.own j k v v' c c' p hj hk hc hc' (h1 ▸ hp) (h2 ▸ hp')
  · intro j v b p hj hb hp
    obtain ⟨c, hc, h1, _⟩ := key j b hb
    exact habs.vec j v c p hj hc (h1 ▸ hp)
  · intro j v b hj hb
    obtain ⟨c, hc, _, h2⟩ := key j b hb
    rw [h2]; exact habs.eager j v c hj hc
  · intro j b hb
    by_cases hij : i = j
    · subst hij
      rw [ha] at hb
      cases hb
      exact ⟨a', by simp [hlt], r3⟩
    · exact ⟨b, by simp [List.getElem?_set, hij, hb], SameBut.refl b⟩

theorem onObj_raw {d : Nat → Option Arr} {h : Heap} {us : List (Option (List Bool))} {i : Nat}
    {u : List Bool} (habs : Abs d h us) (hi : us[i]? = some (some u)) :
    ∃ h', onObj i raw h = (.ok (arr u), h') ∧ Abs d h' us ∧ SameObjs h h' :=
  onObj_reader habs hi raw (arr u) (fun a _ hr => by
    obtain ⟨a', r1, r2, r3, _⟩ := raw_rep (o := ⟨a, h.w⟩) hr
    exact ⟨a', r1, r2, r3⟩)

theorem onObj_nones {d : Nat → Option Arr} {h : Heap} {us : List (Option (List Bool))} {i : Nat}
    {u : List Bool} (habs : Abs d h us) (hi : us[i]? = some (some u)) :
    ∃ h', onObj i nones h = (.ok (u.count true), h') ∧ Abs d h' us ∧ SameObjs h h' :=
  onObj_reader habs hi nones (u.count true) (fun a _ hr => by
    obtain ⟨a', r1, r2, r3, _⟩ := nones_rep (o := ⟨a, h.w⟩) hr (habs.rep i u hi).1
    exact ⟨a', r1, r2, r3⟩)

theorem Abs.mono {d : Nat → Option Arr} {h : Heap} {us : List (Option (List Bool))} {w' : World}
    (habs : Abs d h us) (hg : ∀ p v, h.w.files p = some v → w'.files p = some v)
    (hu : ∀ n, w'.files (.user n) = h.w.files (.user n)) : Abs d ⟨h.objs, w'⟩ us := by
  refine ⟨habs.size, ?_, habs.own, habs.vec, fun n => (hu n).trans (habs.user n), habs.eager⟩
  intro i u hi
  obtain ⟨h1, a, h2, h3⟩ := habs.rep i u hi
  exact ⟨h1, a, h2, h3.mono hg⟩

theorem Grow.bumpRands (w : World) : Grow w { w with nRands := w.nRands + 1 } :=
  ⟨rfl, rfl, rfl, rfl, rfl, Nat.le_succ _, fun _ _ h => h⟩

/-- A new object `a` uses no file which existed, and no other file appeared. -/
structure Made (w w' : World) (a : Act) : Prop where
  free : ∀ p, a.data = .file p → w.files p = none
  only : ∀ p, w'.files p ≠ none → w.files p ≠ none ∨ a.data = .file p

/-- What creating an activation does. -/
theorem new_abs {d : Nat → Option Arr} {h : Heap} {us : List (Option (List Bool))} {inp : Input}
    {len : Option Nat} {u : List Bool} (opt toFile : Bool) (habs : Abs d h us)
    (hs : Stands h.w inp len u) (hne : u ≠ []) (hh : Holds h.w u) :
    (∃ a w', new inp opt len toFile false h = (.ok us.length, ⟨h.objs ++ [a], w'⟩) ∧
      Abs d ⟨h.objs ++ [a], w'⟩ (us ++ [some u]) ∧ Grow h.w w' ∧ Made h.w w' a) ∨
    (∃ e, new inp opt len toFile false h = (.error e, ⟨h.objs, { h.w with nRands := h.w.nRands + 1 }⟩) ∧
      Abs d ⟨h.objs, { h.w with nRands := h.w.nRands + 1 }⟩ us ∧
      toFile = true ∧ inp.writes = true ∧ h.w.storeRaw = false ∧ ¬ NameFree h.w) := by
  by_cases hc : inp.writes = true ∧ toFile = true ∧ h.w.storeRaw = false ∧ ¬ NameFree h.w
  · obtain ⟨h1, h2, h3, h4⟩ := hc
    subst h2
    obtain ⟨e, he⟩ := construct_collision (opt := opt) hs h1 h3 h4
    exact Or.inr ⟨e, by simp [new, he], habs.mono (fun _ _ h => h) (fun _ => rfl), rfl, h1, h3, h4⟩
  · have hn : inp.writes = true → h.w.storeRaw = true ∨ toFile = false ∨ NameFree h.w := by
      intro h1
      by_cases h2 : toFile = true
      · by_cases h3 : h.w.storeRaw = false
        · by_cases h4 : NameFree h.w
          · exact Or.inr (Or.inr h4)
          · exact absurd ⟨h1, h2, h3, h4⟩ hc
        · exact Or.inl (by simpa using h3)
      · exact Or.inr (Or.inl (by simpa using h2))
    obtain ⟨a, w', r1, r2, r3, r4, r5, r6⟩ := construct_rep (opt := opt) hs hne hh hn
    have hfresh : ∀ p, a.data = .file p → ∃ n, p = .vec n := by
      intro p hp
      rcases r6 with ⟨_, h2⟩ | ⟨_, h2, _⟩
      · rw [hp] at h2; cases h2
      · rw [hp] at h2; cases h2; exact ⟨_, rfl⟩
    have hold : ∀ (i : Nat) (v : List Bool) (b : Act) (p : Path), us[i]? = some (some v) →
        h.objs[i]? = some b → b.data = .file p → a.data = .file p → False := by
      intro i v b p hi hb hp hp'
      rcases r6 with ⟨_, h2⟩ | ⟨_, h2, h5⟩
      · rw [hp'] at h2; cases h2
      · rw [hp'] at h2
        cases h2
        obtain ⟨_, b', hb', hr⟩ := habs.rep i v hi
        rw [hb] at hb'
        cases hb'
        have hd := hr.data
        rw [hp] at hd
        have hd' : h.w.files (.vec (h.w.rands h.w.nRands)) = some (arr v) := hd
        rw [NameFree, hd'] at h5; cases h5
    -- objects of the new heap
    have hcase : ∀ (i : Nat) (v : List Bool) (b : Act), (us ++ [some u])[i]? = some (some v) →
        (h.objs ++ [a])[i]? = some b →
        (us[i]? = some (some v) ∧ h.objs[i]? = some b) ∨ (i = us.length ∧ v = u ∧ b = a) := by
      intro i v b hi hb
      by_cases hlt : i < us.length
      · rw [List.getElem?_append_left hlt] at hi
        rw [List.getElem?_append_left (by rw [habs.size]; exact hlt)] at hb
        exact Or.inl ⟨hi, hb⟩
      · have hge : us.length ≤ i := Nat.le_of_not_lt hlt
        rw [List.getElem?_append_right hge] at hi
        rw [List.getElem?_append_right (by rw [habs.size]; exact hge), habs.size] at hb
        have hz : i - us.length = 0 := by
          rcases Nat.eq_zero_or_pos (i - us.length) with hz | hz
          · exact hz
          · rw [List.getElem?_eq_none (by simp; omega)] at hi; cases hi
        rw [hz] at hi hb
        simp at hi hb
        exact Or.inr ⟨by omega, hi.symm, hb.symm⟩
    have hfree : ∀ p, a.data = .file p → h.w.files p = none := by
      intro p hp
      rcases r6 with ⟨_, h2⟩ | ⟨_, h2, h5⟩
      · rw [hp] at h2; cases h2
      · rw [hp] at h2; cases h2; exact h5
    have honly : ∀ p, w'.files p ≠ none → h.w.files p ≠ none ∨ a.data = .file p := by
      intro p hp
      rcases r6 with ⟨h2, _⟩ | ⟨h2, h3, h5⟩
      · rw [h2] at hp; exact Or.inl hp
      · by_cases hpe : p = .vec (h.w.rands h.w.nRands)
        · subst hpe; exact Or.inr h3
        · left
          rw [h2] at hp
          simpa [World.wrote, hpe] using hp
    refine Or.inl ⟨a, w', by simp [new, r1, habs.size], ⟨by simp [habs.size], ?_, ?_, ?_, ?_, ?_⟩, r3, ⟨hfree, honly⟩⟩
    · intro i v hi
      by_cases hlt : i < us.length
      · rw [List.getElem?_append_left hlt] at hi
        obtain ⟨h1, b, h2, h3⟩ := habs.rep i v hi
        exact ⟨h1, b, by rw [List.getElem?_append_left (by rw [habs.size]; exact hlt)]; exact h2,
          h3.mono r3.files⟩
      · have hb : ∃ b, (h.objs ++ [a])[i]? = some b := by
          have := (List.getElem?_eq_some_iff.1 hi).1
          exact ⟨_, List.getElem?_eq_getElem (by simpa [habs.size] using this)⟩
        obtain ⟨b, hb⟩ := hb
        rcases hcase i v b hi hb with ⟨h1, _⟩ | ⟨_, rfl, rfl⟩
        · exact absurd (List.getElem?_eq_some_iff.1 h1).1 hlt
        · exact ⟨hne, b, hb, r2⟩
    · intro i j v v' b b' p hi hj hb hb' hp hp'
      rcases hcase i v b hi hb with ⟨h1, h2⟩ | ⟨rfl, rfl, rfl⟩ <;>
        rcases hcase j v' b' hj hb' with ⟨h3, h4⟩ | ⟨rfl, rfl, rfl⟩
      · exact habs.own i j v v' b b' p h1 h3 h2 h4 hp hp'
      · exact (hold i v b p h1 h2 hp hp').elim
      · exact (hold j v' b' p h3 h4 hp' hp).elim
      · rfl
    · intro i v b p hi hb hp
      rcases hcase i v b hi hb with ⟨h1, h2⟩ | ⟨rfl, rfl, rfl⟩
      · exact habs.vec i v b p h1 h2 hp
      · exact hfresh p hp
    · intro n
      rcases r6 with ⟨h1, _⟩ | ⟨h1, _⟩
      · show w'.files _ = _
        rw [h1]; exact habs.user n
      · show w'.files _ = _
        rw [h1]; simpa [World.wrote] using habs.user n
    · intro i v b hi hb
      rcases hcase i v b hi hb with ⟨h1, h2⟩ | ⟨rfl, rfl, rfl⟩
      · exact habs.eager i v b h1 h2
      · exact r5

/-! ### Binary operators -/

theorem elementwise_arr (k : Logic) {u v : List Bool} (hl : u.length = v.length) :
    elementwise k.byte (arr u) (arr v) = .ok (arr (List.zipWith k.bool u v)) := by
  simp only [elementwise, arr, List.length_map, hl, if_true]
  rw [List.map_zipWith, List.zipWith_map]
  congr 2
  funext a b
  cases k <;> cases a <;> cases b <;> rfl

theorem bitarrayOp_eq (k : Logic) {u v : List Bool} (hl : u.length = v.length) :
    bitarrayOp k u v = .ok (List.zipWith k.bool u v) := by
  simp [bitarrayOp, hl]

theorem zipWith_ne_nil (f : Bool → Bool → Bool) {u v : List Bool} (hl : u.length = v.length) (hu : u ≠ []) :
    List.zipWith f u v ≠ [] := by
  cases u with
  | nil => exact absurd rfl hu
  | cons x t =>
    cases v with
    | nil => simp at hl
    | cons y s => simp

/-- Object `i` is stored as an integer. -/
def IsInt (h : Heap) (i : Nat) : Prop := ∃ a n, h.objs[i]? = some a ∧ a.data = .int n

/-- Object `i` is stored in a file. -/
def IsFile (h : Heap) (i : Nat) : Prop := ∃ a p, h.objs[i]? = some a ∧ a.data = .file p

theorem inFile_iff (d : Data) : d.inFile = true ↔ ∃ p, d = .file p := by
  cases d <;> simp [Data.inFile]

theorem binop_length {d : Nat → Option Arr} {h : Heap} {us : List (Option (List Bool))} {i j : Nat}
    {u v : List Bool} (k : Logic) (habs : Abs d h us) (hi : us[i]? = some (some u))
    (hj : us[j]? = some (some v)) (hl : u.length ≠ v.length) :
    binop k i j h = (.error .valueError, h) := by
  obtain ⟨_, a, ha, hra⟩ := habs.rep i u hi
  obtain ⟨_, b, hb, hrb⟩ := habs.rep j v hj
  simp [binop, look, Py.bind_run, ha, hb, hra.length, hrb.length, hl]

theorem binop_int {d : Nat → Option Arr} {h : Heap} {us : List (Option (List Bool))} {i j : Nat}
    {u v : List Bool} (k : Logic) (habs : Abs d h us) (hi : us[i]? = some (some u))
    (hj : us[j]? = some (some v)) (hii : IsInt h i) (hij : IsInt h j) :
    binop k i j h = (.error .valueError, h) := by
  obtain ⟨_, a, ha, hra⟩ := habs.rep i u hi
  obtain ⟨_, b, hb, hrb⟩ := habs.rep j v hj
  obtain ⟨a', x, ha', hx⟩ := hii
  obtain ⟨b', y, hb', hy⟩ := hij
  rw [ha] at ha'; cases ha'
  rw [hb] at hb'; cases hb'
  by_cases hl : a.length = b.length
  · cases hwc : h.w.willCompare <;>
      simp [binop, look, Py.bind_run, ha, hb, hl, hx, hy, new, construct, init, hwc, initAny,
        initInteger, setSelf]
  · simp [binop, look, Py.bind_run, ha, hb, hl]

/-- What follows a binary operator on two live objects of the same length, not both stored as integers. -/
theorem binop_abs {d : Nat → Option Arr} {h : Heap} {us : List (Option (List Bool))} {i j : Nat}
    {u v : List Bool} (k : Logic) (habs : Abs d h us) (hi : us[i]? = some (some u))
    (hj : us[j]? = some (some v)) (hl : u.length = v.length) (hh : Holds h.w u)
    (hint : ¬ (IsInt h i ∧ IsInt h j)) :
    (∃ (h0 : Heap) (a : Act) (w' : World), binop k i j h = (.ok us.length, ⟨h0.objs ++ [a], w'⟩) ∧ SameObjs h h0 ∧
      Abs d ⟨h0.objs ++ [a], w'⟩ (us ++ [some (List.zipWith k.bool u v)]) ∧ Grow h.w w' ∧
      Made h.w w' a) ∨
    (∃ (e : Err) (h0 : Heap), binop k i j h = (.error e, ⟨h0.objs, { h.w with nRands := h.w.nRands + 1 }⟩) ∧
      SameObjs h h0 ∧
      Abs d ⟨h0.objs, { h.w with nRands := h.w.nRands + 1 }⟩ us ∧
      IsFile h i ∧ IsFile h j ∧ h.w.storeRaw = false ∧ ¬ NameFree h.w) := by
  obtain ⟨hune, a, ha, hra⟩ := habs.rep i u hi
  obtain ⟨_, b, hb, hrb⟩ := habs.rep j v hj
  have hzne := zipWith_ne_nil k.bool hl hune
  have hzl : Holds h.w (List.zipWith k.bool u v) := by
    rcases hh with hh | hh
    · exact Or.inl hh
    · exact Or.inr (by simp [← hl, hh])
  have hlen : a.length = b.length := by rw [hra.length, hrb.length, hl]
  by_cases hbits : (∃ x, a.data = .bits x) ∧ (∃ y, b.data = .bits y)
  · obtain ⟨⟨x, hx⟩, ⟨y, hy⟩⟩ := hbits
    have hxu := hra.data
    have hyv := hrb.data
    rw [hx] at hxu
    rw [hy] at hyv
    have hxu' : x = u := hxu
    have hyv' : y = v := hyv
    subst hxu' hyv'
    have hrun : binop k i j h =
        new (.bits (List.zipWith k.bool x y)) (a.optimize && b.optimize) none false false h := by
      simp [binop, look, Py.bind_run, ha, hb, hlen, hx, hy, bitarrayOp_eq k hl]
    rcases new_abs (a.optimize && b.optimize) false habs
      (inp := .bits (List.zipWith k.bool x y)) (len := none) ⟨rfl, Or.inl rfl⟩ hzne hzl with
      ⟨c, w', r1, r2, r3, r4⟩ | ⟨_, _, _, hf, _⟩
    · exact Or.inl ⟨h, c, w', by rw [hrun, r1], SameObjs.refl h, r2, r3, r4⟩
    · cases hf
  · obtain ⟨h1, e1, habs1, s1⟩ := onObj_raw habs hi
    obtain ⟨h2, e2, habs2, s2⟩ := onObj_raw habs1 hj
    have s := s1.trans s2
    obtain ⟨a', ha', hsa⟩ := s.objs i a ha
    obtain ⟨b', hb', hsb⟩ := s.objs j b hb
    have hrun : binop k i j h = new (.arr (arr (List.zipWith k.bool u v))) (a'.optimize && b'.optimize)
        none (a'.data.inFile && b'.data.inFile) false h2 := by
      cases hda : a.data <;> cases hdb : b.data <;>
        simp [binop, look, Py.bind_run, ha, hb, hlen, hda, hdb, e1, e2, elementwise_arr k hl, ha', hb']
      · exact absurd ⟨⟨_, hda⟩, ⟨_, hdb⟩⟩ hbits
      · exact absurd ⟨⟨a, _, ha, hda⟩, ⟨b, _, hb, hdb⟩⟩ hint
    have hw : h2.w = h.w := s.w
    rcases new_abs (a'.optimize && b'.optimize) (a'.data.inFile && b'.data.inFile) habs2
      (inp := .arr (arr (List.zipWith k.bool u v))) (len := none) (Or.inl rfl) hzne (hw ▸ hzl) with
      ⟨c, w', r1, r2, r3, r4⟩ | ⟨e, r1, r2, r3, _, r5, r6⟩
    · exact Or.inl ⟨h2, c, w', by rw [hrun, r1], s, r2, hw ▸ r3, hw ▸ r4⟩
    · refine Or.inr ⟨e, h2, by rw [hrun, r1, hw], s, by rw [← hw]; exact r2, ?_, ?_, hw ▸ r5, hw ▸ r6⟩
      · simp only [Bool.and_eq_true] at r3
        obtain ⟨p, hp⟩ := (inFile_iff _).1 r3.1
        exact ⟨a, p, ha, hsa.data ▸ hp⟩
      · simp only [Bool.and_eq_true] at r3
        obtain ⟨p, hp⟩ := (inFile_iff _).1 r3.2
        exact ⟨b, p, hb, hsb.data ▸ hp⟩

/-! ### Many activations at once -/

/-- The objects `ids` stand for the vectors `vs`. -/
def Live (us : List (Option (List Bool))) (ids : List Nat) (vs : List (List Bool)) : Prop :=
  ids.map (fun i => us[i]?) = vs.map (fun v => some (some v))

theorem Live.nil {us : List (Option (List Bool))} {vs : List (List Bool)} (h : Live us [] vs) : vs = [] := by
  simpa [Live] using h.symm

theorem Live.cons {us : List (Option (List Bool))} {i : Nat} {ids : List Nat} {vs : List (List Bool)}
    (h : Live us (i :: ids) vs) :
    ∃ v vt, vs = v :: vt ∧ us[i]? = some (some v) ∧ Live us ids vt := by
  cases vs with
  | nil => simp [Live] at h
  | cons v vt =>
    simp only [Live, List.map_cons, List.cons.injEq] at h
    exact ⟨v, vt, rfl, h.1, h.2⟩

/-- The logic of a column-wise reduction. -/
def redOp (isAnd : Bool) : Bool → Bool → Bool := if isAnd then (· && ·) else (· || ·)

theorem raws_abs {d : Nat → Option Arr} {us : List (Option (List Bool))} (ids : List Nat) :
    ∀ {h : Heap} {vs : List (List Bool)}, Abs d h us → Live us ids vs →
    ∃ h', raws ids h = (.ok (vs.map arr), h') ∧ Abs d h' us ∧ SameObjs h h' := by
  induction ids with
  | nil =>
    intro h vs habs hlive
    rw [hlive.nil]
    exact ⟨h, by simp [raws], habs, SameObjs.refl h⟩
  | cons i ids ih =>
    intro h vs habs hlive
    obtain ⟨v, vt, rfl, hi, ht⟩ := hlive.cons
    obtain ⟨h1, e1, habs1, s1⟩ := onObj_raw habs hi
    obtain ⟨h2, e2, habs2, s2⟩ := ih habs1 ht
    exact ⟨h2, by simp [raws, Py.bind_run, e1, e2], habs2, s1.trans s2⟩

theorem row_arr (isAnd : Bool) (u v : List Bool) :
    (if isAnd then andRow else orRow) (arr u) (arr v) = arr (List.zipWith (redOp isAnd) u v) := by
  cases isAnd
  · simp only [orRow, redOp, arr, Bool.false_eq_true, if_false]
    rw [List.map_zipWith, List.zipWith_map]
    congr 1
    funext a b
    cases a <;> cases b <;> rfl
  · simp only [andRow, redOp, arr, if_true]
    rw [List.map_zipWith, List.zipWith_map]
    congr 1
    funext a b
    cases a <;> cases b <;> rfl

theorem truth_arr (u : List Bool) : truth (arr u) = arr u := by
  simp only [truth, arr, List.map_map]
  apply List.map_congr_left
  intro a _
  cases a <;> rfl

theorem columns_arr (isAnd : Bool) (u : List Bool) (vs : List (List Bool)) :
    columns isAnd ((u :: vs).map arr) = arr (vs.foldl (List.zipWith (redOp isAnd)) u) := by
  simp only [columns, List.map_cons, truth_arr]
  induction vs generalizing u with
  | nil => rfl
  | cons v vs ih => simp only [List.map_cons, List.foldl_cons, row_arr, ih]

theorem vstack_arr (u : List Bool) (vs : List (List Bool)) (hl : ∀ v ∈ vs, v.length = u.length) :
    vstack ((u :: vs).map arr) = .ok ((u :: vs).map arr) := by
  simp only [vstack, List.map_cons]
  rw [if_pos]
  simp only [List.all_map, List.all_eq_true, Function.comp, arr, List.length_map, beq_iff_eq]
  exact hl

theorem pairwise_abs {d : Nat → Option Arr} {us : List (Option (List Bool))} (isAnd : Bool) (mem : Mem)
    (ids : List Nat) : ∀ {h : Heap} {u : List Bool} {vs : List (List Bool)}, Abs d h us → Live us ids vs →
    (∀ v ∈ vs, v.length = u.length) →
    ∃ h', Abs d h' us ∧ SameObjs h h' ∧
      (pairwise isAnd mem ids (arr u) h = (.ok (arr (vs.foldl (List.zipWith (redOp isAnd)) u)), h') ∨
       (pairwise isAnd mem ids (arr u) h = (.error .memoryError, h') ∧ mem.oomPairs = true)) := by
  induction ids with
  | nil =>
    intro h u vs habs hlive _
    rw [hlive.nil]
    exact ⟨h, habs, SameObjs.refl h, Or.inl (by simp [pairwise])⟩
  | cons i ids ih =>
    intro h u vs habs hlive hl
    obtain ⟨v, vt, rfl, hi, ht⟩ := hlive.cons
    obtain ⟨h1, e1, habs1, s1⟩ := onObj_raw habs hi
    cases ho : mem.oomPairs with
    | true => exact ⟨h1, habs1, s1, Or.inr ⟨by simp [pairwise, Py.bind_run, e1, ho], rfl⟩⟩
    | false =>
      have hlv : v.length = u.length := hl v (by simp)
      have hv := vstack_arr u [v] (by simpa using hlv)
      have hc := columns_arr isAnd u [v]
      simp only [List.map_cons, List.map_nil, List.foldl_cons, List.foldl_nil] at hv hc
      obtain ⟨h2, habs2, s2, r⟩ := ih (u := List.zipWith (redOp isAnd) u v) habs1 ht (by
        intro x hx
        rw [hl x (by simp [hx])]
        simp [hlv])
      refine ⟨h2, habs2, s1.trans s2, ?_⟩
      rcases r with r | ⟨r, ho'⟩
      · exact Or.inl (by simp [pairwise, Py.bind_run, e1, ho, hv, hc, r])
      · rw [ho] at ho'; cases ho'

theorem multiArr_abs {d : Nat → Option Arr} {us : List (Option (List Bool))} (isAnd : Bool) (mem : Mem)
    {h : Heap} {i : Nat} {ids : List Nat} {u : List Bool} {vs : List (List Bool)} (habs : Abs d h us)
    (hlive : Live us (i :: ids) (u :: vs)) (hl : ∀ v ∈ vs, v.length = u.length) :
    ∃ h', Abs d h' us ∧ SameObjs h h' ∧
      (multiArr isAnd mem (i :: ids) h = (.ok (arr (vs.foldl (List.zipWith (redOp isAnd)) u)), h') ∨
       (multiArr isAnd mem (i :: ids) h = (.error .memoryError, h') ∧
        (mem.before < 2 * (mem.before - mem.after) ∨ mem.oomPairs = true))) := by
  obtain ⟨v, vt, hv, hi, ht⟩ := hlive.cons
  cases hv
  obtain ⟨h1, e1, habs1, s1⟩ := onObj_raw habs hi
  by_cases hm : mem.before < 2 * (mem.before - mem.after)
  · exact ⟨h1, habs1, s1, Or.inr ⟨by simp [multiArr, Py.bind_run, e1, hm], Or.inl hm⟩⟩
  · -- pair by pair
    have hpw : ∀ h2, Abs d h2 us → SameObjs h h2 → ∃ h', Abs d h' us ∧ SameObjs h h' ∧
        ((do let res ← onObj i raw; pairwise isAnd mem ids res : Py Heap Arr) h2 =
            (.ok (arr (vs.foldl (List.zipWith (redOp isAnd)) u)), h') ∨
         ((do let res ← onObj i raw; pairwise isAnd mem ids res : Py Heap Arr) h2 =
            (.error .memoryError, h') ∧ mem.oomPairs = true)) := by
      intro h2 habs2 s2
      obtain ⟨h3, e3, habs3, s3⟩ := onObj_raw habs2 hi
      obtain ⟨h4, habs4, s4, r⟩ := pairwise_abs isAnd mem ids (u := u) habs3 ht hl
      refine ⟨h4, habs4, s2.trans (s3.trans s4), ?_⟩
      rcases r with r | ⟨r, ho⟩
      · exact Or.inl (by simp [Py.bind_run, e3, r])
      · exact Or.inr ⟨by simp [Py.bind_run, e3, r], ho⟩
    by_cases hs : 10 * mem.before < 11 * ((mem.before - mem.after) * ((ids.length + 1 : Nat) : Int) * mem.ncpus)
    · obtain ⟨h2, habs2, s2, r⟩ := hpw h1 habs1 s1
      refine ⟨h2, habs2, s2, ?_⟩
      have hrun : multiArr isAnd mem (i :: ids) h =
          (do let res ← onObj i raw; pairwise isAnd mem ids res : Py Heap Arr) h1 := by
        simp only [multiArr]
        rw [Py.bind_ok e1]
        simp only [List.length_cons]
        rw [if_neg hm, if_pos hs]
      rw [hrun]
      rcases r with r | ⟨r, ho⟩
      · exact Or.inl r
      · exact Or.inr ⟨r, Or.inr ho⟩
    · obtain ⟨h2, e2, habs2, s2⟩ := raws_abs (i :: ids) habs1 hlive
      cases ho : mem.oom with
      | true =>
        obtain ⟨h3, habs3, s3, r⟩ := hpw h2 habs2 (s1.trans s2)
        refine ⟨h3, habs3, s3, ?_⟩
        have hrun : multiArr isAnd mem (i :: ids) h =
            (do let res ← onObj i raw; pairwise isAnd mem ids res : Py Heap Arr) h2 := by
          simp only [multiArr]
          rw [Py.bind_ok e1]
          simp only [List.length_cons]
          rw [if_neg hm, if_neg hs, Py.bind_ok e2, ho]
          rfl
        rw [hrun]
        rcases r with r | ⟨r, ho⟩
        · exact Or.inl r
        · exact Or.inr ⟨r, Or.inr ho⟩
      | false =>
        refine ⟨h2, habs2, s1.trans s2, Or.inl ?_⟩
        simp only [multiArr]
        rw [Py.bind_ok e1]
        simp only [List.length_cons]
        rw [if_neg hm, if_neg hs, Py.bind_ok e2, ho]
        simp only [Bool.false_eq_true, if_false]
        rw [Py.bind_ok (a := (u :: vs).map arr) (s' := h2) (by rw [vstack_arr u vs hl]; rfl)]
        rw [columns_arr]
        rfl

theorem allOptions_run (ids : List Nat) : ∀ {h : Heap}, (∀ i ∈ ids, ∃ a, h.objs[i]? = some a) →
    ∃ o f, allOptions ids h = (.ok (o, f), h) ∧
      (f = true ↔ ∀ i ∈ ids, IsFile h i) := by
  induction ids with
  | nil => intro h _; exact ⟨true, true, rfl, by simp⟩
  | cons i ids ih =>
    intro h hall
    obtain ⟨a, ha⟩ := hall i (by simp)
    obtain ⟨o, f, r, hf⟩ := ih (fun j hj => hall j (by simp [hj]))
    refine ⟨a.optimize && o, a.data.inFile && f, by simp [allOptions, look, Py.bind_run, ha, r], ?_⟩
    simp only [Bool.and_eq_true, List.forall_mem_cons, hf, inFile_iff]
    constructor
    · rintro ⟨⟨p, hp⟩, h2⟩; exact ⟨⟨a, p, ha, hp⟩, h2⟩
    · rintro ⟨⟨a', p, ha', hp⟩, h2⟩
      rw [ha] at ha'; cases ha'
      exact ⟨⟨p, hp⟩, h2⟩

theorem Live.mem {us : List (Option (List Bool))} {ids : List Nat} : ∀ {vs : List (List Bool)},
    Live us ids vs → ∀ i ∈ ids, ∃ v ∈ vs, us[i]? = some (some v) := by
  induction ids with
  | nil => intro vs _ i hi; cases hi
  | cons j ids ih =>
    intro vs hlive i hi
    obtain ⟨v, vt, rfl, hj, ht⟩ := hlive.cons
    rcases List.mem_cons.1 hi with rfl | hi
    · exact ⟨v, by simp, hj⟩
    · obtain ⟨x, hx, hx'⟩ := ih ht i hi
      exact ⟨x, by simp [hx], hx'⟩

theorem Abs.exists_obj {d : Nat → Option Arr} {us : List (Option (List Bool))} {h : Heap} {ids : List Nat}
    {vs : List (List Bool)} (habs : Abs d h us) (hlive : Live us ids vs) :
    ∀ i ∈ ids, ∃ a, h.objs[i]? = some a := by
  intro i hi
  obtain ⟨v, _, hv⟩ := hlive.mem i hi
  obtain ⟨_, a, ha, _⟩ := habs.rep i v hv
  exact ⟨a, ha⟩

theorem IsFile.of_same {h h' : Heap} {i : Nat} {a : Act} (s : SameObjs h h') (ha : h.objs[i]? = some a)
    (hf : IsFile h' i) : IsFile h i := by
  obtain ⟨b, p, hb, hp⟩ := hf
  obtain ⟨a', ha', hs⟩ := s.objs i a ha
  rw [hb] at ha'; cases ha'
  exact ⟨a, p, ha, hs.data ▸ hp⟩

theorem foldl_zipWith_length (f : Bool → Bool → Bool) (vs : List (List Bool)) : ∀ (u : List Bool),
    (∀ v ∈ vs, v.length = u.length) → (vs.foldl (List.zipWith f) u).length = u.length := by
  induction vs with
  | nil => intro u _; rfl
  | cons v vs ih =>
    intro u hl
    have hv : v.length = u.length := hl v (by simp)
    rw [List.foldl_cons, ih]
    · simp [hv]
    · intro x hx
      rw [hl x (by simp [hx])]
      simp [hv]

/-- From a right array to a new activation. -/
theorem newArr_abs {d : Nat → Option Arr} {us : List (Option (List Bool))} {h : Heap} {ids : List Nat}
    {vs : List (List Bool)} {z : List Bool} (habs : Abs d h us) (hlive : Live us ids vs) (hne : z ≠ [])
    (hh : Holds h.w z) :
    (∃ (a : Act) (w' : World), (do let (o, f) ← allOptions ids; new (.arr (arr z)) o none f false : Py Heap Nat) h =
        (.ok us.length, ⟨h.objs ++ [a], w'⟩) ∧
      Abs d ⟨h.objs ++ [a], w'⟩ (us ++ [some z]) ∧ Grow h.w w' ∧ Made h.w w' a) ∨
    (∃ (e : Err), (do let (o, f) ← allOptions ids; new (.arr (arr z)) o none f false : Py Heap Nat) h =
        (.error e, ⟨h.objs, { h.w with nRands := h.w.nRands + 1 }⟩) ∧
      Abs d ⟨h.objs, { h.w with nRands := h.w.nRands + 1 }⟩ us ∧
      (∀ i ∈ ids, IsFile h i) ∧ h.w.storeRaw = false ∧ ¬ NameFree h.w) := by
  obtain ⟨o, f, r, hf⟩ := allOptions_run ids (habs.exists_obj hlive)
  rcases new_abs (inp := .arr (arr z)) (len := none) o f habs (Or.inl rfl) hne hh with
    ⟨c, w', r1, r2, r3, r4⟩ | ⟨e, r1, r2, r3, _, r5, r6⟩
  · exact Or.inl ⟨c, w', by simp [Py.bind_run, r, r1], r2, r3, r4⟩
  · exact Or.inr ⟨e, by simp [Py.bind_run, r, r1], r2, hf.1 r3, r5, r6⟩

theorem multi_abs {d : Nat → Option Arr} {us : List (Option (List Bool))} (isAnd : Bool) (mem : Mem)
    {h : Heap} {i : Nat} {ids : List Nat} {u : List Bool} {vs : List (List Bool)} (habs : Abs d h us)
    (hlive : Live us (i :: ids) (u :: vs)) (hl : ∀ v ∈ vs, v.length = u.length) (hh : Holds h.w u) :
    (∃ (h0 : Heap) (a : Act) (w' : World), multi isAnd mem (i :: ids) h = (.ok us.length, ⟨h0.objs ++ [a], w'⟩) ∧
      SameObjs h h0 ∧
      Abs d ⟨h0.objs ++ [a], w'⟩ (us ++ [some (vs.foldl (List.zipWith (redOp isAnd)) u)]) ∧ Grow h.w w' ∧ Made h.w w' a) ∨
    (∃ (h' : Heap), multi isAnd mem (i :: ids) h = (.error .memoryError, h') ∧ Abs d h' us ∧ SameObjs h h' ∧
       (mem.before < 2 * (mem.before - mem.after) ∨ mem.oomPairs = true)) ∨
    (∃ (e : Err) (h0 : Heap), multi isAnd mem (i :: ids) h =
        (.error e, ⟨h0.objs, { h.w with nRands := h.w.nRands + 1 }⟩) ∧ SameObjs h h0 ∧
      Abs d ⟨h0.objs, { h.w with nRands := h.w.nRands + 1 }⟩ us ∧
      (∀ k ∈ i :: ids, IsFile h k) ∧ h.w.storeRaw = false ∧ ¬ NameFree h.w) := by
  obtain ⟨h1, habs1, s1, r⟩ := multiArr_abs isAnd mem habs hlive hl
  have hlen := foldl_zipWith_length (redOp isAnd) vs u hl
  have hune : u ≠ [] := by
    obtain ⟨v, vt, hv, hi, _⟩ := hlive.cons
    cases hv
    exact (habs.rep i u hi).1
  have hzne : vs.foldl (List.zipWith (redOp isAnd)) u ≠ [] := by
    intro hc
    rw [hc] at hlen
    exact hune (List.length_eq_zero_iff.1 hlen.symm)
  have hw := s1.w
  have hzh : Holds h1.w (vs.foldl (List.zipWith (redOp isAnd)) u) := by
    rw [hw]
    rcases hh with hh | hh
    · exact Or.inl hh
    · exact Or.inr (by rw [hlen]; exact hh)
  rcases r with r | ⟨r, hm⟩
  · have hrun : multi isAnd mem (i :: ids) h = (do
        let (o, f) ← allOptions (i :: ids)
        new (.arr (arr (vs.foldl (List.zipWith (redOp isAnd)) u))) o none f false : Py Heap Nat) h1 := by
      unfold multi
      rw [Py.bind_ok r]
    rcases newArr_abs habs1 hlive hzne hzh with ⟨a, w', r1, r2, r3, r3'⟩ | ⟨e, r1, r2, r3, r4, r5⟩
    · exact Or.inl ⟨h1, a, w', by rw [hrun, r1], s1, r2, hw ▸ r3, hw ▸ r3'⟩
    · refine Or.inr (Or.inr ⟨e, h1, by rw [hrun, r1, hw], s1, by rw [← hw]; exact r2, ?_, hw ▸ r4, hw ▸ r5⟩)
      intro k hk
      obtain ⟨b, hb⟩ := habs.exists_obj hlive k hk
      exact (r3 k hk).of_same s1 hb
  · refine Or.inr (Or.inl ⟨h1, ?_, habs1, s1, hm⟩)
    unfold multi
    rw [Py.bind_err r]

/-! ### Clearing and deleting -/

/-- Replacing one object, by one which is not stored in a file or which nothing is known of. -/
theorem upd_abs {d : Nat → Option Arr} {us : List (Option (List Bool))} {h : Heap} {i : Nat} {a' : Act}
    {w' : World} {x : Option (List Bool)} (habs : Abs d h us) (hi : i < us.length)
    (hx : ∀ v, x = some v → v ≠ [] ∧ Rep w' a' v ∧ a'.data.inFile = false ∧ a'.lasy = false)
    (hkeep : ∀ (j : Nat) (u : List Bool) (b : Act), j ≠ i → us[j]? = some (some u) → h.objs[j]? = some b → Rep w' b u)
    (huser : ∀ n, w'.files (.user n) = h.w.files (.user n)) :
    Abs d ⟨h.objs.set i a', w'⟩ (us.set i x) := by
  have hio : i < h.objs.length := by rw [habs.size]; exact hi
  have hcase : ∀ (j : Nat) (v : List Bool) (b : Act), (us.set i x)[j]? = some (some v) →
      (h.objs.set i a')[j]? = some b →
      (j ≠ i ∧ us[j]? = some (some v) ∧ h.objs[j]? = some b) ∨ (j = i ∧ x = some v ∧ b = a') := by
    intro j v b hj hb
    by_cases hij : i = j
    · subst hij
      simp [hi] at hj
      simp [hio] at hb
      exact Or.inr ⟨rfl, hj, hb.symm⟩
    · simp [List.getElem?_set, hij] at hj hb
      exact Or.inl ⟨fun h => hij h.symm, hj, hb⟩
  have hnofile : ∀ v p, x = some v → a'.data = .file p → False := by
    intro v p hv hp
    have := (hx v hv).2.2.1
    rw [hp] at this
    cases this
  refine ⟨by simpa using habs.size, ?_, ?_, ?_, fun n => (huser n).trans (habs.user n), ?_⟩
  · intro j v hj
    have hb : ∃ b, (h.objs.set i a')[j]? = some b := by
      have := (List.getElem?_eq_some_iff.1 hj).1
      exact ⟨_, List.getElem?_eq_getElem (by simpa [habs.size] using this)⟩
    obtain ⟨b, hb⟩ := hb
    rcases hcase j v b hj hb with ⟨h1, h2, h3⟩ | ⟨rfl, h2, rfl⟩
    · exact ⟨(habs.rep j v h2).1, b, hb, hkeep j v b h1 h2 h3⟩
    · exact ⟨(hx v h2).1, b, hb, (hx v h2).2.1⟩
  · intro j k v v' b b' p hj hk hb hb' hp hp'
    rcases hcase j v b hj hb with ⟨h1, h2, h3⟩ | ⟨rfl, h2, rfl⟩
    · rcases hcase k v' b' hk hb' with ⟨h4, h5, h6⟩ | ⟨rfl, h5, rfl⟩
      · exact habs.own j k v v' b b' p h2 h5 h3 h6 hp hp'
      · exact (hnofile v' p h5 hp').elim
    · exact (hnofile v p h2 hp).elim
  · intro j v b p hj hb hp
    rcases hcase j v b hj hb with ⟨h1, h2, h3⟩ | ⟨rfl, h2, rfl⟩
    · exact habs.vec j v b p h2 h3 hp
    · exact (hnofile v p h2 hp).elim
  · intro j v b hj hb
    rcases hcase j v b hj hb with ⟨h1, h2, h3⟩ | ⟨rfl, h2, rfl⟩
    · exact habs.eager j v b h2 h3
    · exact (hx v h2).2.2.2

theorem arr_replicate (n : Nat) : arr (List.replicate n false) = List.replicate n 0 := by
  simp [arr]

theorem clear_abs {d : Nat → Option Arr} {us : List (Option (List Bool))} {h : Heap} {i : Nat}
    {u : List Bool} (habs : Abs d h us) (hi : us[i]? = some (some u)) (hh : Holds h.w u) :
    ∃ h', onObj i clear h = (.ok (), h') ∧ Abs d h' (us.set i (some (List.replicate u.length false))) ∧
      (∃ k, h'.w = { h.w with nSizes := k }) := by
  obtain ⟨hne, a, ha, hr⟩ := habs.rep i u hi
  have hzne : List.replicate u.length false ≠ [] := by
    intro hc
    have := congrArg List.length hc
    simp at this
    exact hne this
  have hzh : Holds h.w (List.replicate u.length false) := by
    rcases hh with hh | hh
    · exact Or.inl hh
    · exact Or.inr (by simpa using hh)
  obtain ⟨a', k, r1, r2, r3, r4, r5, r6, _⟩ := initRaw_rep (u := List.replicate u.length false)
    (o := ⟨{ a with length := none, nones := none, entropy := none, relEntropy := none,
                    coverage := none, data := .deleted false }, h.w⟩)
    ⟨hr.loaded, Or.inl rfl, rfl, rfl, rfl⟩ (fun _ => ⟨hzne, hzh⟩)
  have hrun : clear ⟨a, h.w⟩ = (.ok (), ⟨a', { h.w with nSizes := k }⟩) := by
    rw [arr_replicate] at r1
    simp [clear, Py.bind_run, setSelf, hr.length, r1]
  refine ⟨⟨h.objs.set i a', { h.w with nSizes := k }⟩, by rw [onObj_run ha, hrun], ?_, k, rfl⟩
  apply upd_abs habs (List.getElem?_eq_some_iff.1 hi).1
  · intro v hv
    cases hv
    exact ⟨hzne, r2, r6, r5.trans (habs.eager i u a hi ha)⟩
  · intro j v b _ hj hb
    obtain ⟨_, b', hb', hrb⟩ := habs.rep j v hj
    rw [hb] at hb'; cases hb'
    exact Rep.mono (w := h.w) (fun _ _ h => h) hrb
  · intro n; rfl

theorem delete_abs {d : Nat → Option Arr} {us : List (Option (List Bool))} {h : Heap} {i : Nat}
    {u : List Bool} (habs : Abs d h us) (hi : us[i]? = some (some u)) :
    ∃ h', onObj i delete h = (.ok (), h') ∧ Abs d h' (us.set i none) ∧
      (h'.w.dtype = h.w.dtype ∧ h'.w.willCompare = h.w.willCompare ∧ h'.w.storeRaw = h.w.storeRaw) ∧
      ∃ a, h.objs[i]? = some a ∧
        (∀ p, a.data ≠ .file p → h'.w.files p = h.w.files p) ∧ (∀ p, a.data = .file p → h'.w.files p = none) := by
  obtain ⟨hne, a, ha, hr⟩ := habs.rep i u hi
  have hlt := (List.getElem?_eq_some_iff.1 hi).1
  have hkeep : ∀ (j : Nat) (v : List Bool) (b : Act), j ≠ i → us[j]? = some (some v) → h.objs[j]? = some b →
      Rep h.w b v := by
    intro j v b _ hj hb
    obtain ⟨_, b', hb', hrb⟩ := habs.rep j v hj
    rw [hb] at hb'; cases hb'
    exact hrb
  have hmem : ∀ c, onObj i delete h = (.ok (), ⟨h.objs.set i { a with data := .deleted c }, h.w⟩) →
      (∀ p, a.data ≠ .file p) → ∃ h', onObj i delete h = (.ok (), h') ∧ Abs d h' (us.set i none) ∧
      (h'.w.dtype = h.w.dtype ∧ h'.w.willCompare = h.w.willCompare ∧ h'.w.storeRaw = h.w.storeRaw) ∧
      ∃ a, h.objs[i]? = some a ∧
        (∀ p, a.data ≠ .file p → h'.w.files p = h.w.files p) ∧ (∀ p, a.data = .file p → h'.w.files p = none) := by
    intro c hc hnf
    refine ⟨_, hc, upd_abs habs hlt (by intro v hv; cases hv) hkeep (fun n => rfl), ⟨rfl, rfl, rfl⟩,
      a, ha, fun p _ => rfl, fun p hp => absurd hp (hnf p)⟩
  cases hd : a.data with
  | file p =>
    obtain ⟨n, rfl⟩ := habs.vec i u a p hi ha hd
    refine ⟨⟨h.objs.set i a, { h.w with files := fun q => if q = .vec n then none else h.w.files q }⟩,
      by rw [onObj_run ha]; simp [delete, Py.bind_run, hd, setWorld], ?_, ⟨rfl, rfl, rfl⟩,
      a, ha, ?_, ?_⟩
    · apply upd_abs habs hlt (by intro v hv; cases hv)
      · intro j v b hji hj hb
        have hrb := hkeep j v b hji hj hb
        refine ⟨?_, hrb.loaded, hrb.length, hrb.nones, hrb.entropy, hrb.rel, hrb.cov⟩
        have hbd := hrb.data
        cases hq : b.data with
        | file q =>
          rw [hq] at hbd
          have hne' : q ≠ .vec n := by
            intro hqn
            subst hqn
            exact hji (habs.own j i v u b a _ hj hi hb ha hq hd)
          show (if q = Path.vec n then none else h.w.files q) = some (arr v)
          rw [if_neg hne']
          exact hbd
        | _ => rw [hq] at hbd; exact hbd
      · intro m; simp
    · intro q hq
      have : q ≠ .vec n := by intro hc; subst hc; exact hq hd
      simp [this]
    · intro q hq
      rw [hd] at hq
      cases hq
      simp
  | bits b => exact hmem false (by rw [onObj_run ha]; simp [delete, Py.bind_run, hd, setSelf]) (by simp [hd])
  | int n => exact hmem false (by rw [onObj_run ha]; simp [delete, Py.bind_run, hd, setSelf]) (by simp [hd])
  | raw v => exact hmem false (by rw [onObj_run ha]; simp [delete, Py.bind_run, hd, setSelf]) (by simp [hd])
  | text v => exact hmem true (by rw [onObj_run ha]; simp [delete, Py.bind_run, hd, setSelf]) (by simp [hd])
  | carr v => exact hmem true (by rw [onObj_run ha]; simp [delete, Py.bind_run, hd, setSelf]) (by simp [hd])
  | deleted c => have := hr.data; rw [hd] at this; exact this.elim

/-! ### Derived operations -/

theorem getElem?_append_lt {α} {l r : List α} {i : Nat} {x : α} (h : l[i]? = some x) : (l ++ r)[i]? = some x := by
  rw [List.getElem?_append_left (List.getElem?_eq_some_iff.1 h).1]; exact h

theorem copy_abs {d : Nat → Option Arr} {us : List (Option (List Bool))} {h : Heap} {i : Nat}
    {u : List Bool} (habs : Abs d h us) (hi : us[i]? = some (some u)) (hh : Holds h.w u) :
    (∃ (a : Act) (w' : World), copy i h = (.ok us.length, ⟨h.objs ++ [a], w'⟩) ∧
      Abs d ⟨h.objs ++ [a], w'⟩ (us ++ [some u]) ∧ Grow h.w w' ∧ Made h.w w' a) ∨
    (∃ (e : Err), copy i h = (.error e, ⟨h.objs, { h.w with nRands := h.w.nRands + 1 }⟩) ∧
      Abs d ⟨h.objs, { h.w with nRands := h.w.nRands + 1 }⟩ us ∧
      IsFile h i ∧ h.w.storeRaw = false ∧ ¬ NameFree h.w) := by
  obtain ⟨hne, a, ha, hr⟩ := habs.rep i u hi
  have hdat := hr.data
  have main : ∀ (inp : Input) (len : Option Nat) (tf : Bool),
      copy i h = new inp a.optimize len tf false h → Stands h.w inp len u → (tf = true → ∃ p, a.data = .file p) →
      (∃ (a : Act) (w' : World), copy i h = (.ok us.length, ⟨h.objs ++ [a], w'⟩) ∧
        Abs d ⟨h.objs ++ [a], w'⟩ (us ++ [some u]) ∧ Grow h.w w' ∧ Made h.w w' a) ∨
      (∃ (e : Err), copy i h = (.error e, ⟨h.objs, { h.w with nRands := h.w.nRands + 1 }⟩) ∧
        Abs d ⟨h.objs, { h.w with nRands := h.w.nRands + 1 }⟩ us ∧
        IsFile h i ∧ h.w.storeRaw = false ∧ ¬ NameFree h.w) :=
    fun inp len tf hrun hst htf => by
      rcases new_abs (inp := inp) (len := len) a.optimize tf habs hst hne hh with
        ⟨c, w', r1, r2, r3, r4⟩ | ⟨e, r1, r2, r3, _, r5, r6⟩
      · exact Or.inl ⟨c, w', by rw [hrun, r1], r2, r3, r4⟩
      · obtain ⟨p, hp⟩ := htf r3
        exact Or.inr ⟨e, by rw [hrun, r1], r2, ⟨a, p, ha, hp⟩, r5, r6⟩
  cases hd : a.data with
  | bits b =>
    rw [hd] at hdat
    exact main (.bits b) none false (by simp [copy, look, Py.bind_run, ha, hd]) ⟨hdat, Or.inl rfl⟩ (by simp)
  | int n =>
    rw [hd] at hdat
    exact main (.int n) a.length false (by simp [copy, look, Py.bind_run, ha, hd]) ⟨hdat.1, hr.length⟩ (by simp)
  | raw v =>
    rw [hd] at hdat
    exact main (.arr v) none false (by simp [copy, look, Py.bind_run, ha, hd]) (Or.inl hdat) (by simp)
  | text v =>
    rw [hd] at hdat
    exact main (.str v) none false (by simp [copy, look, Py.bind_run, ha, hd]) hdat.1 (by simp)
  | carr v =>
    rw [hd] at hdat
    exact main (.arr v) none false (by simp [copy, look, Py.bind_run, ha, hd]) (Or.inr hdat) (by simp)
  | file p =>
    rw [hd] at hdat
    exact main (.path p) none true (by simp [copy, look, Py.bind_run, ha, hd]) hdat (fun _ => ⟨p, hd⟩)
  | deleted c => rw [hd] at hdat; exact hdat.elim

theorem Grow.holds {w w' : World} {u : List Bool} (g : Grow w w') (hh : Holds w u) : Holds w' u := by
  rcases hh with hh | hh
  · exact Or.inl (g.dtype.trans hh)
  · exact Or.inr hh

theorem IsInt.append {h0 : Heap} {a : Act} {w' : World} {i : Nat} (hi : i < h0.objs.length)
    (hint : IsInt ⟨h0.objs ++ [a], w'⟩ i) : IsInt h0 i := by
  obtain ⟨b, n, hb, hn⟩ := hint
  have hb' : (h0.objs ++ [a])[i]? = some b := hb
  rw [List.getElem?_append_left hi] at hb'
  exact ⟨b, n, hb', hn⟩

theorem IsInt.of_same {h h' : Heap} {i : Nat} {a : Act} (s : SameObjs h h') (ha : h.objs[i]? = some a)
    (hf : IsInt h' i) : IsInt h i := by
  obtain ⟨b, p, hb, hp⟩ := hf
  obtain ⟨a', ha', hs⟩ := s.objs i a ha
  rw [hb] at ha'; cases ha'
  exact ⟨a, p, ha, hs.data ▸ hp⟩

theorem IsFile.append {h0 : Heap} {a : Act} {w' : World} {i : Nat} (hi : i < h0.objs.length)
    (hint : IsFile ⟨h0.objs ++ [a], w'⟩ i) : IsFile h0 i := by
  obtain ⟨b, n, hb, hn⟩ := hint
  have hb' : (h0.objs ++ [a])[i]? = some b := hb
  rw [List.getElem?_append_left hi] at hb'
  exact ⟨b, n, hb', hn⟩

theorem zipWith_sub (u v : List Bool) :
    List.zipWith (Logic.bool .and) (List.zipWith (Logic.bool .xor) u v) u =
      List.zipWith (fun a b => a && !b) u v := by
  induction u generalizing v with
  | nil => simp
  | cons a u ih =>
    cases v with
    | nil => simp
    | cons b v =>
      simp only [List.zipWith_cons_cons, ih]
      cases a <;> cases b <;> rfl

theorem sub_abs {d : Nat → Option Arr} {us : List (Option (List Bool))} {h : Heap} {i j : Nat}
    {u v : List Bool} (habs : Abs d h us) (hi : us[i]? = some (some u))
    (hj : us[j]? = some (some v)) (hl : u.length = v.length) (hh : Holds h.w u) :
    (∃ h', sub i j h = (.ok (us.length + 1), h') ∧ Grow h.w h'.w ∧
      Abs d h' (us ++ [some (List.zipWith (fun a b => a != b) u v), some (List.zipWith (fun a b => a && !b) u v)])) ∨
    (∃ e h' x, sub i j h = (.error e, h') ∧ Abs d h' (us ++ x) ∧ Grow h.w h'.w ∧
      (IsInt h i ∨ IsFile h i ∧ h.w.storeRaw = false)) := by
  obtain ⟨hne, a, ha, hra⟩ := habs.rep i u hi
  by_cases hint : IsInt h i ∧ IsInt h j
  · exact Or.inr ⟨.valueError, h, [], by simp [sub, Py.bind_run, binop_int .xor habs hi hj hint.1 hint.2],
      by simpa using habs, Grow.refl _, Or.inl hint.1⟩
  · rcases binop_abs .xor habs hi hj hl hh hint with ⟨h0, t, w', r1, s, habs', g, _⟩ | ⟨e, h0, r1, _, r2, f1, f2, f3, f4⟩
    · have hsz : h0.objs.length = us.length := by rw [s.length, habs.size]
      have hlt : i < h0.objs.length := by rw [hsz]; exact (List.getElem?_eq_some_iff.1 hi).1
      have hi' := getElem?_append_lt (r := [some (List.zipWith (Logic.bool .xor) u v)]) hi
      have ht' : (us ++ [some (List.zipWith (Logic.bool .xor) u v)])[us.length]? =
          some (some (List.zipWith (Logic.bool .xor) u v)) := by simp
      have hl' : (List.zipWith (Logic.bool .xor) u v).length = u.length := by simp [← hl]
      have hh' : Holds w' (List.zipWith (Logic.bool .xor) u v) := by
        rcases g.holds hh with hh | hh
        · exact Or.inl hh
        · exact Or.inr (by rw [hl']; exact hh)
      by_cases hint' : IsInt ⟨h0.objs ++ [t], w'⟩ us.length ∧ IsInt ⟨h0.objs ++ [t], w'⟩ i
      · refine Or.inr ⟨.valueError, ⟨h0.objs ++ [t], w'⟩, _, ?_, habs', g, Or.inl ?_⟩
        · simp [sub, Py.bind_run, r1, binop_int .and habs' ht' hi' hint'.1 hint'.2]
        · exact (hint'.2.append hlt).of_same s ha
      · rcases binop_abs .and habs' ht' hi' hl' hh' hint' with
          ⟨h1, t1, w1, q1, s1, habs1, g1, _⟩ | ⟨e, h1, q1, _, q2, f1, f2, f3, f4⟩
        · refine Or.inl ⟨⟨h1.objs ++ [t1], w1⟩, by simp [sub, Py.bind_run, r1, q1], g.trans g1, ?_⟩
          rw [zipWith_sub] at habs1
          rw [List.append_assoc] at habs1
          exact habs1
        · refine Or.inr ⟨e, _, _, by simp only [sub, Py.bind_run, r1, q1], q2, g.trans (Grow.bumpRands _), ?_⟩
          have hif : IsFile h i := (f2.append hlt).of_same s ha
          exact Or.inr ⟨hif, by rw [← g.storeRaw]; exact f3⟩
    · exact Or.inr ⟨e, _, [], Py.bind_err r1, by simpa using r2, Grow.bumpRands _, Or.inr ⟨f1, f3⟩⟩

theorem SameObjs.grow {h h' : Heap} (s : SameObjs h h') : Grow h.w h'.w := by rw [s.w]; exact Grow.refl _

/-- Objects are still stored where they were. -/
def Ext (h h' : Heap) : Prop :=
  ∀ (i : Nat) (a : Act), h.objs[i]? = some a → ∃ a', h'.objs[i]? = some a' ∧ a'.data = a.data

theorem SameObjs.ext {h h' : Heap} (s : SameObjs h h') : Ext h h' := fun i a ha => by
  obtain ⟨a', ha', hs⟩ := s.objs i a ha
  exact ⟨a', ha', hs.data⟩

theorem delete_objs {h h' : Heap} {i : Nat} {r : Except Err Unit} (e : onObj i delete h = (r, h')) (k : Nat)
    (hk : k ≠ i) : h'.objs[k]? = h.objs[k]? := by
  unfold onObj at e
  cases ha : h.objs[i]? with
  | none => rw [ha] at e; cases e; rfl
  | some a =>
    rw [ha] at e
    cases e
    exact List.getElem?_set_ne (Ne.symm hk)

/-- The class-wide settings are the same and no file was lost or changed. -/
structure Kept (w w' : World) : Prop where
  dtype : w'.dtype = w.dtype
  willCompare : w'.willCompare = w.willCompare
  storeRaw : w'.storeRaw = w.storeRaw
  files : ∀ p v, w.files p = some v → w'.files p = some v

theorem Grow.kept {w w' : World} (g : Grow w w') : Kept w w' := ⟨g.dtype, g.willCompare, g.storeRaw, g.files⟩

theorem contains_abs {d : Nat → Option Arr} {us : List (Option (List Bool))} {h : Heap} {i j : Nat}
    {u v : List Bool} (habs : Abs d h us) (hi : us[i]? = some (some u))
    (hj : us[j]? = some (some v)) (hl : u.length = v.length) (hh : Holds h.w u)
    (hint : ¬ (IsInt h i ∧ IsInt h j)) :
    (∃ h', contains i j h = (.ok (!((List.zipWith (fun a b => a && b) u v).count true <
        min (u.count true) (v.count true))), h') ∧ Abs d h' (us ++ [none]) ∧ Kept h.w h'.w ∧ Ext h h' ∧
      ∀ p, h'.w.files p ≠ none → h.w.files p ≠ none) ∨
    (∃ e h', contains i j h = (.error e, h') ∧ Abs d h' us ∧ Kept h.w h'.w ∧ Ext h h' ∧ h'.w.files = h.w.files ∧
      IsFile h i ∧ IsFile h j ∧ h.w.storeRaw = false ∧ ¬ NameFree h.w) := by
  rcases binop_abs .and habs hi hj hl hh hint with ⟨h0, t, w', r1, s, habs', g, hmade⟩ | ⟨e, h0, r1, s0, r2, r3⟩
  · have ht : (us ++ [some (List.zipWith (Logic.bool .and) u v)])[us.length]? =
        some (some (List.zipWith (Logic.bool .and) u v)) := by simp
    obtain ⟨h1, e1, a1, s1⟩ := onObj_nones habs' ht
    obtain ⟨h2, e2, a2, hset2, b, hb, hk1, hk2⟩ := delete_abs a1 ht
    have hobj2 := delete_objs e2
    have hset : (us ++ [some (List.zipWith (Logic.bool .and) u v)]).set us.length none = us ++ [none] := by
      simp
    rw [hset] at a2
    obtain ⟨h3, e3, a3, s3⟩ := onObj_nones a2 (getElem?_append_lt hi)
    obtain ⟨h4, e4, a4, s4⟩ := onObj_nones a3 (getElem?_append_lt hj)
    refine Or.inl ⟨h4, by simp [contains, Py.bind_run, r1, e1, e2, e3, e4]; rfl, a4, ?_⟩
    have htt : (h0.objs ++ [t])[us.length]? = some t := by
      have : h0.objs.length = us.length := by rw [s.length, habs.size]
      simp [← this]
    obtain ⟨t', ht', hst⟩ := s1.objs us.length t htt
    rw [hb] at ht'
    cases ht'
    rw [s4.w, s3.w]
    have hs1 := s1.w
    have hs1' : h1.w = w' := hs1
    rw [hs1'] at hset2 hk1
    refine ⟨⟨hset2.1.trans g.dtype, hset2.2.1.trans g.willCompare, hset2.2.2.trans g.storeRaw, ?_⟩, ?_, ?_⟩
    · intro p x hp
      rw [hk1 p ?_]
      · exact g.files p x hp
      · -- the temporary file did not exist before
        intro hbp
        rw [hst.data] at hbp
        rw [hmade.free p hbp] at hp
        cases hp
    · intro k a ha
      obtain ⟨a0, ha0, hd0⟩ := s.ext k a ha
      obtain ⟨a1', ha1, hd1⟩ := s1.ext k a0 (by
        show (h0.objs ++ [t])[k]? = some a0
        exact getElem?_append_lt ha0)
      have hne : k ≠ us.length := by
        have := (List.getElem?_eq_some_iff.1 ha).1
        rw [habs.size] at this
        omega
      obtain ⟨a3, ha3, hd3⟩ := s3.ext k a1' (by rw [hobj2 k hne]; exact ha1)
      obtain ⟨a4', ha4, hd4⟩ := s4.ext k a3 ha3
      exact ⟨a4', ha4, by rw [hd4, hd3, hd1, hd0]⟩
    · intro p hp
      by_cases hbp : b.data = .file p
      · rw [hk2 p hbp] at hp; exact absurd rfl hp
      · rw [hk1 p hbp] at hp
        rcases hmade.only p hp with h | h
        · exact h
        · rw [hst.data] at hbp; exact absurd h hbp
  · exact Or.inr ⟨e, _, Py.bind_err r1, r2, (Grow.bumpRands _).kept, fun k a ha => by
      obtain ⟨a', ha', hd'⟩ := s0.ext k a ha
      exact ⟨a', ha', hd'⟩, rfl, r3⟩

theorem agree_arr : ∀ (u v : List Bool),
    ((List.zipWith (fun p q => (p == q : Bool)) (arr u) (arr v)).filter id).length =
      (List.zipWith (fun a b => a == b) u v).count true := by
  intro u
  induction u with
  | nil => intro v; simp [arr]
  | cons a u ih =>
    intro v
    cases v with
    | nil => simp [arr]
    | cons b v =>
      have := ih v
      simp only [arr, List.map_cons, List.zipWith_cons_cons] at this ⊢
      cases a <;> cases b <;> simp_all [List.count_cons, List.filter_cons]

theorem correlation_abs {d : Nat → Option Arr} {us : List (Option (List Bool))} {h : Heap} {i j : Nat}
    {u v : List Bool} (habs : Abs d h us) (hi : us[i]? = some (some u))
    (hj : us[j]? = some (some v)) (hl : u.length = v.length) :
    ∃ h', correlation i j h = (.ok ⟨(List.zipWith (fun a b => a == b) u v).count true, u.length⟩, h') ∧
      Abs d h' us ∧ SameObjs h h' := by
  obtain ⟨hne, a, ha, hra⟩ := habs.rep i u hi
  obtain ⟨_, b, hb, hrb⟩ := habs.rep j v hj
  obtain ⟨h1, e1, a1, s1⟩ := onObj_raw habs hi
  obtain ⟨h2, e2, a2, s2⟩ := onObj_raw a1 hj
  refine ⟨h2, ?_, a2, s1.trans s2⟩
  have hlen : (arr u).length = (arr v).length := by simp [arr, hl]
  have hz : v ≠ [] := by
    intro hc
    rw [hc] at hl
    exact length_ne_zero hne hl
  have hag := agree_arr u v
  simp [correlation, look, Py.bind_run, ha, hb, hra.length, hrb.length, hl, e1, e2, hlen]
  rw [if_neg hz, hag]
  rfl

theorem correlation_length {d : Nat → Option Arr} {us : List (Option (List Bool))} {h : Heap} {i j : Nat}
    {u v : List Bool} (habs : Abs d h us) (hi : us[i]? = some (some u))
    (hj : us[j]? = some (some v)) (hl : u.length ≠ v.length) :
    correlation i j h = (.error .valueError, h) := by
  obtain ⟨hne, a, ha, hra⟩ := habs.rep i u hi
  obtain ⟨_, b, hb, hrb⟩ := habs.rep j v hj
  simp [correlation, look, Py.bind_run, ha, hb, hra.length, hrb.length, hl]

theorem Abs.forget {d : Nat → Option Arr} {us : List (Option (List Bool))} {h : Heap} {n : Nat}
    {x : List (Option (List Bool))} (habs : Abs d h (us ++ x)) (hn : n = x.length) :
    Abs d h (us ++ List.replicate n none) := by
  subst hn
  have key : ∀ (i : Nat) (v : List Bool), (us ++ List.replicate x.length none)[i]? = some (some v) →
      (us ++ x)[i]? = some (some v) := by
    intro i v hi
    by_cases hlt : i < us.length
    · rw [List.getElem?_append_left hlt] at hi ⊢; exact hi
    · rw [List.getElem?_append_right (Nat.le_of_not_lt hlt)] at hi
      rw [List.getElem?_replicate] at hi
      split at hi <;> simp at hi
  exact ⟨by simpa using habs.size, fun i u hi => habs.rep i u (key i u hi),
    fun i j u v a b p hi hj => habs.own i j u v a b p (key i u hi) (key j v hj),
    fun i u a p hi => habs.vec i u a p (key i u hi), habs.user,
    fun i u a hi => habs.eager i u a (key i u hi)⟩

theorem Abs.forgetOne {d : Nat → Option Arr} {us : List (Option (List Bool))} {h : Heap}
    {x y : Option (List Bool)} (habs : Abs d h (us ++ [x, y])) : Abs d h (us ++ [none, y]) := by
  have key : ∀ (i : Nat) (v : List Bool), (us ++ [none, y])[i]? = some (some v) →
      (us ++ [x, y])[i]? = some (some v) := by
    intro i v hi
    by_cases hlt : i < us.length
    · rw [List.getElem?_append_left hlt] at hi ⊢; exact hi
    · rw [List.getElem?_append_right (Nat.le_of_not_lt hlt)] at hi ⊢
      cases hk : i - us.length with
      | zero => rw [hk] at hi; simp at hi
      | succ k => rw [hk] at hi; simpa using hi
  exact ⟨by simpa using habs.size, fun i u hi => habs.rep i u (key i u hi),
    fun i j u v a b p hi hj => habs.own i j u v a b p (key i u hi) (key j v hj),
    fun i u a p hi => habs.vec i u a p (key i u hi), habs.user,
    fun i u a hi => habs.eager i u a (key i u hi)⟩

/-! ### Disagreement -/

theorem multiXor_bits (x y : Bool) : x.toNat &&& negMinusOne y.toNat = (x && !y).toNat := by
  cases x <;> cases y <;> rfl

theorem elementwise_xor {u v : List Bool} (hl : u.length = v.length) :
    elementwise (· &&& ·) (arr u) ((arr v).map negMinusOne) =
      .ok (arr (List.zipWith (fun a b => a && !b) u v)) := by
  have : (arr u).length = ((arr v).map negMinusOne).length := by simp [arr, hl]
  simp only [elementwise, this, if_true]
  congr 1
  clear this
  induction u generalizing v with
  | nil => simp [arr]
  | cons a u ih =>
    cases v with
    | nil => simp at hl
    | cons b v =>
      have := ih (v := v) (by simpa using hl)
      simp only [arr, List.map_cons, List.zipWith_cons_cons] at this ⊢
      rw [this, multiXor_bits]

/-- `multi_logical_xor` as an array. -/
def xorAll (u : List Bool) (vs : List (List Bool)) : List Bool :=
  List.zipWith (fun a b => a && !b) (vs.foldl (List.zipWith (redOp false)) u)
    (vs.foldl (List.zipWith (redOp true)) u)

theorem xorAll_length (u : List Bool) (vs : List (List Bool)) (hl : ∀ v ∈ vs, v.length = u.length) :
    (xorAll u vs).length = u.length := by
  simp [xorAll, foldl_zipWith_length _ vs u hl]

theorem multiXor_abs {d : Nat → Option Arr} {us : List (Option (List Bool))} (mem mem' : Mem) (asarray : Bool)
    {h : Heap} {i j : Nat} {ids : List Nat} {u v : List Bool} {vs : List (List Bool)} (habs : Abs d h us)
    (hlive : Live us (i :: j :: ids) (u :: v :: vs)) (hl : ∀ x ∈ v :: vs, x.length = u.length)
    (hh : Holds h.w u) :
    (∃ h', multiXor mem mem' (i :: j :: ids) asarray h = (.ok (.arr (arr (xorAll u (v :: vs)))), h') ∧
      Abs d h' us ∧ asarray = true) ∨
    (∃ h', multiXor mem mem' (i :: j :: ids) asarray h = (.ok (.act us.length), h') ∧
      Abs d h' (us ++ [some (xorAll u (v :: vs))]) ∧ Grow h.w h'.w ∧
      (∃ (h0 : Heap) (a : Act), h'.objs = h0.objs ++ [a] ∧ SameObjs h h0 ∧ Made h.w h'.w a) ∧ asarray = false) ∨
    (∃ e h', multiXor mem mem' (i :: j :: ids) asarray h = (.error e, h') ∧ Abs d h' us ∧ Grow h.w h'.w ∧
      Ext h h' ∧ h'.w.files = h.w.files ∧ (e = .memoryError ∨ (asarray = false ∧ ∀ k ∈ i :: j :: ids, IsFile h k))) := by
  obtain ⟨h1, a1, s1, r⟩ := multiArr_abs false mem habs hlive hl
  rcases r with r | ⟨r, _⟩
  · obtain ⟨h2, a2, s2, q⟩ := multiArr_abs true mem' a1 hlive hl
    rcases q with q | ⟨q, _⟩
    · have hlen : ((v :: vs).foldl (List.zipWith (redOp false)) u).length =
          ((v :: vs).foldl (List.zipWith (redOp true)) u).length := by
        rw [foldl_zipWith_length _ _ u hl, foldl_zipWith_length _ _ u hl]
      have hrun : multiXor mem mem' (i :: j :: ids) asarray h =
          (if asarray then pure (.arr (arr (xorAll u (v :: vs))))
            else do
              let (o, f) ← allOptions (i :: j :: ids)
              let n ← new (.arr (arr (xorAll u (v :: vs)))) o none f false
              pure (.act n) : Py Heap ArrOrAct) h2 := by
        simp only [multiXor]
        rw [Py.bind_ok r, Py.bind_ok q]
        rw [Py.bind_ok (a := arr (xorAll u (v :: vs))) (s' := h2)
          (by rw [elementwise_xor hlen]; rfl)]
      cases asarray with
      | true => exact Or.inl ⟨h2, by rw [hrun]; rfl, a2, rfl⟩
      | false =>
        have s := s1.trans s2
        have hxl := xorAll_length u (v :: vs) hl
        have hune : u ≠ [] := by
          obtain ⟨w, vt, hv, hi, _⟩ := hlive.cons
          cases hv
          exact (habs.rep i u hi).1
        have hzne : xorAll u (v :: vs) ≠ [] := by
          intro hc
          rw [hc] at hxl
          exact hune (List.length_eq_zero_iff.1 hxl.symm)
        have hzh : Holds h2.w (xorAll u (v :: vs)) := by
          rw [s.w]
          rcases hh with hh | hh
          · exact Or.inl hh
          · exact Or.inr (by rw [hxl]; exact hh)
        have hrun' : multiXor mem mem' (i :: j :: ids) false h = (do
              let n ← (do
                let (o, f) ← allOptions (i :: j :: ids)
                new (.arr (arr (xorAll u (v :: vs)))) o none f false : Py Heap Nat)
              pure (.act n) : Py Heap ArrOrAct) h2 := by
          rw [hrun]
          simp only [Bool.false_eq_true, if_false, Py.bind_run]
          rcases hx : allOptions (i :: j :: ids) h2 with ⟨x, y⟩
          cases x <;> rfl
        rcases newArr_abs a2 hlive hzne hzh with ⟨a, w', q1, q2, q3, q3'⟩ | ⟨e, q1, q2, q3, q4, q5⟩
        · exact Or.inr (Or.inl ⟨_, by rw [hrun', Py.bind_ok q1]; rfl, q2, s.grow.trans q3,
            ⟨h2, a, rfl, s, s.w ▸ q3'⟩, rfl⟩)
        · refine Or.inr (Or.inr ⟨e, _, by rw [hrun', Py.bind_err q1], q2, s.grow.trans (Grow.bumpRands _),
            s.ext, (show h2.w.files = h.w.files by rw [s.w]), Or.inr ⟨rfl, ?_⟩⟩)
          intro k hk
          obtain ⟨b, hb⟩ := habs.exists_obj hlive k hk
          exact (q3 k hk).of_same s hb
    · refine Or.inr (Or.inr ⟨_, h2, ?_, a2, (s1.trans s2).grow, (s1.trans s2).ext,
        congrArg World.files (s1.trans s2).w, Or.inl rfl⟩)
      simp only [multiXor]
      rw [Py.bind_ok r, Py.bind_err q]
  · refine Or.inr (Or.inr ⟨_, h1, ?_, a1, s1.grow, s1.ext, congrArg World.files s1.w, Or.inl rfl⟩)
    simp only [multiXor]
    rw [Py.bind_err r]

end Verif.Activation
