import Verif.Profile
import Verif.HeapLemmas

/-!
# Measuring an activation leaves it as it was
-/

namespace Verif.Activation

open Verif Verif.Codec Verif.Spec

set_option linter.unusedSimpArgs false
set_option linter.unusedVariables false

/-- The object with other data. -/
def Act.holding (a : Act) (d : Data) : Act := { a with data := d }

/-- The world after one more file name was drawn. -/
def World.drawn (w : World) : World := { w with nRands := w.nRands + 1 }

theorem Rep.drawn {w : World} {a : Act} {u : List Bool} (h : Rep w a u) : Rep w.drawn a u :=
  Rep.mono (w := w) (fun _ _ h => h) h

theorem Rep.ones {w : World} {a : Act} {u : List Bool} (h : Rep w a u) :
    Rep w { a with length := some u.length, nones := some (u.count true) } u :=
  ⟨h.data, h.loaded, rfl, Or.inl rfl, h.entropy, h.rel, h.cov⟩

theorem measureFile_rep {o : Obj} {u : List Bool} (readBack : Bool) (h : Rep o.w o.act u)
    (hl : o.act.lasy = false) :
    (∃ a', measureFile readBack o = (.ok (), ⟨a', o.w.drawn⟩) ∧ Rep o.w.drawn a' u ∧ SameBut o.act a' ∧
      NameFree o.w) ∨
    (∃ e a', measureFile readBack o = (.error e, ⟨a', o.w.drawn⟩) ∧ Rep o.w.drawn a' u ∧ SameBut o.act a' ∧
      ¬ NameFree o.w) := by
  obtain ⟨a1, r1, r2, r3, r4⟩ := raw_rep h
  have hl1 : a1.lasy = false := r3.lasy.trans hl
  by_cases hn : NameFree o.w
  · left
    have hn' := hn
    rw [NameFree] at hn'
    have hw : write (arr u) ⟨a1, o.w⟩ = (.ok true, ⟨{ a1 with
        length := some u.length, nones := some (u.count true),
        data := .file (.vec (o.w.rands o.w.nRands)) }, o.w.wrote (arr u)⟩) := by
      simp only [write, arr_mod]
      simp [Py.bind_run, setSelf, askRand, exists?, setWorld, countOnes_arr, World.wrote, hn']
    have hfiles : (fun q => if q = Path.vec (o.w.rands o.w.nRands) then none
        else (o.w.wrote (arr u)).files q) = o.w.files := by
      funext q
      by_cases hq : q = Path.vec (o.w.rands o.w.nRands)
      · subst hq; simp [hn']
      · simp [World.wrote, hq]
    have hgot : (o.w.wrote (arr u)).files (.vec (o.w.rands o.w.nRands)) = some (arr u) := by
      simp [World.wrote]
    refine ⟨{ a1 with length := some u.length, nones := some (u.count true) }, ?_, r2.ones.drawn,
      ⟨r3.data, r3.optimize, r3.toFile, r3.lasy, fun _ => rfl, r3.ent⟩, hn⟩
    have hd : ({ a1 with length := some u.length, nones := some (u.count true), data := o.act.data } : Act) =
        { a1 with length := some u.length, nones := some (u.count true) } := by
      rw [← r3.data]
    have hld : ({ a1 with length := some u.length, nones := some (u.count true), loaded := true,
                          data := o.act.data } : Act) =
        { a1 with length := some u.length, nones := some (u.count true) } := by
      rw [← r3.data, ← r2.loaded]
    cases readBack with
    | false =>
      simp only [measureFile, Py.bind_run, Py.get_run, r1, hw, Bool.false_eq_true, if_false, unlink, hgot,
        setWorld, setSelf, Py.modify_run, Py.pure_run, hfiles, hd]
      rfl
    | true =>
      simp only [measureFile, Py.bind_run, Py.get_run, r1, hw, if_true, unlink, hgot, Activation.read,
        setWorld, setSelf, Py.modify_run, Py.pure_run, hfiles, hld, Option.isNone_some, Bool.false_eq_true,
        if_false]
      rfl
  · right
    have hs : (o.w.files (.vec (o.w.rands o.w.nRands))).isSome = true := by
      rw [NameFree] at hn
      cases h : o.w.files (.vec (o.w.rands o.w.nRands)) <;> simp_all
    have hw : ∃ e, write (arr u) ⟨a1, o.w⟩ = (.error e, ⟨{ a1 with
        length := some u.length, nones := some (u.count true) }, o.w.drawn⟩) := by
      simp only [write, arr_mod]
      by_cases hm : o.w.rands o.w.nRands + 1 = randMax
      · exact ⟨.typeError, by
          simp [Py.bind_run, setSelf, askRand, exists?, hl1, hs, hm, countOnes_arr, World.drawn]⟩
      · exact ⟨.valueError, by
          simp [Py.bind_run, setSelf, askRand, exists?, hl1, hs, hm, countOnes_arr, World.drawn]⟩
    obtain ⟨e, hw⟩ := hw
    refine ⟨e, _, ?_, r2.ones.drawn, ⟨r3.data, r3.optimize, r3.toFile, r3.lasy, fun _ => rfl, r3.ent⟩, hn⟩
    simp only [measureFile, Py.bind_run, Py.get_run, r1, hw]


/-- Other data for the same vector, all that is remembered staying right. -/
theorem Rep.holding {w : World} {a : Act} {u : List Bool} {d : Data} (h : Rep w a u) (hd : DataRep w d u)
    (hn : a.nones.isSome = true ∨ d.lateOnes = true) (he : a.entropy.isSome = true ∨ d.isCompressed = false) :
    Rep w { a with data := d } u := by
  refine ⟨hd, h.loaded, h.length, ?_, ?_, h.rel, h.cov⟩
  · rcases h.nones with h1 | ⟨h1, h2⟩
    · exact Or.inl h1
    · rcases hn with hn | hn
      · rw [h1] at hn; cases hn
      · exact Or.inr ⟨h1, hn⟩
  · rcases h.entropy with h1 | ⟨h1, h2⟩
    · exact Or.inl h1
    · rcases he with he | he
      · rw [h1] at he; cases he
      · exact Or.inr ⟨h1, he⟩

/-- The data of another format stand for the same vector. -/
theorem form_rep {o : Obj} {u : List Bool} (f : Form) (h : Rep o.w o.act u) (hu : u ≠ []) :
    ∃ d a', f.data o = (.ok d, ⟨a', o.w⟩) ∧ Rep o.w a' u ∧ SameBut o.act a' ∧
      ((f = .bitarray ∧ d = .bits u) ∨ Rep o.w { a' with data := d } u) := by
  cases f with
  | raw =>
    obtain ⟨a', r1, r2, r3, r4⟩ := raw_rep h
    refine ⟨.raw (arr u), a', by simp [Form.data, Py.bind_run, r1], r2, r3, Or.inr ?_⟩
    exact Rep.holding r2 rfl (Or.inl (by rw [r4]; rfl)) (Or.inr rfl)
  | bitarray =>
    obtain ⟨a', r1, r2, r3⟩ := asBitarray_rep h
    exact ⟨.bits u, a', by simp [Form.data, Py.bind_run, r1, orMissing], r2, r3, Or.inl ⟨rfl, rfl⟩⟩
  | integer =>
    obtain ⟨a', r1, r2, r3⟩ := asInteger_rep h hu
    refine ⟨.int (numeral u), a', by simp [Form.data, Py.bind_run, r1, orMissing], r2, r3, Or.inr ?_⟩
    exact Rep.holding r2 ⟨rfl, hu⟩ (Or.inr rfl) (Or.inr rfl)
  | compressed =>
    obtain ⟨s, a', r1, r2, r3, r4, r5⟩ := asCompressedStr_rep h hu
    refine ⟨.text s, a', by simp [Form.data, Py.bind_run, r1], r3, r4, Or.inr ?_⟩
    exact Rep.holding r3 ⟨r2, hu⟩ (Or.inr rfl) (Or.inl r5)

/-- An object which knows the entropy of its vector and their ratio. -/
def Act.entropic (a : Act) (u : List Bool) : Act :=
  { a with entropy := Option.some (ent u), relEntropy := Option.some ⟨ent u, u.length⟩ }

/-- Holding the bits, whether the number of ones is known or not. -/
theorem form_bits {w : World} {a : Act} {u : List Bool} (f : Form) (hl : a.loaded = true)
    (hlen : a.length = some u.length) (hrel : a.relEntropy = none ∨ a.relEntropy = some ⟨ent u, u.length⟩)
    (hu : u ≠ []) (hd : a.data = .bits u) :
    ∃ d a', f.data ⟨a, w⟩ = (.ok d, ⟨a', w⟩) ∧ (a' = a ∨ a' = a.entropic u) := by
  have hraw : Activation.raw ⟨a, w⟩ = (.ok (arr u), ⟨a, w⟩) := by
    simp [Activation.raw, Py.bind_run, hl, hd]; rfl
  cases f with
  | raw => exact ⟨.raw (arr u), a, by simp [Form.data, Py.bind_run, hraw], Or.inl rfl⟩
  | bitarray => exact ⟨.bits u, a, by simp [Form.data, Py.bind_run, asBitarray, hd, orMissing], Or.inl rfl⟩
  | integer =>
    have hbi : bitarrayToInteger u = .ok (numeral u) := by
      rw [bitarrayToInteger_eq u hu, bitsVal_eq_numeral]
    exact ⟨.int (numeral u), a, by simp [Form.data, Py.bind_run, asInteger, hd, hbi, orMissing], Or.inl rfl⟩
  | compressed =>
    refine ⟨.text (render (comp u)), a.entropic u, ?_, Or.inr rfl⟩
    have hdiv := divLength_run (o := ⟨{ a with entropy := some (ent u) }, w⟩) (ent u) hlen (length_ne_zero hu)
    rcases hrel with hr | hr
    · simp [Form.data, asCompressedStr, Py.bind_run, hd, hraw, compressToText_arr hu, compLen_str hu, setSelf,
        hr, Act.entropic]
      rw [hd, hr] at hdiv
      rw [hdiv]
    · simp [Form.data, asCompressedStr, Py.bind_run, hd, hraw, compressToText_arr hu, compLen_str hu, setSelf,
        hr, Act.entropic]

theorem measureTime_rep {o : Obj} {u : List Bool} (src dst : Form) (h : Rep o.w o.act u) (hu : u ≠ []) :
    ∃ a', measureTime src dst o = (.ok (), ⟨a', o.w⟩) ∧ Rep o.w a' u ∧ SameBut o.act a' := by
  obtain ⟨d, a1, r1, r2, r3, r4⟩ := form_rep src h hu
  -- putting the data back
  have back : ∀ a2 : Act, a2.loaded = true → a2.length = some u.length →
      (a2.nones = some (u.count true) ∨ a2.nones = none) → (a1.nones.isSome = true → a2.nones.isSome = true) →
      (a2.entropy = some (ent u) ∨ a2.entropy = none) → (a1.entropy.isSome = true → a2.entropy.isSome = true) →
      (a2.relEntropy = none ∨ a2.relEntropy = some ⟨ent u, u.length⟩) →
      (a2.coverage = none ∨ a2.coverage = some ⟨u.count true, u.length⟩) →
      Rep o.w { a2 with data := o.act.data } u := by
    intro a2 b1 b2 b3 b4 b5 b6 b7 b8
    refine ⟨h.data, b1, b2, ?_, ?_, b7, b8⟩
    · rcases b3 with b3 | b3
      · exact Or.inl b3
      · refine Or.inr ⟨b3, ?_⟩
        rcases h.nones with h1 | ⟨_, h2⟩
        · have := b4 (r3.ones (by rw [h1]; rfl))
          rw [b3] at this; cases this
        · exact h2
    · rcases b5 with b5 | b5
      · exact Or.inl b5
      · refine Or.inr ⟨b5, ?_⟩
        rcases h.entropy with h1 | ⟨_, h2⟩
        · have := b6 (r3.ent (by rw [h1]; rfl))
          rw [b5] at this; cases this
        · exact h2
  have run : ∀ (d' : Data) (a2 : Act), dst.data ⟨{ a1 with data := d }, o.w⟩ = (.ok d', ⟨a2, o.w⟩) →
      measureTime src dst o = (.ok (), ⟨{ a2 with data := o.act.data }, o.w⟩) := by
    intro d' a2 e
    simp only [measureTime, Py.bind_run, Py.get_run, r1, setSelf, Py.modify_run, e]
  rcases r4 with ⟨_, rfl⟩ | r4
  · obtain ⟨d', a2, e1, e2⟩ := form_bits (w := o.w) (a := { a1 with data := .bits u }) dst r2.loaded r2.length
      r2.rel hu rfl
    refine ⟨_, run d' a2 e1, ?_, ?_⟩
    · rcases e2 with rfl | rfl
      · refine back _ r2.loaded r2.length ?_ id ?_ id r2.rel r2.cov
        · rcases r2.nones with x | x
          · exact Or.inl x
          · exact Or.inr x.1
        · rcases r2.entropy with x | x
          · exact Or.inl x
          · exact Or.inr x.1
      · refine back _ r2.loaded r2.length ?_ id (Or.inl rfl) (fun _ => rfl) (Or.inr rfl) r2.cov
        rcases r2.nones with x | x
        · exact Or.inl x
        · exact Or.inr x.1
    · rcases e2 with rfl | rfl
      · exact ⟨rfl, r3.optimize, r3.toFile, r3.lasy, r3.ones, r3.ent⟩
      · exact ⟨rfl, r3.optimize, r3.toFile, r3.lasy, r3.ones, fun _ => rfl⟩
  · obtain ⟨d', a2, e1, e2, e3, _⟩ := form_rep (o := ⟨{ a1 with data := d }, o.w⟩) dst r4 hu
    refine ⟨_, run d' a2 e1, ?_, ⟨rfl, e3.optimize.trans r3.optimize, e3.toFile.trans r3.toFile,
      e3.lasy.trans r3.lasy, fun x => e3.ones (r3.ones x), fun x => e3.ent (r3.ent x)⟩⟩
    refine back _ e2.loaded e2.length ?_ e3.ones ?_ e3.ent e2.rel e2.cov
    · rcases e2.nones with x | x
      · exact Or.inl x
      · exact Or.inr x.1
    · rcases e2.entropy with x | x
      · exact Or.inl x
      · exact Or.inr x.1

/-- The figures which are found by writing a file. -/
def Gauge.writes : Gauge → Bool
  | .sizeofPath | .sizeofFile | .timeWrite | .timeRead => true
  | _ => false

/-- Measuring, whether it raises or not, leaves an object standing for the same vector with the same data, and
all files as they were. -/
theorem measure_rep {o : Obj} {u : List Bool} (g : Gauge) (missing forced : Bool) (h : Rep o.w o.act u)
    (hl : o.act.lasy = false) (hu : u ≠ []) :
    ∃ r a' w', g.measure missing forced o = (r, ⟨a', w'⟩) ∧ (w' = o.w ∨ w' = o.w.drawn) ∧ Rep w' a' u ∧
      SameBut o.act a' ∧
      ((∃ e, r = .error e) → g.writes = true ∧ missing = true ∧ forced = true ∧ ¬ NameFree o.w) := by
  cases missing with
  | false => exact ⟨.ok (), o.act, o.w, rfl, Or.inl rfl, h, SameBut.refl _, by rintro ⟨e, he⟩; cases he⟩
  | true =>
  cases forced with
  | false => exact ⟨.ok (), o.act, o.w, rfl, Or.inl rfl, h, SameBut.refl _, by rintro ⟨e, he⟩; cases he⟩
  | true =>
  have reader : ∀ {α : Type} (m : Meth α) (x : α) (a' : Act), m o = (.ok x, ⟨a', o.w⟩) →
      (do let _ ← m; pure () : Meth Unit) o = (.ok (), ⟨a', o.w⟩) := by
    intro α m x a' e
    simp only [Py.bind_run, e, Py.pure_run]
  have done : ∀ a', g.measure true true o = (.ok (), ⟨a', o.w⟩) → Rep o.w a' u → SameBut o.act a' →
      ∃ r a' w', g.measure true true o = (r, ⟨a', w'⟩) ∧ (w' = o.w ∨ w' = o.w.drawn) ∧ Rep w' a' u ∧
      SameBut o.act a' ∧
      ((∃ e, r = .error e) → g.writes = true ∧ true = true ∧ true = true ∧ ¬ NameFree o.w) :=
    fun a' e e1 e2 => ⟨.ok (), a', o.w, e, Or.inl rfl, e1, e2, by rintro ⟨e, he⟩; cases he⟩
  have file : ∀ b, g.measure true true o = measureFile b o → g.writes = true →
      ∃ r a' w', g.measure true true o = (r, ⟨a', w'⟩) ∧ (w' = o.w ∨ w' = o.w.drawn) ∧ Rep w' a' u ∧
      SameBut o.act a' ∧
      ((∃ e, r = .error e) → g.writes = true ∧ true = true ∧ true = true ∧ ¬ NameFree o.w) := by
    intro b e hw
    rw [e]
    rcases measureFile_rep b h hl with ⟨a', e1, e2, e3, e4⟩ | ⟨er, a', e1, e2, e3, e4⟩
    · exact ⟨_, a', _, e1, Or.inr rfl, e2, e3, by rintro ⟨e, he⟩; cases he⟩
    · exact ⟨_, a', _, e1, Or.inr rfl, e2, e3, fun _ => ⟨hw, rfl, rfl, e4⟩⟩
  cases g with
  | sizeofPath => exact file false rfl rfl
  | sizeofFile => exact file false rfl rfl
  | timeWrite => exact file false rfl rfl
  | timeRead => exact file true rfl rfl
  | sizeofRaw =>
    obtain ⟨a', r1, r2, r3, _⟩ := raw_rep h
    exact done a' (reader _ _ _ r1) r2 r3
  | sizeofBitarray =>
    obtain ⟨a', r1, r2, r3⟩ := asBitarray_rep h
    exact done a' (reader _ _ _ r1) r2 r3
  | sizeofInteger =>
    obtain ⟨a', r1, r2, r3⟩ := asInteger_rep h hu
    exact done a' (reader _ _ _ r1) r2 r3
  | sizeofCompressedArray =>
    obtain ⟨a', r1, r2, r3⟩ := asCompressedArray_rep h hu
    exact done a' (reader _ _ _ r1) r2 r3
  | sizeofCompressedStr =>
    obtain ⟨s, a', r1, _, r2, r3, _⟩ := asCompressedStr_rep h hu
    exact done a' (reader _ _ _ r1) r2 r3
  | time src dst =>
    obtain ⟨a', r1, r2, r3⟩ := measureTime_rep src dst h hu
    exact done a' r1 r2 r3

/-- Measuring a live object of a heap. -/
theorem measure_abs {d : Nat → Option Arr} {us : List (Option (List Bool))} {h : Heap} {i : Nat}
    {u : List Bool} (g : Gauge) (missing forced : Bool) (habs : Abs d h us) (hi : us[i]? = some (some u)) :
    ∃ r h' h0, onObj i (g.measure missing forced) h = (r, h') ∧ Abs d h' us ∧ SameObjs h h0 ∧ h'.objs = h0.objs ∧
      (h'.w = h.w ∨ h'.w = h.w.drawn) ∧
      ((∃ e, r = .error e) → g.writes = true ∧ missing = true ∧ forced = true ∧ ¬ NameFree h.w) := by
  obtain ⟨hne, a, ha, hr⟩ := habs.rep i u hi
  obtain ⟨r, a', w', e1, e2, e3, e4, e5⟩ := measure_rep (o := ⟨a, h.w⟩) g missing forced hr (habs.eager i u a hi ha) hne
  have hr0 : Rep h.w a' u := by
    refine ⟨?_, e3.loaded, e3.length, e3.nones, e3.entropy, e3.rel, e3.cov⟩
    rw [e4.data]; exact hr.data
  obtain ⟨h1, f1, f2, f3⟩ := onObj_reader habs hi (Py.modify fun _ => ⟨a', h.w⟩) () (fun b hb _ => by
    rw [ha] at hb; cases hb
    exact ⟨a', rfl, hr0, e4⟩)
  rw [onObj_run ha] at f1
  cases f1
  refine ⟨r, ⟨h.objs.set i a', w'⟩, _, by rw [onObj_run ha, e1], ?_, f3, rfl, e2, e5⟩
  rcases e2 with rfl | rfl
  · exact f2
  · exact f2.mono (fun _ _ x => x) (fun _ => rfl)

end Verif.Activation
