import Verif.Activation
import Verif.CodecLemmas

/-!
Helper lemmas about the `Activation` model: when an object stands for a vector, and that the readers then
answer for this vector.
-/

set_option linter.unusedSimpArgs false

namespace Verif.Activation

open Verif Verif.Codec Verif.Spec

/-- Canonical compressed form of a vector. -/
def comp : List Bool → List Nat
  | [] => []
  | x :: t => compressList x.toNat (arr t)

/-- Entropy of a vector: number of changes plus two. -/
def ent (u : List Bool) : Nat := (changes u).length + 2

theorem comp_length {u : List Bool} (h : u ≠ []) : (comp u).length = ent u := by
  cases u with
  | nil => exact absurd rfl h
  | cons x t => simp [comp, compressList_eq, chg_eq_changes, ent]

theorem comp_getLast? {u : List Bool} (h : u ≠ []) : (comp u).getLast? = some u.length := by
  cases u with
  | nil => exact absurd rfl h
  | cons x t => rw [comp, compressList_eq, ← List.cons_append, List.getLast?_concat]; rfl

theorem comp_two {u : List Bool} (h : u ≠ []) : ∃ a b l, comp u = a :: b :: l := by
  cases u with
  | nil => exact absurd rfl h
  | cons x t =>
    rw [comp, compressList_eq]
    cases hc : chg 0 x t ++ [t.length + 1] with
    | nil => simp at hc
    | cons b l => exact ⟨_, _, _, rfl⟩

theorem expand_comp {u : List Bool} (h : u ≠ []) : expand (comp u) = .ok (arr u) := by
  cases u with
  | nil => exact absurd rfl h
  | cons x t => exact expand_compressList x t

theorem literalEval_comp {u : List Bool} (h : u ≠ []) :
    literalEval (render (comp u)) = .ok (.tuple (comp u)) := by
  obtain ⟨a, b, l, h'⟩ := comp_two h
  rw [h']; exact literalEval_render a b l

theorem compress_arr_str {u : List Bool} (h : u ≠ []) :
    compress (arr u) .str = .text (render (comp u)) := by
  cases u with
  | nil => exact absurd rfl h
  | cons x t => exact compress_str x t

theorem compress_arr_ndarray {u : List Bool} (h : u ≠ []) :
    compress (arr u) .ndarray = .array (comp u) := by
  cases u with
  | nil => exact absurd rfl h
  | cons x t => exact compress_ndarray x t

theorem decompressStr_of_literal {s : List Char} {u : List Bool} (h : u ≠ [])
    (hs : literalEval s = .ok (.tuple (comp u))) : decompressStr s = .ok (arr u) := by
  have hne : s ≠ [] := by
    intro hc; subst hc
    revert hs
    simp [literalEval, splitComma, parseNat]
  rw [decompressStr, if_neg hne, hs]
  exact expand_comp h

theorem decompressArr_comp {u : List Bool} (h : 2 ≤ u.length) : decompressArr (comp u) = .ok (arr u) := by
  match u, h with
  | x :: y :: t, _ => exact decompressArr_compressList x (y :: t) (by simp)

theorem compLen_str {u : List Bool} (h : u ≠ []) : compLen (.text (render (comp u))) .str = .ok (ent u) := by
  simp [compLen, literalEval_comp h, Bind.bind, Except.bind, comp_length h]

theorem countOnes_arr (u : List Bool) : countOnes (arr u) = u.count true := by
  induction u with
  | nil => rfl
  | cons x t ih =>
    cases x <;> simp_all [countOnes]

theorem arr_mod (u : List Bool) : (arr u).map (· % 256) = arr u := by
  conv => rhs; rw [← List.map_id (arr u)]
  apply List.map_congr_left
  intro x hx
  have := arr_le_one u x hx
  simp only [id]; omega

/-- The stored data stand for the vector `u`. -/
def DataRep (w : World) (d : Data) (u : List Bool) : Prop :=
  match d with
  | .bits b => b = u
  | .int n => n = numeral u ∧ u ≠ []
  | .text s => literalEval s = .ok (.tuple (comp u)) ∧ u ≠ []
  | .carr c => c = comp u ∧ 2 ≤ u.length
  | .raw v => v = arr u
  | .file p => w.files p = some (arr u)
  | .deleted _ => False

/-- Formats for which the number of ones may be unknown until the vector is read. -/
def Data.lateOnes : Data → Bool
  | .int _ | .text _ | .carr _ => true
  | _ => false

/-- Formats whose entropy is known from the start. -/
def Data.isCompressed : Data → Bool
  | .text _ | .carr _ => true
  | _ => false

/-- A loaded object stands for the vector `u`, all it remembers about it being right. -/
structure Rep (w : World) (a : Act) (u : List Bool) : Prop where
  data : DataRep w a.data u
  loaded : a.loaded = true
  length : a.length = some u.length
  nones : a.nones = some (u.count true) ∨ (a.nones = none ∧ a.data.lateOnes = true)
  entropy : a.entropy = some (ent u) ∨ (a.entropy = none ∧ a.data.isCompressed = false)
  rel : a.relEntropy = none ∨ a.relEntropy = some ⟨ent u, u.length⟩
  cov : a.coverage = none ∨ a.coverage = some ⟨u.count true, u.length⟩

/-- `a'` is `a` with possibly more remembered. -/
structure SameBut (a a' : Act) : Prop where
  data : a'.data = a.data
  optimize : a'.optimize = a.optimize
  toFile : a'.toFile = a.toFile
  lasy : a'.lasy = a.lasy
  ones : a.nones.isSome = true → a'.nones.isSome = true
  ent : a.entropy.isSome = true → a'.entropy.isSome = true

theorem SameBut.refl (a : Act) : SameBut a a := ⟨rfl, rfl, rfl, rfl, id, id⟩

theorem SameBut.trans {a b c : Act} (h : SameBut a b) (h' : SameBut b c) : SameBut a c :=
  ⟨h'.data.trans h.data, h'.optimize.trans h.optimize, h'.toFile.trans h.toFile, h'.lasy.trans h.lasy,
    fun x => h'.ones (h.ones x), fun x => h'.ent (h.ent x)⟩

theorem selfIntegerToRaw_rep {o : Obj} {u : List Bool} {n : Nat} (h : Rep o.w o.act u)
    (hd : o.act.data = .int n) :
    ∃ a', selfIntegerToRaw n o = (.ok (arr u), ⟨a', o.w⟩) ∧ Rep o.w a' u ∧ SameBut o.act a' ∧
      a'.nones = some (u.count true) := by
  have hdat := h.data
  rw [hd] at hdat
  obtain ⟨rfl, hne⟩ := hdat
  have hr : integerToRaw (numeral u) u.length = .ok (arr u) := by
    rw [← bitsVal_eq_numeral]; exact integerToRaw_bitsVal u hne
  refine ⟨{ o.act with nones := some (u.count true) }, ?_, ?_, ⟨rfl, rfl, rfl, rfl, fun _ => rfl, id⟩, rfl⟩
  · rcases h.nones with h1 | ⟨h1, _⟩ <;>
      simp [selfIntegerToRaw, Py.bind_run, h.length, hr, setSelf, h1, countOnes_arr]
  · exact ⟨h.data, h.loaded, h.length, Or.inl rfl, h.entropy, h.rel, h.cov⟩

theorem selfDecompress_rep {o : Obj} {u : List Bool} (h : Rep o.w o.act u)
    (hd : o.act.data.isCompressed = true) :
    ∃ a', selfDecompress o = (.ok (arr u), ⟨a', o.w⟩) ∧ Rep o.w a' u ∧ SameBut o.act a' ∧
      a'.nones = some (u.count true) := by
  refine ⟨{ o.act with nones := some (u.count true) }, ?_,
    ⟨h.data, h.loaded, h.length, Or.inl rfl, h.entropy, h.rel, h.cov⟩, ⟨rfl, rfl, rfl, rfl, fun _ => rfl, id⟩, rfl⟩
  have hdat := h.data
  cases hdd : o.act.data with
  | text s =>
    rw [hdd] at hdat
    have hr := decompressStr_of_literal hdat.2 hdat.1
    rcases h.nones with h1 | ⟨h1, _⟩ <;>
      simp [selfDecompress, Py.bind_run, hdd, hr, noteOnes, setSelf, h1, countOnes_arr]
  | carr c =>
    rw [hdd] at hdat
    obtain ⟨rfl, h2⟩ := hdat
    have hr := decompressArr_comp h2
    rcases h.nones with h1 | ⟨h1, _⟩ <;>
      simp [selfDecompress, Py.bind_run, hdd, hr, noteOnes, setSelf, h1, countOnes_arr]
  | _ => simp [hdd, Data.isCompressed] at hd

theorem read_rep {o : Obj} {u : List Bool} {p : Path} (h : Rep o.w o.act u)
    (hd : o.act.data = .file p) :
    ∃ a', read none o = (.ok (arr u), ⟨a', o.w⟩) ∧ Rep o.w a' u ∧ SameBut o.act a' ∧
      a'.nones = some (u.count true) := by
  have hdat := h.data
  rw [hd] at hdat
  have hf : o.w.files p = some (arr u) := hdat
  refine ⟨{ o.act with nones := some (u.count true), loaded := true }, ?_,
    ⟨h.data, rfl, h.length, Or.inl rfl, h.entropy, h.rel, h.cov⟩, ⟨rfl, rfl, rfl, rfl, fun _ => rfl, id⟩, rfl⟩
  rcases h.nones with h1 | ⟨h1, h2⟩
  · simp [read, Py.bind_run, hd, hf, setSelf, h1]
  · simp [hd, Data.lateOnes] at h2

theorem raw_rep {o : Obj} {u : List Bool} (h : Rep o.w o.act u) :
    ∃ a', raw o = (.ok (arr u), ⟨a', o.w⟩) ∧ Rep o.w a' u ∧ SameBut o.act a' ∧
      a'.nones = some (u.count true) := by
  have hdat := h.data
  cases hd : o.act.data with
  | bits b =>
    rw [hd] at hdat
    have hb : b = u := hdat
    subst hb
    refine ⟨o.act, ?_, h, SameBut.refl _, ?_⟩
    · simp [raw, Py.bind_run, h.loaded, hd]; rfl
    · rcases h.nones with h1 | ⟨_, h2⟩
      · exact h1
      · simp [hd, Data.lateOnes] at h2
  | raw v =>
    rw [hd] at hdat
    have hb : v = arr u := hdat
    subst hb
    refine ⟨o.act, ?_, h, SameBut.refl _, ?_⟩
    · simp [raw, Py.bind_run, h.loaded, hd]
    · rcases h.nones with h1 | ⟨_, h2⟩
      · exact h1
      · simp [hd, Data.lateOnes] at h2
  | int n =>
    obtain ⟨a', h1, h2, h3, h4⟩ := selfIntegerToRaw_rep h hd
    exact ⟨a', by simp [raw, Py.bind_run, h.loaded, hd, h1], h2, h3, h4⟩
  | file p =>
    obtain ⟨a', h1, h2, h3, h4⟩ := read_rep h hd
    exact ⟨a', by simp [raw, Py.bind_run, h.loaded, hd, h1], h2, h3, h4⟩
  | text s =>
    obtain ⟨a', h1, h2, h3, h4⟩ := selfDecompress_rep h (by simp [hd, Data.isCompressed])
    exact ⟨a', by simp [raw, Py.bind_run, h.loaded, hd, h1], h2, h3, h4⟩
  | carr c =>
    obtain ⟨a', h1, h2, h3, h4⟩ := selfDecompress_rep h (by simp [hd, Data.isCompressed])
    exact ⟨a', by simp [raw, Py.bind_run, h.loaded, hd, h1], h2, h3, h4⟩
  | deleted c => rw [hd] at hdat; exact hdat.elim


theorem divLength_run {o : Obj} {n : Nat} (k : Nat) (h : o.act.length = some n) (hn : n ≠ 0) :
    divLength k o = (.ok ⟨k, n⟩, o) := by
  obtain ⟨m, rfl⟩ : ∃ m, n = m + 1 := ⟨n - 1, by omega⟩
  simp [divLength, h]

theorem length_ne_zero {u : List Bool} (h : u ≠ []) : u.length ≠ 0 := by
  simpa using h

theorem nones_rep {o : Obj} {u : List Bool} (h : Rep o.w o.act u) (hu : u ≠ []) :
    ∃ a', nones o = (.ok (u.count true), ⟨a', o.w⟩) ∧ Rep o.w a' u ∧ SameBut o.act a' ∧
      a'.coverage = some ⟨u.count true, u.length⟩ := by
  have hl := length_ne_zero hu
  have key : ∀ (a : Act), Rep o.w a u → SameBut o.act a → a.nones = some (u.count true) →
      ∃ a', (do
        let o ← Py.get
        match o.act.nones with
        | none => Py.throw .typeError
        | some k =>
          if o.act.coverage.isNone then
            let c ← divLength k
            setSelf fun a => { a with coverage := some c }
          pure k : Meth Nat) ⟨a, o.w⟩ = (.ok (u.count true), ⟨a', o.w⟩) ∧ Rep o.w a' u ∧
          SameBut o.act a' ∧ a'.coverage = some ⟨u.count true, u.length⟩ := by
    intro a ha hs hn
    refine ⟨{ a with coverage := some ⟨u.count true, u.length⟩ }, ?_,
      ⟨ha.data, ha.loaded, ha.length, ha.nones, ha.entropy, ha.rel, Or.inr rfl⟩,
      ⟨hs.data, hs.optimize, hs.toFile, hs.lasy, hs.ones, hs.ent⟩, rfl⟩
    rcases ha.cov with hc | hc
    · have hd := divLength_run (o := ⟨a, o.w⟩) (u.count true) ha.length hl
      simp [Py.bind_run, hn, hc, hd, setSelf]
    · have e : a = { a with nones := some (u.count true),
                            coverage := some ⟨u.count true, u.length⟩ } := by
        cases a; simp_all
      simp only [Py.bind_run, Py.get_run, hn, hc]
      exact congrArg (fun a => (Except.ok (u.count true), (⟨a, o.w⟩ : Obj))) e
  rcases h.nones with hn | ⟨hn, _⟩
  · obtain ⟨a', h1, h2⟩ := key o.act h (SameBut.refl _) hn
    refine ⟨a', ?_, h2⟩
    rw [← h1]
    simp [nones, Py.bind_run, hn]
  · obtain ⟨a1, r1, r2, r3, r4⟩ := raw_rep h
    obtain ⟨a', h1, h2⟩ := key a1 r2 r3 r4
    refine ⟨a', ?_, h2⟩
    rw [← h1]
    simp [nones, Py.bind_run, hn, r1]
    rfl

theorem coverage_rep {o : Obj} {u : List Bool} (h : Rep o.w o.act u) (hu : u ≠ []) :
    ∃ a', coverage o = (.ok ⟨u.count true, u.length⟩, ⟨a', o.w⟩) ∧ Rep o.w a' u ∧ SameBut o.act a' := by
  rcases h.cov with hc | hc
  · obtain ⟨a1, r1, r2, r3, r4⟩ := nones_rep h hu
    exact ⟨a1, by simp [coverage, Py.bind_run, hc, r1, r4], r2, r3⟩
  · exact ⟨o.act, by simp [coverage, Py.bind_run, hc], h, SameBut.refl _⟩

/-- The end of `entropy`, lines 1201-1203, and of the `as_compressed` readers. -/
theorem relEntropy_tail {w : World} {a : Act} {u : List Bool} {α : Type} (x : α) (h : Rep w a u) (hu : u ≠ []) :
    ∃ a', (do
        let o ← Py.get
        if o.act.relEntropy.isNone then
          let r ← divLength (ent u)
          setSelf fun a => { a with relEntropy := some r }
        pure x : Meth α) ⟨a, w⟩ = (.ok x, ⟨a', w⟩) ∧ Rep w a' u ∧ SameBut a a' ∧
        a'.relEntropy = some ⟨ent u, u.length⟩ := by
  refine ⟨{ a with relEntropy := some ⟨ent u, u.length⟩ }, ?_,
    ⟨h.data, h.loaded, h.length, h.nones, h.entropy, Or.inr rfl, h.cov⟩, ⟨rfl, rfl, rfl, rfl, id, id⟩, rfl⟩
  rcases h.rel with hc | hc
  · have hd := divLength_run (o := ⟨a, w⟩) (ent u) h.length (length_ne_zero hu)
    simp [Py.bind_run, hc, hd, setSelf]
  · simp [Py.bind_run, hc]
    rw [← hc]

theorem Rep.setEntropy {w : World} {a : Act} {u : List Bool} (h : Rep w a u) :
    Rep w { a with entropy := some (ent u) } u :=
  ⟨h.data, h.loaded, h.length, h.nones, Or.inl rfl, h.rel, h.cov⟩

theorem entropy_rep {o : Obj} {u : List Bool} (h : Rep o.w o.act u) (hu : u ≠ []) :
    ∃ a', entropy o = (.ok (ent u), ⟨a', o.w⟩) ∧ Rep o.w a' u ∧ SameBut o.act a' ∧
      a'.relEntropy = some ⟨ent u, u.length⟩ := by
  rcases h.entropy with he | ⟨he, hf⟩
  · obtain ⟨a', h1, h2, h3, h4⟩ := relEntropy_tail (ent u) h hu
    refine ⟨a', ?_, h2, h3, h4⟩
    rw [← h1]
    simp [entropy, Py.bind_run, he]
  · -- the vector is read, compressed and its entropy remembered
    have key : ∀ a1, Rep o.w a1 u → SameBut o.act a1 → ∃ a', (do
        let e ← Py.ofExcept (compLen (compress (arr u) .str) .str)
        setSelf fun a => { a with entropy := some e }
        let o ← Py.get
        match o.act.entropy with
        | none => Py.throw .typeError
        | some e =>
          if o.act.relEntropy.isNone then
            let r ← divLength e
            setSelf fun a => { a with relEntropy := some r }
          pure e : Meth Nat) ⟨a1, o.w⟩ = (.ok (ent u), ⟨a', o.w⟩) ∧ Rep o.w a' u ∧ SameBut o.act a' ∧
        a'.relEntropy = some ⟨ent u, u.length⟩ := by
      intro a1 h1 hs
      obtain ⟨a', g1, g2, g3, g4⟩ := relEntropy_tail (ent u) h1.setEntropy hu
      refine ⟨a', ?_, g2, ⟨g3.data.trans hs.data, g3.optimize.trans hs.optimize,
        g3.toFile.trans hs.toFile, g3.lasy.trans hs.lasy, fun x => g3.ones (hs.ones x), fun _ => g3.ent rfl⟩, g4⟩
      rw [← g1, compress_arr_str hu, compLen_str hu]
      simp [Py.bind_run, setSelf]
    have hdat := h.data
    cases hd : o.act.data with
    | bits b =>
      rw [hd] at hdat
      have hb : b = u := hdat
      obtain ⟨a', k1, k2⟩ := key o.act h (SameBut.refl _)
      refine ⟨a', ?_, k2⟩
      rw [← k1]
      subst hb
      simp only [entropy, Py.bind_run, Py.get_run, he, hd]
      rfl
    | raw v =>
      rw [hd] at hdat
      have hb : v = arr u := hdat
      obtain ⟨a', k1, k2⟩ := key o.act h (SameBut.refl _)
      refine ⟨a', ?_, k2⟩
      rw [← k1]
      subst hb
      simp only [entropy, Py.bind_run, Py.get_run, he, hd]
      rfl
    | int n =>
      obtain ⟨a1, r1, r2, r3, r4⟩ := selfIntegerToRaw_rep h hd
      obtain ⟨a', k1, k2⟩ := key a1 r2 r3
      refine ⟨a', ?_, k2⟩
      rw [← k1]
      simp only [entropy, Py.bind_run, Py.get_run, he, hd, r1]
      rfl
    | file p =>
      obtain ⟨a1, r1, r2, r3, r4⟩ := read_rep h hd
      obtain ⟨a', k1, k2⟩ := key a1 r2 r3
      refine ⟨a', ?_, k2⟩
      rw [← k1]
      simp only [entropy, Py.bind_run, Py.get_run, he, hd, r1]
      rfl
    | text s => simp [hd, Data.isCompressed] at hf
    | carr c => simp [hd, Data.isCompressed] at hf
    | deleted c => rw [hd] at hdat; exact hdat.elim

theorem relEntropy_rep {o : Obj} {u : List Bool} (h : Rep o.w o.act u) (hu : u ≠ []) :
    ∃ a', relEntropy o = (.ok ⟨ent u, u.length⟩, ⟨a', o.w⟩) ∧ Rep o.w a' u ∧ SameBut o.act a' := by
  rcases h.rel with hc | hc
  · obtain ⟨a1, r1, r2, r3, r4⟩ := entropy_rep h hu
    exact ⟨a1, by simp [relEntropy, Py.bind_run, hc, r1, r4], r2, r3⟩
  · exact ⟨o.act, by simp [relEntropy, Py.bind_run, hc], h, SameBut.refl _⟩

theorem ones_rep {o : Obj} {u : List Bool} (h : Rep o.w o.act u) :
    ∃ a', ones o = (.ok (whereOne 0 (arr u)), ⟨a', o.w⟩) ∧ Rep o.w a' u ∧ SameBut o.act a' := by
  obtain ⟨a1, r1, r2, r3, r4⟩ := raw_rep h
  exact ⟨a1, by simp [ones, Py.bind_run, r1], r2, r3⟩

theorem viaDecompress_rep {o : Obj} {u : List Bool} {α : Type} (flag : Bool) (conv : Arr → Except Err α)
    (x : α) (h : Rep o.w o.act u) (hd : o.act.data.isCompressed = true) (hc : conv (arr u) = .ok x) :
    ∃ a', viaDecompress flag conv o = (.ok (some x), ⟨a', o.w⟩) ∧ Rep o.w a' u ∧ SameBut o.act a' := by
  have hw : Rep { o.w with willCompare := flag } o.act u := by
    refine ⟨?_, h.loaded, h.length, h.nones, h.entropy, h.rel, h.cov⟩
    have := h.data
    cases hdd : o.act.data <;> simp_all [DataRep, Data.isCompressed]
  obtain ⟨a1, r1, r2, r3, r4⟩ := selfDecompress_rep (o := ⟨o.act, { o.w with willCompare := flag }⟩) hw hd
  refine ⟨a1, ?_, ⟨?_, r2.loaded, r2.length, r2.nones, r2.entropy, r2.rel, r2.cov⟩, r3⟩
  · have hdat := h.data
    cases hdd : o.act.data with
    | text s => simp [viaDecompress, Py.bind_run, setWorld, r1, hdd, hc]
    | carr c =>
      rw [hdd] at hdat
      obtain ⟨rfl, h2⟩ := hdat
      have hne : u ≠ [] := by intro hh; subst hh; simp at h2
      have hlast : (comp u).getLast?.all (fun x => decide (x ≤ 1)) = false := by
        rw [comp_getLast? hne]; simp; omega
      simp [viaDecompress, Py.bind_run, setWorld, r1, hdd, hc, hlast]
    | _ => simp [hdd, Data.isCompressed] at hd
  · have := r2.data
    rw [r3.data] at this ⊢
    cases hdd : o.act.data <;> simp_all [DataRep, Data.isCompressed]

theorem asBitarray_rep {o : Obj} {u : List Bool} (h : Rep o.w o.act u) :
    ∃ a', asBitarray o = (.ok (some u), ⟨a', o.w⟩) ∧ Rep o.w a' u ∧ SameBut o.act a' := by
  have hdat := h.data
  cases hd : o.act.data with
  | bits b =>
    rw [hd] at hdat
    have hb : b = u := hdat
    subst hb
    exact ⟨o.act, by simp [asBitarray, Py.bind_run, hd], h, SameBut.refl _⟩
  | raw v =>
    rw [hd] at hdat
    have hb : v = arr u := hdat
    subst hb
    exact ⟨o.act, by simp [asBitarray, Py.bind_run, hd, rawToBitarray_arr], h, SameBut.refl _⟩
  | int n =>
    rw [hd] at hdat
    obtain ⟨rfl, hne⟩ := hdat
    have := integerToBitarray_bitsVal u hne
    rw [bitsVal_eq_numeral] at this
    exact ⟨o.act, by simp [asBitarray, Py.bind_run, hd, h.length, this], h, SameBut.refl _⟩
  | file p =>
    obtain ⟨a1, r1, r2, r3, r4⟩ := read_rep h hd
    exact ⟨a1, by simp [asBitarray, Py.bind_run, hd, r1, rawToBitarray_arr], r2, r3⟩
  | text s =>
    obtain ⟨a', k1, k2⟩ := viaDecompress_rep false rawToBitarray u h (by simp [hd, Data.isCompressed])
      (rawToBitarray_arr u)
    exact ⟨a', by simp [asBitarray, Py.bind_run, hd, k1], k2⟩
  | carr c =>
    obtain ⟨a', k1, k2⟩ := viaDecompress_rep false rawToBitarray u h (by simp [hd, Data.isCompressed])
      (rawToBitarray_arr u)
    exact ⟨a', by simp [asBitarray, Py.bind_run, hd, k1], k2⟩
  | deleted c => rw [hd] at hdat; exact hdat.elim

theorem asInteger_rep {o : Obj} {u : List Bool} (h : Rep o.w o.act u) (hu : u ≠ []) :
    ∃ a', asInteger o = (.ok (some (numeral u)), ⟨a', o.w⟩) ∧ Rep o.w a' u ∧ SameBut o.act a' := by
  have hri : rawToInteger (arr u) = .ok (numeral u) := by
    rw [rawToInteger_arr u hu, bitsVal_eq_numeral]
  have hbi : bitarrayToInteger u = .ok (numeral u) := by
    rw [bitarrayToInteger_eq u hu, bitsVal_eq_numeral]
  have hdat := h.data
  cases hd : o.act.data with
  | bits b =>
    rw [hd] at hdat
    have hb : b = u := hdat
    subst hb
    exact ⟨o.act, by simp [asInteger, Py.bind_run, hd, hbi], h, SameBut.refl _⟩
  | raw v =>
    rw [hd] at hdat
    have hb : v = arr u := hdat
    subst hb
    exact ⟨o.act, by simp [asInteger, Py.bind_run, hd, hri], h, SameBut.refl _⟩
  | int n =>
    rw [hd] at hdat
    obtain ⟨rfl, hne⟩ := hdat
    exact ⟨o.act, by simp [asInteger, Py.bind_run, hd], h, SameBut.refl _⟩
  | file p =>
    obtain ⟨a1, r1, r2, r3, r4⟩ := read_rep h hd
    exact ⟨a1, by simp [asInteger, Py.bind_run, hd, r1, hri], r2, r3⟩
  | text s =>
    obtain ⟨a', k1, k2⟩ := viaDecompress_rep true rawToInteger _ h (by simp [hd, Data.isCompressed]) hri
    exact ⟨a', by simp [asInteger, Py.bind_run, hd, k1], k2⟩
  | carr c =>
    obtain ⟨a', k1, k2⟩ := viaDecompress_rep true rawToInteger _ h (by simp [hd, Data.isCompressed]) hri
    exact ⟨a', by simp [asInteger, Py.bind_run, hd, k1], k2⟩
  | deleted c => rw [hd] at hdat; exact hdat.elim

theorem compressToArray_arr {u : List Bool} (hu : u ≠ []) : compressToArray (arr u) = .ok (comp u) := by
  simp [compressToArray, compress_arr_ndarray hu]

theorem compressToText_arr {u : List Bool} (hu : u ≠ []) :
    compressToText (arr u) = .ok (render (comp u)) := by
  simp [compressToText, compress_arr_str hu]

theorem asCompressedArray_rep {o : Obj} {u : List Bool} (h : Rep o.w o.act u) (hu : u ≠ []) :
    ∃ a', asCompressedArray o = (.ok (comp u), ⟨a', o.w⟩) ∧ Rep o.w a' u ∧ SameBut o.act a' := by
  have key : ∀ a1, Rep o.w a1 u → SameBut o.act a1 → ∃ a', (do
        setSelf fun a => { a with entropy := some (comp u).length }
        let o ← Py.get
        if o.act.relEntropy.isNone then
          let r ← divLength (comp u).length
          setSelf fun a => { a with relEntropy := some r }
        pure (comp u) : Meth Arr) ⟨a1, o.w⟩ = (.ok (comp u), ⟨a', o.w⟩) ∧ Rep o.w a' u ∧
        SameBut o.act a' := by
    intro a1 h1 hs
    obtain ⟨a', g1, g2, g3, g4⟩ := relEntropy_tail (comp u) h1.setEntropy hu
    refine ⟨a', ?_, g2, ⟨g3.data.trans hs.data, g3.optimize.trans hs.optimize,
      g3.toFile.trans hs.toFile, g3.lasy.trans hs.lasy, fun x => g3.ones (hs.ones x), fun _ => g3.ent rfl⟩⟩
    rw [← g1, comp_length hu]
    simp [Py.bind_run, setSelf]
  have hdat := h.data
  cases hd : o.act.data with
  | bits b =>
    obtain ⟨a1, r1, r2, r3, r4⟩ := raw_rep h
    obtain ⟨a', k1, k2⟩ := key a1 r2 r3
    refine ⟨a', ?_, k2⟩
    rw [← k1]
    simp only [asCompressedArray, Py.bind_run, Py.get_run, hd, r1, compressToArray_arr hu,
      Py.ofExcept_run]
  | raw v =>
    rw [hd] at hdat
    have hb : v = arr u := hdat
    obtain ⟨a', k1, k2⟩ := key o.act h (SameBut.refl _)
    refine ⟨a', ?_, k2⟩
    rw [← k1]
    subst hb
    simp only [asCompressedArray, Py.bind_run, Py.get_run, hd, compressToArray_arr hu, Py.ofExcept_run]
  | int n =>
    obtain ⟨a1, r1, r2, r3, r4⟩ := raw_rep h
    obtain ⟨a', k1, k2⟩ := key a1 r2 r3
    refine ⟨a', ?_, k2⟩
    rw [← k1]
    simp only [asCompressedArray, Py.bind_run, Py.get_run, hd, r1, compressToArray_arr hu,
      Py.ofExcept_run]
  | file p =>
    obtain ⟨a1, r1, r2, r3, r4⟩ := read_rep h hd
    obtain ⟨a', k1, k2⟩ := key a1 r2 r3
    refine ⟨a', ?_, k2⟩
    rw [← k1]
    simp only [asCompressedArray, Py.bind_run, Py.get_run, hd, r1, compressToArray_arr hu,
      Py.ofExcept_run]
  | text s =>
    rw [hd] at hdat
    have hlit : litArray s = .ok (comp u) := by simp [litArray, hdat.1, Bind.bind, Except.bind]
    obtain ⟨a', k1, k2⟩ := key o.act h (SameBut.refl _)
    refine ⟨a', ?_, k2⟩
    rw [← k1]
    simp only [asCompressedArray, Py.bind_run, Py.get_run, hd, hlit, Py.ofExcept_run]
  | carr c =>
    rw [hd] at hdat
    obtain ⟨rfl, _⟩ := hdat
    obtain ⟨a', k1, k2⟩ := key o.act h (SameBut.refl _)
    refine ⟨a', ?_, k2⟩
    rw [← k1]
    simp only [asCompressedArray, Py.bind_run, Py.get_run, hd, Py.pure_run]
  | deleted c => rw [hd] at hdat; exact hdat.elim

theorem asCompressedStr_rep {o : Obj} {u : List Bool} (h : Rep o.w o.act u) (hu : u ≠ []) :
    ∃ s a', asCompressedStr o = (.ok s, ⟨a', o.w⟩) ∧ literalEval s = .ok (.tuple (comp u)) ∧
      Rep o.w a' u ∧ SameBut o.act a' ∧ a'.entropy.isSome = true := by
  have key : ∀ s a1, literalEval s = .ok (.tuple (comp u)) → Rep o.w a1 u → SameBut o.act a1 → ∃ a', (do
        let e ← Py.ofExcept (compLen (.text s) .str)
        setSelf fun a => { a with entropy := some e }
        let o ← Py.get
        if o.act.relEntropy.isNone then
          let r ← divLength e
          setSelf fun a => { a with relEntropy := some r }
        pure s : Meth (List Char)) ⟨a1, o.w⟩ = (.ok s, ⟨a', o.w⟩) ∧ Rep o.w a' u ∧
        SameBut o.act a' ∧ a'.entropy.isSome = true := by
    intro s a1 hs h1 hsb
    obtain ⟨a', g1, g2, g3, g4⟩ := relEntropy_tail s h1.setEntropy hu
    refine ⟨a', ?_, g2, ⟨g3.data.trans hsb.data, g3.optimize.trans hsb.optimize,
      g3.toFile.trans hsb.toFile, g3.lasy.trans hsb.lasy, fun x => g3.ones (hsb.ones x), fun _ => g3.ent rfl⟩, g3.ent rfl⟩
    have hc : compLen (.text s) .str = .ok (ent u) := by
      simp [compLen, hs, Bind.bind, Except.bind, comp_length hu]
    rw [← g1, hc]
    simp [Py.bind_run, setSelf]
  have hcomp := literalEval_comp hu
  have hdat := h.data
  cases hd : o.act.data with
  | bits b =>
    obtain ⟨a1, r1, r2, r3, r4⟩ := raw_rep h
    obtain ⟨a', k1, k2⟩ := key _ a1 hcomp r2 r3
    refine ⟨_, a', ?_, hcomp, k2⟩
    rw [← k1]
    simp only [asCompressedStr, Py.bind_run, Py.get_run, hd, r1, compressToText_arr hu, Py.ofExcept_run]
  | raw v =>
    rw [hd] at hdat
    have hb : v = arr u := hdat
    obtain ⟨a', k1, k2⟩ := key _ o.act hcomp h (SameBut.refl _)
    refine ⟨_, a', ?_, hcomp, k2⟩
    rw [← k1]
    subst hb
    simp only [asCompressedStr, Py.bind_run, Py.get_run, hd, compressToText_arr hu, Py.ofExcept_run]
  | int n =>
    obtain ⟨a1, r1, r2, r3, r4⟩ := raw_rep h
    obtain ⟨a', k1, k2⟩ := key _ a1 hcomp r2 r3
    refine ⟨_, a', ?_, hcomp, k2⟩
    rw [← k1]
    simp only [asCompressedStr, Py.bind_run, Py.get_run, hd, r1, compressToText_arr hu, Py.ofExcept_run]
  | file p =>
    obtain ⟨a1, r1, r2, r3, r4⟩ := read_rep h hd
    obtain ⟨a', k1, k2⟩ := key _ a1 hcomp r2 r3
    refine ⟨_, a', ?_, hcomp, k2⟩
    rw [← k1]
    simp only [asCompressedStr, Py.bind_run, Py.get_run, hd, r1, compressToText_arr hu, Py.ofExcept_run]
  | text s =>
    rw [hd] at hdat
    obtain ⟨a', k1, k2⟩ := key s o.act hdat.1 h (SameBut.refl _)
    refine ⟨s, a', ?_, hdat.1, k2⟩
    rw [← k1]
    simp only [asCompressedStr, Py.bind_run, Py.get_run, hd, Py.pure_run]
  | carr c =>
    rw [hd] at hdat
    obtain ⟨rfl, _⟩ := hdat
    obtain ⟨a', k1, k2⟩ := key _ o.act hcomp h (SameBut.refl _)
    refine ⟨_, a', ?_, hcomp, k2⟩
    rw [← k1]
    simp only [asCompressedStr, Py.bind_run, Py.get_run, hd, Py.pure_run]
  | deleted c => rw [hd] at hdat; exact hdat.elim


/-! ### Initialisation -/

theorem DataRep.mono {w w' : World} {d : Data} {u : List Bool}
    (hw : ∀ p v, w.files p = some v → w'.files p = some v) (h : DataRep w d u) : DataRep w' d u := by
  cases d <;> simp_all [DataRep]

theorem Rep.mono {w w' : World} {a : Act} {u : List Bool}
    (hw : ∀ p v, w.files p = some v → w'.files p = some v) (h : Rep w a u) : Rep w' a u :=
  ⟨h.data.mono hw, h.loaded, h.length, h.nones, h.entropy, h.rel, h.cov⟩

/-- An object about to be initialised for the vector `u`. -/
structure Fresh (a : Act) (u : List Bool) : Prop where
  loaded : a.loaded = true
  nones : a.nones = none ∨ a.nones = some (u.count true)
  entropy : a.entropy = none
  rel : a.relEntropy = none
  cov : a.coverage = none

/-- The world changed only by more files and by using up machine decisions. -/
structure Grow (w w' : World) : Prop where
  dtype : w'.dtype = w.dtype
  willCompare : w'.willCompare = w.willCompare
  storeRaw : w'.storeRaw = w.storeRaw
  sizes : w'.sizes = w.sizes
  rands : w'.rands = w.rands
  nRands : w.nRands ≤ w'.nRands
  files : ∀ p v, w.files p = some v → w'.files p = some v

theorem Grow.refl (w : World) : Grow w w := ⟨rfl, rfl, rfl, rfl, rfl, Nat.le_refl _, fun _ _ h => h⟩

theorem Grow.trans {w w' w'' : World} (h : Grow w w') (h' : Grow w' w'') : Grow w w'' :=
  ⟨h'.dtype.trans h.dtype, h'.willCompare.trans h.willCompare, h'.storeRaw.trans h.storeRaw,
    h'.sizes.trans h.sizes, h'.rands.trans h.rands, Nat.le_trans h.nRands h'.nRands,
    fun p v hp => h'.files p v (h.files p v hp)⟩

theorem Grow.nSizes (w : World) (k : Nat) : Grow w { w with nSizes := k } :=
  ⟨rfl, rfl, rfl, rfl, rfl, Nat.le_refl _, fun _ _ h => h⟩

/-- The array format cannot hold one-point vectors. -/
def Holds (w : World) (u : List Bool) : Prop := w.dtype = .str ∨ 2 ≤ u.length

theorem compress_holds {w : World} {u : List Bool} (hu : u ≠ []) (hh : Holds w u) :
    ∃ c, compress (arr u) w.dtype = c ∧ compLen c w.dtype = .ok (ent u) ∧
      ∀ w', DataRep w' (Compressed.toData c) u ∧ (Compressed.toData c).isCompressed = true := by
  cases hd : w.dtype with
  | str =>
    refine ⟨_, compress_arr_str hu, compLen_str hu, fun w' => ⟨⟨literalEval_comp hu, hu⟩, rfl⟩⟩
  | ndarray =>
    refine ⟨_, compress_arr_ndarray hu, by simp [compLen, comp_length hu], fun w' => ⟨⟨rfl, ?_⟩, rfl⟩⟩
    rcases hh with hh | hh
    · rw [hd] at hh; cases hh
    · exact hh

/-- An object knowing everything about the vector `u`, with the data `d`. -/
def Act.full (a : Act) (u : List Bool) (d : Data) : Act :=
  { a with
    length := some u.length
    nones := some (u.count true)
    entropy := some (ent u)
    relEntropy := some ⟨ent u, u.length⟩
    data := d }

/-- An object which knows all but the number of ones. -/
def Act.fullButOnes (a : Act) (u : List Bool) (d : Data) : Act :=
  { a with
    length := some u.length
    entropy := some (ent u)
    relEntropy := some ⟨ent u, u.length⟩
    data := d }

/-- An object knowing the length and number of ones of the vector `u`. -/
def Act.some (a : Act) (u : List Bool) (d : Data) : Act :=
  { a with
    length := Option.some u.length
    nones := Option.some (u.count true)
    data := d }

theorem initBitarray_rep {o : Obj} {u : List Bool} (hf : Fresh o.act u)
    (hu : o.act.optimize = true → u ≠ [] ∧ Holds o.w u) :
    ∃ a' k, initBitarray u o = (.ok (), ⟨a', { o.w with nSizes := k }⟩) ∧
      Rep { o.w with nSizes := k } a' u ∧ a'.optimize = o.act.optimize ∧ a'.toFile = o.act.toFile ∧
      a'.lasy = o.act.lasy ∧ a'.data.inFile = false := by
  by_cases ho : o.act.optimize = true
  · obtain ⟨hne, hh⟩ := hu ho
    obtain ⟨c, hc, hl, hdat⟩ := compress_holds hne hh
    have hlen := length_ne_zero hne
    have hbr : bitarrayToRaw u = arr u := rfl
    cases hs : o.w.sizes o.w.nSizes with
    | true =>
      refine ⟨o.act.full u (.bits u), o.w.nSizes + 1, ?_,
        ⟨rfl, hf.loaded, rfl, Or.inl rfl, Or.inl rfl, Or.inr rfl, Or.inl hf.cov⟩, rfl, rfl, rfl, rfl⟩
      simp [initBitarray, Py.bind_run, setSelf, Act.full, Act.fullButOnes, Act.some, ho, hbr, hc, hl, hne, askSize, hs]
    | false =>
      refine ⟨o.act.full u (Compressed.toData c), o.w.nSizes + 1, ?_,
        ⟨(hdat _).1, hf.loaded, rfl, Or.inl rfl, Or.inl rfl, Or.inr rfl, Or.inl hf.cov⟩, rfl, rfl, rfl, by cases c <;> rfl⟩
      simp [initBitarray, Py.bind_run, setSelf, Act.full, Act.fullButOnes, Act.some, ho, hbr, hc, hl, hne, askSize, hs]
  · refine ⟨o.act.some u (.bits u),
        o.w.nSizes, ?_,
        ⟨rfl, hf.loaded, rfl, Or.inl rfl, Or.inr ⟨hf.entropy, rfl⟩, Or.inl hf.rel, Or.inl hf.cov⟩,
        rfl, rfl, rfl, rfl⟩
    simp [initBitarray, Py.bind_run, setSelf, Act.full, Act.fullButOnes, Act.some, ho]

theorem initInteger_rep {o : Obj} {u : List Bool} (hf : Fresh o.act u) (hne : u ≠ [])
    (hu : o.act.optimize = true → Holds o.w u) :
    ∃ a' k, initInteger (numeral u) (some u.length) o = (.ok (), ⟨a', { o.w with nSizes := k }⟩) ∧
      Rep { o.w with nSizes := k } a' u ∧ a'.optimize = o.act.optimize ∧ a'.toFile = o.act.toFile ∧
      a'.lasy = o.act.lasy ∧ a'.data.inFile = false := by
  have hr : integerToRaw (numeral u) u.length = .ok (arr u) := by
    rw [← bitsVal_eq_numeral]; exact integerToRaw_bitsVal u hne
  by_cases ho : o.act.optimize = true
  · have hh := hu ho
    obtain ⟨c, hc, hl, hdat⟩ := compress_holds hne hh
    have hlen := length_ne_zero hne
    cases hs : o.w.sizes o.w.nSizes with
    | true =>
      refine ⟨o.act.full u (.int (numeral u)), o.w.nSizes + 1, ?_,
        ⟨⟨rfl, hne⟩, hf.loaded, rfl, Or.inl rfl, Or.inl rfl, Or.inr rfl, Or.inl hf.cov⟩, rfl, rfl, rfl, rfl⟩
      simp [initInteger, Py.bind_run, setSelf, Act.full, Act.fullButOnes, Act.some, ho, hr, hc, hl, hne, askSize, hs, countOnes_arr]
    | false =>
      refine ⟨o.act.full u (Compressed.toData c), o.w.nSizes + 1, ?_,
        ⟨(hdat _).1, hf.loaded, rfl, Or.inl rfl, Or.inl rfl, Or.inr rfl, Or.inl hf.cov⟩, rfl, rfl, rfl, by cases c <;> rfl⟩
      simp [initInteger, Py.bind_run, setSelf, Act.full, Act.fullButOnes, Act.some, ho, hr, hc, hl, hne, askSize, hs, countOnes_arr]
  · refine ⟨{ o.act with length := some u.length, data := .int (numeral u) },
        o.w.nSizes, ?_,
        ⟨⟨rfl, hne⟩, hf.loaded, rfl, ?_, Or.inr ⟨hf.entropy, rfl⟩, Or.inl hf.rel, Or.inl hf.cov⟩,
        rfl, rfl, rfl, rfl⟩
    · simp [initInteger, Py.bind_run, setSelf, Act.full, Act.fullButOnes, Act.some, ho]
    · rcases hf.nones with h | h
      · exact Or.inr ⟨h, rfl⟩
      · exact Or.inl h

theorem initRaw_rep {o : Obj} {u : List Bool} (hf : Fresh o.act u)
    (hu : o.w.storeRaw = false → u ≠ [] ∧ Holds o.w u) :
    ∃ a' k, initRaw (arr u) o = (.ok (), ⟨a', { o.w with nSizes := k }⟩) ∧
      Rep { o.w with nSizes := k } a' u ∧ a'.optimize = o.act.optimize ∧ a'.toFile = o.act.toFile ∧
      a'.lasy = o.act.lasy ∧ a'.data.inFile = false ∧ (o.w.storeRaw = true → a'.data = .raw (arr u)) := by
  cases hsr : o.w.storeRaw with
  | true =>
    refine ⟨o.act.some u (.raw (arr u)),
        o.w.nSizes, ?_,
        ⟨rfl, hf.loaded, rfl, Or.inl rfl, Or.inr ⟨hf.entropy, rfl⟩, Or.inl hf.rel, Or.inl hf.cov⟩,
        rfl, rfl, rfl, rfl, fun _ => rfl⟩
    show initRaw (arr u) o = (.ok (), ⟨_, o.w⟩)
    simp only [initRaw, arr_mod]
    simp [Py.bind_run, setSelf, Act.full, Act.fullButOnes, Act.some, hsr, countOnes_arr]
  | false =>
    obtain ⟨hne, hh⟩ := hu hsr
    obtain ⟨c, hc, hl, hdat⟩ := compress_holds hne hh
    have hri : rawToInteger (arr u) = .ok (numeral u) := by
      rw [rawToInteger_arr u hne, bitsVal_eq_numeral]
    have hrb := rawToBitarray_arr u
    have hlen : (arr u) ≠ [] := by intro h; apply hne; cases u <;> simp_all
    cases hs : o.w.sizes o.w.nSizes with
    | true =>
      cases hwc : o.w.willCompare with
      | true =>
        refine ⟨o.act.full u (.int (numeral u)), o.w.nSizes + 1, ?_,
          ⟨⟨rfl, hne⟩, hf.loaded, rfl, Or.inl rfl, Or.inl rfl, Or.inr rfl, Or.inl hf.cov⟩,
          rfl, rfl, rfl, rfl, by simp⟩
        simp only [initRaw, arr_mod]
        simp [Py.bind_run, setSelf, Act.full, Act.fullButOnes, Act.some, hc, hl, hne, askSize, hs, countOnes_arr, hri, hwc, hsr]
      | false =>
        refine ⟨o.act.full u (.bits u), o.w.nSizes + 1, ?_,
          ⟨rfl, hf.loaded, rfl, Or.inl rfl, Or.inl rfl, Or.inr rfl, Or.inl hf.cov⟩,
          rfl, rfl, rfl, rfl, by simp⟩
        simp only [initRaw, arr_mod]
        simp [Py.bind_run, setSelf, Act.full, Act.fullButOnes, Act.some, hc, hl, hne, askSize, hs, countOnes_arr, hrb, hwc, hsr]
    | false =>
      refine ⟨o.act.full u (Compressed.toData c), o.w.nSizes + 1, ?_,
          ⟨(hdat _).1, hf.loaded, rfl, Or.inl rfl, Or.inl rfl, Or.inr rfl, Or.inl hf.cov⟩,
          rfl, rfl, rfl, by cases c <;> rfl, by simp⟩
      simp only [initRaw, arr_mod]
      cases hwc : o.w.willCompare <;>
        simp [Py.bind_run, setSelf, Act.full, Act.fullButOnes, Act.some, hc, hl, hne, askSize, hs, countOnes_arr, hri, hrb, hwc, hsr]

theorem initStr_rep {o : Obj} {u : List Bool} {s : List Char} (hf : Fresh o.act u) (hne : u ≠ [])
    (hs : literalEval s = .ok (.tuple (comp u))) :
    ∃ a', initStr s o = (.ok (), ⟨a', o.w⟩) ∧
      Rep o.w a' u ∧ a'.optimize = o.act.optimize ∧ a'.toFile = o.act.toFile ∧ a'.lasy = o.act.lasy ∧ a'.data.inFile = false := by
  refine ⟨o.act.fullButOnes u (.text s), ?_,
          ⟨⟨hs, hne⟩, hf.loaded, rfl, ?_, Or.inl rfl, Or.inr rfl, Or.inl hf.cov⟩,
          rfl, rfl, rfl, rfl⟩
  · simp [initStr, Py.bind_run, hs, setSelf, Act.fullButOnes, comp_getLast? hne, comp_length hne]
  · rcases hf.nones with h | h
    · exact Or.inr ⟨h, rfl⟩
    · exact Or.inl h

theorem initCArr_rep {o : Obj} {u : List Bool} (hf : Fresh o.act u) (h2 : 2 ≤ u.length) :
    ∃ a', initCArr (comp u) o = (.ok (), ⟨a', o.w⟩) ∧
      Rep o.w a' u ∧ a'.optimize = o.act.optimize ∧ a'.toFile = o.act.toFile ∧ a'.lasy = o.act.lasy ∧ a'.data.inFile = false := by
  have hne : u ≠ [] := by intro hh; subst hh; simp at h2
  refine ⟨o.act.fullButOnes u (.carr (comp u)), ?_,
          ⟨⟨rfl, h2⟩, hf.loaded, rfl, ?_, Or.inl rfl, Or.inr rfl, Or.inl hf.cov⟩,
          rfl, rfl, rfl, rfl⟩
  · simp [initCArr, Py.bind_run, setSelf, Act.full, Act.fullButOnes, Act.some, comp_getLast? hne, comp_length hne]
  · rcases hf.nones with h | h
    · exact Or.inr ⟨h, rfl⟩
    · exact Or.inl h

/-- The world after a file was written. -/
def World.wrote (w : World) (v : Arr) : World :=
  { w with
    nRands := w.nRands + 1
    files := fun p => if p = .vec (w.rands w.nRands) then some v else w.files p }

/-- The next file name is not taken. -/
def NameFree (w : World) : Prop := w.files (.vec (w.rands w.nRands)) = none

theorem Grow.wrote {w : World} (v : Arr) (h : NameFree w) : Grow w (w.wrote v) := by
  refine ⟨rfl, rfl, rfl, rfl, rfl, Nat.le_succ _, ?_⟩
  intro p x hp
  simp only [World.wrote]
  split
  · next hc => subst hc; rw [NameFree] at h; rw [h] at hp; cases hp
  · exact hp

theorem write_rep {o : Obj} {u : List Bool} (hf : Fresh o.act u) (hn : o.act.lasy = true ∨ NameFree o.w) :
    ∃ a', write (arr u) o = (.ok true, ⟨a', o.w.wrote (arr u)⟩) ∧
      Rep (o.w.wrote (arr u)) a' u ∧ a'.optimize = o.act.optimize ∧ a'.toFile = o.act.toFile ∧
      a'.lasy = o.act.lasy ∧ a'.data = .file (.vec (o.w.rands o.w.nRands)) := by
  refine ⟨o.act.some u (.file (.vec (o.w.rands o.w.nRands))), ?_,
          ⟨?_, hf.loaded, rfl, Or.inl rfl, Or.inr ⟨hf.entropy, rfl⟩, Or.inl hf.rel, Or.inl hf.cov⟩,
          rfl, rfl, rfl, rfl⟩
  · simp only [write, arr_mod]
    rcases hn with hn | hn
    · simp [Py.bind_run, setSelf, Act.full, Act.fullButOnes, Act.some, askRand, exists?, setWorld, countOnes_arr, World.wrote, hn]
    · rw [NameFree] at hn
      simp [Py.bind_run, setSelf, Act.full, Act.fullButOnes, Act.some, askRand, exists?, setWorld, countOnes_arr, World.wrote, hn]
  · simp [DataRep, World.wrote, Act.some]

/-- A name collision makes `_write` raise, and nothing is written. -/
theorem write_collision {o : Obj} (v : Arr) (hl : o.act.lasy = false) (hn : ¬ NameFree o.w) :
    ∃ e a', write v o = (.error e, ⟨a', { o.w with nRands := o.w.nRands + 1 }⟩) := by
  rw [NameFree] at hn
  have hs : (o.w.files (.vec (o.w.rands o.w.nRands))).isSome = true := by
    cases h : o.w.files (.vec (o.w.rands o.w.nRands)) <;> simp_all
  simp only [write]
  by_cases hm : o.w.rands o.w.nRands + 1 = randMax
  · refine ⟨.typeError, ?_⟩
    simp [Py.bind_run, setSelf, Act.full, Act.fullButOnes, Act.some, askRand, exists?, hl, hs, hm]
  · refine ⟨.valueError, ?_⟩
    simp [Py.bind_run, setSelf, Act.full, Act.fullButOnes, Act.some, askRand, exists?, hl, hs, hm]


/-- The raw array of a vector is never taken for a compressed one. -/
theorem arr_not_compressed (u : List Bool) : (arr u).getLast?.any (· > 1) = false := by
  cases h : (arr u).getLast? with
  | none => rfl
  | some x =>
    have := arr_le_one u x (List.mem_of_getLast? h)
    simp; omega

theorem comp_is_compressed {u : List Bool} (h : 2 ≤ u.length) : (comp u).getLast?.any (· > 1) = true := by
  have hne : u ≠ [] := by intro hh; subst hh; simp at h
  rw [comp_getLast? hne]; simp; omega

/-- Initialisation from the raw array: an object for the vector, or an exception because of a name
collision. -/
theorem initAny_arr {o : Obj} {u : List Bool} (len : Option Nat) (toFile : Bool) (hf : Fresh o.act u)
    (hu : o.w.storeRaw = false → toFile = false → u ≠ [] ∧ Holds o.w u)
    (hn : o.w.storeRaw = true ∨ toFile = false ∨ o.act.lasy = true ∨ NameFree o.w) :
    ∃ o', initAny (.arr (arr u)) len toFile o = (.ok (), o') ∧ Rep o'.w o'.act u ∧
      o'.act.optimize = o.act.optimize ∧ o'.act.lasy = o.act.lasy ∧
      (NameFree o.w ∨ o.w.storeRaw = true ∨ toFile = false → Grow o.w o'.w) ∧
      ((o'.w.files = o.w.files ∧ ¬ (o.w.storeRaw = false ∧ toFile = true) ∧ o'.act.data.inFile = false) ∨
        o'.w = o.w.wrote (arr u) ∧ o'.act.data = .file (.vec (o.w.rands o.w.nRands)) ∧
          o.w.storeRaw = false ∧ toFile = true) := by
  by_cases hw : o.w.storeRaw = false ∧ toFile = true
  · obtain ⟨h1, h2⟩ := hw
    have hn' : o.act.lasy = true ∨ NameFree o.w := by
      rcases hn with hn | hn | hn
      · rw [h1] at hn; cases hn
      · rw [h2] at hn; cases hn
      · exact hn
    obtain ⟨a', r1, r2, r3, r4, r5, r6⟩ := write_rep hf hn'
    refine ⟨⟨{ a' with toFile := true }, o.w.wrote (arr u)⟩, ?_, ?_, r3, r5, ?_, ?_⟩
    · simp [initAny, arr_not_compressed, Py.bind_run, h1, h2, decompressArr_arr, r1, setSelf]
    · exact ⟨r2.data, r2.loaded, r2.length, r2.nones, r2.entropy, r2.rel, r2.cov⟩
    · rintro (h | h | h)
      · exact Grow.wrote _ h
      · rw [h1] at h; cases h
      · rw [h2] at h; cases h
    · exact Or.inr ⟨rfl, r6, h1, h2⟩
  · have hcond : (toFile && !o.w.storeRaw) = false := by
      cases ht : toFile <;> cases hs : o.w.storeRaw <;> simp_all
    have hu' : o.w.storeRaw = false → u ≠ [] ∧ Holds o.w u := by
      intro h
      apply hu h
      cases ht : toFile <;> simp_all
    obtain ⟨a', k, r1, r2, r3, r4, r5, r7, r6⟩ := initRaw_rep hf hu'
    refine ⟨⟨a', { o.w with nSizes := k }⟩, ?_, r2, r3, r5, fun _ => Grow.nSizes _ _, ?_⟩
    · have hw' : ¬ (toFile = true ∧ o.w.storeRaw = false) := fun h => hw ⟨h.2, h.1⟩
      simp [initAny, arr_not_compressed, Py.bind_run, hw', r1]
    · exact Or.inl ⟨rfl, hw, r7⟩

/-- What may be given to the constructor for the vector `u`. -/
def Stands (w : World) (inp : Input) (len : Option Nat) (u : List Bool) : Prop :=
  match inp with
  | .arr v => v = arr u ∨ (v = comp u ∧ 2 ≤ u.length)
  | .bits b => b = u ∧ (len = none ∨ len = some u.length)
  | .int n => n = numeral u ∧ len = some u.length
  | .str s => literalEval s = .ok (.tuple (comp u))
  | .path p => w.files p = some (arr u)
  | .other => False

/-- The constructor would write this to a file if asked to. -/
def Input.writes : Input → Bool
  | .arr v => !(v.getLast?.any (· > 1))
  | .path _ => true
  | _ => false

theorem construct_rep {w : World} {inp : Input} {opt : Bool} {len : Option Nat} {toFile : Bool}
    {u : List Bool} (hs : Stands w inp len u) (hne : u ≠ []) (hh : Holds w u)
    (hn0 : inp.writes = true → w.storeRaw = true ∨ toFile = false ∨ NameFree w) :
    ∃ a w', construct inp opt len toFile false w = (.ok a, w') ∧ Rep w' a u ∧ Grow w w' ∧
      a.optimize = opt ∧ a.lasy = false ∧
      (w'.files = w.files ∧ a.data.inFile = false ∨
        w'.files = (w.wrote (arr u)).files ∧ a.data = .file (.vec (w.rands w.nRands)) ∧ NameFree w) := by
  -- the part common to arrays and files
  have hArr : inp.writes = true → ∀ o : Obj, o.w = w → Fresh o.act u → ∃ o', initAny (.arr (arr u)) len toFile o = (.ok (), o') ∧
      Rep o'.w o'.act u ∧ Grow w o'.w ∧ o'.act.optimize = o.act.optimize ∧ o'.act.lasy = o.act.lasy ∧
      (o'.w.files = w.files ∧ o'.act.data.inFile = false ∨
        o'.w.files = (w.wrote (arr u)).files ∧ o'.act.data = .file (.vec (w.rands w.nRands)) ∧ NameFree w) := by
    intro hwr o how hf
    have hn := hn0 hwr
    obtain ⟨o', r1, r2, r3, r4, r5, r6⟩ := initAny_arr (o := o) len toFile hf
      (fun _ _ => ⟨hne, by rw [how]; exact hh⟩)
      (by rw [how]
          rcases hn with h | h | h
          · exact Or.inl h
          · exact Or.inr (Or.inl h)
          · exact Or.inr (Or.inr (Or.inr h)))
    rw [how] at r5 r6
    refine ⟨o', r1, r2, r5 (by
        rcases hn with h | h | h
        · exact Or.inr (Or.inl h)
        · exact Or.inr (Or.inr h)
        · exact Or.inl h), r3, r4, ?_⟩
    rcases r6 with r6 | r6
    · exact Or.inl ⟨r6.1, r6.2.2⟩
    · refine Or.inr ⟨by rw [r6.1], r6.2.1, ?_⟩
      rcases hn with h | h | h
      · rw [r6.2.2.1] at h; cases h
      · rw [r6.2.2.2] at h; cases h
      · exact h
  have hf0 : Fresh { blank opt with loaded := true } u := ⟨rfl, Or.inl rfl, rfl, rfl, rfl⟩
  have hf1 : Fresh { blank opt with loaded := true, nones := some (u.count true) } u :=
    ⟨rfl, Or.inr rfl, rfl, rfl, rfl⟩
  cases inp with
  | other => exact hs.elim
  | path p =>
    have hp : w.files p = some (arr u) := hs
    have hread : read (some p) ⟨blank opt, w⟩ =
        (.ok (arr u), ⟨{ blank opt with loaded := true, nones := some (u.count true) }, w⟩) := by
      simp [read, Py.bind_run, hp, setSelf, blank, countOnes_arr]
    obtain ⟨o', r1, r2, r3, r4, r5, r6⟩ := hArr rfl ⟨_, w⟩ rfl hf1
    refine ⟨o'.act, o'.w, ?_, r2, r3, r4, r5, r6⟩
    simp [construct, init, Py.bind_run, hread, r1]
  | arr v =>
    rcases hs with rfl | ⟨rfl, h2⟩
    · obtain ⟨o', r1, r2, r3, r4, r5, r6⟩ := hArr (by simp [Input.writes, arr_not_compressed]) ⟨_, w⟩ rfl hf0
      refine ⟨o'.act, o'.w, ?_, r2, r3, r4, r5, r6⟩
      simp [construct, init, Py.bind_run, setSelf, r1]
    · obtain ⟨a', r1, r2, r3, r4, r5, r6⟩ := initCArr_rep (o := ⟨_, w⟩) hf0 h2
      refine ⟨a', w, ?_, r2, Grow.refl _, r3, r5, Or.inl ⟨rfl, r6⟩⟩
      simp [construct, init, Py.bind_run, setSelf, initAny, comp_is_compressed h2, r1]
  | bits b =>
    obtain ⟨rfl, hl⟩ := hs
    cases hwc : w.willCompare with
    | false =>
      obtain ⟨a', k, r1, r2, r3, r4, r5, r6⟩ := initBitarray_rep (o := ⟨_, w⟩) hf0 (fun _ => ⟨hne, hh⟩)
      refine ⟨a', _, ?_, r2, Grow.nSizes _ _, r3, r5, Or.inl ⟨rfl, r6⟩⟩
      simp [construct, init, Py.bind_run, setSelf, initAny, hwc, r1]
    | true =>
      have hbi : bitarrayToInteger b = .ok (numeral b) := by
        rw [bitarrayToInteger_eq b hne, bitsVal_eq_numeral]
      obtain ⟨a', k, r1, r2, r3, r4, r5, r6⟩ := initInteger_rep (o := ⟨_, w⟩) hf1 hne (fun _ => hh)
      refine ⟨a', _, ?_, r2, Grow.nSizes _ _, r3, r5, Or.inl ⟨rfl, r6⟩⟩
      have hlen : len.getD b.length = b.length := by rcases hl with rfl | rfl <;> rfl
      simp [construct, init, Py.bind_run, setSelf, initAny, hwc, hbi, hlen]
      simp [blank] at r1 ⊢
      simp [r1, hwc]
  | int n =>
    obtain ⟨rfl, rfl⟩ := hs
    cases hwc : w.willCompare with
    | false =>
      have hib : integerToBitarray (numeral u) u.length = u := by
        rw [← bitsVal_eq_numeral]; exact integerToBitarray_bitsVal u hne
      obtain ⟨a', k, r1, r2, r3, r4, r5, r6⟩ := initBitarray_rep (o := ⟨_, w⟩) hf0 (fun _ => ⟨hne, hh⟩)
      refine ⟨a', _, ?_, r2, Grow.nSizes _ _, r3, r5, Or.inl ⟨rfl, r6⟩⟩
      simp [construct, init, Py.bind_run, setSelf, initAny, hwc, r1, hib]
    | true =>
      obtain ⟨a', k, r1, r2, r3, r4, r5, r6⟩ := initInteger_rep (o := ⟨_, w⟩) hf0 hne (fun _ => hh)
      refine ⟨a', _, ?_, r2, Grow.nSizes _ _, r3, r5, Or.inl ⟨rfl, r6⟩⟩
      simp [construct, init, Py.bind_run, setSelf, initAny, hwc, r1]
  | str s =>
    obtain ⟨a', r1, r2, r3, r4, r5, r6⟩ := initStr_rep (o := ⟨_, w⟩) hf0 hne hs
    refine ⟨a', w, ?_, r2, Grow.refl _, r3, r5, Or.inl ⟨rfl, r6⟩⟩
    simp [construct, init, Py.bind_run, setSelf, initAny, r1]

/-- A name collision makes the constructor raise; nothing but random numbers has been used up. -/
theorem construct_collision {w : World} {inp : Input} {opt : Bool} {len : Option Nat}
    {u : List Bool} (hs : Stands w inp len u) (hwr : inp.writes = true)
    (hsr : w.storeRaw = false) (hn : ¬ NameFree w) :
    ∃ e, construct inp opt len true false w = (.error e, { w with nRands := w.nRands + 1 }) := by
  cases inp with
  | path p =>
    have hp : w.files p = some (arr u) := hs
    have hread : read (some p) ⟨blank opt, w⟩ =
        (.ok (arr u), ⟨{ blank opt with loaded := true, nones := some (u.count true) }, w⟩) := by
      simp [read, Py.bind_run, hp, setSelf, blank, countOnes_arr]
    obtain ⟨e, a', r⟩ := write_collision
      (o := ⟨{ blank opt with loaded := true, nones := some (u.count true) }, w⟩) (arr u) rfl hn
    exact ⟨e, by simp [construct, init, Py.bind_run, hread, initAny, arr_not_compressed, hsr,
      decompressArr_arr, r]⟩
  | arr v =>
    rcases hs with rfl | ⟨rfl, h2⟩
    · obtain ⟨e, a', r⟩ := write_collision (o := ⟨{ blank opt with loaded := true }, w⟩) (arr u) rfl hn
      exact ⟨e, by simp [construct, init, Py.bind_run, setSelf, initAny, arr_not_compressed, hsr,
        decompressArr_arr, r]⟩
    · simp [Input.writes, comp_is_compressed h2] at hwr
  | _ => simp [Input.writes] at hwr

end Verif.Activation
