import Verif.History
import Verif.HeapLemmas
import Verif.ProfileLemmas

/-!
# The library refines the specification of `Verif.History`
-/

namespace Verif.Activation

open Verif Verif.Codec Verif.Spec

set_option linter.unusedSimpArgs false
set_option linter.unusedVariables false

theorem comp_eq {u : List Bool} (h : u ≠ []) : comp u = compressed u := by
  cases u with
  | nil => exact absurd rfl h
  | cons x t => simp [comp, compressList_eq, chg_eq_changes, compressed]

theorem Describes.stands {w : World} {inp : Input} {len : Option Nat} {u : List Bool}
    (h : Describes w inp len u) (hne : u ≠ []) : Stands w inp len u := by
  cases inp with
  | arr v => simpa [Describes, Stands, comp_eq hne] using h
  | str s => simpa [Describes, Stands, comp_eq hne] using h
  | _ => exact h

theorem vectors_two {us : Values} {i j : Nat} {u v : List Bool} (h : Vectors us [i, j] [u, v]) :
    us[i]? = some (some u) ∧ us[j]? = some (some v) := by
  simpa [Vectors] using h

theorem vectors_one {us : Values} {i : Nat} {u : List Bool} (h : Vectors us [i] [u]) :
    us[i]? = some (some u) := by
  simpa [Vectors] using h

theorem vectorOf_eq {us : Values} {i : Nat} {u : List Bool} (h : us[i]? = some (some u)) :
    vectorOf us i = u := by
  simp [vectorOf, h]

theorem Vectors.map {us : Values} {ids : List Nat} : ∀ {vs : List (List Bool)}, Vectors us ids vs →
    ids.map (vectorOf us) = vs := by
  induction ids with
  | nil => intro vs h; simpa [Vectors] using h
  | cons i ids ih =>
    intro vs h
    obtain ⟨v, vt, rfl, hi, ht⟩ := Live.cons h
    simp [ih ht, vectorOf_eq hi]

theorem foldl_zipWith_get (f : Bool → Bool → Bool) (vs : List (List Bool)) : ∀ (u : List Bool),
    (∀ v ∈ vs, v.length = u.length) → ∀ i < u.length,
    (vs.foldl (List.zipWith f) u)[i]? = some (vs.foldl (fun b v => f b (v.getD i false)) (u.getD i false)) := by
  induction vs with
  | nil =>
    intro u _ i hi
    simp [hi]
  | cons v vs ih =>
    intro u hl i hi
    have hv : v.length = u.length := hl v (by simp)
    rw [List.foldl_cons, ih]
    · simp [List.getD, hi, hv]
    · intro x hx
      rw [hl x (by simp [hx])]; simp [hv]
    · simp [hv, hi]

theorem foldl_and (vs : List (List Bool)) (i : Nat) : ∀ b : Bool,
    (vs.foldl (fun b v => b && v.getD i false) b = true) ↔ (b = true ∧ ∀ v ∈ vs, v.getD i false = true) := by
  induction vs with
  | nil => simp
  | cons v vs ih => intro b; rw [List.foldl_cons, ih]; simp only [Bool.and_eq_true, List.forall_mem_cons, and_assoc]

theorem foldl_or (vs : List (List Bool)) (i : Nat) : ∀ b : Bool,
    (vs.foldl (fun b v => b || v.getD i false) b = true) ↔ (b = true ∨ ∃ v ∈ vs, v.getD i false = true) := by
  induction vs with
  | nil => simp
  | cons v vs ih =>
    intro b
    rw [List.foldl_cons, ih]
    simp only [Bool.or_eq_true, List.mem_cons, exists_eq_or_imp, or_assoc]

theorem getD_true (v : List Bool) (i : Nat) : v.getD i false = true ↔ v[i]? = some true := by
  rw [List.getD]
  cases h : v[i]? <;> simp

theorem markedByAll_eq (u : List Bool) (vs : List (List Bool)) (hl : ∀ v ∈ vs, v.length = u.length) :
    vs.foldl (List.zipWith (redOp true)) u = markedByAll u.length (u :: vs) := by
  have hlen := foldl_zipWith_length (redOp true) vs u hl
  apply List.ext_getElem?
  intro i
  by_cases hi : i < u.length
  · rw [foldl_zipWith_get _ vs u hl i hi]
    simp only [markedByAll, List.getElem?_map, List.getElem?_range hi, Option.map_some, Option.some.injEq]
    rw [Bool.eq_iff_iff]
    simp only [redOp, if_true, decide_eq_true_eq, List.forall_mem_cons]
    rw [foldl_and]
    simp only [getD_true]
  · rw [List.getElem?_eq_none (by omega), List.getElem?_eq_none (by simp [markedByAll]; omega)]

theorem markedBySome_eq (u : List Bool) (vs : List (List Bool)) (hl : ∀ v ∈ vs, v.length = u.length) :
    vs.foldl (List.zipWith (redOp false)) u = markedBySome u.length (u :: vs) := by
  have hlen := foldl_zipWith_length (redOp false) vs u hl
  apply List.ext_getElem?
  intro i
  by_cases hi : i < u.length
  · rw [foldl_zipWith_get _ vs u hl i hi]
    simp only [markedBySome, List.getElem?_map, List.getElem?_range hi, Option.map_some, Option.some.injEq]
    rw [Bool.eq_iff_iff]
    simp only [redOp, Bool.false_eq_true, if_false, decide_eq_true_eq, List.mem_cons, exists_eq_or_imp]
    rw [foldl_or]
    simp only [getD_true]
  · rw [List.getElem?_eq_none (by omega), List.getElem?_eq_none (by simp [markedBySome]; omega)]

theorem markedBySomeNotAll_eq (u : List Bool) (vs : List (List Bool)) (hl : ∀ v ∈ vs, v.length = u.length) :
    xorAll u vs = markedBySomeNotAll u.length (u :: vs) := by
  rw [xorAll, markedBySome_eq u vs hl, markedByAll_eq u vs hl]
  apply List.ext_getElem?
  intro i
  by_cases hi : i < u.length
  · simp only [markedBySome, markedByAll, markedBySomeNotAll, List.getElem?_zipWith, List.getElem?_map,
      List.getElem?_range hi, Option.map_some, Option.some.injEq]
    rw [Bool.eq_iff_iff]
    simp
  · rw [List.getElem?_eq_none (by simp [markedBySome, markedByAll]; omega),
      List.getElem?_eq_none (by simp [markedBySomeNotAll]; omega)]

theorem whereOne_arr (u : List Bool) : whereOne 0 (arr u) = marked u := by
  have key : ∀ (t : List Bool) (k : Nat) (full : List Bool), (∀ i, full[k + i]? = t[i]?) →
      whereOne k (arr t) = (List.range' k t.length).filter (fun i => full[i]? = some true) := by
    intro t
    induction t with
    | nil => intro k full _; simp [whereOne]
    | cons x t ih =>
      intro k full hf
      have h0 : full[k]? = some x := by simpa using hf 0
      have ht := ih (k + 1) full (fun i => by
        have := hf (i + 1)
        rw [show k + 1 + i = k + (i + 1) by omega, this]; simp)
      simp only [arr_cons, List.length_cons, List.range'_succ, List.filter_cons, h0]
      cases x <;> simp [whereOne, ht]
  rw [key u 0 u (fun i => by simp), marked, List.range_eq_range']

theorem read_abs {d : Nat → Option Arr} {us : Values} {h : Heap} {i : Nat}
    {u : List Bool} (r : Read) (habs : Abs d h us) (hi : us[i]? = some (some u)) :
    ∃ o h', onObj i r.run h = (.ok o, h') ∧ r.answer u o ∧ Abs d h' us ∧ SameObjs h h' := by
  obtain ⟨hne, a, ha, hr⟩ := habs.rep i u hi
  -- a reader whose answer is a function of the vector
  have det : ∀ (x : Out), (∀ a, Rep h.w a u → ∃ a', r.run ⟨a, h.w⟩ = (.ok x, ⟨a', h.w⟩) ∧
      Rep h.w a' u ∧ SameBut a a') → r.answer u x →
      ∃ o h', onObj i r.run h = (.ok o, h') ∧ r.answer u o ∧ Abs d h' us ∧ SameObjs h h' := by
    intro x hx hans
    obtain ⟨h', e, a1, s1⟩ := onObj_reader habs hi r.run x (fun a _ => hx a)
    exact ⟨x, h', e, hans, a1, s1⟩
  cases r with
  | raw =>
    refine det (.array (arr u)) (fun a hr => ?_) rfl
    obtain ⟨a', r1, r2, r3, _⟩ := raw_rep (o := ⟨a, h.w⟩) hr
    exact ⟨a', by simp [Read.run, Py.bind_run, r1], r2, r3⟩
  | ones =>
    refine det (.array (marked u)) (fun a hr => ?_) rfl
    obtain ⟨a', r1, r2, r3⟩ := ones_rep (o := ⟨a, h.w⟩) hr
    exact ⟨a', by simp [Read.run, Py.bind_run, r1, whereOne_arr], r2, r3⟩
  | nones =>
    refine det (.nat (u.count true)) (fun a hr => ?_) rfl
    obtain ⟨a', r1, r2, r3, _⟩ := nones_rep (o := ⟨a, h.w⟩) hr hne
    exact ⟨a', by simp [Read.run, Py.bind_run, r1], r2, r3⟩
  | entropy =>
    refine det (.nat ((changes u).length + 2)) (fun a hr => ?_) rfl
    obtain ⟨a', r1, r2, r3, _⟩ := entropy_rep (o := ⟨a, h.w⟩) hr hne
    exact ⟨a', by simp [Read.run, Py.bind_run, r1, ent], r2, r3⟩
  | relEntropy =>
    refine det (.quotient ⟨(changes u).length + 2, u.length⟩) (fun a hr => ?_) rfl
    obtain ⟨a', r1, r2, r3⟩ := relEntropy_rep (o := ⟨a, h.w⟩) hr hne
    exact ⟨a', by simp [Read.run, Py.bind_run, r1, ent], r2, r3⟩
  | coverage =>
    refine det (.quotient ⟨u.count true, u.length⟩) (fun a hr => ?_) rfl
    obtain ⟨a', r1, r2, r3⟩ := coverage_rep (o := ⟨a, h.w⟩) hr hne
    exact ⟨a', by simp [Read.run, Py.bind_run, r1], r2, r3⟩
  | bitarray =>
    refine det (.bits (some u)) (fun a hr => ?_) rfl
    obtain ⟨a', r1, r2, r3⟩ := asBitarray_rep (o := ⟨a, h.w⟩) hr
    exact ⟨a', by simp [Read.run, Py.bind_run, r1], r2, r3⟩
  | integer =>
    refine det (.integer (some (numeral u))) (fun a hr => ?_) rfl
    obtain ⟨a', r1, r2, r3⟩ := asInteger_rep (o := ⟨a, h.w⟩) hr hne
    exact ⟨a', by simp [Read.run, Py.bind_run, r1], r2, r3⟩
  | compressedArray =>
    refine det (.array (compressed u)) (fun a hr => ?_) rfl
    obtain ⟨a', r1, r2, r3⟩ := asCompressedArray_rep (o := ⟨a, h.w⟩) hr hne
    exact ⟨a', by simp [Read.run, Py.bind_run, r1, comp_eq hne], r2, r3⟩
  | compressedStr =>
    obtain ⟨s, a', r1, r2, r3, r4, _⟩ := asCompressedStr_rep (o := ⟨a, h.w⟩) hr hne
    obtain ⟨h', e, a1, s1⟩ := onObj_reader habs hi Read.compressedStr.run (.text s) (fun b hb _ => by
      rw [ha] at hb
      cases hb
      exact ⟨a', by simp [Read.run, Py.bind_run, r1], r3, r4⟩)
    exact ⟨.text s, h', e, ⟨s, rfl, by rw [← comp_eq hne]; exact r2⟩, a1, s1⟩

/-- One step: the objects stand for what the specification says. -/
theorem step_abs {d : Nat → Option Arr} {us : Values} {h : Heap} (op : Op) (habs : Abs d h us)
    (hleg : Legal h.w us op) :
    Abs d (step op h).2 (after us op (step op h).1 (step op h).2.objs.length) := by
  have fail : ∀ (e : Err) (h' : Heap) (x : Values), step op h = (.error e, h') → Abs d h' (us ++ x) →
      Abs d (step op h).2 (after us op (step op h).1 (step op h).2.objs.length) := by
    intro e h' x hs ha
    rw [hs]
    apply ha.forget
    have := ha.size
    simp [this]
  have fail' : ∀ (e : Err) (h' : Heap), step op h = (.error e, h') → Abs d h' us →
      Abs d (step op h).2 (after us op (step op h).1 (step op h).2.objs.length) :=
    fun e h' hs ha => fail e h' [] hs (by simpa using ha)
  have good : ∀ (o : Out) (h' : Heap), step op h = (.ok o, h') → Abs d h' (after us op (.ok o) h'.objs.length) →
      Abs d (step op h).2 (after us op (step op h).1 (step op h).2.objs.length) := by
    intro o h' hs ha
    rw [hs]; exact ha
  cases op with
  | new u inp opt len toFile =>
    obtain ⟨h1, hne, hf⟩ := hleg
    rcases new_abs opt toFile habs (h1.stands hne) hne hf with ⟨a, w', r1, r2, _⟩ | ⟨e, r1, r2, _⟩
    · exact good _ _ (by simp only [step]; rw [Py.bind_ok r1]; rfl) r2
    · exact fail' _ _ (Py.bind_err r1) r2
  | bin k i j =>
    obtain ⟨u, v, huv, hf⟩ := hleg
    obtain ⟨hi, hj⟩ := vectors_two huv
    by_cases hl : u.length = v.length
    · by_cases hint : IsInt h i ∧ IsInt h j
      · exact fail' _ _ (Py.bind_err (binop_int k habs hi hj hint.1 hint.2)) habs
      · rcases binop_abs k habs hi hj hl hf hint with ⟨h0, a, w', r1, _, r2, _⟩ | ⟨e, h0, r1, _, r2, _⟩
        · refine good _ _ (by simp only [step]; rw [Py.bind_ok r1]; rfl) ?_
          cases k <;> simp only [after, vectorOf_eq hi, vectorOf_eq hj] <;> exact r2
        · exact fail' _ _ (Py.bind_err r1) r2
    · exact fail' _ _ (Py.bind_err (binop_length k habs hi hj hl)) habs
  | multi isAnd mem ids =>
    obtain ⟨u, vs, hv, hl, hf⟩ := hleg
    cases ids with
    | nil => simp [Vectors] at hv
    | cons i ids =>
      have hi : vectorOf us i = u := by
        obtain ⟨v, vt, h1, hi, _⟩ := Live.cons hv
        cases h1
        exact vectorOf_eq hi
      rcases multi_abs isAnd mem habs hv hl hf with ⟨h0, a, w', r1, _, r2, _⟩ | ⟨h', r1, r2, _⟩ | ⟨e, h0, r1, _, r2, _⟩
      · refine good _ _ (by simp only [step]; rw [Py.bind_ok r1]; rfl) ?_
        cases isAnd
        · simp only [after, hv.map, List.headD_cons, hi, ← markedBySome_eq u vs hl]; exact r2
        · simp only [after, hv.map, List.headD_cons, hi, ← markedByAll_eq u vs hl]; exact r2
      · exact fail' _ _ (Py.bind_err r1) r2
      · exact fail' _ _ (Py.bind_err r1) r2
  | multiXor mem mem' ids =>
    obtain ⟨u, v, vs, hv, hl, hf⟩ := hleg
    match ids, hv with
    | [], hv => simp [Vectors] at hv
    | [_], hv => simp [Vectors] at hv
    | i :: j :: ids, hv =>
      have hi : vectorOf us i = u := by
        obtain ⟨v, vt, h1, hi, _⟩ := Live.cons hv
        cases h1
        exact vectorOf_eq hi
      rcases multiXor_abs mem mem' false habs hv hl hf with ⟨_, _, _, hc⟩ | ⟨h', r1, r2, _, _⟩ | ⟨e, h', r1, r2, _⟩
      · cases hc
      · refine good (.object us.length) _ (by simp only [step]; rw [Py.bind_ok r1]; rfl) ?_
        simp only [after, hv.map, List.headD_cons, hi, ← markedBySomeNotAll_eq u (v :: vs) hl]; exact r2
      · exact fail' _ _ (Py.bind_err r1) r2
  | sub i j =>
    obtain ⟨u, v, huv, hf⟩ := hleg
    obtain ⟨hi, hj⟩ := vectors_two huv
    by_cases hl : u.length = v.length
    · rcases sub_abs habs hi hj hl hf with ⟨h', r1, _, r2⟩ | ⟨e, h', x, r1, r2, _⟩
      · refine good _ _ (by simp only [step]; rw [Py.bind_ok r1]; rfl) ?_
        simp only [after, vectorOf_eq hi, vectorOf_eq hj]
        have := r2.forgetOne
        exact this
      · exact fail _ _ _ (Py.bind_err r1) r2
    · exact fail' _ _ (Py.bind_err (Py.bind_err (binop_length .xor habs hi hj hl))) habs
  | add i j =>
    obtain ⟨u, v, huv⟩ := hleg
    obtain ⟨hi, hj⟩ := vectors_two huv
    obtain ⟨hne, a, ha, hr⟩ := habs.rep i u hi
    have hz := length_ne_zero hne
    refine good (.object i) h ?_ habs
    cases hu : u.length with
    | zero => exact absurd hu hz
    | succ n => simp [step, add, look, Py.bind_run, ha, hr.length, hu]
  | copy i =>
    obtain ⟨u, hu, hf⟩ := hleg
    have hi := vectors_one hu
    rcases copy_abs habs hi hf with ⟨a, w', r1, r2, _⟩ | ⟨e, r1, r2, _⟩
    · refine good _ _ (by simp only [step]; rw [Py.bind_ok r1]; rfl) ?_
      simp only [after, vectorOf_eq hi]; exact r2
    · exact fail' _ _ (Py.bind_err r1) r2
  | contains i j =>
    obtain ⟨u, v, huv, hf⟩ := hleg
    obtain ⟨hi, hj⟩ := vectors_two huv
    by_cases hl : u.length = v.length
    · by_cases hint : IsInt h i ∧ IsInt h j
      · exact fail' _ _ (Py.bind_err (Py.bind_err (binop_int .and habs hi hj hint.1 hint.2))) habs
      · rcases contains_abs habs hi hj hl hf hint with ⟨h', r1, r2, _⟩ | ⟨e, h', r1, r2, _⟩
        · exact good _ _ (by simp only [step]; rw [Py.bind_ok r1]; rfl) r2
        · exact fail' _ _ (Py.bind_err r1) r2
    · exact fail' _ _ (Py.bind_err (Py.bind_err (binop_length .and habs hi hj hl))) habs
  | correlation i j =>
    obtain ⟨u, v, huv⟩ := hleg
    obtain ⟨hi, hj⟩ := vectors_two huv
    by_cases hl : u.length = v.length
    · obtain ⟨h', r1, r2, _⟩ := correlation_abs habs hi hj hl
      exact good _ _ (by simp only [step]; rw [Py.bind_ok r1]; rfl) r2
    · exact fail' _ _ (Py.bind_err (correlation_length habs hi hj hl)) habs
  | read r i =>
    obtain ⟨u, hu⟩ := hleg
    obtain ⟨o, h', r1, _, r2, _⟩ := read_abs r habs (vectors_one hu)
    exact good _ _ r1 r2
  | measure g missing forced i =>
    obtain ⟨u, hu⟩ := hleg
    obtain ⟨r, h', h0, r1, r2, _⟩ := measure_abs g missing forced habs (vectors_one hu)
    cases r with
    | ok x => exact good .done _ (by simp only [step]; rw [Py.bind_ok r1]; rfl) r2
    | error e => exact fail' _ _ (Py.bind_err r1) r2
  | clear i =>
    obtain ⟨u, hu, hf⟩ := hleg
    have hi := vectors_one hu
    obtain ⟨h', r1, r2, _⟩ := clear_abs habs hi hf
    refine good _ _ (by simp only [step]; rw [Py.bind_ok r1]; rfl) ?_
    simp only [after, vectorOf_eq hi]; exact r2
  | delete i =>
    obtain ⟨u, hu⟩ := hleg
    obtain ⟨h', r1, r2, _⟩ := delete_abs habs (vectors_one hu)
    exact good _ _ (by simp only [step]; rw [Py.bind_ok r1]; rfl) r2
  | setDType x => exact good .done _ rfl (habs.mono (fun _ _ h => h) (fun _ => rfl))
  | setWillCompare x => exact good .done _ rfl (habs.mono (fun _ _ h => h) (fun _ => rfl))
  | setStoreRaw x => exact good .done _ rfl (habs.mono (fun _ _ h => h) (fun _ => rfl))

/-- Reachable states stand for what the specification says. -/
theorem Reach.abs {w₀ : World} {h : Heap} {us : Values} (hr : Reach w₀ h us) :
    Abs (fun n => w₀.files (.user n)) h us := by
  induction hr with
  | start => exact ⟨rfl, by simp, by simp, by simp, fun n => rfl, by simp⟩
  | step op _ hl ih => exact step_abs op ih hl

/-- What a program can see of object `i` is the vector `u`. -/
theorem Abs.shows {d : Nat → Option Arr} {us : Values} {h : Heap} {i : Nat} {u : List Bool}
    (habs : Abs d h us) (hi : us[i]? = some (some u)) : Shows h i u := by
  obtain ⟨hne, a, ha, hr⟩ := habs.rep i u hi
  refine ⟨⟨a, ha, hr.length⟩, fun r => ?_⟩
  obtain ⟨o, h', e, ho, _⟩ := read_abs r habs hi
  exact ⟨o, by simp only [step, e], ho⟩

/-- Settings and files along one operation. -/
theorem step_world {d : Nat → Option Arr} {us : Values} {h : Heap} (op : Op) (habs : Abs d h us)
    (hleg : Legal h.w us op) :
    (op.sets = false → (step op h).2.w.dtype = h.w.dtype ∧ (step op h).2.w.willCompare = h.w.willCompare ∧
      (step op h).2.w.storeRaw = h.w.storeRaw) ∧
    (∀ p v, h.w.files p = some v → (step op h).2.w.files p = some v ∨
      ∃ i a, op = .delete i ∧ h.objs[i]? = some a ∧ a.data = .file p) := by
  have kept : Kept h.w (step op h).2.w →
    (op.sets = false → (step op h).2.w.dtype = h.w.dtype ∧ (step op h).2.w.willCompare = h.w.willCompare ∧
      (step op h).2.w.storeRaw = h.w.storeRaw) ∧
    (∀ p v, h.w.files p = some v → (step op h).2.w.files p = some v ∨
      ∃ i a, op = .delete i ∧ h.objs[i]? = some a ∧ a.data = .file p) := fun k =>
    ⟨fun _ => ⟨k.dtype, k.willCompare, k.storeRaw⟩, fun p v hp => Or.inl (k.files p v hp)⟩
  have run : ∀ {α : Type} (m : Py Heap α) (f : α → Py Heap Out) (r : Except Err α) (h' : Heap),
      m h = (r, h') → (∀ x, ∃ o, f x = pure o) → (m >>= f) h = ((m >>= f) h |>.1, h') := by
    intro α m f r h' e hf
    cases r with
    | error e' => rw [Py.bind_err e]
    | ok x => rw [Py.bind_ok e]; obtain ⟨o, ho⟩ := hf x; rw [ho]; rfl
  cases op with
  | new u inp opt len toFile =>
    obtain ⟨h1, hne, hf⟩ := hleg
    apply kept
    rcases new_abs opt toFile habs (h1.stands hne) hne hf with ⟨a, w', r1, _, g, _⟩ | ⟨e, r1, r2, _⟩
    · simp only [step]; rw [run _ _ _ _ r1 (fun _ => ⟨_, rfl⟩)]; exact g.kept
    · simp only [step]; rw [run _ _ _ _ r1 (fun _ => ⟨_, rfl⟩)]; exact (Grow.bumpRands _).kept
  | bin k i j =>
    obtain ⟨u, v, huv, hf⟩ := hleg
    obtain ⟨hi, hj⟩ := vectors_two huv
    apply kept
    by_cases hl : u.length = v.length
    · by_cases hint : IsInt h i ∧ IsInt h j
      · simp only [step]; rw [run _ _ _ _ (binop_int k habs hi hj hint.1 hint.2) (fun _ => ⟨_, rfl⟩)]; exact (Grow.refl _).kept
      · rcases binop_abs k habs hi hj hl hf hint with ⟨h0, a, w', r1, _, _, g, _⟩ | ⟨e, h0, r1, r2, _⟩
        · simp only [step]; rw [run _ _ _ _ r1 (fun _ => ⟨_, rfl⟩)]; exact g.kept
        · simp only [step]; rw [run _ _ _ _ r1 (fun _ => ⟨_, rfl⟩)]; exact (Grow.bumpRands _).kept
    · simp only [step]; rw [run _ _ _ _ (binop_length k habs hi hj hl) (fun _ => ⟨_, rfl⟩)]; exact (Grow.refl _).kept
  | multi isAnd mem ids =>
    obtain ⟨u, vs, hv, hl, hf⟩ := hleg
    apply kept
    cases ids with
    | nil => simp [Vectors] at hv
    | cons i ids =>
      rcases multi_abs isAnd mem habs hv hl hf with ⟨h0, a, w', r1, _, r2, g, _⟩ | ⟨h', r1, r2, hw, _⟩ | ⟨e, h0, r1, r2, _⟩
      · simp only [step]; rw [run _ _ _ _ r1 (fun _ => ⟨_, rfl⟩)]; exact g.kept
      · simp only [step]; rw [run _ _ _ _ r1 (fun _ => ⟨_, rfl⟩)]
        show Kept h.w h'.w
        rw [hw.w]; exact (Grow.refl _).kept
      · simp only [step]; rw [run _ _ _ _ r1 (fun _ => ⟨_, rfl⟩)]; exact (Grow.bumpRands _).kept
  | multiXor mem mem' ids =>
    obtain ⟨u, v, vs, hv, hl, hf⟩ := hleg
    apply kept
    match ids, hv with
    | [], hv => simp [Vectors] at hv
    | [_], hv => simp [Vectors] at hv
    | i :: j :: ids, hv =>
      rcases multiXor_abs mem mem' false habs hv hl hf with ⟨_, _, _, hc⟩ | ⟨h', r1, r2, g, _⟩ | ⟨e, h', r1, r2, g, _⟩
      · cases hc
      · simp only [step]; rw [run _ _ _ _ r1 (fun x => by cases x <;> exact ⟨_, rfl⟩)]; exact g.kept
      · simp only [step]; rw [run _ _ _ _ r1 (fun x => by cases x <;> exact ⟨_, rfl⟩)]; exact g.kept
  | sub i j =>
    obtain ⟨u, v, huv, hf⟩ := hleg
    obtain ⟨hi, hj⟩ := vectors_two huv
    apply kept
    by_cases hl : u.length = v.length
    · rcases sub_abs habs hi hj hl hf with ⟨h', r1, g, r2⟩ | ⟨e, h', x, r1, r2, g, _⟩
      · simp only [step]; rw [run _ _ _ _ r1 (fun _ => ⟨_, rfl⟩)]; exact g.kept
      · simp only [step]; rw [run _ _ _ _ r1 (fun _ => ⟨_, rfl⟩)]; exact g.kept
    · have r1 : Activation.sub i j h = (.error .valueError, h) := Py.bind_err (binop_length .xor habs hi hj hl)
      simp only [step]; rw [run _ _ _ _ r1 (fun _ => ⟨_, rfl⟩)]; exact (Grow.refl _).kept
  | add i j =>
    obtain ⟨u, v, huv⟩ := hleg
    obtain ⟨hi, hj⟩ := vectors_two huv
    obtain ⟨hne, a, ha, hr⟩ := habs.rep i u hi
    have hz := length_ne_zero hne
    apply kept
    have : step (.add i j) h = (.ok (.object i), h) := by
      cases hu : u.length with
      | zero => exact absurd hu hz
      | succ n => simp [step, add, look, Py.bind_run, ha, hr.length, hu]
    rw [this]; exact (Grow.refl _).kept
  | copy i =>
    obtain ⟨u, hu, hf⟩ := hleg
    apply kept
    rcases copy_abs habs (vectors_one hu) hf with ⟨a, w', r1, r2, g, _⟩ | ⟨e, r1, r2, _⟩
    · simp only [step]; rw [run _ _ _ _ r1 (fun _ => ⟨_, rfl⟩)]; exact g.kept
    · simp only [step]; rw [run _ _ _ _ r1 (fun _ => ⟨_, rfl⟩)]; exact (Grow.bumpRands _).kept
  | contains i j =>
    obtain ⟨u, v, huv, hf⟩ := hleg
    obtain ⟨hi, hj⟩ := vectors_two huv
    apply kept
    by_cases hl : u.length = v.length
    · by_cases hint : IsInt h i ∧ IsInt h j
      · have r1 : Activation.contains i j h = (.error .valueError, h) :=
          Py.bind_err (binop_int .and habs hi hj hint.1 hint.2)
        simp only [step]; rw [run _ _ _ _ r1 (fun _ => ⟨_, rfl⟩)]; exact (Grow.refl _).kept
      · rcases contains_abs habs hi hj hl hf hint with ⟨h', r1, r2, k, _⟩ | ⟨e, h', r1, r2, k, _⟩
        · simp only [step]; rw [run _ _ _ _ r1 (fun _ => ⟨_, rfl⟩)]; exact k
        · simp only [step]; rw [run _ _ _ _ r1 (fun _ => ⟨_, rfl⟩)]; exact k
    · have r1 : Activation.contains i j h = (.error .valueError, h) :=
        Py.bind_err (binop_length .and habs hi hj hl)
      simp only [step]; rw [run _ _ _ _ r1 (fun _ => ⟨_, rfl⟩)]; exact (Grow.refl _).kept
  | correlation i j =>
    obtain ⟨u, v, huv⟩ := hleg
    obtain ⟨hi, hj⟩ := vectors_two huv
    apply kept
    by_cases hl : u.length = v.length
    · obtain ⟨h', r1, r2, s⟩ := correlation_abs habs hi hj hl
      simp only [step]; rw [run _ _ _ _ r1 (fun _ => ⟨_, rfl⟩)]; exact s.grow.kept
    · simp only [step]
      rw [run _ _ _ _ (correlation_length habs hi hj hl) (fun _ => ⟨_, rfl⟩)]; exact (Grow.refl _).kept
  | read r i =>
    obtain ⟨u, hu⟩ := hleg
    obtain ⟨o, h', r1, _, r2, s⟩ := read_abs r habs (vectors_one hu)
    apply kept
    simp only [step]
    rw [r1]; exact s.grow.kept
  | measure g missing forced i =>
    obtain ⟨u, hu⟩ := hleg
    obtain ⟨r, h', h0, r1, _, _, _, hw, _⟩ := measure_abs g missing forced habs (vectors_one hu)
    apply kept
    simp only [step]; rw [run _ _ _ _ r1 (fun _ => ⟨_, rfl⟩)]
    show Kept h.w h'.w
    rcases hw with hw | hw
    · rw [hw]; exact (Grow.refl _).kept
    · rw [hw]; exact (Grow.bumpRands _).kept
  | clear i =>
    obtain ⟨u, hu, hf⟩ := hleg
    have hi := vectors_one hu
    obtain ⟨_, a, ha, _⟩ := habs.rep i u hi
    apply kept
    obtain ⟨h', r1, r2, k, hk⟩ := clear_abs habs hi hf
    simp only [step]; rw [run _ _ _ _ r1 (fun _ => ⟨_, rfl⟩)]
    show Kept h.w h'.w
    rw [hk]; exact ⟨rfl, rfl, rfl, fun _ _ h => h⟩
  | delete i =>
    obtain ⟨u, hu⟩ := hleg
    obtain ⟨h', r1, r2, r3, a, ha, k1, k2⟩ := delete_abs habs (vectors_one hu)
    simp only [step]
    rw [run _ _ _ _ r1 (fun _ => ⟨_, rfl⟩)]
    refine ⟨fun _ => r3, fun p v hp => ?_⟩
    by_cases hd : a.data = .file p
    · exact Or.inr ⟨i, a, rfl, ha, hd⟩
    · exact Or.inl (by rw [k1 p hd]; exact hp)
  | setDType x => exact ⟨(fun h => by cases h), fun p v hp => Or.inl hp⟩
  | setWillCompare x => exact ⟨(fun h => by cases h), fun p v hp => Or.inl hp⟩
  | setStoreRaw x => exact ⟨(fun h => by cases h), fun p v hp => Or.inl hp⟩

/-- Operations other than clearing or deleting an object leave what it stands for. -/
theorem after_keep {us : Values} {i : Nat} {u : List Bool} (op : Op) (r : Except Err Out) (n : Nat)
    (hi : us[i]? = some (some u)) (h1 : op ≠ .clear i) (h2 : op ≠ .delete i) :
    (after us op r n)[i]? = some (some u) := by
  cases r with
  | error e => exact getElem?_append_lt hi
  | ok o =>
    cases op with
    | bin k a b => cases k <;> exact getElem?_append_lt hi
    | multi b m ids => cases b <;> exact getElem?_append_lt hi
    | clear j =>
      have : j ≠ i := fun h => h1 (by rw [h])
      exact (List.getElem?_set_ne this).trans hi
    | delete j =>
      have : j ≠ i := fun h => h2 (by rw [h])
      exact (List.getElem?_set_ne this).trans hi
    | _ => first | exact getElem?_append_lt hi | exact hi

theorem ReachTidy.reach {w₀ : World} {h : Heap} {us : Values} (hr : ReachTidy w₀ h us) : Reach w₀ h us := by
  induction hr with
  | start => exact .start
  | step op _ hl _ _ ih => exact .step op ih hl

/-- Where files come from. -/
theorem step_files {d : Nat → Option Arr} {us : Values} {h : Heap} (op : Op) (habs : Abs d h us)
    (hleg : Legal h.w us op) (hc : ∀ i, op ≠ .clear i) (hs : ∀ i j, op ≠ .sub i j) (hd : ∀ i, op ≠ .delete i) :
    Ext h (step op h).2 ∧ ∀ p, (step op h).2.w.files p ≠ none → h.w.files p ≠ none ∨
      ∃ (i : Nat) (u : List Bool) (a : Act),
        (after us op (step op h).1 (step op h).2.objs.length)[i]? = some (some u) ∧
        (step op h).2.objs[i]? = some a ∧ a.data = .file p := by
  have same : ∀ r h', step op h = (r, h') → Ext h h' → h'.w.files = h.w.files →
      Ext h (step op h).2 ∧ ∀ p, (step op h).2.w.files p ≠ none → h.w.files p ≠ none ∨
      ∃ (i : Nat) (u : List Bool) (a : Act),
        (after us op (step op h).1 (step op h).2.objs.length)[i]? = some (some u) ∧
        (step op h).2.objs[i]? = some a ∧ a.data = .file p := by
    intro r h' e he hf
    rw [e]
    exact ⟨he, fun p hp => Or.inl (by rw [← hf]; exact hp)⟩
  have made : ∀ (o : Out) (h0 : Heap) (a : Act) (w' : World) (x : List Bool),
      step op h = (.ok o, ⟨h0.objs ++ [a], w'⟩) → SameObjs h h0 → Made h.w w' a →
      after us op (.ok o) (h0.objs ++ [a]).length = us ++ [some x] →
      Ext h (step op h).2 ∧ ∀ p, (step op h).2.w.files p ≠ none → h.w.files p ≠ none ∨
      ∃ (i : Nat) (u : List Bool) (a : Act),
        (after us op (step op h).1 (step op h).2.objs.length)[i]? = some (some u) ∧
        (step op h).2.objs[i]? = some a ∧ a.data = .file p := by
    intro o h0 a w' x e s m haf
    rw [e]
    refine ⟨fun k b hb => ?_, fun p hp => ?_⟩
    · obtain ⟨b', hb', hd'⟩ := s.ext k b hb
      exact ⟨b', getElem?_append_lt hb', hd'⟩
    · rcases m.only p hp with h1 | h1
      · exact Or.inl h1
      · refine Or.inr ⟨us.length, x, a, ?_, ?_, h1⟩
        · show (after us op (.ok o) (h0.objs ++ [a]).length)[us.length]? = _
          rw [haf]; simp
        · show (h0.objs ++ [a])[us.length]? = _
          have : h0.objs.length = us.length := by rw [s.length, habs.size]
          simp [← this]
  have extRefl : Ext h h := fun k b hb => ⟨b, hb, rfl⟩
  cases op with
  | new u inp opt len toFile =>
    obtain ⟨h1, hne, hf⟩ := hleg
    rcases new_abs opt toFile habs (h1.stands hne) hne hf with ⟨a, w', r1, _, g, m⟩ | ⟨e, r1, r2, _⟩
    · exact made _ h a w' u (by simp only [step]; rw [Py.bind_ok r1]; rfl) (SameObjs.refl h) m rfl
    · exact same _ _ (Py.bind_err r1) extRefl rfl
  | bin k i j =>
    obtain ⟨u, v, huv, hf⟩ := hleg
    obtain ⟨hi, hj⟩ := vectors_two huv
    by_cases hl : u.length = v.length
    · by_cases hint : IsInt h i ∧ IsInt h j
      · exact same _ _ (Py.bind_err (binop_int k habs hi hj hint.1 hint.2)) extRefl rfl
      · rcases binop_abs k habs hi hj hl hf hint with ⟨h0, a, w', r1, s, _, g, m⟩ | ⟨e, h0, r1, s, r2, _⟩
        · exact made _ h0 a w' (List.zipWith k.bool u v) (by simp only [step]; rw [Py.bind_ok r1]; rfl) s m
            (by cases k <;> simp only [after, vectorOf_eq hi, vectorOf_eq hj] <;> rfl)
        · exact same _ _ (Py.bind_err r1) s.ext rfl
    · exact same _ _ (Py.bind_err (binop_length k habs hi hj hl)) extRefl rfl
  | multi isAnd mem ids =>
    obtain ⟨u, vs, hv, hl, hf⟩ := hleg
    cases ids with
    | nil => simp [Vectors] at hv
    | cons i ids =>
      rcases multi_abs isAnd mem habs hv hl hf with ⟨h0, a, w', r1, s, r2, g, m⟩ | ⟨h', r1, r2, s, _⟩ | ⟨e, h0, r1, s, r2, _⟩
      · cases isAnd
        · exact made _ h0 a w' _ (by simp only [step]; rw [Py.bind_ok r1]; rfl) s m rfl
        · exact made _ h0 a w' _ (by simp only [step]; rw [Py.bind_ok r1]; rfl) s m rfl
      · exact same _ _ (Py.bind_err r1) s.ext (by rw [s.w])
      · exact same _ _ (Py.bind_err r1) s.ext rfl
  | multiXor mem mem' ids =>
    obtain ⟨u, v, vs, hv, hl, hf⟩ := hleg
    match ids, hv with
    | [], hv => simp [Vectors] at hv
    | [_], hv => simp [Vectors] at hv
    | i :: j :: ids, hv =>
      rcases multiXor_abs mem mem' false habs hv hl hf with ⟨_, _, _, hc⟩ | ⟨h', r1, r2, g, ⟨h0, a, ho, s, m⟩, _⟩ | ⟨e, h', r1, r2, g, he, hw, _⟩
      · cases hc
      · have hh : h' = ⟨h0.objs ++ [a], h'.w⟩ := by rw [← ho]
        rw [hh] at r1
        exact made (.object us.length) h0 a h'.w _ (by simp only [step]; rw [Py.bind_ok r1]; rfl) s m rfl
      · exact same _ _ (by simp only [step]; rw [Py.bind_err r1]) he hw
  | sub i j => exact absurd rfl (hs i j)
  | add i j =>
    obtain ⟨u, v, huv⟩ := hleg
    obtain ⟨hi, hj⟩ := vectors_two huv
    obtain ⟨hne, a, ha, hr⟩ := habs.rep i u hi
    have hz := length_ne_zero hne
    have : step (.add i j) h = (.ok (.object i), h) := by
      cases hu : u.length with
      | zero => exact absurd hu hz
      | succ n => simp [step, add, look, Py.bind_run, ha, hr.length, hu]
    exact same _ _ this extRefl rfl
  | copy i =>
    obtain ⟨u, hu, hf⟩ := hleg
    rcases copy_abs habs (vectors_one hu) hf with ⟨a, w', r1, r2, g, m⟩ | ⟨e, r1, r2, _⟩
    · exact made _ h a w' _ (by simp only [step]; rw [Py.bind_ok r1]; rfl) (SameObjs.refl h) m rfl
    · exact same _ _ (Py.bind_err r1) extRefl rfl
  | contains i j =>
    obtain ⟨u, v, huv, hf⟩ := hleg
    obtain ⟨hi, hj⟩ := vectors_two huv
    by_cases hl : u.length = v.length
    · by_cases hint : IsInt h i ∧ IsInt h j
      · have r1 : Activation.contains i j h = (.error .valueError, h) :=
          Py.bind_err (binop_int .and habs hi hj hint.1 hint.2)
        exact same _ _ (Py.bind_err r1) extRefl rfl
      · rcases contains_abs habs hi hj hl hf hint with ⟨h', r1, r2, k, he, ho⟩ | ⟨e, h', r1, r2, k, he, hw, _⟩
        · obtain ⟨b, hb⟩ : ∃ b, step (.contains i j) h = (.ok (.truth b), h') :=
            ⟨_, by simp only [step]; rw [Py.bind_ok r1]; rfl⟩
          rw [hb]
          exact ⟨he, fun p hp => Or.inl (ho p hp)⟩
        · exact same _ _ (Py.bind_err r1) he hw
    · have r1 : Activation.contains i j h = (.error .valueError, h) :=
        Py.bind_err (binop_length .and habs hi hj hl)
      exact same _ _ (Py.bind_err r1) extRefl rfl
  | correlation i j =>
    obtain ⟨u, v, huv⟩ := hleg
    obtain ⟨hi, hj⟩ := vectors_two huv
    by_cases hl : u.length = v.length
    · obtain ⟨h', r1, r2, s⟩ := correlation_abs habs hi hj hl
      exact same _ h' (by simp only [step]; rw [Py.bind_ok r1]; rfl) s.ext (by rw [s.w])
    · exact same _ _ (Py.bind_err (correlation_length habs hi hj hl)) extRefl rfl
  | read r i =>
    obtain ⟨u, hu⟩ := hleg
    obtain ⟨o, h', r1, _, r2, s⟩ := read_abs r habs (vectors_one hu)
    exact same _ h' r1 s.ext (by rw [s.w])
  | measure g missing forced i =>
    obtain ⟨u, hu⟩ := hleg
    obtain ⟨r, h', h0, r1, _, s, ho, hw, _⟩ := measure_abs g missing forced habs (vectors_one hu)
    have he : Ext h h' := fun k a ha => by
      obtain ⟨a', ha', hd'⟩ := s.ext k a ha
      exact ⟨a', by rw [ho]; exact ha', hd'⟩
    have hf : h'.w.files = h.w.files := by rcases hw with hw | hw <;> rw [hw] <;> rfl
    cases r with
    | ok x => exact same (.ok .done) h' (by simp only [step]; rw [Py.bind_ok r1]; rfl) he hf
    | error e => exact same _ _ (Py.bind_err r1) he hf
  | clear i => exact absurd rfl (hc i)
  | delete i => exact absurd rfl (hd i)
  | setDType x => exact same _ _ rfl extRefl rfl
  | setWillCompare x => exact same _ _ rfl extRefl rfl
  | setStoreRaw x => exact same _ _ rfl extRefl rfl

theorem NoLeak.step {d : Nat → Option Arr} {us : Values} {h : Heap} (op : Op) (habs : Abs d h us)
    (hnl : NoLeak h us) (hleg : Legal h.w us op) (hc : ∀ i, op ≠ .clear i) (hs : ∀ i j, op ≠ .sub i j) :
    NoLeak (step op h).2 (after us op (step op h).1 (step op h).2.objs.length) := by
  by_cases hd : ∀ i, op ≠ .delete i
  · obtain ⟨he, hf⟩ := step_files op habs hleg hc hs hd
    intro n hn
    rcases hf _ hn with h1 | h1
    · obtain ⟨i, u, a, hi, ha, hp⟩ := hnl n h1
      obtain ⟨a', ha', hd'⟩ := he i a ha
      exact ⟨i, u, a', after_keep op _ _ hi (hc i) (hd i), ha', by rw [hd', hp]⟩
    · exact h1
  · cases op with
    | delete i =>
      obtain ⟨u, hu⟩ := hleg
      obtain ⟨h', r1, r2, r3, a, ha, k1, k2⟩ := delete_abs habs (vectors_one hu)
      have hst : Activation.step (.delete i) h = (.ok .done, h') := by
        simp only [Activation.step]; rw [Py.bind_ok r1]; rfl
      rw [hst]
      intro n hn
      by_cases hap : a.data = .file (.vec n)
      · exact absurd (k2 _ hap) hn
      · have hn' : h.w.files (.vec n) ≠ none := by rw [← k1 _ hap]; exact hn
        obtain ⟨j, v, b, hj, hb, hp⟩ := hnl n hn'
        have hji : j ≠ i := by
          intro hji
          subst hji
          rw [ha] at hb
          cases hb
          exact hap hp
        refine ⟨j, v, b, ?_, ?_, hp⟩
        · exact (List.getElem?_set_ne (Ne.symm hji)).trans hj
        · rw [delete_objs r1 j hji]; exact hb
    | _ => exact absurd (by intro i hi; cases hi) hd

end Verif.Activation
