import Verif.DefaultNamesLemmas
import Verif.ConditionProps

/-!
# Properties: names and indexes which are not given (C89)
-/

namespace Verif.DefaultNamesProps

open Verif Spec Cond ConditionProps

/-- **C89 (names).** A condition given the indexes and bounds of distinct features without their names is made; its features are called
`X_` followed by their index. -/
theorem C89_unnamed {by_ : String} (hb : by_ = "index" ∨ by_ = "name") {rows : List (Int × Num × Num)} (hn : (rows.map (·.1)).Nodup)
    (s : Bool) :
    ∃ c fs, init by_ (some (rows.map fun r => V.int r.1)) (some (rows.map fun r => V.float r.2.1))
        (some (rows.map fun r => V.float r.2.2)) none false s = .ok c ∧ Shows c fs ∧
      fs.Perm (rows.map fun r => ⟨"X_" ++ toString r.1, r.1, r.2.1, r.2.2⟩) ∧
      (s = false → fs = rows.map fun r => ⟨"X_" ++ toString r.1, r.1, r.2.1, r.2.2⟩) := by
  rw [init_no_names (r := rows.map (·.1)) (by simp [V.int?])]
  have e := init_features by_ (rows.map fun r => (⟨"X_" ++ toString r.1, r.1, r.2.1, r.2.2⟩ : Feature)) s
  simp only [List.map_map, Function.comp_def] at e
  simp only [List.map_map, Function.comp_def, defaultName_text, e]
  obtain ⟨c, hc⟩ := initFeat_ok (s := s) (fs := rows.map fun r => (⟨"X_" ++ toString r.1, r.1, r.2.1, r.2.2⟩ : Feature)) hb (by
    rw [List.map_map]
    have : (rows.map (·.1)).map defaultName = rows.map fun r => "X_" ++ toString r.1 := by
      rw [List.map_map]
      exact List.map_congr_left fun r _ => defaultName_text r.1
    show (rows.map fun r => "X_" ++ toString r.1).Nodup
    rw [← this]
    exact hn.map defaultName_injective) (by
    rw [List.map_map]
    exact hn)
  refine ⟨c, _, hc, (initFeat_regular hc).1.shows, ?_, fun h => ?_⟩
  · cases s with
    | false => exact List.Perm.refl _
    | true => exact sortF_perm _ _
  · rw [h]
    rfl

example : ([(2, .fin 1, .inf), (-1, .fin 0, .fin 3)] : List (Int × Num × Num)).map (·.1) = [2, -1] ∧
    (init "index" (some [.int 2, .int (-1)]) (some [.float (.fin 1), .float (.fin 0)]) (some [.float .inf, .float (.fin 3)]) none false true).toOption.bind
      (·.names) = some ["X_-1", "X_2"] := by decide +kernel

/-- **C89 (indexes).** A condition given the names of features without their indexes is the one which numbers them in the order in which
they are given. -/
theorem C89_unindexed (by_ : String) (names : List String) (lo hi : Option (List V)) (s : Bool) :
    init by_ none lo hi (some (names.map V.str)) false s =
      init by_ (some ((List.range names.length).map fun k : Nat => V.int k)) lo hi (some (names.map V.str)) false s := by
  have := init_no_indexes (by_ := by_) (na := names.map V.str) (lo := lo) (hi := hi) (s := s)
  rwa [List.length_map] at this

example : (init "name" none (some [.float (.fin 1), .float (.fin 0)]) (some [.float .inf, .float (.fin 3)]) (some [.str "v", .str "u"]) false
      true).toOption.map (fun c => (c.names, c.indexes)) = some (some ["u", "v"], some [1, 0]) := by decide +kernel

/-- **C89 (arrays and DataFrames).** A condition on at least one feature evaluates an array like the DataFrame of the same numbers, if every
feature has the name of its column. -/
theorem C89_agree {c : Cond} {fs : List Feature} (h : Reach c) (hs : Shows c fs) (hne : fs ≠ []) {columns : List String}
    (hc : columns.Nodup) (hf : ∀ f ∈ fs, 0 ≤ f.index ∧ columns[f.index.toNat]? = some f.name) (rows : List (List Num)) :
    evaluateFrame c ⟨columns, rows⟩ = evaluate c ⟨columns.length, rows⟩ := by
  rw [C11_evaluate_named h hs hne fun f hm => List.mem_of_getElem? (hf f hm).2, C11_evaluate h hs]
  · congr 1
    apply List.map_congr_left
    intro row _
    congr 1
    unfold InBox InBoxNamed
    refine propext (forall_congr' fun f => forall_congr' fun hm => ?_)
    rw [cell_named hc (hf f hm).1 (hf f hm).2]
  · intro f hm
    obtain ⟨h0, h1⟩ := hf f hm
    obtain ⟨hlt, -⟩ := List.getElem?_eq_some_iff.1 h1
    refine ⟨?_, ?_⟩ <;> simp only <;> omega

/-- **C89 (arrays and DataFrames without names).** A condition made without names evaluates a DataFrame with the columns `X_0`, `X_1`, ... like
the array of the same numbers, if its indexes are places of columns counted from the beginning. -/
theorem C89_unnamed_agree {by_ : String} {rows : List (Int × Num × Num)} {s : Bool} {c : Cond} (hne : rows ≠ []) {n : Nat}
    (hb : by_ = "index" ∨ by_ = "name") (hn : (rows.map (·.1)).Nodup)
    (h : init by_ (some (rows.map fun r => V.int r.1)) (some (rows.map fun r => V.float r.2.1))
      (some (rows.map fun r => V.float r.2.2)) none false s = .ok c)
    (hr : ∀ r ∈ rows, 0 ≤ r.1 ∧ r.1 < n) (data : List (List Num)) :
    evaluateFrame c ⟨(List.range n).map fun k => "X_" ++ toString k, data⟩ = evaluate c ⟨n, data⟩ := by
  obtain ⟨c', fs, h', hs, hp, -⟩ := C89_unnamed hb hn s
  rw [h] at h'
  cases h'
  have hcol : (List.range n).map (fun k => "X_" ++ toString k) = (List.range n).map fun k : Nat => defaultName k :=
    List.map_congr_left fun k _ => (defaultName_text k).symm
  have hl : ((List.range n).map fun k => "X_" ++ toString k).length = n := by simp
  have key := C89_agree (.init h) hs (by
    rintro rfl
    rw [List.nil_perm] at hp
    exact hne (List.map_eq_nil_iff.1 hp)) (columns := (List.range n).map fun k => "X_" ++ toString k) (by
    rw [hcol]
    exact List.nodup_range.map fun i j e => Tree.defaultName_inj e) (by
    intro f hf
    obtain ⟨r, hr', rfl⟩ := List.mem_map.1 (hp.mem_iff.1 hf)
    obtain ⟨h0, h1⟩ := hr r hr'
    refine ⟨h0, ?_⟩
    rw [hcol, List.getElem?_map, List.getElem?_range (by simp only; omega)]
    simp only [Option.map_some, Option.some.injEq]
    rw [Int.toNat_of_nonneg h0, defaultName_text]) data
  rw [hl] at key
  exact key

example : (init "index" (some [.int 2, .int 0]) (some [.float (.fin 1), .float (.fin 0)]) (some [.float .inf, .float (.fin 3)]) none false
      true).bind (evaluateFrame · ⟨["X_0", "X_1", "X_2"], [[.fin 1, .nan, .fin 9], [.fin 4, .fin 0, .fin 9]]⟩) = .ok [1, 0] := by
  decide +kernel

/-- **C89 is false (negative indexes)**: a condition made without names for the last column evaluates an array, but not the DataFrame of the same
numbers with the columns `X_0`, `X_1`. -/
theorem C89_negative_false :
    ∃ c, init "index" (some [.int (-1)]) (some [.float (.fin 0)]) (some [.float (.fin 3)]) none false true = .ok c ∧
      c.names = some ["X_-1"] ∧ evaluate c ⟨2, [[.fin 9, .fin 1]]⟩ = .ok [1] ∧
      evaluateFrame c ⟨["X_0", "X_1"], [[.fin 9, .fin 1]]⟩ = .error .indexError :=
  ⟨{ indexes := some [-1], bmins := some [.fin 0], bmaxs := some [.fin 3], names := some ["X_-1"], impossible := false },
    by decide +kernel, by decide +kernel, by decide +kernel, by decide +kernel⟩

end Verif.DefaultNamesProps
