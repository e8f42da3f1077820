import Verif.ScaleSpec
import Verif.ConditionProps
import Verif.ConditionAnd
import Verif.RowOrderRun

/-!
# Lemmas for `ScaleProps.lean`
-/

namespace Verif.Scales

open Verif Spec Cond

theorem le_onNum {h : Rat → Rat} (hh : StrictMono h) (x y : Num) : (onNum h x).le (onNum h y) = x.le y := by
  cases x <;> cases y <;> simp [onNum, Num.le, hh.le_iff_le]

theorem lt_onNum {h : Rat → Rat} (hh : StrictMono h) (x y : Num) : (onNum h x).lt (onNum h y) = x.lt y := by
  simp [Num.lt, le_onNum hh]

theorem max_onNum {h : Rat → Rat} (hh : StrictMono h) (x y : Num) : (onNum h x).max (onNum h y) = onNum h (x.max y) := by
  unfold Num.max
  rw [lt_onNum hh]
  split <;> rfl

theorem min_onNum {h : Rat → Rat} (hh : StrictMono h) (x y : Num) : (onNum h x).min (onNum h y) = onNum h (x.min y) := by
  unfold Num.min
  rw [lt_onNum hh]
  split <;> rfl

theorem within_onNum {h : Rat → Rat} (hh : StrictMono h) (lo hi x : Num) :
    Within (onNum h lo) (onNum h hi) (onNum h x) ↔ Within lo hi x := by
  have h1 : ∀ (lo : Num) (q : Rat), AtLeast (onNum h lo) (h q) ↔ AtLeast lo q := by
    intro lo q
    cases lo <;> simp [AtLeast, onNum, hh.le_iff_le]
  have h2 : ∀ (hi : Num) (q : Rat), AtMost (onNum h hi) (h q) ↔ AtMost hi q := by
    intro lo q
    cases lo <;> simp [AtMost, onNum, hh.le_iff_le]
  cases x with
  | fin q =>
    constructor
    · rintro ⟨p, e, a, b⟩
      cases e
      exact ⟨q, rfl, (h1 _ _).1 a, (h2 _ _).1 b⟩
    · rintro ⟨p, e, a, b⟩
      cases e
      exact ⟨h q, rfl, (h1 _ _).2 a, (h2 _ _).2 b⟩
  | _ => constructor <;> (rintro ⟨p, e, -⟩; cases e)

theorem inverted_scaled {h : String → Rat → Rat} (hh : ∀ n, StrictMono (h n)) (f : Feature) : Inverted (scaled h f) ↔ Inverted f := by
  simp [Inverted, scaled, lt_onNum (hh _)]

theorem mapIdx_cell (g : Nat → Rat → Rat) (r : List Num) (k : Nat) :
    (((r.mapIdx fun k x => onNum (g k) x)[k]?).getD .nan) = onNum (g k) ((r[k]?).getD .nan) := by
  rw [List.getElem?_mapIdx]
  cases r[k]? <;> rfl

theorem inBox_scaled {h : String → Rat → Rat} {g : Nat → Rat → Rat} {fs : List Feature} {n : Nat} (hh : ∀ n, StrictMono (h n))
    (hg : ∀ f ∈ fs, g (columnOf n f.index) = h f.name) (r : List Num) :
    InBox (fs.map (scaled h)) n (r.mapIdx fun k x => onNum (g k) x) ↔ InBox fs n r := by
  simp only [InBox, List.forall_mem_map]
  refine forall_congr' fun f => imp_congr_right fun hf => ?_
  have : cell n (r.mapIdx fun k x => onNum (g k) x) f.index = onNum (h f.name) (cell n r f.index) := by
    rw [cell, mapIdx_cell, ← hg f hf]
    rfl
  show Within (onNum (h f.name) f.lo) (onNum (h f.name) f.hi) (cell n _ f.index) ↔ _
  rw [this, within_onNum (hh _)]

theorem inBoxNamed_scaled {h : String → Rat → Rat} {fs : List Feature} {cs : List String} (hh : ∀ n, StrictMono (h n))
    (hc : ∀ f ∈ fs, f.name ∈ cs) (r : List Num) :
    InBoxNamed (fs.map (scaled h)) cs (r.mapIdx fun k x => onNum (h ((cs[k]?).getD "")) x) ↔ InBoxNamed fs cs r := by
  simp only [InBoxNamed, List.forall_mem_map]
  refine forall_congr' fun f => imp_congr_right fun hf => ?_
  have : cellNamed cs (r.mapIdx fun k x => onNum (h ((cs[k]?).getD "")) x) f.name = onNum (h f.name) (cellNamed cs r f.name) := by
    rw [cellNamed, mapIdx_cell (fun k => h ((cs[k]?).getD "")), List.getElem?_idxOf (hc f hf)]
    rfl
  show Within (onNum (h f.name) f.lo) (onNum (h f.name) f.hi) (cellNamed cs _ f.name) ↔ _
  rw [this, within_onNum (hh _)]

theorem names_scaled (h : String → Rat → Rat) (fs : List Feature) : (fs.map (scaled h)).map (·.name) = fs.map (·.name) := by
  rw [List.map_map]
  rfl

theorem index_scaled (h : String → Rat → Rat) (fs : List Feature) : (fs.map (scaled h)).map (·.index) = fs.map (·.index) := by
  rw [List.map_map]
  rfl

theorem sortF_scaled (by_ : String) (h : String → Rat → Rat) (fs : List Feature) :
    sortF by_ (fs.map (scaled h)) = (sortF by_ fs).map (scaled h) := by
  unfold sortF
  split
  · symm
    exact List.map_insertionSort (r := fun a b : Feature => a.index ≤ b.index) (s := fun a b : Feature => a.index ≤ b.index) _ _
      fun a _ b _ => Iff.rfl
  · symm
    exact List.map_insertionSort (r := fun a b : Feature => a.name ≤ b.name) (s := fun a b : Feature => a.name ≤ b.name) _ _
      fun a _ b _ => Iff.rfl

theorem partner_scaled (h : String → Rat → Rat) (bs : List Feature) (f : Feature) :
    partner (bs.map (scaled h)) (scaled h f) = scaled h (partner bs f) := by
  unfold partner
  rw [List.find?_map]
  have : ((fun g : Feature => g.name == (scaled h f).name) ∘ scaled h) = fun g => g.name == f.name := rfl
  rw [this]
  cases bs.find? fun g => g.name == f.name <;> rfl

theorem partner_name (bs : List Feature) (f : Feature) : (partner bs f).name = f.name := by
  unfold partner
  cases e : bs.find? fun g => g.name == f.name with
  | none => rfl
  | some g => simpa using List.find?_some e

theorem merged_scaled {h : String → Rat → Rat} (hh : ∀ n, StrictMono (h n)) (as bs : List Feature) :
    merged (as.map (scaled h)) (bs.map (scaled h)) = (merged as bs).map (scaled h) := by
  unfold merged
  rw [names_scaled, List.map_map, List.map_map (g := scaled h)]
  apply List.map_congr_left
  intro f _
  simp only [Function.comp, partner_scaled]
  by_cases hm : f.name ∈ bs.map (·.name)
  · have hn := partner_name bs f
    have hm' : (scaled h f).name ∈ bs.map (·.name) := hm
    rw [if_pos hm, if_pos hm']
    simp only [scaled, hn, max_onNum (hh _), min_onNum (hh _)]
  · have hm' : (scaled h f).name ∉ bs.map (·.name) := hm
    rw [if_neg hm, if_neg hm']

theorem others_scaled (h : String → Rat → Rat) (as bs : List Feature) :
    others (as.map (scaled h)) (bs.map (scaled h)) = (others as bs).map (scaled h) := by
  unfold others
  rw [List.filter_map, names_scaled]
  rfl

theorem disagree_scaled (h : String → Rat → Rat) (as bs : List Feature) :
    Disagree (as.map (scaled h)) (bs.map (scaled h)) ↔ Disagree as bs := by
  constructor
  · rintro ⟨f, hf, g, hg, e⟩
    obtain ⟨f', hf', rfl⟩ := List.mem_map.1 hf
    obtain ⟨g', hg', rfl⟩ := List.mem_map.1 hg
    exact ⟨f', hf', g', hg', e⟩
  · rintro ⟨f, hf, g, hg, e⟩
    exact ⟨_, List.mem_map_of_mem hf, _, List.mem_map_of_mem hg, e⟩

theorem any_scaled {h : String → Rat → Rat} (hh : ∀ n, StrictMono (h n)) (fs : List Feature) :
    ((fs.map (scaled h)).any fun f => f.hi.lt f.lo) = fs.any fun f => f.hi.lt f.lo := by
  rw [List.any_map]
  congr 1
  funext f
  exact lt_onNum (hh _) _ _

/-! ## Evaluation -/

theorem evaluate_scaled {h : String → Rat → Rat} {g : Nat → Rat → Rat} {c c' : Cond} {fs : List Feature} {m : Mat} (hh : ∀ n, StrictMono (h n))
    (hc : Regular c fs) (hc' : Regular c' (fs.map (scaled h))) (hg : ∀ f ∈ fs, g (columnOf m.ncols f.index) = h f.name) :
    evaluate c' (scaledMat g m) = evaluate c m := by
  have himp : c'.impossible = c.impossible := by rw [hc.imp, hc'.imp, any_scaled hh]
  cases hi : c.impossible with
  | true =>
    rw [evaluate_impossible hi, evaluate_impossible (himp.trans hi)]
    simp [scaledMat]
  | false =>
    by_cases hr : ∀ f ∈ fs, InRange m.ncols f.index
    · rw [evaluate_shows hc.shows hc.imp' hr, evaluate_shows (xs := scaledMat g m) hc'.shows hc'.imp' (List.forall_mem_map.2 hr)]
      show Except.ok ((m.rows.map _).map _) = _
      rw [List.map_map]
      congr 1
      apply List.map_congr_left
      intro r _
      exact congrArg flag (propext (inBox_scaled hh hg r))
    · push Not at hr
      obtain ⟨f, hf, hr⟩ := hr
      rw [evaluate_out_of_range hc.shows hi ⟨f, hf, hr⟩, evaluate_out_of_range (xs := scaledMat g m) hc'.shows (himp.trans hi) ⟨_, List.mem_map_of_mem hf, hr⟩]

theorem evaluateFrame_scaled {h : String → Rat → Rat} {c c' : Cond} {fs : List Feature} {m : Frame} (hh : ∀ n, StrictMono (h n))
    (hc : Regular c fs) (hc' : Regular c' (fs.map (scaled h))) : evaluateFrame c' (scaledFrame h m) = evaluateFrame c m := by
  have himp : c'.impossible = c.impossible := by rw [hc.imp, hc'.imp, any_scaled hh]
  cases hi : c.impossible with
  | true =>
    rw [evaluateFrame_impossible hi, evaluateFrame_impossible (himp.trans hi)]
    simp [scaledFrame]
  | false =>
    by_cases hn : fs = []
    · subst hn
      rw [evaluateFrame_none hc.shows hi, evaluateFrame_none hc'.shows (himp.trans hi)]
    · by_cases hr : ∀ f ∈ fs, f.name ∈ m.columns
      · rw [evaluateFrame_shows hc.shows hc.imp' hn hr, evaluateFrame_shows (xs := scaledFrame h m) hc'.shows hc'.imp' (by simpa using hn) (List.forall_mem_map.2 hr)]
        show Except.ok ((m.rows.map _).map _) = _
        rw [List.map_map]
        congr 1
        apply List.map_congr_left
        intro r _
        exact congrArg flag (propext (inBoxNamed_scaled hh hr r))
      · push Not at hr
        obtain ⟨f, hf, hr⟩ := hr
        rw [evaluateFrame_missing hc.shows hi ⟨f, hf, hr⟩,
          evaluateFrame_missing (xs := scaledFrame h m) hc'.shows (himp.trans hi) ⟨_, List.mem_map_of_mem hf, hr⟩]

theorem evaluate_rescaled {h : String → Rat → Rat} {c c' : Cond} {fs : List Feature} {xs xs' : Xs} (hh : ∀ n, StrictMono (h n))
    (hc : Regular c fs) (hc' : Regular c' (fs.map (scaled h))) (hx : Rescaled h fs xs xs') : Rule.evaluate c' xs' = Rule.evaluate c xs := by
  cases xs with
  | arr m =>
    obtain ⟨g, -, hg, rfl⟩ := hx
    exact evaluate_scaled hh hc hc' hg
  | frame m =>
    cases hx
    exact evaluateFrame_scaled hh hc hc'

theorem length_rescaled {h : String → Rat → Rat} {fs : List Feature} {xs xs' : Xs} (hx : Rescaled h fs xs xs') : xs'.length = xs.length := by
  cases xs with
  | arr m =>
    obtain ⟨g, -, hg, rfl⟩ := hx
    simp [Xs.length, scaledMat]
  | frame m =>
    cases hx
    simp [Xs.length, scaledFrame]

theorem length_scaled {h : String → Rat → Rat} {c c' : Cond} {fs : List Feature} (hc : Regular c fs) (hc' : Regular c' (fs.map (scaled h))) :
    c'.length = c.length := by
  have e := hc.shows
  have e' := hc'.shows
  unfold Shows at e e'
  simp [Cond.length, e, e']

end Verif.Scales
