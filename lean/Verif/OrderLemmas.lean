import Verif.AddLemmas

/-!
# Lemmas about rulesets: the order after sorting
-/

namespace Verif.RuleSet

open Verif Vote

variable {R : RsEnv}

/-! ## Bounds -/

theorem value_le {a b : Num} (ha : a ≠ .nan) (hb : b ≠ .nan) : a.le b = true ↔ Spec.value a ≤ Spec.value b := by
  cases a <;> cases b <;> simp_all [Num.le, Spec.value]

theorem value_lt {a b : Num} (ha : a ≠ .nan) (hb : b ≠ .nan) : a.lt b = true ↔ Spec.value a < Spec.value b := by
  unfold Num.lt
  rw [Bool.and_eq_true, value_le ha hb, Bool.not_eq_true', ← Bool.not_eq_true, value_le hb ha, lt_iff_le_not_ge]

theorem value_beq {a b : Num} (ha : a ≠ .nan) (hb : b ≠ .nan) : a.beq b = true ↔ Spec.value a = Spec.value b := by
  unfold Num.beq
  rw [Bool.and_eq_true, value_le ha hb, value_le hb ha, le_antisymm_iff]

theorem value_inj {a b : Num} (ha : a ≠ .nan) (hb : b ≠ .nan) (h : Spec.value a = Spec.value b) : a = b := by
  cases a <;> cases b <;> simp_all [Spec.value]

theorem listLt_iff {a b : List Num} (ha : ∀ x ∈ a, x ≠ Num.nan) (hb : ∀ x ∈ b, x ≠ Num.nan) :
    listLt a b = true ↔ a.map Spec.value < b.map Spec.value := by
  induction a generalizing b with
  | nil => cases b <;> simp [listLt]
  | cons x a ih =>
    cases b with
    | nil => simp [listLt]
    | cons y b =>
      rw [List.forall_mem_cons] at ha hb
      unfold listLt
      rw [List.map_cons, List.map_cons, List.cons_lt_cons_iff]
      split
      · rename_i h
        rw [value_beq ha.1 hb.1] at h
        rw [ih ha.2 hb.2, h]
        simp
      · rename_i h
        rw [value_beq ha.1 hb.1] at h
        rw [value_lt ha.1 hb.1]
        simp [h]

theorem map_value_inj {a b : List Num} (ha : ∀ x ∈ a, x ≠ Num.nan) (hb : ∀ x ∈ b, x ≠ Num.nan)
    (h : a.map Spec.value = b.map Spec.value) : a = b := by
  induction a generalizing b with
  | nil => cases b <;> simp_all
  | cons x a ih =>
    cases b with
    | nil => simp at h
    | cons y b =>
      rw [List.forall_mem_cons] at ha hb
      rw [List.map_cons, List.map_cons] at h
      injection h with h1 h2
      rw [value_inj ha.1 hb.1 h1, ih ha.2 hb.2 h2]

/-! ## Groups -/

/-- `x ≤ y` for the bounds -/
def BoundsLe (a b : Member) : Prop := ¬ (Spec.boundsOf b).map Spec.value < (Spec.boundsOf a).map Spec.value

noncomputable instance : DecidableRel BoundsLe := fun _ _ => Classical.propDecidable _

instance : Std.Total BoundsLe := ⟨fun a b => by
  unfold BoundsLe
  rcases lt_or_ge ((Spec.boundsOf b).map Spec.value) ((Spec.boundsOf a).map Spec.value) with h | h
  · exact Or.inr (not_lt_of_gt h)
  · exact Or.inl (not_lt_of_ge h)⟩

instance : IsTrans Member BoundsLe := ⟨fun a b c h h' => by
  unfold BoundsLe at *
  rw [not_lt] at *
  exact le_trans h h'⟩

theorem boundsOf_eq {m : Member} {l : List Num} (h : boundsOf m = .ok l) : l = Spec.boundsOf m := by
  unfold boundsOf at h
  unfold Spec.boundsOf
  cases h1 : m.rule.cond.bmins with
  | none => rw [h1] at h; cases h
  | some lo =>
    cases h2 : m.rule.cond.bmaxs with
    | none => rw [h1, h2] at h; cases h
    | some hi =>
      rw [h1, h2] at h
      cases h
      rfl

/-- A group in order -/
theorem sortGroup_eq {l l' : List Member} (hb : ∀ m ∈ l, Spec.NumericBounds m) (h : sortGroup l = .ok l') :
    l' = l.insertionSort BoundsLe := by
  unfold sortGroup at h
  simp only [bind, Except.bind] at h
  split at h
  · cases h
  rename_i keys hk
  cases h
  have hk := mapM_eq_ok hk
  have hz : ∀ p ∈ keys.zip l, p.1 = Spec.boundsOf p.2 := fun p hp => boundsOf_eq (forall₂_zip hk p hp)
  have hs : (keys.zip l).map (·.2) = l := zip_map_snd hk.length_eq.symm
  unfold sortByKey
  rw [List.map_insertionSort (r := fun a b : List Num × Member => listLt b.1 a.1 = false) (s := BoundsLe), hs]
  intro p hp q hq
  have hp2 : p.2 ∈ l := (List.of_mem_zip hp).2
  have hq2 : q.2 ∈ l := (List.of_mem_zip hq).2
  unfold BoundsLe
  rw [← listLt_iff (hb q.2 hq2) (hb p.2 hp2), ← hz p hp, ← hz q hq, Bool.not_eq_true]

theorem insertionSort_boundsLe (l : List Member) : (l.insertionSort BoundsLe).Pairwise BoundsLe :=
  List.pairwise_insertionSort _ _

/-- A list which is already grouped -/
theorem flatMap_grouped {α κ} [DecidableEq κ] (key : α → κ) {r : κ → κ → Prop} (hr : ∀ a b, r a b → ¬ r b a) {keys : List κ}
    (hk : keys.Pairwise r) {l : List α} (hl : l.Pairwise fun a b => key a = key b ∨ r (key a) (key b))
    (h : ∀ a ∈ l, key a ∈ keys) : (keys.flatMap fun k => l.filter fun a => key a = k) = l := by
  induction keys generalizing l with
  | nil =>
    cases l with
    | nil => rfl
    | cons a l => exact absurd (h a (by simp)) (by simp)
  | cons k ks ih =>
    rw [List.pairwise_cons] at hk
    have split : ∀ l : List α, (l.Pairwise fun a b => key a = key b ∨ r (key a) (key b)) → (∀ a ∈ l, key a ∈ k :: ks) →
        (l.filter fun a => key a = k) ++ (l.filter fun a => key a ≠ k) = l := by
      intro l hl h
      induction l with
      | nil => rfl
      | cons a l ih' =>
        rw [List.pairwise_cons] at hl
        by_cases ha : key a = k
        · rw [List.filter_cons_of_pos (by simpa using ha), List.filter_cons_of_neg (by simpa using ha), List.cons_append,
            ih' hl.2 fun b hb => h b (by simp [hb])]
        · have hka : r k (key a) := by
            rcases List.mem_cons.1 (h a (by simp)) with e | e
            · exact absurd e ha
            · exact hk.1 _ e
          have hnone : ∀ b ∈ l, key b ≠ k := by
            intro b hb e
            rcases hl.1 b hb with e' | e'
            · exact ha (e'.trans e)
            · rw [e] at e'
              exact hr _ _ hka e'
          rw [List.filter_cons_of_neg (by simpa using ha), List.filter_cons_of_pos (by simpa using ha),
            List.filter_eq_nil_iff.2 (by simpa using hnone), List.nil_append, List.filter_eq_self.2 (by simpa using hnone)]
    have h2 := ih hk.2 (l := l.filter fun a => key a ≠ k) (hl.filter _) (by
      intro a ha
      obtain ⟨ha, hne⟩ := List.mem_filter.1 ha
      rcases List.mem_cons.1 (h a ha) with e | e
      · exact absurd e (by simpa using hne)
      · exact e)
    rw [List.flatMap_cons]
    conv => rhs; rw [← split l hl h, ← h2]
    congr 1
    apply List.flatMap_congr
    intro k' hk'
    rw [List.filter_filter]
    apply List.filter_congr
    intro a _
    have : k' ≠ k := by
      intro e
      have := hk.1 k' hk'
      rw [e] at this
      exact hr _ _ this this
    by_cases hak : key a = k'
    · simp [hak, this]
    · simp [hak]

/-! ## The texts -/

/-- One text before another one: fewer features, or as many and before in the order of texts -/
def TextBefore (count : String → Nat) (reverse : Bool) (t t' : String) : Prop :=
  count t < count t' ∨ count t = count t' ∧ if reverse then t' < t else t < t'

theorem TextBefore.asymm {count : String → Nat} {reverse : Bool} {t t' : String} (h : TextBefore count reverse t t') :
    ¬ TextBefore count reverse t' t := by
  unfold TextBefore at *
  rintro (h' | ⟨h', hh⟩)
  · rcases h with h | ⟨h, -⟩ <;> omega
  · rcases h with h | ⟨h, h2⟩
    · omega
    · cases reverse with
      | true =>
        simp only [if_true] at hh h2
        exact lt_asymm hh h2
      | false =>
        simp only [Bool.false_eq_true, if_false] at hh h2
        exact lt_asymm hh h2

theorem TextBefore.trichotomy (count : String → Nat) (reverse : Bool) (t t' : String) :
    t = t' ∨ TextBefore count reverse t t' ∨ TextBefore count reverse t' t := by
  unfold TextBefore
  rcases lt_trichotomy (count t) (count t') with h | h | h
  · exact Or.inr (Or.inl (Or.inl h))
  · rcases lt_trichotomy t t' with g | g | g
    · cases reverse <;> simp [h, g]
    · exact Or.inl g
    · cases reverse <;> simp [h, g]
  · exact Or.inr (Or.inr (Or.inl h))

theorem sortTexts_pairwise (reverse : Bool) {l : List String} (h : l.Nodup) :
    (sortTexts reverse l).Pairwise fun a b => if reverse then b < a else a < b := by
  have hn := (sortTexts_perm reverse l).nodup_iff.2 h
  unfold sortTexts at hn ⊢
  cases reverse with
  | true =>
    simp only [if_true] at hn ⊢
    have : Std.Total fun a b : String => b ≤ a := ⟨fun a b => le_total b a⟩
    have : IsTrans String fun a b => b ≤ a := ⟨fun a b c h h' => le_trans h' h⟩
    exact ((List.pairwise_insertionSort (fun a b : String => b ≤ a) l).and hn).imp fun h => lt_of_le_of_ne h.1 (Ne.symm h.2)
  | false =>
    simp only [Bool.false_eq_true, if_false] at hn ⊢
    exact ((List.pairwise_insertionSort (fun a b : String => a ≤ b) l).and hn).imp fun h => lt_of_le_of_ne h.1 h.2

/-- The number of features of a text, as the code finds it -/
def countOf (l : List Tagged) (t : String) : Nat := ((l.find? fun p => p.1 = t).map (·.2.1)).getD 0

theorem countOf_mem {l : List Tagged} (hl : ∀ p ∈ l, ∀ q ∈ l, p.1 = q.1 → p.2.1 = q.2.1) {p : Tagged} (hp : p ∈ l) :
    countOf l p.1 = p.2.1 := by
  unfold countOf
  cases h : l.find? fun q => q.1 = p.1 with
  | none =>
    rw [List.find?_eq_none] at h
    exact absurd (h p hp) (by simp)
  | some q =>
    have := List.find?_some h
    simp only [decide_eq_true_eq] at this
    simp only [Option.map_some, Option.getD_some]
    exact hl q (List.mem_of_find?_eq_some h) p hp this

theorem groupTexts_pairwise (reverse : Bool) (l : List Tagged) :
    (groupTexts R reverse l).Pairwise (TextBefore (countOf l) reverse) := by
  unfold groupTexts
  simp only
  rw [List.pairwise_flatMap]
  have hd : (R.strings (l.map (·.1))).Nodup := (R.strings_perm _).nodup_iff.2 (List.nodup_dedup _)
  have hmem : ∀ n t, t ∈ sortTexts reverse ((R.strings (l.map (·.1))).filter fun t => countOf l t = n) → countOf l t = n := by
    intro n t ht
    have := (List.mem_filter.1 ((sortTexts_perm _ _).mem_iff.1 ht)).2
    simpa using this
  constructor
  · intro n _
    refine List.Pairwise.imp_of_mem ?_ (sortTexts_pairwise reverse (hd.filter _))
    intro a b ha hb h
    exact Or.inr ⟨(hmem n a ha).trans (hmem n b hb).symm, h⟩
  · rw [List.pairwise_map]
    refine List.Pairwise.imp ?_ List.pairwise_lt_range
    intro n n' hlt t ht t' ht'
    refine Or.inl ?_
    rw [hmem _ t ht, hmem _ t' ht']
    omega

/-! ## The whole -/

/-- What sorting without criterion makes: the groups of the rules with the same text one after the other, each ordered by
bounds -/
structure Grouped (R : RsEnv) (byName reverse : Bool) (l : List Member) (texts : List String) : Prop where
  order : texts.Pairwise (TextBefore (fun t => ((l.find? fun m => Spec.featureText R byName m = t).map
    (Spec.featureNumber byName)).getD 0) reverse)
  all : ∀ m ∈ l, Spec.featureText R byName m ∈ texts
  only : ∀ t ∈ texts, ∃ m ∈ l, Spec.featureText R byName m = t

theorem featuresCount_eq {byName : Bool} {m : Member} {n : Nat} (h : featuresCount byName m = .ok n) :
    n = Spec.featureNumber byName m := by
  unfold featuresCount at h
  unfold Spec.featureNumber
  cases byName with
  | true =>
    simp only [if_true] at h ⊢
    cases hn : m.rule.cond.names with
    | none => rw [hn] at h; cases h
    | some l => rw [hn] at h; cases h; rfl
  | false =>
    simp only [Bool.false_eq_true, if_false] at h ⊢
    cases hn : m.rule.cond.indexes with
    | none => rw [hn] at h; cases h
    | some l => rw [hn] at h; cases h; rfl

theorem sortRules_grouped {byName reverse : Bool} {l l' : List Member} (hb : ∀ m ∈ l, Spec.NumericBounds m)
    (h : sortRules R byName reverse l = .ok l') :
    ∃ texts, Grouped R byName reverse l texts ∧
      l' = texts.flatMap fun t => (l.filter fun m => Spec.featureText R byName m = t).insertionSort BoundsLe := by
  unfold sortRules at h
  simp only [bind, Except.bind] at h
  split at h
  · cases h
  rename_i counts hc
  split at h
  · cases h
  rename_i hm
  split at h
  · cases h
  rename_i groups hg
  cases h
  replace hc := mapM_eq_ok hc
  have hcounts : counts = l.map (Spec.featureNumber byName) := by
    clear hm hg hb
    induction hc with
    | nil => rfl
    | cons h _ ih => rw [List.map_cons, featuresCount_eq h, ih]
  have htag : List.zipWith (fun m n => (featuresText R byName m, n, m)) l counts =
      l.map fun m => (Spec.featureText R byName m, Spec.featureNumber byName m, m) := by
    rw [hcounts, List.zipWith_map_right, List.zipWith_self]
    rfl
  rw [htag] at hm hg
  simp only [List.any_eq_true, decide_eq_true_eq, not_exists, not_and, not_not] at hm
  refine ⟨groupTexts R reverse (l.map fun m => (Spec.featureText R byName m, Spec.featureNumber byName m, m)), ⟨?_, ?_, ?_⟩, ?_⟩
  · have := groupTexts_pairwise (R := R) reverse (l.map fun m => (Spec.featureText R byName m, Spec.featureNumber byName m, m))
    have e : countOf (l.map fun m => (Spec.featureText R byName m, Spec.featureNumber byName m, m)) =
        fun t => ((l.find? fun m => Spec.featureText R byName m = t).map (Spec.featureNumber byName)).getD 0 := by
      funext t
      unfold countOf
      rw [List.find?_map, Option.map_map]
      rfl
    rw [← e]
    exact this
  · intro m hml
    exact hm _ (List.mem_map_of_mem hml)
  · intro t ht
    unfold groupTexts at ht
    simp only [List.mem_flatMap] at ht
    obtain ⟨n, -, ht⟩ := ht
    have := (List.mem_filter.1 ((sortTexts_perm _ _).mem_iff.1 ht)).1
    rw [(R.strings_perm _).mem_iff, List.mem_dedup, List.map_map] at this
    obtain ⟨m, hml, e⟩ := List.mem_map.1 this
    exact ⟨m, hml, e⟩
  · replace hg := mapM_eq_ok hg
    generalize groupTexts R reverse (l.map fun m => (Spec.featureText R byName m, Spec.featureNumber byName m, m)) = texts at hg
    clear hm
    induction hg with
    | nil => rfl
    | @cons t g ts gs h _ ih =>
      rw [List.flatten_cons, List.flatMap_cons, ih]
      congr 1
      have e : ((l.map fun m => (Spec.featureText R byName m, Spec.featureNumber byName m, m)).filter fun p => p.1 = t).map
          (·.2.2) = l.filter fun m => Spec.featureText R byName m = t := by
        rw [List.filter_map, List.map_map]
        simp only [Function.comp_def, List.map_id']
      rw [e] at h
      exact sortGroup_eq (fun m hm => hb m (List.mem_of_mem_filter hm)) h

theorem selfDelimiting_inj {α : Type} {f : α → String} (h : Spec.SelfDelimiting f) {a b : α} (e : f a = f b) : a = b :=
  (h a b "" "" (by rw [e])).1

theorem sameNumber (hT : Spec.TextsTellApart R) {byName : Bool} {a b : Member}
    (h : Spec.featureText R byName a = Spec.featureText R byName b) :
    Spec.featureNumber byName a = Spec.featureNumber byName b := by
  unfold Spec.featureText at h
  unfold Spec.featureNumber
  cases byName with
  | true =>
    simp only [if_true] at h ⊢
    rw [selfDelimiting_inj hT.1 h]
  | false =>
    simp only [Bool.false_eq_true, if_false] at h ⊢
    rw [selfDelimiting_inj hT.2.1 h]

theorem number_find (hT : Spec.TextsTellApart R) {byName : Bool} {l : List Member} {m : Member} (hm : m ∈ l) :
    ((l.find? fun x => Spec.featureText R byName x = Spec.featureText R byName m).map (Spec.featureNumber byName)).getD 0 =
      Spec.featureNumber byName m := by
  cases h : l.find? fun x => Spec.featureText R byName x = Spec.featureText R byName m with
  | none =>
    rw [List.find?_eq_none] at h
    exact absurd (h m hm) (by simp)
  | some x =>
    have := List.find?_some h
    simp only [decide_eq_true_eq] at this
    simp only [Option.map_some, Option.getD_some]
    exact sameNumber hT this

/-- **Order** of the result -/
theorem sortRules_ordered (hT : Spec.TextsTellApart R) {byName reverse : Bool} {l l' : List Member}
    (hb : ∀ m ∈ l, Spec.NumericBounds m) (h : sortRules R byName reverse l = .ok l') :
    l'.Pairwise (Spec.MayPrecede R byName reverse) := by
  obtain ⟨texts, hg, rfl⟩ := sortRules_grouped hb h
  have hmem : ∀ t m, m ∈ (l.filter fun m => Spec.featureText R byName m = t).insertionSort BoundsLe →
      m ∈ l ∧ Spec.featureText R byName m = t := by
    intro t m hm
    have := List.mem_filter.1 ((List.mem_insertionSort _).1 hm)
    simpa using this
  rw [List.pairwise_flatMap]
  constructor
  · intro t _
    refine List.Pairwise.imp_of_mem ?_ (insertionSort_boundsLe _)
    intro a b ha hb' hab
    have e : Spec.featureText R byName a = Spec.featureText R byName b := (hmem t a ha).2.trans (hmem t b hb').2.symm
    exact Or.inr ⟨sameNumber hT e, Or.inr ⟨e, hab⟩⟩
  · refine hg.order.imp ?_
    intro t t' htt a ha b hb'
    obtain ⟨hal, rfl⟩ := hmem t a ha
    obtain ⟨hbl, rfl⟩ := hmem t' b hb'
    unfold TextBefore at htt
    simp only [number_find hT hal, number_find hT hbl] at htt
    rcases htt with h | ⟨h, h'⟩
    · exact Or.inl h
    · exact Or.inr ⟨h, Or.inl h'⟩

/-- Rules which may precede each other have the same key. -/
theorem mayPrecede_antisymm {byName reverse : Bool} {a b : Member} (ha : Spec.NumericBounds a) (hb : Spec.NumericBounds b)
    (h : Spec.MayPrecede R byName reverse a b) (h' : Spec.MayPrecede R byName reverse b a) : Spec.SameSortKey R byName a b := by
  unfold Spec.MayPrecede at h h'
  rcases h with h | ⟨h1, h⟩
  · rcases h' with h' | ⟨h', -⟩ <;> omega
  · rcases h' with h' | ⟨-, h'⟩
    · omega
    rcases h with h | ⟨e, h⟩
    · rcases h' with h' | ⟨e, -⟩
      · cases reverse with
        | true =>
          simp only [if_true] at h h'
          exact absurd h (lt_asymm h')
        | false =>
          simp only [Bool.false_eq_true, if_false] at h h'
          exact absurd h (lt_asymm h')
      · rw [e] at h
        cases reverse <;> simp at h
    · rcases h' with h' | ⟨-, h'⟩
      · rw [e] at h'
        cases reverse <;> simp at h'
      · refine ⟨e, map_value_inj ha hb ?_⟩
        exact le_antisymm (not_lt.1 h) (not_lt.1 h')

/-- Sorting again changes nothing. -/
theorem sortRules_again (hT : Spec.TextsTellApart R) {byName reverse : Bool} {l l' l'' : List Member}
    (hb : ∀ m ∈ l, Spec.NumericBounds m) (h : sortRules R byName reverse l = .ok l')
    (h' : sortRules R byName reverse l' = .ok l'') : l'' = l' := by
  have hp := sortRules_perm h
  have ho := sortRules_ordered hT hb h
  have hb' : ∀ m ∈ l', Spec.NumericBounds m := fun m hm => hb m (hp.mem_iff.1 hm)
  obtain ⟨texts, hg, rfl⟩ := sortRules_grouped hb' h'
  have e : (texts.flatMap fun t => (l'.filter fun m => Spec.featureText R byName m = t).insertionSort BoundsLe) =
      texts.flatMap fun t => l'.filter fun m => Spec.featureText R byName m = t := by
    apply List.flatMap_congr
    intro t _
    apply List.Pairwise.insertionSort_eq
    refine List.Pairwise.imp_of_mem ?_ (ho.filter _)
    intro a b ha hb'' hab
    have ha := (List.mem_filter.1 ha).2
    have hb'' := (List.mem_filter.1 hb'').2
    simp only [decide_eq_true_eq] at ha hb''
    rcases hab with hab | ⟨-, hab | ⟨-, hab⟩⟩
    · have := sameNumber hT (byName := byName) (ha.trans hb''.symm)
      omega
    · rw [ha, hb''] at hab
      cases reverse <;> simp at hab
    · exact hab
  rw [e]
  refine flatMap_grouped (Spec.featureText R byName) (fun a b => TextBefore.asymm) hg.order ?_ hg.all
  refine List.Pairwise.imp_of_mem ?_ ho
  intro a b ha hb'' hab
  unfold TextBefore
  simp only [number_find hT ha, number_find hT hb'']
  rcases hab with hab | ⟨h1, hab | ⟨h2, -⟩⟩
  · exact Or.inr (Or.inl hab)
  · exact Or.inr (Or.inr ⟨h1, hab⟩)
  · exact Or.inl h2

/-- The result does not depend on the initial order, except for rules with the same key. -/
theorem sortRules_order (hT : Spec.TextsTellApart R) {byName reverse : Bool} {l1 l2 l1' l2' : List Member}
    (hp : l1.Perm l2) (hb : ∀ m ∈ l1, Spec.NumericBounds m)
    (hk : ∀ a ∈ l1, ∀ b ∈ l1, Spec.SameSortKey R byName a b → a = b)
    (h1 : sortRules R byName reverse l1 = .ok l1') (h2 : sortRules R byName reverse l2 = .ok l2') : l1' = l2' := by
  have hp1 := sortRules_perm h1
  have hp2 := sortRules_perm h2
  have hb2 : ∀ m ∈ l2, Spec.NumericBounds m := fun m hm => hb m (hp.mem_iff.2 hm)
  refine List.Perm.eq_of_pairwise (le := Spec.MayPrecede R byName reverse) ?_ (sortRules_ordered hT hb h1)
    (sortRules_ordered hT hb2 h2) ((hp1.trans hp).trans hp2.symm)
  intro a b ha hb' hab hba
  have ha := hp1.mem_iff.1 ha
  have hb' := hp.mem_iff.2 (hp2.mem_iff.1 hb')
  exact hk a ha b hb' (mayPrecede_antisymm (hb a ha) (hb b hb') hab hba)

end Verif.RuleSet
