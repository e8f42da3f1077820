import Verif.SaveSpec
import Verif.ConditionAnd
import Verif.PyTextLemmas
import Verif.SortLemmas
import Verif.StackLemmas

/-!
# Lemmas on saving and loading
-/

namespace Verif

namespace Save

open Thresholds (Attr)

/-! ## Cells -/

/-- A cell with the text of a list is read as this text. -/
theorem reread_list (W : Texts) {column : List String} {t : List Char} (h : String.ofList ('[' :: t) ∈ column) :
    areNumbers W column = false ∧ reread W column (String.ofList ('[' :: t)) = String.ofList ('[' :: t) := by
  have e : areNumbers W column = false := by
    unfold areNumbers
    rw [List.all_eq_false]
    exact ⟨_, h, by rw [W.csvNumber_list t, decide_eq_false (W.missing_list t)]; decide⟩
  refine ⟨e, ?_⟩
  unfold reread readValue valueInTexts
  rw [e, if_neg (by decide), if_neg (W.missing_list t)]
  rfl

theorem option_some_head {α : Type} (f : α → List Char) (l : List α) :
    ∃ t, String.ofList (PyText.option f (some l)) = String.ofList ('[' :: t) := by
  obtain ⟨t, e⟩ := PyText.list_head f l
  exact ⟨t, by rw [PyText.option, e]⟩

theorem literalList_str {α : Type} {f : α → List Char} {read : List Char → Option (α × List Char)} (hf : PyText.Reads f read)
    (o : Option (List α)) : literalList read (String.ofList (PyText.option f o)) = .ok o := by
  unfold literalList
  rw [String.toList_ofList]
  have := PyText.readOption_option hf o []
  rw [List.append_nil] at this
  rw [this]

/-- A list with at least one cell of it, read as it was written -/
theorem literalList_reread {α : Type} (W : Texts) {f : α → List Char} {read : List Char → Option (α × List Char)}
    (hf : PyText.Reads f read) {column : List String} {l : List α} (h : String.ofList (PyText.option f (some l)) ∈ column) :
    literalList read (reread W column (String.ofList (PyText.option f (some l)))) = .ok (some l) := by
  obtain ⟨t, e⟩ := option_some_head f l
  rw [e] at h
  rw [e, (reread_list W h).2, ← e, literalList_str hf]

theorem strNum_ne (W : Texts) (x : Rat) : strNum W (.fin x) ≠ "nan" ∧ strNum W (.fin x) ≠ "None" := by
  obtain ⟨c, t, hc, h⟩ := W.floats.write_head x
  have aux : ∀ (d : Char) (u : List Char) (s : String), s = String.ofList (d :: u) →
      PyText.digitValue d = none → d ≠ '-' → strNum W (.fin x) ≠ s := by
    rintro d u _ rfl hd hm e
    have e := congrArg String.toList e
    unfold strNum PyText.num at e
    simp only [String.toList_ofList] at e
    rcases h with h | h <;> rw [h] at e <;> cases e
    · exact PyText.digit_ne hc hd rfl
    · exact hm rfl
  exact ⟨aux 'n' ['a', 'n'] _ rfl (by decide) (by decide), aux 'N' ['o', 'n', 'e'] _ rfl (by decide) (by decide)⟩

theorem literal_num (W : Texts) (x : Rat) : literal W (strNum W (.fin x)) = .ok (some (.num (.fin x))) := by
  unfold literal
  rw [if_neg (strNum_ne W x).2]
  have : W.floats.read (strNum W (.fin x)).toList = some (x, []) := by
    unfold strNum PyText.num
    rw [String.toList_ofList]
    have := W.floats.read_write x [] (Or.inl rfl)
    rwa [List.append_nil] at this
  rw [this]

/-- A finite number read in a column: rounded by `read_csv` in a column of numbers -/
theorem reread_num (W : Texts) (column : List String) (x : Rat) :
    reread W column (strNum W (.fin x)) = strNum W (.fin (if areNumbers W column then W.csvRound x else x)) := by
  unfold reread readValue
  split
  · unfold valueInNumbers
    have : strNum W (.fin x) = String.ofList (W.floats.write x) := rfl
    rw [this, if_neg (W.missing_num x), W.csvNumber_num x]
    rfl
  · unfold valueInTexts
    have : strNum W (.fin x) = String.ofList (W.floats.write x) := rfl
    rw [this, if_neg (W.missing_num x)]
    rfl

theorem reread_missing (W : Texts) (column : List String) {t : String} (h : t ∈ W.missing) : reread W column t = "nan" := by
  unfold reread readValue
  split
  · unfold valueInNumbers
    rw [if_pos h]
    rfl
  · unfold valueInTexts
    rw [if_pos h]
    rfl

theorem reread_text (W : Texts) {column : List String} {t : String} (hc : t ∈ column) (h : t ∉ W.missing)
    (hn : W.csvNumber t = none) : reread W column t = t := by
  have e : areNumbers W column = false := by
    unfold areNumbers
    rw [List.all_eq_false]
    exact ⟨_, hc, by simp [h, hn]⟩
  unfold reread readValue
  rw [e, if_neg (by decide)]
  unfold valueInTexts
  rw [if_neg h]
  rfl

theorem readAttr_reread (W : Texts) (hr : ∀ x, W.csvRound x = x) {column : List String} {v : Attr} (h : Readable W v)
    (hc : strAttr W v ∈ column) : readAttr W (reread W column (strAttr W v)) = .ok v := by
  rcases h with ⟨x, rfl⟩ | rfl | ⟨rfl, hn⟩
  · unfold strAttr
    rw [reread_num]
    have e : (if areNumbers W column then W.csvRound x else x) = x := by
      split
      · exact hr x
      · rfl
    rw [e]
    unfold readAttr
    rw [if_neg (strNum_ne W x).1, literal_num]
    rfl
  · have e : strAttr W (.num .nan) = "nan" := rfl
    rw [e, reread_missing W column W.missing_nan]
    rfl
  · have e : strAttr W .none = "None" := rfl
    rw [e] at hc ⊢
    rw [reread_text W hc hn W.csvNumber_none]
    unfold readAttr
    rw [if_neg (by decide)]
    rfl

theorem readPrediction_reread (W : Texts) (hr : ∀ x, W.csvRound x = x) {column : List String} {o : Option Label}
    (h : Readable W (predAttr o) ∨ ∃ t, o = some (.text t) ∧ ReadableClass W t) (hc : strAttr W (predAttr o) ∈ column) :
    readPrediction W (reread W column (strAttr W (predAttr o))) = .ok (predOf o) := by
  rcases h with h | ⟨t, rfl, h1, h2, h3⟩
  · cases o with
    | none =>
      rcases h with ⟨x, e⟩ | e | ⟨-, hn⟩
      · cases e
      · cases e
      · have e : strAttr W (predAttr none) = "None" := rfl
        rw [e] at hc ⊢
        rw [reread_text W hc hn W.csvNumber_none]
        unfold readPrediction
        rw [if_neg (by decide)]
        rfl
    | some l =>
      cases l with
      | text t =>
        rcases h with ⟨x, e⟩ | e | ⟨e, -⟩ <;> cases e
      | num x =>
        rcases h with ⟨x', e⟩ | e | ⟨e, -⟩
        · cases e
          have e : strAttr W (predAttr (some (.num (.fin x')))) = strNum W (.fin x') := rfl
          rw [e] at hc ⊢
          rw [reread_num]
          have e : (if areNumbers W column then W.csvRound x' else x') = x' := by
            split
            · exact hr x'
            · rfl
          rw [e]
          unfold readPrediction
          rw [if_neg (strNum_ne W x').1, literal_num]
          rfl
        · cases e
          have e : strAttr W (predAttr (some (.num .nan))) = "nan" := rfl
          rw [e, reread_missing W column W.missing_nan]
          rfl
        · cases e
  · have e : strAttr W (predAttr (some (.text t))) = t := rfl
    rw [e] at hc ⊢
    rw [reread_text W hc h1 h2]
    unfold readPrediction
    rw [if_neg (by rintro rfl; exact h1 W.missing_nan), h3]
    rfl

/-! ## Lines -/

/-- The prediction as an attribute -/
theorem getattr_prediction (E : Env) (r : Rule) : r.getattr E "prediction" = (r.getPrediction E).map predAttr := by
  unfold Rule.getattr
  rw [if_neg (by decide), if_pos rfl]
  simp only [bind, Except.bind]
  cases r.getPrediction E with
  | error e => rfl
  | ok o => cases o <;> rfl

/-- The constructor makes the same condition again of the lists of a condition it made. -/
theorem made_again {by_ : String} {c : Cond} (h : Made by_ c) : Cond.initTyped by_ c.indexes c.bmins c.bmaxs c.names = .ok c := by
  obtain ⟨i, lo, hi, n, h⟩ := h
  obtain ⟨fs, h⟩ := Cond.init_ok h
  obtain ⟨⟨s1, s2, s3, s4⟩, -, -, -⟩ := (Cond.initFeat_regular h).1
  simp only [if_true] at s1 s2 s3 s4
  rw [s1, s2, s3, s4, Cond.initTyped_features, Cond.initFeat_perm by_ (Cond.sortF_perm by_ fs), h]

/-- It has all lists. -/
theorem made_lists {by_ : String} {c : Cond} (h : Made by_ c) : ∃ i lo hi n, c.indexes = some i ∧ c.bmins = some lo ∧
    c.bmaxs = some hi ∧ c.names = some n := by
  obtain ⟨i, lo, hi, n, h⟩ := h
  obtain ⟨fs, h⟩ := Cond.init_ok h
  obtain ⟨⟨s1, s2, s3, s4⟩, -, -, -⟩ := (Cond.initFeat_regular h).1
  exact ⟨_, _, _, _, s2, s3, s4, s1⟩

theorem Loadable.lists {W : Texts} {R : RsEnv} {by_ : String} {m : Member} (h : Loadable W R by_ m) :
    ∃ i lo hi n, m.rule.cond.indexes = some i ∧ m.rule.cond.bmins = some lo ∧ m.rule.cond.bmaxs = some hi ∧
      m.rule.cond.names = some n ∧ (∀ x ∈ lo ++ hi, ∃ q, x = .fin q) := by
  obtain ⟨i, lo, hi, n, e1, e2, e3, e4⟩ := made_lists h.made
  refine ⟨i, lo, hi, n, e1, e2, e3, e4, fun x hx => ?_⟩
  rcases List.mem_append.1 hx with hx | hx
  · exact h.finite lo (Or.inl e2) x hx
  · exact h.finite hi (Or.inr e3) x hx

theorem mem_column {lines : List Line} {L : Line} (hL : L ∈ lines) (j : Nat) : L.others.getD j "" ∈ column lines j :=
  List.mem_append_left _ (List.mem_map.2 ⟨L, hL, rfl⟩)

theorem literalBounds_reread (W : Texts) {column : List String} {l : List Num} (hl : ∀ x ∈ l, ∃ q, x = Num.fin q)
    (h : strBounds W (some l) ∈ column) : literalBounds W (reread W column (strBounds W (some l))) = .ok (some l) := by
  unfold literalBounds
  rw [show strBounds W (some l) = String.ofList (PyText.option (PyText.num W.floats) (some l)) from rfl] at h ⊢
  rw [literalList_reread W (PyText.reads_num W.floats) h]
  simp only [bind, Except.bind]
  rw [if_pos]
  rw [List.all_eq_true]
  intro x hx
  obtain ⟨q, rfl⟩ := hl x hx
  rfl

theorem coverage_blank {E : Env} {r : Rule} (h : r.act = none) : r.getattr E "coverage" = .ok r.coverage := by
  unfold Rule.getattr
  rw [if_pos rfl]
  unfold Rule.getCoverage
  rw [h]

theorem prediction_predOf {E : Env} {r : Rule} {o : Option Label} (h : r.prediction = predOf o) :
    r.getattr E "prediction" = .ok (predAttr o) := by
  rw [getattr_prediction]
  unfold Rule.getPrediction
  rw [h]
  cases o <;> rfl

theorem hasPrediction_predOf (o : Option Label) :
    hasPrediction (predOf o) = true ↔ (Except.ok (predAttr o) : Except Err Attr) ≠ .ok .none := by
  cases o with
  | none => simp [predOf, hasPrediction, predAttr]
  | some l => cases l <;> simp [predOf, hasPrediction, predAttr, Rule.ofLabel]

theorem readOthers_regression (W : Texts) {t1 t2 t3 t4 t5 : String} {p : Pred} {v2 v3 v4 v5 : Attr}
    (c1 : readPrediction W t1 = .ok p) (c2 : readAttr W t2 = .ok v2) (c3 : readAttr W t3 = .ok v3)
    (c4 : readAttr W t4 = .ok v4) (c5 : readAttr W t5 = .ok v5) :
    readOthers W ((ruleIndex .regression).zip [t1, t2, t3, t4, t5]) blankRule =
      .ok { blankRule with prediction := p, coverage := v2, zscore := v3, criterion := v4, std := v5 } := by
  simp only [ruleIndex, List.zip_cons_cons, List.zip_nil_right, readOthers, c1, c2, c3, c4, c5, bind, Except.bind, if_true,
    reduceIte, String.reduceEq]

theorem readOthers_classification (W : Texts) {t1 t2 t3 : String} {p : Pred} {v2 v3 : Attr}
    (c1 : readPrediction W t1 = .ok p) (c2 : readAttr W t2 = .ok v2) (c3 : readAttr W t3 = .ok v3) :
    readOthers W ((ruleIndex .classification).zip [t1, t2, t3]) blankRule =
      .ok { blankRule with prediction := p, coverage := v2, criterion := v3 } := by
  simp only [ruleIndex, List.zip_cons_cons, List.zip_nil_right, readOthers, c1, c2, c3, bind, Except.bind, if_true,
    reduceIte, String.reduceEq]

/-- A rule is read back from its line. -/
theorem lineToRule_reread {W : Texts} {R : RsEnv} {by_ : String} {t : Table} {m : Member} {L : Line}
    (hr : ∀ x, W.csvRound x = x) (hm : Loadable W R by_ m) (hk : m.kind = t.kind) (h : ruleToLine W R t.kind m = .ok L)
    (hL : L ∈ t.lines) : ∃ m', lineToRule W by_ t.kind (rereadLine W t L) = .ok m' ∧ SameSaved R m m' ∧
      m'.rule.act = none ∧ m'.rule.sign = .none := by
  obtain ⟨i, lo, hi, n, e1, e2, e3, e4, hfin⟩ := hm.lists
  unfold ruleToLine at h
  simp only [bind, Except.bind] at h
  split at h
  · cases h
  rename_i l hl
  replace hl := RuleSet.mapM_eq_ok hl
  have h := (Except.ok.inj h).symm
  have n1 : literalList PyText.readText (rereadLine W t L).names = .ok m.rule.cond.names := by
    have e : L.names = String.ofList (PyText.option (PyText.text W.printable) (some n)) := by rw [h, ← e4]; rfl
    rw [e4]
    show literalList _ (reread W _ L.names) = _
    rw [e]
    exact literalList_reread W (PyText.reads_text W.printable) (List.mem_append_left _ (List.mem_map.2 ⟨L, hL, e⟩))
  have n2 : literalList PyText.readInt (rereadLine W t L).indexes = .ok m.rule.cond.indexes := by
    have e : L.indexes = String.ofList (PyText.option PyText.int (some i)) := by rw [h, ← e1]; rfl
    rw [e1]
    show literalList _ (reread W _ L.indexes) = _
    rw [e]
    exact literalList_reread W PyText.reads_int (List.mem_append_left _ (List.mem_map.2 ⟨L, hL, e⟩))
  have n3 : literalBounds W (rereadLine W t L).bmins = .ok m.rule.cond.bmins := by
    have e : L.bmins = strBounds W (some lo) := by rw [h, ← e2]
    rw [e2]
    show literalBounds _ (reread W _ L.bmins) = _
    rw [e]
    exact literalBounds_reread W (fun x hx => hfin x (List.mem_append_left _ hx))
      (List.mem_append_left _ (List.mem_map.2 ⟨L, hL, e⟩))
  have n4 : literalBounds W (rereadLine W t L).bmaxs = .ok m.rule.cond.bmaxs := by
    have e : L.bmaxs = strBounds W (some hi) := by rw [h, ← e3]
    rw [e3]
    show literalBounds _ (reread W _ L.bmaxs) = _
    rw [e]
    exact literalBounds_reread W (fun x hx => hfin x (List.mem_append_right _ hx))
      (List.mem_append_left _ (List.mem_map.2 ⟨L, hL, e⟩))
  unfold lineToRule
  rw [n1, n2, n3, n4]
  simp only [bind, Except.bind]
  rw [made_again hm.made]
  have ho : L.others = l.map (strAttr W) := by rw [h]
  have hcol := mem_column hL
  rw [ho] at hcol
  have hre : (rereadLine W t L).others = (l.map (strAttr W)).zipIdx.map fun p => reread W (column t.lines p.2) p.1 := by
    rw [← ho]
    rfl
  have hattr : ∀ a ∈ ["coverage", "criterion"], ∀ v j, m.rule.getattr (R.ofKind m.kind) a = .ok v →
      strAttr W v ∈ column t.lines j → readAttr W (reread W (column t.lines j) (strAttr W v)) = .ok v :=
    fun a ha v j hv hj => readAttr_reread W hr (hm.figures a ha v hv) hj
  have hmore : m.kind = .regression → ∀ a ∈ ["zscore", "std"], ∀ v j, m.rule.getattr (R.ofKind m.kind) a = .ok v →
      strAttr W v ∈ column t.lines j → readAttr W (reread W (column t.lines j) (strAttr W v)) = .ok v :=
    fun e a ha v j hv hj => readAttr_reread W hr (hm.more e a ha v hv) hj
  have hpred : ∀ v, m.rule.getattr (R.ofKind m.kind) "prediction" = .ok v →
      ∃ o, v = predAttr o ∧ (strAttr W v ∈ column t.lines 0 →
        readPrediction W (reread W (column t.lines 0) (strAttr W v)) = .ok (predOf o)) := by
    intro v hv
    rw [getattr_prediction] at hv
    cases hg : m.rule.getPrediction (R.ofKind m.kind) with
    | error e => rw [hg] at hv; cases hv
    | ok o =>
      rw [hg] at hv
      cases hv
      exact ⟨o, rfl, fun hj => readPrediction_reread W hr (hm.prediction o hg) hj⟩
  cases hkk : t.kind with
  | regression =>
    rw [hkk] at hl
    rcases hl with _ | ⟨a1, _ | ⟨a2, _ | ⟨a3, _ | ⟨a4, _ | ⟨a5, _ | _⟩⟩⟩⟩⟩
    rename_i v1 v2 v3 v4 v5 _
    obtain ⟨o, ho1, hp⟩ := hpred v1 a1
    have c1 := hp (hcol 0)
    have c2 := hattr "coverage" (by simp) v2 1 a2 (hcol 1)
    have c3 := hmore (hk.trans hkk) "zscore" (by simp) v3 2 a3 (hcol 2)
    have c4 := hattr "criterion" (by simp) v4 3 a4 (hcol 3)
    have c5 := hmore (hk.trans hkk) "std" (by simp) v5 4 a5 (hcol 4)
    have hz : (rereadLine W t L).others = [_, _, _, _, _] := hre
    rw [hz, readOthers_regression W c1 c2 c3 c4 c5]
    refine ⟨_, rfl, ⟨?_, rfl, ?_, ?_, ?_, ?_, ?_, ?_⟩, ?_, rfl⟩
    · rw [hk, hkk]
    · rw [a1, ho1]
      exact prediction_predOf rfl
    · rw [a2]
      exact coverage_blank rfl
    · rw [a4]
      rfl
    · intro _
      rw [a3]
      rfl
    · intro _
      rw [a5]
      rfl
    · rw [a1, ho1]
      exact hasPrediction_predOf o
    · rfl
  | classification =>
    rw [hkk] at hl
    rcases hl with _ | ⟨a1, _ | ⟨a2, _ | ⟨a3, _ | _⟩⟩⟩
    rename_i v1 v2 v3 _
    obtain ⟨o, ho1, hp⟩ := hpred v1 a1
    have c1 := hp (hcol 0)
    have c2 := hattr "coverage" (by simp) v2 1 a2 (hcol 1)
    have c3 := hattr "criterion" (by simp) v3 2 a3 (hcol 2)
    have hz : (rereadLine W t L).others = [_, _, _] := hre
    rw [hz, readOthers_classification W c1 c2 c3]
    refine ⟨_, rfl, ⟨?_, rfl, ?_, ?_, ?_, ?_, ?_, ?_⟩, ?_, rfl⟩
    · rw [hk, hkk]
    · rw [a1, ho1]
      exact prediction_predOf rfl
    · rw [a2]
      exact coverage_blank rfl
    · rw [a3]
      rfl
    · intro e
      rw [hk, hkk] at e
      cases e
    · intro e
      rw [hk, hkk] at e
      cases e
    · rw [a1, ho1]
      exact hasPrediction_predOf o
    · rfl

/-! ## Tables -/

theorem forall₂_mapM {α β γ : Type} {r : α → β → Prop} {q : α → γ → Prop} {f : β → Except Err γ} {l1 : List α} {l2 : List β}
    (h : List.Forall₂ r l1 l2) (hf : ∀ a ∈ l1, ∀ b ∈ l2, r a b → ∃ c, f b = .ok c ∧ q a c) :
    ∃ l3, l2.mapM f = .ok l3 ∧ List.Forall₂ q l1 l3 := by
  induction h with
  | nil => exact ⟨[], rfl, .nil⟩
  | @cons a b l1 l2 hab _ ih =>
    obtain ⟨c, hc, hq⟩ := hf a (.head _) b (.head _) hab
    obtain ⟨l3, hl, hq'⟩ := ih fun a ha b hb => hf a (.tail _ ha) b (.tail _ hb)
    refine ⟨c :: l3, ?_, .cons hq hq'⟩
    rw [List.mapM_cons, hc]
    simp only [bind, Except.bind]
    rw [hl]
    rfl

theorem forall₂_right {α β : Type} {r : α → β → Prop} {p : β → Prop} {l1 : List α} {l2 : List β} (h : List.Forall₂ r l1 l2)
    (hp : ∀ a b, r a b → p b) : ∀ b ∈ l2, p b := by
  induction h with
  | nil => intro b hb; cases hb
  | cons hab _ ih =>
    intro b hb
    rcases List.mem_cons.1 hb with rfl | hb
    · exact hp _ _ hab
    · exact ih b hb

theorem flatMap_same {l1 l2 : List Member} (h : List.Forall₂ (fun m m' : Member => m'.rule.cond = m.rule.cond) l1 l2) :
    (l2.flatMap fun m => m.rule.cond.names.getD []) = l1.flatMap fun m => m.rule.cond.names.getD [] := by
  induction h with
  | nil => rfl
  | cons hq _ ih => rw [List.flatMap_cons, List.flatMap_cons, ih, hq]

/-- What is in a table which was saved -/
theorem toTable_ok {W : Texts} {R : RsEnv} {s : RuleSet} {t : Table} (h : toTable W R s = .ok (some t)) :
    s.rules ≠ [] ∧ s.ruleType = some t.kind ∧ List.Forall₂ (fun m L => ruleToLine W R t.kind m = .ok L) s.rules t.lines ∧
      t.coverage = cellOf W s.rulesetCoverage ∧ t.criterion = cellOf W s.criterion ∧ t.trainSize = cellOfSize W s.trainSize ∧
      t.testSize = cellOfSize W s.trainSize := by
  unfold toTable at h
  split at h
  · cases h
  rename_i hne
  split at h
  · cases h
  rename_i k hk
  simp only [bind, Except.bind] at h
  split at h
  · cases h
  rename_i lines hl
  cases h
  refine ⟨fun e => hne (by rw [e]; rfl), hk, RuleSet.mapM_eq_ok hl, rfl, rfl, rfl, rfl⟩

theorem SameSaved.withSizes {R : RsEnv} {m m' : Member} (a b : Attr) (h : SameSaved R m m') : SameSaved R m (Save.withSizes a b m') :=
  ⟨h.kind, h.cond, h.prediction, h.coverage, h.criterion, h.zscore, h.std, h.fitted⟩

/-- The cells of the names and the figures are texts. -/
theorem names_not_numbers {W : Texts} {R : RsEnv} {by_ : String} {s : RuleSet} {t : Table}
    (hs : ∀ m ∈ s.rules, Loadable W R by_ m) (h : toTable W R s = .ok (some t)) (cells : List String) :
    areNumbers W (t.lines.map (·.names) ++ cells) = false := by
  obtain ⟨hne, -, hl, -⟩ := toTable_ok h
  cases hr : s.rules with
  | nil => exact absurd hr hne
  | cons m rest =>
    rw [hr] at hl hs
    obtain ⟨L, lines, h1, -, e⟩ := List.forall₂_cons_left_iff.1 hl
    obtain ⟨i, lo, hi, n, -, -, -, e4, -⟩ := (hs m (.head _)).lists
    unfold ruleToLine at h1
    simp only [bind, Except.bind] at h1
    split at h1
    · cases h1
    have h1 := (Except.ok.inj h1).symm
    obtain ⟨u, hu⟩ := option_some_head (PyText.text W.printable) n
    refine (reread_list W (t := u) (List.mem_append_left _ ?_)).1
    rw [← hu]
    refine List.mem_map.2 ⟨L, by rw [e]; exact .head _, ?_⟩
    rw [h1, ← e4]
    rfl

theorem sizeOf_cell (W : Texts) {a : Attr} (h : IsSize a) : sizeOf (valueInTexts W (cellOfSize W a)) = .ok (sizeRead a) := by
  have hempty : sizeOf (valueInTexts W "") = .ok (.num .nan) := by
    unfold valueInTexts
    rw [if_pos W.missing_empty]
    rfl
  rcases h with rfl | rfl | ⟨i, rfl⟩
  · exact hempty
  · exact hempty
  · have e : cellOfSize W (.num (.fin i)) = String.ofList (PyText.int i) := by
      unfold cellOfSize
      simp
    rw [e]
    unfold valueInTexts
    rw [if_neg (W.missing_int i)]
    unfold sizeOf
    simp only
    have := PyText.readInt_int i (rest := []) (fun c t e => by cases e)
    rw [List.append_nil] at this
    rw [String.toList_ofList, this]
    rfl

theorem evaluateSelf_none {R : RsEnv} {rules : List Member} (hne : rules ≠ []) (h : ∀ m ∈ rules, m.rule.act = none) :
    RuleSet.evaluateSelf R none rules = .ok none ∧ RuleSet.evaluateStacked R none rules = .ok none := by
  have ha : RuleSet.activations R none rules = .ok none := by
    cases rules with
    | nil => exact absurd rfl hne
    | cons m rest =>
      unfold RuleSet.activations
      simp only [List.mapM_cons, h m (.head _)]
      rfl
  have hlen : ¬ rules.length = 0 := fun e => hne (List.length_eq_zero_iff.1 e)
  constructor
  · unfold RuleSet.evaluateSelf
    rw [if_neg hlen]
    simp only [bind, Except.bind, ha]
  · unfold RuleSet.evaluateStacked
    rw [if_neg hlen]
    simp only [bind, Except.bind, ha]

/-- Rules without activation are set by `load`. -/
theorem setLoaded_run {R : RsEnv} {rules : List Member} (hne : rules ≠ []) (h : ∀ m ∈ rules, m.rule.act = none) (s : RuleSet) :
    ∃ s', setLoaded R rules s = (.ok (), s') ∧ s'.rules = rules.map (withSizes s.trainSize s.testSize) ∧ s'.act = none ∧
      (s.stack = true → s'.stacked = none) ∧ s'.trainSize = s.trainSize ∧ s'.testSize = s.testSize ∧ s'.coverage = s.coverage ∧
      s'.criterion = s.criterion ∧ s'.indexes = s.indexes ∧
      s'.names = R.strings (rules.flatMap fun m => m.rule.cond.names.getD []) ∧ s'.ruleType = rules.head?.map (·.kind) := by
  cases rules with
  | nil => exact absurd rfl hne
  | cons m rest =>
    have hall : ∀ m' ∈ (m :: rest).map (withSizes s.trainSize s.testSize), m'.rule.act = none := by
      intro m' hm'
      obtain ⟨m0, h0, rfl⟩ := List.mem_map.1 hm'
      exact h m0 h0
    obtain ⟨e1, e2⟩ := evaluateSelf_none (R := R) (rules := (m :: rest).map (withSizes s.trainSize s.testSize))
      (by rw [List.map_cons]; exact List.cons_ne_nil _ _) hall
    unfold setLoaded
    rw [Py.bind_ok (Py.modify_run _ _)]
    simp only
    have hself : ∀ s0 : RuleSet, s0.rules = (m :: rest).map (withSizes s.trainSize s.testSize) →
        RuleSet.computeSelf R none s0 = (.ok (), { s0 with act := none }) := by
      intro s0 h0
      unfold RuleSet.computeSelf
      rw [Py.bind_ok (Py.get_run s0), Py.bind_ok (a := none) (s' := s0) (by rw [Py.ofExcept_run, h0, e1]), Py.modify_run]
    rw [Py.bind_ok (hself _ rfl)]
    have hstack : ∀ s0 : RuleSet, s0.rules = (m :: rest).map (withSizes s.trainSize s.testSize) →
        RuleSet.stackIf (RuleSet.computeStacked R none) s0 = (.ok (), { s0 with stacked := if s0.stack then none else s0.stacked }) := by
      intro s0 h0
      unfold RuleSet.stackIf
      rw [Py.bind_ok (Py.get_run s0)]
      split
      · unfold RuleSet.computeStacked
        rw [Py.bind_ok (Py.get_run s0), Py.bind_ok (a := none) (s' := s0) (by rw [Py.ofExcept_run, h0, e2]), Py.modify_run]
      · rfl
    rw [Py.bind_ok (hstack _ rfl)]
    refine ⟨_, rfl, rfl, rfl, fun e => ?_, rfl, rfl, rfl, rfl, rfl, ?_, rfl⟩
    · simp only [e, if_true]
    · show R.strings (((m :: rest).map (withSizes s.trainSize s.testSize)).flatMap _) = _
      rw [List.flatMap_map]
      rfl

/-- What a ruleset which was saved is loaded as -/
theorem load_back {W : Texts} {R : RsEnv} {by_ : String} {s s0 : RuleSet} {t : Table} (hr : ∀ x, W.csvRound x = x)
    (hk : ∀ m ∈ s.rules, s.ruleType = some m.kind) (hs : ∀ m ∈ s.rules, Loadable W R by_ m) (hsize : IsSize s.trainSize)
    (h : toTable W R s = .ok (some t)) :
    ∃ s', load W R by_ (some t) s0 = (.ok (), s') ∧ List.Forall₂ (SameSaved R) s.rules s'.rules ∧
      s'.trainSize = sizeRead s.trainSize ∧ s'.testSize = sizeRead s.trainSize ∧
      s'.coverage = attrOf (valueInTexts W (cellOf W s.rulesetCoverage)) ∧
      s'.criterion = attrOf (valueInTexts W (cellOf W s.criterion)) ∧ s'.act = none ∧ s'.ruleType = s.ruleType ∧
      s'.indexes = s0.indexes ∧ s'.names.Perm (s.rules.flatMap fun m => m.rule.cond.names.getD []).dedup ∧
      ∀ m ∈ s'.rules, m.rule.trainSize = sizeRead s.trainSize ∧ m.rule.testSize = sizeRead s.trainSize ∧
        m.rule.act = none ∧ m.rule.sign = .none := by
  obtain ⟨hne, hkind, hl, e1, e2, e3, e4⟩ := toTable_ok h
  have hnum := names_not_numbers hs h [t.coverage, t.criterion, t.trainSize, t.testSize]
  have hfig : ∀ cell, figure W t cell = valueInTexts W cell := by
    intro cell
    unfold figure readValue
    rw [hnum]
    rfl
  obtain ⟨rules, hrules, hsame⟩ := forall₂_mapM (f := fun l => lineToRule W by_ t.kind (rereadLine W t l))
    (q := fun m m' => SameSaved R m m' ∧ m'.rule.act = none ∧ m'.rule.sign = .none) hl (fun m hm L hL hmL => by
      obtain ⟨m', h1, h2⟩ := lineToRule_reread hr (hs m hm) (by
        have := hk m hm
        rw [hkind] at this
        exact (Option.some.inj this).symm) hmL hL
      exact ⟨m', h1, h2⟩)
  have hrne : rules ≠ [] := by
    rintro rfl
    exact hne (List.forall₂_nil_right_iff.1 hsame)
  have hact : ∀ m' ∈ rules, m'.rule.act = none ∧ m'.rule.sign = .none := by
    intro m' hm'
    exact forall₂_right hsame (fun m m' hq => hq.2) m' hm'
  have hsz : sizeOf (valueInTexts W t.trainSize) = .ok (sizeRead s.trainSize) := by rw [e3]; exact sizeOf_cell W hsize
  have hsz' : sizeOf (valueInTexts W t.testSize) = .ok (sizeRead s.trainSize) := by rw [e4]; exact sizeOf_cell W hsize
  unfold load
  simp only [hfig]
  rw [Py.bind_ok (Py.modify_run _ _), Py.bind_ok (a := sizeRead s.trainSize) (by rw [Py.ofExcept_run, hsz]),
    Py.bind_ok (Py.modify_run _ _), Py.bind_ok (a := sizeRead s.trainSize) (by rw [Py.ofExcept_run, hsz']),
    Py.bind_ok (Py.modify_run _ _), Py.bind_ok (a := rules) (by rw [Py.ofExcept_run, hrules])]
  obtain ⟨s', h1, h2, h3, h4, h5, h6, h7, h8, h9, h10, h11⟩ := setLoaded_run (R := R) hrne (fun m hm => (hact m hm).1)
    { s0 with coverage := attrOf (valueInTexts W t.coverage), criterion := attrOf (valueInTexts W t.criterion),
              trainSize := sizeRead s.trainSize, testSize := sizeRead s.trainSize }
  refine ⟨s', h1, ?_, h5, h6, by rw [h7, e1], by rw [h8, e2], h3, ?_, h9, ?_, ?_⟩
  · rw [h2, List.forall₂_map_right_iff]
    exact hsame.imp fun m m' hq => hq.1.withSizes _ _
  · rw [h11, hkind]
    cases hr' : rules with
    | nil => exact absurd hr' hrne
    | cons m' rest =>
      rw [hr'] at hsame
      obtain ⟨m, l1, hq, -, el⟩ := List.forall₂_cons_right_iff.1 hsame
      show some m'.kind = _
      rw [hq.1.kind, ← hkind, hk m (by rw [el]; exact .head _)]
  · rw [h10]
    refine (R.strings_perm _).trans ?_
    have : (rules.flatMap fun m => m.rule.cond.names.getD []) = s.rules.flatMap fun m => m.rule.cond.names.getD [] := by
      exact flatMap_same (hsame.imp fun m m' hq => hq.1.cond)
    rw [this]
  · intro m hm
    rw [h2] at hm
    obtain ⟨m0, h0, rfl⟩ := List.mem_map.1 hm
    exact ⟨rfl, rfl, hact m0 h0⟩

end Save

end Verif
