import Verif.StackedRuleLemmas
import Verif.StackedFigLemmas
import Verif.StackedLemmas
import Verif.FitLemmas
import Verif.LeaveLemmas

/-!
# Lemmas about stacked fit: all rules of a ruleset
-/

namespace Verif.RuleSet

open Verif Vote Spec RFun

variable {R : RsEnv}

/-! ## Lists -/

theorem forall2_get {α β} {P : α → β → Prop} {l : List α} {l' : List β} (h : List.Forall₂ P l l') {i : Nat} {a : α}
    (ha : l[i]? = some a) : ∃ b, l'[i]? = some b ∧ P a b := by
  induction h generalizing i with
  | nil => simp at ha
  | @cons x x' l l' h _ ih =>
    cases i with
    | zero =>
      simp only [List.getElem?_cons_zero, Option.some.injEq] at ha
      subst ha
      exact ⟨x', rfl, h⟩
    | succ i => exact ih (by simpa using ha)

theorem mapM_get {α β} {f : α → Except Err β} {l : List α} {l' : List β} (h : l.mapM f = .ok l') {i : Nat} {a : α}
    (ha : l[i]? = some a) : ∃ b, l'[i]? = some b ∧ f a = .ok b := forall2_get (mapM_eq_ok h) ha

theorem mapM_fst {α β} {f : String × α → Except Err (String × β)} (hf : ∀ a b, f a = .ok b → b.1 = a.1)
    {l : List (String × α)} {l' : List (String × β)} (h : l.mapM f = .ok l') : l'.map (·.1) = l.map (·.1) := by
  have := mapM_eq_ok h
  clear h
  induction this with
  | nil => rfl
  | cons h _ ih => rw [List.map_cons, List.map_cons, ih, hf _ _ h]

theorem lookup_get {α} {s : Series α} (hn : (s.map (·.1)).Nodup) {i : Nat} {p : String × α} (h : s[i]? = some p) :
    lookup s p.1 = some p.2 := by
  unfold lookup
  induction s generalizing i with
  | nil => simp at h
  | cons a s ih =>
    rw [List.map_cons, List.nodup_cons] at hn
    rw [List.find?_cons]
    cases i with
    | zero =>
      simp only [List.getElem?_cons_zero, Option.some.injEq] at h
      subst h
      simp
    | succ i =>
      have h' : s[i]? = some p := by simpa using h
      have hne : a.1 ≠ p.1 := by
        intro e
        rw [e] at hn
        exact hn.1 (List.mem_map_of_mem (List.mem_of_getElem? h'))
      simp only [decide_eq_false hne]
      exact ih hn.2 h'

theorem seriesOf_ok {α} {f : Member → Except Err α} {rules : List Member} (hd : DifferentTexts R rules) {s : Series α}
    (h : seriesOf R f rules = .ok s) : List.Forall₂ (fun m p => p.1 = R.condStr m.rule.cond ∧ f m = .ok p.2) rules s := by
  unfold seriesOf at h
  cases hm : rules.mapM fun m : Member => (f m).map fun x => (R.condStr m.rule.cond, x) with
  | error e =>
    rw [hm] at h
    cases h
  | ok l =>
    rw [hm] at h
    have hf := mapM_eq_ok hm
    have hp : List.Forall₂ (fun m (p : String × α) => p.1 = R.condStr m.rule.cond ∧ f m = .ok p.2) rules l := by
      refine hf.imp ?_
      intro m p hmp
      cases hx : f m with
      | error e =>
        rw [hx] at hmp
        cases hmp
      | ok x =>
        rw [hx] at hmp
        cases hmp
        exact ⟨rfl, rfl⟩
    have hn : l.map (·.1) = rules.map fun m => R.condStr m.rule.cond := by
      clear hm hf h hd
      induction hp with
      | nil => rfl
      | cons h _ ih => rw [List.map_cons, List.map_cons, ih, h.1]
    have : dictOf l = l := dictOf_nodup (by rw [hn]; exact hd)
    have h : (Except.ok (dictOf l) : Except Err _) = .ok s := h
    rw [this] at h
    cases h
    exact hp

theorem iloc_get {s : Series Label} {i : Nat} {p : String × Label} (h : s[i]? = some p) : iloc s i = .ok p.2 := by
  unfold iloc
  rw [h]

theorem columnsOf_get {rules : List Member} {i : Nat} {m : Member} (h : rules[i]? = some m) :
    (columnsOf R rules)[i]? = some (R.condStr m.rule.cond, m.rule.act.getD []) := by
  unfold columnsOf
  rw [List.getElem?_map, h]
  rfl

theorem activated_length {α β} {u : List Bool} {y : List α} {z : List β} (h : y.length = z.length) :
    (activated u y).length = (activated u z).length := by
  induction u generalizing y z with
  | nil => rfl
  | cons b u ih =>
    cases y with
    | nil =>
      cases z with
      | nil => rfl
      | cons => simp at h
    | cons a y =>
      cases z with
      | nil => simp at h
      | cons c z =>
        have := ih (y := y) (z := z) (by simpa using h)
        simp only [activated] at this ⊢
        cases b <;> simpa using this

/-! ## The figures of the train set -/

theorem trainFigures_regression {rules : List Member} (hd : DifferentTexts R rules) {y : List Label} {kw : Rule.Kw}
    {vals : List (String × Series Label)} (h : trainFigures R .regression rules (columnsOf R rules) y kw = .ok vals) :
    ∃ ys, Rule.numbers y = .ok ys ∧ ∀ (i : Nat) (m : Member) (u : List Bool), rules[i]? = some m → m.rule.act = some (arr u) → y.length = u.length →
      (activated u y).length ≠ 1 → ∃ mean var, conditionalMean (arr u) ys = .ok mean ∧ conditionalVar (arr u) ys = .ok var ∧
        Rule.Matches i (Rule.regressionPairs R.env.sqrt y.length mean var
          (Rule.zscoreExternal R.env.sqrt mean (Rule.nones (arr u)) ys kw.horizon)) vals := by
  unfold trainFigures at h
  simp only [bind, Except.bind] at h
  split at h
  · cases h
  rename_i sizes hs
  split at h
  · cases h
  rename_i ys hys
  split at h
  · cases h
  rename_i p hp
  split at h
  · cases h
  rename_i v hv
  split at h
  · cases h
  rename_i n hn
  cases h
  refine ⟨ys, hys, ?_⟩
  intro i m u hm hu hl h1
  have hy := numbers_eq hys
  have hly : ys.length = u.length := by rw [← hl, hy, List.length_map]
  refine ⟨_, _, (column_mean hly).2, column_var hly ?_, ?_⟩
  · rw [← activated_length (y := y) (by rw [hl, hly])]
    exact h1
  obtain ⟨ps, es, -, hsz⟩ := forall2_get (seriesOf_ok hd hs) hm
  obtain ⟨pp, ep, hpp⟩ := mapM_get hp (columnsOf_get hm)
  obtain ⟨pv, ev, hpv⟩ := mapM_get hv (columnsOf_get hm)
  obtain ⟨pn, en, hpn1, hpn2⟩ := forall2_get (seriesOf_ok hd hn) hm
  simp only [hu, Option.getD_some, (column_mean hly).1] at hpp
  simp only [hu, Option.getD_some] at hpv
  cases hpp
  have hcol : Rule.numbers (conditionalColumn (arr u) y) = .ok (List.zipWith (fun b x => if b then x else Num.nan) u ys) := by
    rw [hy, column_nums, numbers_map_num]
  rw [hcol] at hpv
  cases hpv
  obtain ⟨ps1, ps2⟩ := ps
  cases hsz
  have hn1 : p.map (·.1) = (rules.map fun m => R.condStr m.rule.cond) := by
    rw [← columnsOf_fst]
    refine mapM_fst ?_ hp
    intro a b hab
    cases hx : extract a.2 ys with
    | error e => rw [hx] at hab; cases hab
    | ok z => rw [hx] at hab; cases hab; rfl
  have hn2 : n.map (·.1) = (rules.map fun m => R.condStr m.rule.cond) := by
    have := seriesOf_ok hd hn
    clear hn hpn1 hpn2 en
    generalize n = n' at this
    clear hs hp hv ep ev hn1 hm hd es
    induction this with
    | nil => rfl
    | cons h _ ih => rw [List.map_cons, List.map_cons, ih, h.1]
  have hn3 : Rule.nones (arr u) = pn.2 := by
    unfold nonesOf at hpn2
    rw [hu] at hpn2
    exact Except.ok.inj hpn2
  have hz : (zscores R.env.sqrt p n ys kw.horizon)[i]? = some (R.condStr m.rule.cond,
      Rule.zscoreExternal R.env.sqrt (Num.nanmean (activated u ys)) (Rule.nones (arr u)) ys kw.horizon) := by
    unfold zscores alignOp alignIndex
    rw [hn1, hn2, if_pos rfl, List.getElem?_map, List.getElem?_map, hm]
    have l1 : lookup p (R.condStr m.rule.cond) = some (Num.nanmean (activated u ys)) :=
      lookup_get (by rw [hn1]; exact hd) ep
    have l2 : lookup n (R.condStr m.rule.cond) = some pn.2 := by
      rw [← hpn1]
      exact lookup_get (by rw [hn2]; exact hd) en
    simp only [Option.map_some, l1, l2]
    rw [← hn3, column_zscore]
  refine .cons ⟨rfl, ?_⟩ (.cons ⟨rfl, ?_⟩ (.cons ⟨rfl, ?_⟩ (.cons ⟨rfl, ?_⟩ (.cons ⟨rfl, ?_⟩ .nil))))
  · have := iloc_get es
    exact this
  · exact iloc_get (p := (R.condStr m.rule.cond, Label.num (Num.nanmean (activated u ys)))) (by
      unfold asLabels
      rw [List.getElem?_map, ep]
      rfl)
  · refine iloc_get (p := (R.condStr m.rule.cond, Label.num (R.env.sqrt (nanvar 1 (activated u ys))))) ?_
    rw [List.getElem?_map, ev, ← nanvar_dropna (dropna_column u ys)]
    rfl
  · refine iloc_get (p := (R.condStr m.rule.cond,
      Label.text (if (Num.nanmean (activated u ys)).lt (.fin 0) then "-" else "+"))) ?_
    unfold signsOf
    rw [List.getElem?_map, ep]
    rfl
  · refine iloc_get (p := (R.condStr m.rule.cond, Label.num (Rule.zscoreExternal R.env.sqrt (Num.nanmean (activated u ys))
      (Rule.nones (arr u)) ys kw.horizon))) ?_
    unfold asLabels
    rw [List.getElem?_map, hz]
    rfl

theorem trainFigures_classification {rules : List Member} (hd : DifferentTexts R rules) {y : List Label} {kw : Rule.Kw}
    {vals : List (String × Series Label)} (h : trainFigures R .classification rules (columnsOf R rules) y kw = .ok vals)
    {i : Nat} {m : Member} {v : List Nat} (hm : rules[i]? = some m) (hu : m.rule.act = some v) :
    ∃ l, firstClass (commonClasses v y) = .ok l ∧
      Rule.Matches i [("train_set_size", .num (.fin y.length)), ("prediction", l)] vals := by
  unfold trainFigures at h
  simp only [bind, Except.bind] at h
  split at h
  · cases h
  rename_i sizes hs
  split at h
  · cases h
  rename_i p hp
  cases h
  obtain ⟨ps, es, -, hsz⟩ := forall2_get (seriesOf_ok hd hs) hm
  obtain ⟨pp, ep, hpp⟩ := mapM_get hp (columnsOf_get hm)
  simp only [hu, Option.getD_some] at hpp
  cases hx : firstClass (commonClasses v y) with
  | error e => rw [hx] at hpp; cases hpp
  | ok l =>
    rw [hx] at hpp
    cases hpp
    obtain ⟨ps1, ps2⟩ := ps
    cases hsz
    have e1 := iloc_get es
    have e2 := iloc_get ep
    exact ⟨l, rfl, .cons ⟨rfl, e1⟩ (.cons ⟨rfl, e2⟩ .nil)⟩

/-! ## One rule -/

theorem setFigure_fitted (a : String) (l : Label) (r : Rule) : (setFigure a l r).fitted = r.fitted := by
  unfold setFigure
  repeat' split
  all_goals rfl

theorem data_fitted {a b : Rule} (h : a.data = b.data) : a.fitted = b.fitted := by
  have := congrArg Rule.fitted h
  exact this

theorem setFigures_fitted (E : Env) (i : Nat) (vals : List (String × Series Label)) (r : Rule) :
    (setFigures E i vals r).2.fitted = r.fitted := by
  induction vals generalizing r with
  | nil => rfl
  | cons p vals ih =>
    obtain ⟨a, s⟩ := p
    unfold setFigures
    cases hx : iloc s i with
    | error e =>
      rw [Py.bind_err (Py.ofExcept_run _ _)]
    | ok x =>
      rw [Py.bind_ok (Py.ofExcept_run _ _), Py.bind_ok (Py.modify_run _ _), Py.bind_run]
      have d := data_fitted (Rule.checkIfGood_data E a (setFigure a x r))
      rw [setFigure_fitted] at d
      rcases hc : Rule.checkIfGood E a (setFigure a x r) with ⟨e, r1⟩
      rw [hc] at d
      cases e with
      | error e => exact d
      | ok _ =>
        simp only
        rw [Py.bind_ok (Py.get_run _), Py.bind_run]
        have := ih r1
        rcases hs : setFigures E i vals r1 with ⟨e, r2⟩
        rw [hs] at this
        cases e with
        | error e => exact this.trans d
        | ok n => exact this.trans d

theorem receive_fitted {E : Env} {i n : Nat} {vals : List (String × Series Label)} {r r' : Rule}
    (h : receive E (fun r => { r with fitted := true }) i vals r = (.ok n, r')) : r'.fitted = true := by
  unfold receive at h
  rw [Py.bind_ok (Py.modify_run _ _)] at h
  obtain ⟨k, r1, h1, h⟩ := Py.bind_eq_ok h
  obtain ⟨_, r2, h2, h⟩ := Py.bind_eq_ok h
  simp only [Py.pure_run] at h
  cases h
  have d1 := setFigures_fitted E i vals { r with fitted := true }
  rw [h1] at d1
  have d2 := data_fitted (Rule.checkAllIfGood_data E r1)
  rw [h2] at d2
  exact d2.trans d1

/-- One rule of the stacked fit: its activation has been computed, the figures come from the columns. -/
theorem fit_receive {k : Kind} {y : List Label} {xs : Option Xs} {kw : Rule.Kw} {r ra r' : Rule} {rules : List Member} {m : Member}
    {i : Nat} {vals : List (String × Series Label)} (hE : SeesPrediction (R.ofKind k)) (hx : Rule.Runs r xs)
    (hc : Comparable (R.ofKind k) y xs r) (hf : Rule.fit (R.ofKind k) y xs false kw r = (.ok (), r'))
    (ha : Rule.calcActivation (R.ofKind k) xs r = (.ok (), ra)) (hd : DifferentTexts R rules) (hm : rules[i]? = some m)
    (hr : m.rule = ra) (hv : trainFigures R k rules (columnsOf R rules) y kw = .ok vals) :
    ∃ n r2, receive (R.ofKind k) (fun r => { r with fitted := true }) i vals ra = (.ok n, r2) ∧
      SameFit (R.ofKind k) r' r2 ∧ (0 < n → r2.good = false) := by
  obtain ⟨r1, r2, r3, h1, h2, h3, rfl⟩ := Rule.fit_steps hx hf
  rw [ha] at h1
  cases h1
  obtain ⟨u, hu, hl, hcase⟩ := hc
  obtain ⟨v, hv', hdata⟩ := Rule.calcActivation_uses ha hx
  have ev : v = arr u := by
    cases xs with
    | some x => exact Except.ok.inj (hv'.symm.trans hu)
    | none => exact Option.some.inj (hv'.symm.trans hu)
  subst ev
  have hact : ra.act = some (arr u) := by
    have := congrArg Rule.act hdata
    exact this
  have main : ∃ pairs, Rule.Chain (R.ofKind k) (Rule.calcTrain (R.ofKind k) y kw) (fun r => r.act = some (arr u)) pairs ∧ pairs ≠ [] ∧
      Rule.Matches i pairs vals ∧ pairs.map (·.1) = Rule.trainAttrs (R.ofKind k).kind := by
    cases k with
    | regression =>
      obtain ⟨ys, hys, hall⟩ := trainFigures_regression hd hv
      obtain ⟨mean, var, e1, e2, hM⟩ := hall i m u hm (by rw [hr]; exact hact) hl hcase
      exact ⟨_, Rule.chain_regression hE rfl hys e1 e2, by simp [Rule.regressionPairs], hM, rfl⟩
    | classification =>
      obtain ⟨l, e1, hM⟩ := trainFigures_classification hd hv hm (by rw [hr]; exact hact)
      exact ⟨_, Rule.chain_classification hE rfl fun p hp => class_agree hl hcase e1 hp, by simp, hM, rfl⟩
  obtain ⟨pairs, hchain, hne, hM, hn⟩ := main
  rw [← hn] at h2
  obtain ⟨n, r2', hrec, hk, hgood, hbad⟩ := Rule.receive_like hE hchain hne hM (mark := fun r => { r with fitted := true }) (fun _ => rfl)
    hact h2 h3
  refine ⟨n, r2', hrec, ?_, ?_⟩
  · refine ⟨hk.cond, hk.act, hk.good, hk.bad, receive_fitted hrec, ?_, ?_, ?_, ?_, ?_⟩
    · intro g
      exact (hgood g).1.2
    · intro g
      have := congrArg Rule.std (hgood g).1.1
      exact this
    · intro g
      have := congrArg Rule.sign (hgood g).1.1
      exact this
    · intro g
      have := congrArg Rule.zscore (hgood g).1.1
      exact this
    · intro g
      have := congrArg Rule.trainSize (hgood g).1.1
      exact this
  · intro hpos
    have hb := hbad.2 hpos
    rw [Rule.checkAllIfGood_bad hb] at h3
    cases h3
    rw [hk.good, hb]

/-! ## All rules -/

theorem receiveAll_ok {mark : Rule → Rule} {vals : List (String × Series Label)} {P : Nat → Nat → Member → Prop} {l : List Member} {i : Nat}
    (h : ∀ (j : Nat) m, l[j]? = some m → ∃ n r, receive (R.ofKind m.kind) mark (i + j) vals m.rule = (.ok n, r) ∧
      P (i + j) n { m with rule := r }) :
    ∃ ns l', receiveAll R mark vals i l = (.ok ns, l') ∧ ns.length = l.length ∧ l'.length = l.length ∧
      ∀ (j : Nat) n m', ns[j]? = some n → l'[j]? = some m' → P (i + j) n m' := by
  induction l generalizing i with
  | nil => exact ⟨[], [], rfl, rfl, rfl, by simp⟩
  | cons m l ih =>
    obtain ⟨n, r, h1, h2⟩ := h 0 m rfl
    obtain ⟨ns, l', h3, h4, h5, h6⟩ := ih (i := i + 1) (fun j m' hj => by
      have := h (j + 1) m' (by simpa using hj)
      rw [show i + (j + 1) = i + 1 + j by omega] at this
      exact this)
    refine ⟨n :: ns, { m with rule := r } :: l', ?_, by simp [h4], by simp [h5], ?_⟩
    · unfold receiveAll
      rw [Nat.add_zero] at h1
      rw [h1, h3]
    · intro j b c hb hc
      cases j with
      | zero =>
        simp only [List.getElem?_cons_zero, Option.some.injEq] at hb hc
        subst hb hc
        exact h2
      | succ j =>
        have := h6 j b c (by simpa using hb) (by simpa using hc)
        rw [show i + 1 + j = i + (j + 1) by omega] at this
        exact this

theorem leaves_setFigures (E : Env) (i : Nat) (vals : List (String × Series Label)) : Rule.Leaves Rule.own (setFigures E i vals) := by
  induction vals with
  | nil => exact Rule.leaves_pure _
  | cons p vals ih =>
    obtain ⟨a, s⟩ := p
    unfold setFigures
    refine Rule.leaves_bind (Rule.leaves_ofExcept _) fun x => Rule.leaves_bind (Rule.leaves_modify fun r => ?_) fun _ =>
      Rule.leaves_bind (Rule.leaves_checkIfGood _ _) fun _ => Rule.leaves_bind Rule.leaves_get fun _ =>
      Rule.leaves_bind ih fun _ => Rule.leaves_pure _
    have := Rule.setFigure_kept a x r
    exact Prod.ext this.cond this.act

theorem leaves_receive (E : Env) {mark : Rule → Rule} (hm : ∀ r, Rule.own (mark r) = Rule.own r) (i : Nat)
    (vals : List (String × Series Label)) : Rule.Leaves Rule.own (receive E mark i vals) :=
  Rule.leaves_bind (Rule.leaves_modify hm) fun _ => Rule.leaves_bind (leaves_setFigures _ _ _) fun _ =>
    Rule.leaves_bind (Rule.leaves_checkAllIfGood _) fun _ => Rule.leaves_pure _

theorem receiveAll_own {mark : Rule → Rule} (hm : ∀ r, Rule.own (mark r) = Rule.own r) (vals : List (String × Series Label)) (i : Nat)
    (l : List Member) : (receiveAll R mark vals i l).2.map (fun m => Rule.own m.rule) = l.map fun m => Rule.own m.rule := by
  induction l generalizing i with
  | nil => rfl
  | cons m l ih =>
    have h := leaves_receive (R.ofKind m.kind) hm i vals m.rule
    have h2 := ih (i + 1)
    unfold receiveAll
    rcases hr : receive (R.ofKind m.kind) mark i vals m.rule with ⟨x, r⟩
    rw [hr] at h
    cases x with
    | error e => simpa using h
    | ok n =>
      rcases hl : receiveAll R mark vals (i + 1) l with ⟨x, l'⟩
      rw [hl] at h2
      cases x <;> simp only [List.map_cons, h2] <;> rw [show Rule.own r = Rule.own m.rule from h]

theorem mem_dropList {l : List Member} {ns : List Nat} {p : Member × Nat} :
    p ∈ dropList l ns ↔ ∃ n, l[p.2]? = some p.1 ∧ ns[p.2]? = some n ∧ 0 < n := by
  unfold dropList
  rw [List.mem_flatten]
  constructor
  · rintro ⟨x, hx, hp⟩
    obtain ⟨j, hj, rfl⟩ := List.getElem_of_mem hx
    rw [List.getElem_zipWith] at hp
    obtain ⟨hn, rfl⟩ := List.mem_replicate.1 hp
    simp only [List.length_zipWith, List.length_zipIdx, lt_min_iff] at hj
    refine ⟨ns[j]'hj.2, ?_, ?_, Nat.pos_of_ne_zero hn⟩
    · simp [hj.1]
    · simp [hj.2]
  · rintro ⟨n, h1, h2, h3⟩
    obtain ⟨e1, h1⟩ := List.getElem?_eq_some_iff.1 h1
    obtain ⟨e2, h2⟩ := List.getElem?_eq_some_iff.1 h2
    refine ⟨List.replicate n p, ?_, List.mem_replicate.2 ⟨by omega, rfl⟩⟩
    refine List.mem_of_getElem (i := p.2) (h := by simp [e1, e2]) ?_
    rw [List.getElem_zipWith, h2]
    congr 1
    simp only [List.getElem_zipIdx, Nat.zero_add, h1]

/-! ## The parts of `fit` -/

theorem whileStacking_ok {f : Py RuleSet Unit} {s s' : RuleSet} {clean : Bool} (h : whileStacking f s = (.ok clean, s')) :
    ∃ s1, f { s with stack := true } = (.ok (), s1) ∧ s' = { s1 with stack := s.stack } ∧ clean = !s.stack := by
  unfold whileStacking at h
  rw [Py.bind_ok (Py.get_run _), Py.bind_ok (Py.modify_run _ _)] at h
  obtain ⟨_, s1, h1, h⟩ := Py.bind_eq_ok h
  rw [Py.bind_ok (Py.modify_run _ _)] at h
  simp only [Py.pure_run] at h
  cases h
  exact ⟨s1, h1, rfl, rfl⟩

theorem calcActivation_ok {x : Xs} {s s' : RuleSet} (hx : x.length ≠ 0) (hs : s.stack = true)
    (h : calcActivation R x s = (.ok (), s')) :
    ∃ la a c, EachDone R (fun E => Rule.calcActivation E (some x)) s.rules la ∧ evaluateSelf R none la = .ok a ∧
      evaluateStacked R none la = .ok c ∧ s' = { s with rules := la, act := a, stacked := c } := by
  unfold calcActivation at h
  rw [Py.bind_ok (Py.get_run _)] at h
  split at h
  · simp at h
  obtain ⟨_, s1, h1, h⟩ := Py.bind_eq_ok h
  obtain ⟨la, hla, rfl⟩ := forRules_ok h1
  obtain ⟨_, s2, h2, h⟩ := Py.bind_eq_ok h
  obtain ⟨a, ha, rfl⟩ := recomputeSelf_ok h2
  rcases whenSet_ok h with ⟨e, -⟩ | ⟨-, h⟩
  · rw [show s.stack = false from e] at hs
    cases hs
  obtain ⟨c, hc, rfl⟩ := recomputeStacked_ok h
  exact ⟨la, a, c, hla, ha, hc, rfl⟩

/-- The rules and columns which the stacked fit works with -/
theorem prepareFit_ok {xs : Option Xs} {s s1 : RuleSet} {clean : Bool} (hx : ∀ x, xs = some x → x.length ≠ 0)
    (h : prepareFit R xs s = (.ok clean, s1)) :
    (∃ x la a c, xs = some x ∧ EachDone R (fun E => Rule.calcActivation E (some x)) s.rules la ∧ evaluateSelf R none la = .ok a ∧
        evaluateStacked R none la = .ok c ∧ s1 = { s with rules := la, act := a, stacked := c } ∧ clean = !s.stack) ∨
      (xs = none ∧ s.stacked = none ∧ ∃ c, evaluateStacked R none s.rules = .ok c ∧ s1 = { s with stacked := c } ∧ clean = !s.stack) ∨
      (xs = none ∧ s.stacked ≠ none ∧ s1 = s ∧ clean = false) := by
  unfold prepareFit at h
  cases xs with
  | some x =>
    simp only at h
    obtain ⟨s2, h2, rfl, rfl⟩ := whileStacking_ok h
    obtain ⟨la, a, c, h3, h4, h5, rfl⟩ := calcActivation_ok (hx x rfl) rfl h2
    exact .inl ⟨x, la, a, c, rfl, h3, h4, h5, rfl, rfl⟩
  | none =>
    simp only at h
    rw [Py.bind_ok (Py.get_run _)] at h
    cases hst : s.stacked with
    | none =>
      rw [hst] at h
      simp only [Option.isNone_none, if_true] at h
      obtain ⟨s2, h2, rfl, rfl⟩ := whileStacking_ok h
      obtain ⟨c, hc, rfl⟩ := computeStacked_ok h2
      exact .inr (.inl ⟨rfl, rfl, c, hc, rfl, rfl⟩)
    | some c =>
      rw [hst] at h
      simp only [Option.isNone_some, Bool.false_eq_true, if_false, Py.pure_run] at h
      cases h
      exact .inr (.inr ⟨rfl, by simp, rfl, rfl⟩)

theorem afterFitStacked_ok {drops : List (Member × Nat)} {s s' : RuleSet} (h : afterFitStacked R drops s = (.ok (), s')) :
    (drops = [] ∧ s' = s) ∨ (drops ≠ [] ∧ keepRules R.hasher drops s.rules.zipIdx = .ok s'.rules ∧
      evaluateSelf R none s'.rules = .ok s'.act ∧ (s.stack = true → evaluateStacked R none s'.rules = .ok s'.stacked) ∧
      s'.stack = s.stack) := by
  unfold afterFitStacked at h
  split at h
  · rename_i hpos
    obtain ⟨_, s1, h1, h⟩ := Py.bind_eq_ok h
    obtain ⟨d1, -, d3, -⟩ := dropRules_ok h1
    obtain ⟨_, s2, h2, h⟩ := Py.bind_eq_ok h
    obtain ⟨a, ha, rfl⟩ := recomputeSelf_ok h2
    refine .inr ⟨List.ne_nil_of_length_pos hpos, ?_⟩
    rcases whenSet_ok h with ⟨hs, rfl⟩ | ⟨hs, h⟩
    · refine ⟨d1, ha, fun e => ?_, d3⟩
      rw [← d3, show s1.stack = false from hs] at e
      cases e
    · obtain ⟨c, hc, rfl⟩ := recomputeStacked_ok h
      exact ⟨d1, ha, fun _ => hc, d3⟩
  · rename_i hpos
    simp only [Py.pure_run] at h
    cases h
    exact .inl ⟨List.length_eq_zero_iff.1 (by omega), rfl⟩

/-- What the stacked fit does when it goes through -/
theorem fitStacked_ok {y : List Label} {xs : Option Xs} {kw : Rule.Kw} {s s' : RuleSet} {dropped : List Member}
    (hx : ∀ x, xs = some x → x.length ≠ 0) (hf : xs = none → ∃ m ∈ s.rules, m.rule.fitted = false) (hne : s.rules ≠ [])
    (h : fitStacked R y xs kw s = (.ok dropped, s')) :
    ∃ k clean s1 c vals ns l2 s2, s.ruleType = some k ∧ prepareFit R xs s = (.ok clean, s1) ∧ s1.stacked = some c ∧
      height c = y.length ∧ trainFigures R k s1.rules c y kw = .ok vals ∧
      receiveAll R (fun r => { r with fitted := true }) vals 0 s1.rules = (.ok ns, l2) ∧
      afterFitStacked R (dropList l2 ns) { s1 with stacked := if clean then none else s1.stacked, rules := l2 } = (.ok (), s2) ∧
      s' = { s2 with trainSize := .num (.fin y.length) } ∧ dropped = (dropList l2 ns).map (·.1) := by
  unfold fitStacked at h
  obtain ⟨k, s0, h0, h'⟩ := Py.bind_eq_ok h
  clear h
  rename' h' => h
  have : s0 = s ∧ s.ruleType = some k := by
    unfold needType at h0
    rw [Py.bind_ok (Py.get_run s)] at h0
    cases hk : s.ruleType with
    | none => simp [hk] at h0
    | some k =>
      simp only [hk, Py.pure_run] at h0
      cases h0
      exact ⟨rfl, rfl⟩
  obtain ⟨rfl, hk⟩ := this
  split at h
  · simp at h
  rw [Py.bind_ok (Py.get_run _)] at h
  split at h
  · rename_i e
    rw [Option.any_eq_true] at e
    obtain ⟨x, hx1, hx2⟩ := e
    exact absurd (by simpa using hx2) (hx x hx1)
  split at h
  · rename_i e
    exact absurd (List.length_eq_zero_iff.1 e) hne
  split at h
  · rename_i e
    rw [Bool.and_eq_true, Option.isNone_iff_eq_none, List.all_eq_true] at e
    obtain ⟨m, hm, hmf⟩ := hf e.2
    rw [e.1 m hm] at hmf
    cases hmf
  obtain ⟨clean, s1, h1, h⟩ := Py.bind_eq_ok h
  rw [Py.bind_ok (Py.get_run _)] at h
  obtain ⟨c, s2, h2, h⟩ := Py.bind_eq_ok h
  obtain ⟨hc, rfl⟩ := Rule.ofExcept_ok h2
  obtain ⟨vals, s3, h3, h⟩ := Py.bind_eq_ok h
  obtain ⟨hv, rfl⟩ := Rule.ofExcept_ok h3
  obtain ⟨_, s4, h4, h⟩ := Py.bind_eq_ok h
  obtain ⟨ns, s5, h5, h⟩ := Py.bind_eq_ok h
  rw [Py.bind_ok (Py.get_run _)] at h
  obtain ⟨_, s6, h6, h⟩ := Py.bind_eq_ok h
  unfold calcTrainSetSize at h
  rw [Py.bind_ok (Py.modify_run _ _)] at h
  simp only [Py.pure_run] at h
  cases h
  have hcr : s1.stacked = some c ∧ height c = y.length := by
    unfold checkRows at hc
    cases hst : s1.stacked with
    | none => rw [hst] at hc; cases hc
    | some c' =>
      rw [hst] at hc
      simp only at hc
      split at hc
      · cases hc
        exact ⟨rfl, ‹_›⟩
      · cases hc
  have e4 : s4 = { s1 with stacked := if clean then none else s1.stacked } := by
    unfold cleanIf at h4
    cases clean with
    | true =>
      simp only [if_true, Py.modify_run] at h4
      cases h4
      rfl
    | false =>
      simp only [Bool.false_eq_true, if_false, Py.pure_run] at h4
      cases h4
      rfl
  subst e4
  unfold receiveRules at h5
  simp only at h5
  rcases hr : receiveAll R (fun r => { r with fitted := true }) vals 0 s1.rules with ⟨x, l2⟩
  rw [hr] at h5
  obtain ⟨rfl, rfl⟩ := Prod.mk.inj h5
  exact ⟨k, clean, s1, c, vals, ns, l2, s6, hk, h1, hcr.1, hcr.2, hv, hr, h6, rfl, rfl⟩

/-! ## Both fits -/

theorem arr_vec (u : List Bool) : arr u = vec u.length fun i => u[i]?.getD false := by
  unfold arr vec
  apply List.ext_getElem
  · simp
  intro i h1 h2
  simp only [List.length_map] at h1
  simp only [List.getElem_map, List.getElem_range, List.getElem?_eq_getElem h1, Option.getD_some]
  cases u[i] <;> rfl

theorem evaluateSelf_acts {l l' : List Member} (h : l.map (fun m => m.rule.act) = l'.map fun m => m.rule.act) :
    evaluateSelf R none l = evaluateSelf R none l' := by
  have e : ∀ l : List Member, (l.mapM fun m : Member => m.rule.act) = (l.map fun m => m.rule.act).mapM id := by
    intro l
    induction l with
    | nil => rfl
    | cons a l ih => rw [List.map_cons, List.mapM_cons, List.mapM_cons, ih]; rfl
  have hl : l.length = l'.length := by
    have := congrArg List.length h
    simpa using this
  unfold evaluateSelf activations
  simp only [e, h, hl]

theorem get_of_length {α β} {l : List α} {l' : List β} (h : l'.length = l.length) {i : Nat} {a : α} (ha : l[i]? = some a) :
    ∃ b, l'[i]? = some b := by
  have := (List.getElem?_eq_some_iff.1 ha).1
  exact ⟨l'[i], List.getElem?_eq_getElem (by omega)⟩

/-- What the stacked and the plain fit leave of each rule -/
structure BothFits (R : RsEnv) (y : List Label) (xs : Option Xs) (kw : Rule.Kw) (s s' : RuleSet) (dropped : List Member)
    (l1 l2 : List Member) (ns : List Nat) : Prop where
  len1 : l1.length = s.rules.length
  len2 : l2.length = s.rules.length
  len3 : ns.length = s.rules.length
  same : ∀ (j : Nat) m m1 m2 n, s.rules[j]? = some m → l1[j]? = some m1 → l2[j]? = some m2 → ns[j]? = some n →
    m1.kind = m.kind ∧ m2.kind = m.kind ∧ m1.rule.cond = m.rule.cond ∧ (∃ u : List Bool, Rule.Uses (R.ofKind m.kind) m.rule xs (arr u) ∧ m2.rule.act = some (arr u) ∧ u.length = y.length) ∧
    SameFit (R.ofKind m.kind) m1.rule m2.rule ∧ (0 < n → m2.rule.good = false)
  size : s'.trainSize = .num (.fin y.length)
  stack : s'.stack = s.stack
  dropped : dropped = (dropList l2 ns).map (·.1)
  kept : (dropList l2 ns = [] ∧ s'.rules = l2 ∧ (xs.isSome = true → evaluateSelf R none l2 = .ok s'.act) ∧
      (s.stack = true → s'.stacked = some (columnsOf R l2))) ∨
    (dropList l2 ns ≠ [] ∧ keepRules R.hasher (dropList l2 ns) l2.zipIdx = .ok s'.rules ∧ evaluateSelf R none s'.rules = .ok s'.act ∧
      (s.stack = true → evaluateStacked R none s'.rules = .ok s'.stacked))

theorem both_fits {k : Kind} {y : List Label} {xs : Option Xs} {kw : Rule.Kw} {s s' : RuleSet} {dropped : List Member} {l1 : List Member}
    (hE : SeesPrediction (R.ofKind k)) (hk : s.ruleType = some k) (hkm : ∀ m ∈ s.rules, m.kind = k)
    (hr : ∀ m ∈ s.rules, Rule.Runs m.rule xs) (hc : ∀ m ∈ s.rules, Comparable (R.ofKind k) y xs m.rule)
    (hd : DifferentTexts R s.rules) (hst : xs = none → s.stacked = none ∨ s.stacked = some (columnsOf R s.rules)) (hne : s.rules ≠ [])
    (h1 : EachDone R (fun E => Rule.fit E y xs false kw) s.rules l1) (h2 : fitStacked R y xs kw s = (.ok dropped, s')) :
    ∃ l2 ns, BothFits R y xs kw s s' dropped l1 l2 ns := by
  obtain ⟨m0, hm0⟩ := List.exists_mem_of_ne_nil _ hne
  obtain ⟨k', clean, s1, c, vals, ns, l2, s2, hk', hp, hc1, hc2, hv, hra, haf, rfl, rfl⟩ := fitStacked_ok (by
      intro x e
      have := hr m0 hm0
      rw [e] at this
      exact this) (by
      intro e
      have := hr m0 hm0
      rw [e] at this
      exact ⟨m0, hm0, this⟩) hne h2
  rw [hk] at hk'
  cases hk'
  -- the rules with their activations
  have acts : EachDone R (fun E => Rule.calcActivation E xs) s.rules s1.rules ∧ s1.stack = s.stack := by
    rcases prepareFit_ok (by
      intro x e
      have := hr m0 hm0
      rw [e] at this
      exact this) hp with ⟨x, la, a, c', rfl, hla, -, -, rfl, -⟩ | ⟨rfl, -, c', -, rfl, -⟩ | ⟨rfl, -, rfl, -⟩
    · exact ⟨hla, rfl⟩
    all_goals
      refine ⟨List.forall₂_same.2 fun m hm => ⟨rfl, ?_⟩, rfl⟩
      obtain ⟨u, hu, -⟩ := hc m hm
      have hu : m.rule.act = some (arr u) := hu
      unfold Rule.calcActivation
      simp only
      rw [Py.bind_ok (Py.get_run _), hu]
      rfl
  obtain ⟨hla, hstack⟩ := acts
  have hlen : s1.rules.length = s.rules.length := (List.Forall₂.length_eq hla).symm
  have each : ∀ (j : Nat) m, s.rules[j]? = some m → ∃ ma u, s1.rules[j]? = some ma ∧ ma.kind = k ∧ m.kind = k ∧
      Rule.calcActivation (R.ofKind k) xs m.rule = (.ok (), ma.rule) ∧ ma.rule.act = some (arr u) ∧ u.length = y.length ∧
      ma.rule.cond = m.rule.cond ∧ Rule.Uses (R.ofKind k) m.rule xs (arr u) := by
    intro j m hj
    have hm := List.mem_of_getElem? hj
    obtain ⟨ma, hja, e1, e2⟩ := forall2_get hla hj
    rw [hkm m hm] at e1 e2
    obtain ⟨v, hv', hdata⟩ := Rule.calcActivation_uses e2 (hr m hm)
    obtain ⟨u, hu, hl, -⟩ := hc m hm
    have ev : v = arr u := by
      cases xs with
      | some x => exact Except.ok.inj (hv'.symm.trans hu)
      | none => exact Option.some.inj (hv'.symm.trans hu)
    subst ev
    refine ⟨ma, u, hja, e1, hkm m hm, e2, ?_, hl.symm, ?_, hu⟩
    · have := congrArg Rule.act hdata
      exact this
    · have := congrArg Rule.cond hdata
      exact this
  have hconds : s1.rules.map (fun m => R.condStr m.rule.cond) = s.rules.map fun m => R.condStr m.rule.cond := by
    apply List.ext_getElem?
    intro j
    rw [List.getElem?_map, List.getElem?_map]
    cases hj : s.rules[j]? with
    | none =>
      rw [List.getElem?_eq_none_iff] at hj
      rw [List.getElem?_eq_none (by omega)]
    | some m =>
      obtain ⟨ma, u, h1, -, -, -, -, -, h5, -⟩ := each j m hj
      rw [h1]
      simp [h5]
  have hd1 : DifferentTexts R s1.rules := by
    unfold DifferentTexts
    rw [hconds]
    exact hd
  have hpts : ∀ m ∈ s1.rules, HasPoints y.length m := by
    intro ma hma
    obtain ⟨j, hj⟩ := List.mem_iff_getElem?.1 hma
    obtain ⟨m, hm⟩ := get_of_length hlen.symm hj
    obtain ⟨ma', u, e1, -, -, -, e2, e3, -⟩ := each j m hm
    rw [hj] at e1
    cases e1
    refine ⟨fun i => u[i]?.getD false, ?_⟩
    rw [e2, arr_vec, e3]
  have hcol : c = columnsOf R s1.rules := by
    rcases prepareFit_ok (by
      intro x e
      have := hr m0 hm0
      rw [e] at this
      exact this) hp with ⟨x, la, a, c', rfl, -, -, he, rfl, -⟩ | ⟨rfl, -, c', he, rfl, -⟩ | ⟨rfl, hn, rfl, -⟩
    · have := evaluateStacked_stored hpts hd1 he
      rw [this] at hc1
      exact (Option.some.inj hc1).symm
    · have := evaluateStacked_stored hpts hd1 he
      rw [this] at hc1
      exact (Option.some.inj hc1).symm
    · rcases hst rfl with e | e
      · exact absurd e hn
      · rw [e] at hc1
        exact (Option.some.inj hc1).symm
  subst hcol
  have hlen1 : l1.length = s.rules.length := (List.Forall₂.length_eq h1).symm
  obtain ⟨ns', l2', hra', len3, len2, hall⟩ := receiveAll_ok (R := R) (mark := fun r => { r with fitted := true }) (vals := vals)
    (l := s1.rules) (i := 0)
    (P := fun j n m2 => ∀ m m1, s.rules[j]? = some m → l1[j]? = some m1 → m1.kind = m.kind ∧ m2.kind = m.kind ∧ m1.rule.cond = m.rule.cond ∧
      (∃ u : List Bool, Rule.Uses (R.ofKind m.kind) m.rule xs (arr u) ∧ m2.rule.act = some (arr u) ∧ u.length = y.length) ∧
      SameFit (R.ofKind m.kind) m1.rule m2.rule ∧ (0 < n → m2.rule.good = false)) (by
      intro j ma hj
      rw [Nat.zero_add]
      obtain ⟨m, hm⟩ := get_of_length hlen.symm hj
      obtain ⟨m1, hm1, e1, e2⟩ := forall2_get h1 hm
      obtain ⟨ma', u, e3, e4, e5, e6, e7, e8, e9, e10⟩ := each j m hm
      rw [hj] at e3
      cases e3
      have hmm := List.mem_of_getElem? hm
      rw [e5] at e2
      obtain ⟨n, r2, hrec, hsame, hbad⟩ := fit_receive hE (hr m hmm) (hc m hmm) e2 e6 hd1 hj rfl hv
      refine ⟨n, r2, by rw [e4]; exact hrec, ?_⟩
      intro m' m1' hm' hm1'
      rw [hm] at hm'
      cases hm'
      rw [hm1] at hm1'
      cases hm1'
      have hcond : m1.rule.cond = m.rule.cond := by
        have := Rule.leaves_fit (R.ofKind k) y xs false kw m.rule
        rw [show Rule.fit (R.ofKind k) y xs false kw m.rule = (.ok (), m1.rule) from e2] at this
        exact this
      refine ⟨e1, by rw [e4, e5], hcond, ⟨u, by rw [e5]; exact e10, ?_, e8⟩, by rw [e5]; exact hsame, hbad⟩
      have := leaves_receive (R.ofKind k) (mark := fun r => { r with fitted := true }) (fun _ => rfl) j vals ma.rule
      rw [hrec] at this
      exact (congrArg Prod.snd this).trans e7)
  rw [hra] at hra'
  cases hra'
  refine ⟨l2, ns, hlen1, len2.trans hlen, len3.trans hlen, ?_, rfl, ?_, rfl, ?_⟩
  · intro j m m1 m2 n g1 g2 g3 g4
    have := hall j n m2 g4 g3
    rw [Nat.zero_add] at this
    exact this m m1 g1 g2
  · rcases afterFitStacked_ok haf with ⟨-, rfl⟩ | ⟨-, -, -, -, e⟩
    · exact hstack
    · exact e.trans hstack
  · have hown := receiveAll_own (R := R) (mark := fun r => { r with fitted := true }) (fun _ => rfl) vals 0 s1.rules
    rw [hra] at hown
    rcases afterFitStacked_ok haf with ⟨e, rfl⟩ | ⟨e, g1, g2, g3, g4⟩
    · refine .inl ⟨e, rfl, fun hxs => ?_, fun hss => ?_⟩
      · rcases prepareFit_ok (by
          intro x e
          have := hr m0 hm0
          rw [e] at this
          exact this) hp with ⟨x, la, a, c', rfl, -, hself, -, rfl, -⟩ | ⟨rfl, -⟩ | ⟨rfl, -⟩
        · refine (evaluateSelf_acts ?_).trans hself
          have := congrArg (List.map Prod.snd) hown
          rw [List.map_map, List.map_map] at this
          exact this
        all_goals cases hxs
      · have hclean : clean = false := by
          rcases prepareFit_ok (by
            intro x e
            have := hr m0 hm0
            rw [e] at this
            exact this) hp with ⟨x, la, a, c', rfl, -, -, -, -, e⟩ | ⟨rfl, -, c', -, -, e⟩ | ⟨rfl, -, -, e⟩
          · rw [e, hss]; rfl
          · rw [e, hss]; rfl
          · exact e
        show (if clean = true then none else s1.stacked) = _
        rw [hclean, hc1]
        simp only [Bool.false_eq_true, if_false]
        congr 1
        have := congrArg (List.map fun p : Cond × Option (List Nat) => (R.condStr p.1, p.2.getD [])) hown
        rw [List.map_map, List.map_map] at this
        exact this.symm
    · exact .inr ⟨e, g1, g2, fun hss => g3 (hstack.trans hss)⟩

end Verif.RuleSet
