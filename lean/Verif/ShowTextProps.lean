import Verif.ShowTextLemmas
import Verif.TextProps
import Verif.RuleSetProps
import Mathlib.Data.List.SplitOn

/-!
# Properties of the texts of conditions and rulesets
-/

namespace Verif.ShowTextProps

open Verif Spec RuleSet RuleSetProps PyText

/-- The name does not contain `" in ["`. -/
def Plain (n : String) : Prop := ¬ [' ', 'i', 'n', ' ', '['] <:+: n.toList

/-- The texts of conditions are those of Python. -/
structure WritesConditions (F : Floats) (R : RsEnv) : Prop where
  text : ∀ c t, condition F c = .ok t → R.condStr c = String.ofList t
  /-- whatever it is when `str` raises -/
  indexes : TextIgnoresIndexes R

/-- **C62 (telling apart, partial).** Two conditions on features none of whose names contains `" in ["` which have the same text have the same
names and the same bounds, in the same order.
Missing: other names (`C62_names_false`). -/
theorem C62_apart_partial {F : Floats} {c d : Cond} {fs gs : List Feature} {t : List Char} (hc : Shows c fs) (hd : Shows d gs)
    (hf : ∀ f ∈ fs, Plain f.name) (hg : ∀ g ∈ gs, Plain g.name) (h1 : condition F c = .ok t) (h2 : condition F d = .ok t) :
    c.names = d.names ∧ c.bmins = d.bmins ∧ c.bmaxs = d.bmaxs := by
  have key : fs.map triple = gs.map triple := by
    cases fs with
    | nil =>
      unfold condition at h1
      rw [hc.1] at h1
      cases h1
    | cons f fs =>
      cases gs with
      | nil =>
        unfold condition at h2
        rw [hd.1] at h2
        cases h2
      | cons g gs =>
        rw [condition_text hc] at h1
        rw [condition_text hd] at h2
        have h := Except.ok.inj (h1.trans h2.symm)
        obtain ⟨e1, e2, e3, e4⟩ := interval_inj (hf f (by simp)) (hg g (by simp)) h
        rw [List.map_cons, List.map_cons, restText_inj (fun f hf' => hf f (List.mem_cons_of_mem _ hf'))
          (fun g hg' => hg g (List.mem_cons_of_mem _ hg')) e4]
        simp [triple, e1, e2, e3]
  have k1 := congrArg (List.map fun p : String × Num × Num => p.1) key
  have k2 := congrArg (List.map fun p : String × Num × Num => p.2.1) key
  have k3 := congrArg (List.map fun p : String × Num × Num => p.2.2) key
  simp only [List.map_map] at k1 k2 k3
  refine ⟨?_, ?_, ?_⟩
  · rw [hc.1, hd.1]
    exact congrArg some k1
  · rw [hc.2.2.1, hd.2.2.1]
    exact congrArg some k2
  · rw [hc.2.2.2, hd.2.2.2]
    exact congrArg some k3

/-- The texts of Python, numbers being written as fractions -/
def showRs : RsEnv :=
  { someRs with condStr := fun c => String.ofList (match condition SaveProps.fractions c with | .ok t => t | .error _ => []) }

theorem showRs_writes : WritesConditions SaveProps.fractions showRs where
  text c t h := by
    show String.ofList _ = _
    rw [h]
  indexes _ _ := rfl

/-- Two features -/
example : showRs.condStr ConditionProps.two = "a in [-1/1, inf] AND b in [1/1, 3/1]" ∧ Shows ConditionProps.two ConditionProps.twoFeatures.reverse ∧
    (∀ f ∈ ConditionProps.twoFeatures.reverse, Plain f.name) := by
  refine ⟨by decide +kernel, ⟨rfl, rfl, rfl, rfl⟩, ?_⟩
  unfold Plain
  decide

/-- **C62 (columns, partial).** In a ruleset whose rules have conditions on features, none of whose names contains `" in ["`, and of which no
two have the same names and bounds in the same order, the stacked activations have one column for each rule, with its activation, after any
sequence of calls which build the ruleset.
Missing: other names (`C62_names_false`); rules with the same conditions share a column. -/
theorem C62_columns_partial {F : Floats} {R : RsEnv} {n : Nat} {s : RuleSet} (hW : WritesConditions F R) (hn : 0 < n)
    (h : Built R (HasPoints n) true s) (hne : s.rules ≠ [])
    (hs : ∀ m ∈ s.rules, ∃ fs, Shows m.rule.cond fs ∧ fs ≠ [] ∧ ∀ f ∈ fs, Plain f.name)
    (hd : s.rules.Pairwise fun m m' => ¬ (m.rule.cond.names = m'.rule.cond.names ∧ m.rule.cond.bmins = m'.rule.cond.bmins ∧
      m.rule.cond.bmaxs = m'.rule.cond.bmaxs)) :
    ∃ c, s.stacked = some c ∧ c.length = s.rules.length ∧ (c.map (·.1)).Nodup ∧
      c.map (·.2) = s.rules.map fun m => m.rule.act.getD [] := by
  have hdt : DifferentTexts R s.rules := by
    unfold DifferentTexts
    rw [List.Nodup, List.pairwise_map]
    refine (List.Pairwise.and_mem.1 hd).imp ?_
    rintro m m' ⟨hm, hm', hmm⟩ e
    obtain ⟨fs, hf1, hf2, hf3⟩ := hs m hm
    obtain ⟨gs, hg1, hg2, hg3⟩ := hs m' hm'
    obtain ⟨f, fs, rfl⟩ := List.exists_cons_of_ne_nil hf2
    obtain ⟨g, gs, rfl⟩ := List.exists_cons_of_ne_nil hg2
    have e1 := condition_text (F := F) hf1
    have e2 := condition_text (F := F) hg1
    rw [hW.text _ _ e1, hW.text _ _ e2] at e
    have e := congrArg String.toList e
    rw [String.toList_ofList, String.toList_ofList] at e
    exact hmm (C62_apart_partial hf1 hg1 hf3 hg3 e1 (e ▸ e2))
  refine ⟨_, C25_stacked_partial hn hW.indexes h hne hdt, by simp [columnsOf], ?_, by simp [columnsOf]⟩
  unfold DifferentTexts at hdt
  simpa [columnsOf, Function.comp_def] using hdt

/-- A rule on one feature -/
def ruleOn (names : List String) (los his : List Num) (v : List Nat) : Member :=
  ⟨.regression, { (member 0 v).rule with cond :=
    { indexes := some ((List.range names.length).map Int.ofNat), bmins := some los, bmaxs := some his, names := some names, impossible := false } }⟩

/-- Two rules with different bounds -/
def apart : RuleSet := (RuleSet.init showRs [ruleOn ["a"] [.fin 0] [.fin 1] [1, 1, 0], ruleOn ["a"] [.fin 0] [.fin 2] [1, 1, 1]] true (RuleSet.blank true)).2

example : (RuleSet.init showRs [ruleOn ["a"] [.fin 0] [.fin 1] [1, 1, 0], ruleOn ["a"] [.fin 0] [.fin 2] [1, 1, 1]] true (RuleSet.blank true)).1 = .ok () ∧
    apart.stacked = some [("a in [0/1, 1/1]", [1, 1, 0]), ("a in [0/1, 2/1]", [1, 1, 1])] ∧
    Shows (ruleOn ["a"] [.fin 0] [.fin 1] [1, 1, 0]).rule.cond [⟨"a", 0, .fin 0, .fin 1⟩] ∧ Plain "a" := by
  refine ⟨by decide +kernel, by decide +kernel, ⟨rfl, rfl, rfl, rfl⟩, ?_⟩
  unfold Plain
  decide

/-- **C62 is false for names which look like texts of conditions:** a rule on one feature of the name `a in [0/1, 1/1] AND b` and a rule on the
two features `a` and `b` have the same text; the ruleset of these two rules has one column only, with the activation of the second one. -/
theorem C62_names_false :
    let l := [ruleOn ["a in [0/1, 1/1] AND b"] [.fin 0] [.fin 2] [1, 1, 0], ruleOn ["a", "b"] [.fin 0, .fin 0] [.fin 1, .fin 2] [0, 1, 1]]
    let s := (RuleSet.init showRs l true (RuleSet.blank true)).2
    WritesConditions SaveProps.fractions showRs ∧ (RuleSet.init showRs l true (RuleSet.blank true)).1 = .ok () ∧ s.rules.length = 2 ∧
      s.stacked = some [("a in [0/1, 1/1] AND b in [0/1, 2/1]", [0, 1, 1])] :=
  ⟨showRs_writes, by decide +kernel, by decide +kernel, by decide +kernel⟩

/-- **C62 (same text, partial).** Two conditions which require the same of the same features, both with their features in the order of the
names, have the same text.
Missing: other orders (`C62_order_false`). -/
theorem C62_same_partial {F : Floats} {c d : Cond} {fs gs : List Feature} (hc : Shows c fs) (hd : Shows d gs) (h : SameRequirements fs gs)
    (hf : (fs.map (·.name)).Pairwise (· < ·)) (hg : (gs.map (·.name)).Pairwise (· < ·)) : condition F c = condition F d := by
  have key : ∀ {fs gs : List Feature}, (fs.map (·.name)).Pairwise (· < ·) → (gs.map (·.name)).Pairwise (· < ·) → SameRequirements fs gs →
      fs.map triple = gs.map triple := by
    intro fs gs hf hg h
    have nd : ∀ {l : List Feature}, (l.map (·.name)).Pairwise (· < ·) → (l.map triple).Nodup := by
      intro l hl
      rw [List.Nodup, List.pairwise_map]
      rw [List.pairwise_map] at hl
      exact hl.imp fun h e => absurd (congrArg Prod.fst e) (ne_of_lt h)
    have hp : (fs.map triple).Perm (gs.map triple) := by
      refine (List.perm_ext_iff_of_nodup (nd hf) (nd hg)).2 fun p => ?_
      obtain ⟨n, lo, hi⟩ := p
      have := h n lo hi
      simp only [List.mem_map, triple, Prod.mk.injEq]
      exact this
    refine hp.eq_of_pairwise (le := fun p q => p.1 < q.1) ?_ ?_ ?_
    · intro a b _ _ h1 h2
      exact absurd (h1.trans h2) (lt_irrefl _)
    · rw [List.pairwise_map]
      rw [List.pairwise_map] at hf
      exact hf
    · rw [List.pairwise_map]
      rw [List.pairwise_map] at hg
      exact hg
  have e := key hf hg h
  have ft : ∀ {fs gs : List Feature}, fs.map triple = gs.map triple → restText F fs = restText F gs := by
    intro fs
    induction fs with
    | nil => intro gs e; cases gs with
      | nil => rfl
      | cons => cases e
    | cons f fs ih => intro gs e; cases gs with
      | nil => cases e
      | cons g gs =>
        simp only [List.map_cons, List.cons.injEq, triple, Prod.mk.injEq] at e
        obtain ⟨⟨e1, e2, e3⟩, e4⟩ := e
        simp only [restText, e1, e2, e3, ih e4]
  cases fs with
  | nil =>
    cases gs with
    | nil =>
      unfold condition
      rw [hc.1, hd.1]
      rfl
    | cons g gs => cases e
  | cons f fs =>
    cases gs with
    | nil => cases e
    | cons g gs =>
      rw [condition_text hc, condition_text hd]
      simp only [List.map_cons, List.cons.injEq, triple, Prod.mk.injEq] at e
      obtain ⟨⟨e1, e2, e3⟩, e4⟩ := e
      rw [e1, e2, e3, ft e4]

/-- `two`, and the same with other indexes -/
example : SameRequirements ConditionProps.twoFeatures.reverse [⟨"a", 5, .fin (-1), .inf⟩, ⟨"b", 1, .fin 1, .fin 3⟩] ∧
    (ConditionProps.twoFeatures.reverse.map (·.name)).Pairwise (· < ·) := by
  refine ⟨?_, ?_⟩
  · intro n lo hi
    simp [ConditionProps.twoFeatures]
  · rw [show ConditionProps.twoFeatures.reverse.map (·.name) = ["a", "b"] from rfl]
    refine .cons ?_ (.cons ?_ .nil)
    · intro b hb
      rw [List.mem_singleton.1 hb]
      decide
    · intro b hb
      cases hb

/-- **C62 is false for the order of features:** two conditions which are equal, made with `sort=False`, have different texts. -/
theorem C62_order_false : ∃ c d, ConditionProps.build "index" ConditionProps.twoFeatures false = .ok c ∧
    ConditionProps.build "index" ConditionProps.twoFeatures.reverse false = .ok d ∧ (∀ H, Cond.eq H c d = .ok true) ∧
    showRs.condStr c = "b in [1/1, 3/1] AND a in [-1/1, inf]" ∧ showRs.condStr d = "a in [-1/1, inf] AND b in [1/1, 3/1]" := by
  have h1 : ConditionProps.build "index" ConditionProps.twoFeatures false = .ok { indexes := some [2, 0], bmins := some [.fin 1, .fin (-1)], bmaxs := some [.fin 3, .inf], names := some ["b", "a"], impossible := false } := by decide +kernel
  have h2 : ConditionProps.build "index" ConditionProps.twoFeatures.reverse false = .ok ConditionProps.two := by decide +kernel
  refine ⟨_, _, h1, h2, fun H => ?_, by decide +kernel, by decide +kernel⟩
  refine ConditionProps.C15_equal (fs := ConditionProps.twoFeatures) (gs := ConditionProps.twoFeatures.reverse) (.init h1) (.init h2)
    ⟨rfl, rfl, rfl, rfl⟩ ⟨rfl, rfl, rfl, rfl⟩ (fun n lo hi => ?_) H
  simp

/-- A condition made with `empty=True`, and filled but for the names -/
def nameless (lo : Rat) : Cond :=
  afterSets { indexes := none, bmins := none, bmaxs := none, names := none, impossible := false }
    [.indexes (.list [0]), .bmins (.list [.fin lo]), .bmaxs (.list [.fin 9])]

/-- **C62 is false for conditions without names:** conditions which were made empty, and to which indexes and bounds were assigned, evaluate
arrays, but have all the same text. -/
theorem C62_nameless_false : Cond.init "index" none none none none true true =
      .ok { indexes := none, bmins := none, bmaxs := none, names := none, impossible := false } ∧
    Cond.evaluate (nameless 0) ⟨1, [[.fin 0], [.fin 5]]⟩ = .ok [1, 1] ∧ Cond.evaluate (nameless 3) ⟨1, [[.fin 0], [.fin 5]]⟩ = .ok [0, 1] ∧
    showRs.condStr (nameless 0) = "empty condition" ∧ showRs.condStr (nameless 3) = "empty condition" :=
  ⟨rfl, by decide +kernel, by decide +kernel, by decide +kernel, by decide +kernel⟩

/-! ## Rulesets -/

/-- **C62 (text of a ruleset).** If no text of a rule has a line break, the lines of the text of a ruleset are those of its rules, in order; from
`2 * NLINES` rules on, those of the first and of the last `NLINES` ones with a line `...` between them. No rule is shown twice. -/
theorem C62_lines {k : Nat} {l : List (List Char)} (hk : 0 < k) (hl : l ≠ []) (hn : ∀ t ∈ l, '\n' ∉ t) :
    (l.length < 2 * k → (ruleset k l).splitOn '\n' = l) ∧
      (2 * k ≤ l.length → ∃ a b c, l = a ++ b ++ c ∧ a.length = k ∧ c.length = k ∧
        (ruleset k l).splitOn '\n' = a ++ [['.', '.', '.']] ++ c) := by
  have take : ∀ n, n ≤ l.length → (List.range n).filterMap (fun i => l[i]?) = l.take n := by
    intro n
    induction n with
    | zero => intro _; simp
    | succ n ih =>
      intro h
      rw [List.range_succ, List.filterMap_append, ih (by omega), List.take_add_one]
      simp [List.getElem?_eq_getElem (show n < l.length by omega)]
  have drop : ∀ n a, a + n = l.length → (List.range' a n).filterMap (fun i => l[i]?) = l.drop a := by
    intro n
    induction n with
    | zero => intro a h; simp; omega
    | succ n ih =>
      intro a h
      have ha : a < l.length := by omega
      rw [List.range'_succ, List.filterMap_cons, List.getElem?_eq_getElem ha]
      simp only
      rw [ih (a + 1) (by omega), List.drop_eq_getElem_cons ha]
  refine ⟨fun h => ?_, fun h => ?_⟩
  · unfold ruleset joinLines
    rw [if_pos h, take _ le_rfl, List.take_length]
    exact List.splitOn_intercalate _ hn hl
  · refine ⟨l.take k, (l.drop k).take (l.length - k - k), l.drop (l.length - k), ?_, ?_, ?_, ?_⟩
    · rw [List.append_assoc]
      conv_lhs => rw [← List.take_append_drop k l]
      congr 1
      conv_lhs => rw [← List.take_append_drop (l.length - k - k) (l.drop k)]
      congr 1
      rw [List.drop_drop]
      congr 1
      omega
    · rw [List.length_take]
      omega
    · rw [List.length_drop]
      omega
    · unfold ruleset joinLines
      rw [if_neg (by omega), take _ (by omega), drop _ _ (by omega)]
      refine List.splitOn_intercalate _ ?_ (by simp)
      intro t ht
      simp only [List.mem_append, List.mem_singleton] at ht
      rcases ht with (ht | rfl) | ht
      · exact hn t (List.mem_of_mem_take ht)
      · decide
      · exact hn t (List.mem_of_mem_drop ht)

/-- Five rules, `NLINES` being 2 -/
example : ruleset 2 [['a'], ['b'], ['c'], ['d'], ['e']] = ['a', '\n', 'b', '\n', '.', '.', '.', '\n', 'd', '\n', 'e'] := by decide

/-- **C62 is false with `NLINES = 2` and four rules:** all rules are shown, but the text says that some are left out. -/
theorem C62_dots_false : ruleset 2 [['a'], ['b'], ['c'], ['d']] = ['a', '\n', 'b', '\n', '.', '.', '.', '\n', 'c', '\n', 'd'] := by decide

end Verif.ShowTextProps
