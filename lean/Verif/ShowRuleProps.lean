import Verif.ShowRule
import Verif.ShowTextProps

/-!
# Properties of the texts of rules (C62)
-/

namespace Verif.ShowTextProps

open Verif Spec RuleSet RuleSetProps PyText

/-- The prediction of a regression rule: unset or a number -/
def NumberOrUnset : Pred → Prop
  | .none => True
  | .label (.num _) => True
  | _ => False

/-- There is no line break in the names of the classes. -/
def NoBreak (probs : List (Label × Rat) → List Char) : Pred → Prop
  | .label (.text s) => '\n' ∉ s.toList
  | .probs p => '\n' ∉ probs p
  | _ => True

theorem restText_tail {F : Floats} {fs gs : List Feature} {x y : List Char} (hf : ∀ f ∈ fs, Plain f.name)
    (hg : ∀ g ∈ gs, Plain g.name) (h : restText F fs ++ ' ' :: 'T' :: x = restText F gs ++ ' ' :: 'T' :: y) :
    fs.map triple = gs.map triple ∧ x = y := by
  induction fs generalizing gs with
  | nil =>
    cases gs with
    | nil =>
      simp only [restText, List.nil_append, List.cons.injEq, true_and] at h
      exact ⟨rfl, h⟩
    | cons g gs => simp [restText] at h
  | cons f fs ih =>
    cases gs with
    | nil => simp [restText] at h
    | cons g gs =>
      simp only [restText, List.cons_append, List.cons.injEq, true_and, List.append_assoc] at h
      obtain ⟨e1, e2, e3, e4⟩ := interval_inj (hf f (by simp)) (hg g (by simp)) h
      obtain ⟨e5, e6⟩ := ih (fun f hf' => hf f (List.mem_cons_of_mem _ hf')) (fun g hg' => hg g (List.mem_cons_of_mem _ hg')) e4
      rw [List.map_cons, List.map_cons, e5]
      exact ⟨by simp [triple, e1, e2, e3], e6⟩

theorem num_ne_unset (F : Floats) (x : Num) : num F x ≠ "<prediction unset>".toList := by
  intro h
  cases x with
  | fin q =>
    obtain ⟨c, t, hc, h1 | h1⟩ := F.write_head q
    · have h : F.write q = _ := h
      rw [h1] at h
      have : c = '<' := (List.cons.inj h).1
      rw [this] at hc
      exact absurd hc (by decide)
    · have h : F.write q = _ := h
      rw [h1] at h
      exact absurd (List.cons.inj h).1 (by decide)
  | nan => exact absurd (show ['n', 'a', 'n'] = "<prediction unset>".toList from h) (show ['n', 'a', 'n'] ≠ _ by decide)
  | inf => exact absurd (show ['i', 'n', 'f'] = "<prediction unset>".toList from h) (show ['i', 'n', 'f'] ≠ _ by decide)
  | ninf => exact absurd (show ['-', 'i', 'n', 'f'] = "<prediction unset>".toList from h) (show ['-', 'i', 'n', 'f'] ≠ _ by decide)

/-- **C62 (rules).** Two regression rules on features none of whose names contains `" in ["`, fitted or not, which have the same text have the
same names and the same bounds, in the same order, and the same prediction.
Missing: classes given as texts (`C62_class_false`), other names (`C62_names_false`). -/
theorem C62_rule_partial {F : Floats} {probs : List (Label × Rat) → List Char} {r q : Rule} {fs gs : List Feature} {t : List Char}
    (hr : Shows r.cond fs) (hq : Shows q.cond gs) (hf : ∀ f ∈ fs, Plain f.name) (hg : ∀ g ∈ gs, Plain g.name)
    (pr : NumberOrUnset r.prediction) (pq : NumberOrUnset q.prediction) (h1 : rule F probs r = .ok t) (h2 : rule F probs q = .ok t) :
    r.cond.names = q.cond.names ∧ r.cond.bmins = q.cond.bmins ∧ r.cond.bmaxs = q.cond.bmaxs ∧ r.prediction = q.prediction := by
  have key : fs.map triple = gs.map triple ∧ prediction F probs r.prediction = prediction F probs q.prediction := by
    cases fs with
    | nil =>
      unfold rule condition at h1
      rw [hr.1] at h1
      cases h1
    | cons f fs =>
      cases gs with
      | nil =>
        unfold rule condition at h2
        rw [hq.1] at h2
        cases h2
      | cons g gs =>
        unfold rule at h1 h2
        rw [condition_text hr] at h1
        rw [condition_text hq] at h2
        have h := Except.ok.inj (h1.trans h2.symm)
        simp only [List.cons.injEq, true_and, List.append_assoc] at h
        obtain ⟨e1, e2, e3, e4⟩ := interval_inj (hf f (by simp)) (hg g (by simp)) h
        obtain ⟨e5, e6⟩ := restText_tail (fun f hf' => hf f (List.mem_cons_of_mem _ hf')) (fun g hg' => hg g (List.mem_cons_of_mem _ hg')) e4
        simp only [List.cons.injEq, true_and, List.append_cancel_right_eq] at e6
        rw [List.map_cons, List.map_cons, e5]
        exact ⟨by simp [triple, e1, e2, e3], e6⟩
  obtain ⟨key, kp⟩ := key
  have k1 := congrArg (List.map fun p : String × Num × Num => p.1) key
  have k2 := congrArg (List.map fun p : String × Num × Num => p.2.1) key
  have k3 := congrArg (List.map fun p : String × Num × Num => p.2.2) key
  simp only [List.map_map] at k1 k2 k3
  refine ⟨?_, ?_, ?_, ?_⟩
  · rw [hr.1, hq.1]
    exact congrArg some k1
  · rw [hr.2.2.1, hq.2.2.1]
    exact congrArg some k2
  · rw [hr.2.2.2, hq.2.2.2]
    exact congrArg some k3
  · revert pr pq kp
    cases r.prediction with
    | none =>
      cases q.prediction with
      | none => intros; rfl
      | label l =>
        cases l with
        | num x => intro _ _ kp; exact absurd kp.symm (num_ne_unset F x)
        | text s => intro _ pq _; exact pq.elim
      | probs p => intro _ pq _; exact pq.elim
    | label l =>
      cases l with
      | text s => intro pr _ _; exact pr.elim
      | num x =>
        cases q.prediction with
        | none => intro _ _ kp; exact absurd kp (num_ne_unset F x)
        | label l =>
          cases l with
          | num y => intro _ _ kp; exact congrArg (fun z => Pred.label (.num z)) (TextProps.num_inj kp)
          | text s => intro _ pq _; exact pq.elim
        | probs p => intro _ pq _; exact pq.elim
    | probs p => intro pr _ _; exact pr.elim

theorem interval_noBreak {F : Floats} (hF : ∀ x, '\n' ∉ F.write x) {n : String} (hn : '\n' ∉ n.toList) (a b : Num) :
    '\n' ∉ interval F n a b := by
  have hnum : ∀ x : Num, '\n' ∉ num F x := by
    intro x
    cases x with
    | fin q => exact hF q
    | nan => exact show '\n' ∉ ['n', 'a', 'n'] by decide
    | inf => exact show '\n' ∉ ['i', 'n', 'f'] by decide
    | ninf => exact show '\n' ∉ ['-', 'i', 'n', 'f'] by decide
  unfold interval
  simp only [List.mem_append, List.mem_cons, List.not_mem_nil, or_false, not_or]
  exact ⟨hn, by decide, by decide, by decide, by decide, by decide, hnum a, by decide, by decide, hnum b, by decide⟩

theorem intervalAt_noBreak {F : Floats} (hF : ∀ x, '\n' ∉ F.write x) {c : Cond} {p : String × Nat} (hn : '\n' ∉ p.1.toList) {t : List Char}
    (h : intervalAt F c p = .ok t) : '\n' ∉ t := by
  unfold intervalAt at h
  simp only [bind, Except.bind] at h
  split at h
  · cases h
  split at h
  · cases h
  cases h
  exact interval_noBreak hF hn _ _

theorem condition_noBreak {F : Floats} (hF : ∀ x, '\n' ∉ F.write x) {c : Cond} (hn : ∀ n ∈ c.names.getD [], '\n' ∉ n.toList)
    {t : List Char} (h : condition F c = .ok t) : '\n' ∉ t := by
  unfold condition at h
  cases hc : c.names with
  | none =>
    rw [hc] at h
    cases h
    decide
  | some l =>
    rw [hc] at h hn
    cases l with
    | nil => cases h
    | cons n ns =>
      simp only [bind, Except.bind] at h
      split at h
      · cases h
      rename_i first h1
      split at h
      · cases h
      rename_i rest h2
      cases h
      rw [List.mem_append, not_or]
      refine ⟨intervalAt_noBreak hF (hn n (by simp)) h1, ?_⟩
      intro hm
      obtain ⟨t, ht, hm⟩ := List.mem_flatMap.1 hm
      have : '\n' ∉ t := by
        have hl : ∀ (l : List (String × Nat)) (out : List (List Char)), (∀ p ∈ l, '\n' ∉ p.1.toList) →
            l.mapM (intervalAt F c) = .ok out → ∀ t ∈ out, '\n' ∉ t := by
          intro l
          induction l with
          | nil => intro out _ h; cases h; simp
          | cons p l ih =>
            intro out hp h
            rw [List.mapM_cons] at h
            simp only [bind, Except.bind] at h
            split at h
            · cases h
            rename_i t0 e0
            split at h
            · cases h
            rename_i l0 e1
            cases h
            intro t ht
            rcases List.mem_cons.1 ht with rfl | ht
            · exact intervalAt_noBreak hF (hp p (by simp)) e0
            · exact ih l0 (fun p' h' => hp p' (List.mem_cons_of_mem _ h')) e1 t ht
        refine hl _ rest ?_ h2 t ht
        intro p hp
        exact hn p.1 (List.mem_cons_of_mem _ (List.fst_mem_of_mem_zipIdx hp))
      simp only [List.mem_cons] at hm
      rcases hm with hm | hm | hm | hm | hm | hm
      · exact absurd hm (by decide)
      · exact absurd hm (by decide)
      · exact absurd hm (by decide)
      · exact absurd hm (by decide)
      · exact absurd hm (by decide)
      · exact this hm

theorem rule_noBreak {F : Floats} {probs : List (Label × Rat) → List Char} (hF : ∀ x, '\n' ∉ F.write x) {r : Rule}
    (hn : ∀ n ∈ r.cond.names.getD [], '\n' ∉ n.toList) (hp : NoBreak probs r.prediction) {t : List Char} (h : rule F probs r = .ok t) :
    '\n' ∉ t := by
  unfold rule at h
  simp only [bind, Except.bind] at h
  split at h
  · cases h
  rename_i u hu
  cases h
  have hpred : '\n' ∉ prediction F probs r.prediction := by
    revert hp
    cases r.prediction with
    | none => intro _; exact show '\n' ∉ "<prediction unset>".toList by decide
    | label l =>
      cases l with
      | num x =>
        intro _
        cases x with
        | fin q => exact hF q
        | nan => exact show '\n' ∉ ['n', 'a', 'n'] by decide
        | inf => exact show '\n' ∉ ['i', 'n', 'f'] by decide
        | ninf => exact show '\n' ∉ ['-', 'i', 'n', 'f'] by decide
      | text s => intro h; exact h
    | probs p => intro h; exact h
  simp only [List.mem_append, List.mem_cons, List.not_mem_nil, or_false, not_or]
  exact ⟨by decide, by decide, by decide, condition_noBreak hF hn hu, by decide, by decide, by decide, by decide, by decide, by decide, hpred,
    by decide⟩

theorem mapM_forall₂ {F : Floats} {probs : List (Label × Rat) → List Char} {rules : List Member} {l : List (List Char)}
    (h : List.Forall₂ (fun (m : Member) t => rule F probs m.rule = .ok t) rules l) :
    rules.mapM (fun m : Member => rule F probs m.rule) = .ok l := by
  induction h with
  | nil => rfl
  | cons h1 _ ih =>
    rw [List.mapM_cons, h1, ih]
    rfl

/-- **C62 (rules of a ruleset).** If the rules of a ruleset have texts, and if no name of a feature and no class has a line break, the ruleset
has a text whose lines are the texts of its rules, in their order; from `2 * NLINES` rules on, those of the first and of the last `NLINES` ones
with a line `...` between them. -/
theorem C62_set {F : Floats} {probs : List (Label × Rat) → List Char} {k : Nat} {s : RuleSet} {l : List (List Char)} (hk : 0 < k)
    (hs : s.rules ≠ []) (hF : ∀ x, '\n' ∉ F.write x) (hn : ∀ m ∈ s.rules, ∀ n ∈ m.rule.cond.names.getD [], '\n' ∉ n.toList)
    (hp : ∀ m ∈ s.rules, NoBreak probs m.rule.prediction)
    (hl : List.Forall₂ (fun (m : Member) t => rule F probs m.rule = .ok t) s.rules l) :
    ∃ t, rulesetText F probs k s = .ok t ∧ (s.rules.length < 2 * k → t.splitOn '\n' = l) ∧
      (2 * k ≤ s.rules.length → ∃ a b c, l = a ++ b ++ c ∧ a.length = k ∧ c.length = k ∧ t.splitOn '\n' = a ++ [['.', '.', '.']] ++ c) := by
  have hlen := hl.length_eq
  have hb : ∀ t ∈ l, '\n' ∉ t := by
    clear hlen hs
    revert hl hn hp
    generalize s.rules = rules
    intro hn hp hl
    induction hl with
    | nil => intro t ht; cases ht
    | cons h1 _ ih =>
      intro t ht
      rcases List.mem_cons.1 ht with rfl | ht
      · exact rule_noBreak hF (hn _ (by simp)) (hp _ (by simp)) h1
      · exact ih (fun m hm => hn m (List.mem_cons_of_mem _ hm)) (fun m hm => hp m (List.mem_cons_of_mem _ hm)) t ht
  unfold rulesetText
  by_cases h : s.rules.length < 2 * k
  · rw [if_pos h, mapM_forall₂ hl]
    refine ⟨joinLines l, rfl, fun _ => ?_, fun h' => by omega⟩
    exact List.splitOn_intercalate _ hb (by rintro rfl; exact hs (List.length_eq_zero_iff.1 hlen))
  · rw [if_neg h, mapM_forall₂ (List.forall₂_take k hl), mapM_forall₂ (List.forall₂_drop (s.rules.length - k) hl)]
    refine ⟨_, rfl, fun h' => by omega, fun _ => ?_⟩
    refine ⟨l.take k, (l.drop k).take (l.length - k - k), l.drop (s.rules.length - k), ?_, ?_, ?_, ?_⟩
    · rw [List.append_assoc]
      conv_lhs => rw [← List.take_append_drop k l]
      congr 1
      conv_lhs => rw [← List.take_append_drop (l.length - k - k) (l.drop k)]
      congr 1
      rw [List.drop_drop]
      congr 1
      omega
    · rw [List.length_take]
      omega
    · rw [List.length_drop]
      omega
    · refine List.splitOn_intercalate _ ?_ (by simp)
      intro t ht
      simp only [List.mem_append, List.mem_singleton] at ht
      rcases ht with (ht | rfl) | ht
      · exact hb t (List.mem_of_mem_take ht)
      · decide
      · exact hb t (List.mem_of_mem_drop ht)

/-- The classes and frequencies of no rule here -/
def noProbs : List (Label × Rat) → List Char := fun _ => []

/-- Two rules, of which one predicts 1 and the other is not fitted -/
example :
    (rule SaveProps.fractions noProbs (member 0 [1]).rule).map String.ofList = .ok "If a in [0/1, 9/1] Then 1/1." ∧
      (rule SaveProps.fractions noProbs { (member 0 [1]).rule with prediction := .none }).map String.ofList =
        .ok "If a in [0/1, 9/1] Then <prediction unset>." ∧
      NumberOrUnset (member 0 [1]).rule.prediction ∧ Shows (member 0 [1]).rule.cond [⟨"a", 0, .fin 0, .fin 9⟩] ∧ Plain "a" := by
  refine ⟨by decide +kernel, by decide +kernel, trivial, ⟨rfl, rfl, rfl, rfl⟩, ?_⟩
  unfold Plain
  decide

theorem fractions_noBreak (x : Rat) : '\n' ∉ SaveProps.fractions.write x := by
  have hd : ∀ n : Nat, '\n' ∉ PyText.nat n := by
    intro n
    induction n using Nat.strongRecOn with
    | _ n ih =>
      have h1 : ∀ d < 10, '\n' ∉ [PyText.digit d] := by decide
      rw [PyText.nat]
      split
      · exact h1 n (by assumption)
      · rw [List.mem_append, not_or]
        exact ⟨ih _ (by omega), h1 _ (by omega)⟩
  show '\n' ∉ SaveProps.writeFraction x
  unfold SaveProps.writeFraction PyText.int
  split <;> simp only [List.mem_append, List.mem_cons, not_or]
  · exact ⟨⟨by decide, hd _⟩, by decide, hd _⟩
  · exact ⟨hd _, by decide, hd _⟩

/-- Two rules, `NLINES` being 2 and then 1 -/
example :
    (∀ x, '\n' ∉ SaveProps.fractions.write x) ∧ (∀ m ∈ twoRules.rules, ∀ n ∈ m.rule.cond.names.getD [], '\n' ∉ n.toList) ∧
      (rulesetText SaveProps.fractions noProbs 2 twoRules).map String.ofList =
        .ok "If a in [0/1, 9/1] Then 1/1.\nIf a in [1/1, 9/1] Then 1/1." ∧
      (rulesetText SaveProps.fractions noProbs 1 twoRules).map String.ofList =
        .ok "If a in [0/1, 9/1] Then 1/1.\n...\nIf a in [1/1, 9/1] Then 1/1." :=
  ⟨fractions_noBreak, by decide +kernel, by decide +kernel, by decide +kernel⟩

/-- **C62 is false for the text of a class:** a rule whose class is called `<prediction unset>` has the text of a rule without prediction, and
a rule whose class is called `1/1` that of a rule which predicts the number. -/
theorem C62_class_false :
    ∃ (F : Floats) (r : Rule), (∃ t, ∀ probs, rule F probs r = .ok t) ∧
      (∀ probs, rule F probs { r with prediction := .label (.text "<prediction unset>") } = rule F probs { r with prediction := .none }) ∧
      (∀ probs, rule F probs { r with prediction := .label (.text "1/1") } = rule F probs { r with prediction := .label (.num (.fin 1)) }) := by
  have e : num SaveProps.fractions (.fin 1) = "1/1".toList := by decide +kernel
  refine ⟨SaveProps.fractions, (member 0 [1]).rule, ⟨"If a in [0/1, 9/1] Then 1/1.".toList, fun _ => ?_⟩, fun _ => rfl, fun _ => ?_⟩
  · have hc : condition SaveProps.fractions (member 0 [1]).rule.cond = .ok "a in [0/1, 9/1]".toList := by decide +kernel
    unfold rule
    rw [hc]
    show Except.ok ('I' :: 'f' :: ' ' :: ("a in [0/1, 9/1]".toList ++ ' ' :: 'T' :: 'h' :: 'e' :: 'n' :: ' ' ::
      (num SaveProps.fractions (.fin 1) ++ ['.']))) = _
    rw [e]
    rfl
  · have hp : ∀ probs, prediction SaveProps.fractions probs (.label (.num (.fin 1))) = prediction SaveProps.fractions probs (.label (.text "1/1")) :=
      fun _ => e
    show (do
      let t ← condition SaveProps.fractions (member 0 [1]).rule.cond
      Except.ok ('I' :: 'f' :: ' ' :: (t ++ ' ' :: 'T' :: 'h' :: 'e' :: 'n' :: ' ' :: (prediction _ _ (.label (.text "1/1")) ++ ['.'])))) = _
    rw [← hp]
    rfl

end Verif.ShowTextProps
