import Verif.ShowText
import Verif.PyTextLemmas
import Verif.ConditionAnd
import Verif.RuleSetSpec

/-!
# Lemmas on the texts of conditions
-/

namespace Verif

namespace PyText

open Spec

/-- `" in ["` -/
def mark : List Char := [' ', 'i', 'n', ' ', '[']

/-- The characters before the first `" in ["`, and those after it -/
def cut : List Char → Option (List Char × List Char)
  | [] => none
  | c :: l =>
    match after mark (c :: l) with
    | some rest => some ([], rest)
    | none => (cut l).map fun p => (c :: p.1, p.2)

theorem cut_mark (rest : List Char) : cut (mark ++ rest) = some ([], rest) := by
  have h := after_append mark rest
  unfold mark at h ⊢
  simp only [List.cons_append, List.nil_append] at h ⊢
  rw [cut]
  unfold mark
  rw [h]

theorem cut_name {name : List Char} (h : ¬ mark <:+: name) (rest : List Char) : cut (name ++ (mark ++ rest)) = some (name, rest) := by
  induction name with
  | nil => exact cut_mark rest
  | cons c t ih =>
    have ht : ¬ mark <:+: t := fun hi => h (hi.trans (List.suffix_cons c t).isInfix)
    rw [List.cons_append, cut, ih ht]
    have : after mark (c :: (t ++ (mark ++ rest))) = none := by
      cases ha : after mark (c :: (t ++ (mark ++ rest))) with
      | none => rfl
      | some r =>
        exfalso
        have e := after_eq ha
        unfold mark at e h
        match t with
        | [] => simp at e
        | [a] => simp at e
        | [a, b] => simp at e
        | [a, b, d] => simp at e
        | a :: b :: d :: f :: t' =>
          simp only [List.cons_append, List.cons.injEq, List.nil_append] at e
          obtain ⟨rfl, rfl, rfl, rfl, rfl, -⟩ := e
          exact h (List.prefix_append [' ', 'i', 'n', ' ', '['] t').isInfix
    rw [this]
    rfl

/-- The text of features -/
def restText (F : Floats) : List Feature → List Char
  | [] => []
  | f :: l => ' ' :: 'A' :: 'N' :: 'D' :: ' ' :: (interval F f.name f.lo f.hi ++ restText F l)

theorem interval_inj {F : Floats} {n m : String} {a b c d : Num} {x y : List Char} (hn : ¬ mark <:+: n.toList) (hm : ¬ mark <:+: m.toList)
    (h : interval F n a b ++ x = interval F m c d ++ y) : n = m ∧ a = c ∧ b = d ∧ x = y := by
  unfold interval at h
  have e : ∀ (n : String) (a b : Num) (x : List Char), (n.toList ++ ' ' :: 'i' :: 'n' :: ' ' :: '[' :: (num F a ++ ',' :: ' ' :: (num F b ++ [']']))) ++ x =
      n.toList ++ (mark ++ (num F a ++ ',' :: ' ' :: (num F b ++ ']' :: x))) := by
    intro n a b x
    simp [mark]
  rw [e, e] at h
  have h1 := cut_name hn (num F a ++ ',' :: ' ' :: (num F b ++ ']' :: x))
  rw [h, cut_name hm] at h1
  obtain ⟨e1, e2⟩ := Prod.mk.inj (Option.some.inj h1)
  have h2 := readNum_num F a (rest := ',' :: ' ' :: (num F b ++ ']' :: x)) (.inr (.inl ⟨_, rfl⟩))
  rw [← e2, readNum_num F c (.inr (.inl ⟨_, rfl⟩))] at h2
  obtain ⟨e3, e4⟩ := Prod.mk.inj (Option.some.inj h2)
  simp only [List.cons.injEq, true_and] at e4
  have h3 := readNum_num F b (rest := ']' :: x) (.inr (.inr ⟨_, rfl⟩))
  rw [← e4, readNum_num F d (.inr (.inr ⟨_, rfl⟩))] at h3
  obtain ⟨e5, e6⟩ := Prod.mk.inj (Option.some.inj h3)
  simp only [List.cons.injEq, true_and] at e6
  exact ⟨String.toList_inj.1 e1.symm, e3.symm, e5.symm, e6.symm⟩

/-- What a condition says of a feature, without its index -/
def triple (f : Feature) : String × Num × Num := (f.name, f.lo, f.hi)

theorem restText_inj {F : Floats} {fs gs : List Feature} (hf : ∀ f ∈ fs, ¬ mark <:+: f.name.toList) (hg : ∀ g ∈ gs, ¬ mark <:+: g.name.toList)
    (h : restText F fs = restText F gs) : fs.map triple = gs.map triple := by
  induction fs generalizing gs with
  | nil =>
    cases gs with
    | nil => rfl
    | cons g gs => cases h
  | cons f fs ih =>
    cases gs with
    | nil => cases h
    | cons g gs =>
      simp only [restText, List.cons.injEq, true_and] at h
      obtain ⟨e1, e2, e3, e4⟩ := interval_inj (hf f (by simp)) (hg g (by simp)) h
      rw [List.map_cons, List.map_cons, ih (fun f hf' => hf f (List.mem_cons_of_mem _ hf')) (fun g hg' => hg g (List.mem_cons_of_mem _ hg')) e4]
      simp [triple, e1, e2, e3]

theorem rest_text {F : Floats} {c : Cond} {pre fs : List Feature} (hlo : c.bmins = some ((pre ++ fs).map (·.lo)))
    (hhi : c.bmaxs = some ((pre ++ fs).map (·.hi))) :
    ∃ l, ((fs.map (·.name)).zipIdx pre.length).mapM (intervalAt F c) = .ok l ∧
      (l.flatMap fun t => ' ' :: 'A' :: 'N' :: 'D' :: ' ' :: t) = restText F fs := by
  induction fs generalizing pre with
  | nil => exact ⟨[], rfl, rfl⟩
  | cons f fs ih =>
    obtain ⟨l, h1, h2⟩ := ih (pre := pre ++ [f]) (by simpa using hlo) (by simpa using hhi)
    refine ⟨interval F f.name f.lo f.hi :: l, ?_, ?_⟩
    · rw [List.map_cons, List.zipIdx_cons, List.mapM_cons]
      have : intervalAt F c (f.name, pre.length) = .ok (interval F f.name f.lo f.hi) := by
        unfold intervalAt boundAt
        rw [hlo, hhi]
        simp [bind, Except.bind]
      rw [this]
      rw [List.length_append, List.length_singleton] at h1
      rw [h1]
      rfl
    · rw [List.flatMap_cons, h2]
      simp [restText]

theorem condition_text {F : Floats} {c : Cond} {f : Feature} {fs : List Feature} (h : Shows c (f :: fs)) :
    condition F c = .ok (interval F f.name f.lo f.hi ++ restText F fs) := by
  obtain ⟨h1, -, h3, h4⟩ := h
  unfold condition
  rw [h1]
  simp only [List.map_cons]
  obtain ⟨l, e1, e2⟩ := rest_text (F := F) (c := c) (pre := [f]) (fs := fs) (by simpa using h3) (by simpa using h4)
  have : intervalAt F c (f.name, 0) = .ok (interval F f.name f.lo f.hi) := by
    unfold intervalAt boundAt
    rw [h3, h4]
    simp [bind, Except.bind]
  rw [this]
  simp only [List.length_singleton] at e1
  simp only [bind, Except.bind, e1]
  rw [e2]

end PyText

end Verif
