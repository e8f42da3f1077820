import Verif.VersionSpec
import Verif.PyTextLemmas
import Mathlib.Data.List.Induction
import Mathlib.Data.List.TakeWhile

/-!
# Lemmas for C81
-/

namespace Verif.Version

open Verif Spec

theorem isBlank_iff (c : Char) : isBlank c = false ↔ Visible c := by
  unfold isBlank Visible
  simp only [Bool.or_eq_false_iff, decide_eq_false_iff_not, List.mem_cons, List.not_mem_nil, or_false, not_or, and_assoc]

theorem isDigit_iff (c : Char) : isDigit c = true ↔ c ∈ "0123456789".toList := by
  unfold isDigit PyText.digitValue
  constructor
  · intro h
    by_contra hn
    have : ['0', '1', '2', '3', '4', '5', '6', '7', '8', '9'].idxOf c = 10 := List.idxOf_eq_length hn
    rw [this] at h
    simp at h
  · intro h
    have : ['0', '1', '2', '3', '4', '5', '6', '7', '8', '9'].idxOf c < 10 := List.idxOf_lt_length_of_mem h
    simp [this]

theorem isHex_iff (c : Char) : isHex c = true ↔ c ∈ "0123456789abcdef".toList := by
  unfold isHex PyText.hexValue
  constructor
  · intro h
    by_contra hn
    have : ['0', '1', '2', '3', '4', '5', '6', '7', '8', '9', 'a', 'b', 'c', 'd', 'e', 'f'].idxOf c = 16 := List.idxOf_eq_length hn
    rw [this] at h
    simp at h
  · intro h
    have : ['0', '1', '2', '3', '4', '5', '6', '7', '8', '9', 'a', 'b', 'c', 'd', 'e', 'f'].idxOf c < 16 := List.idxOf_lt_length_of_mem h
    simp [this]

theorem dropWhile_head {p : Char → Bool} {t : Txt} (h : ∀ c, t.head? = some c → p c = false) : t.dropWhile p = t := by
  cases t with
  | nil => rfl
  | cons c t => simp [h c rfl]

theorem stripOf_eq {p : Char → Bool} {a t b : Txt} (ha : ∀ c ∈ a, p c = true) (hb : ∀ c ∈ b, p c = true) (hne : t ≠ [])
    (h1 : ∀ c, t.head? = some c → p c = false) (h2 : ∀ c, t.getLast? = some c → p c = false) : stripOf p (a ++ t ++ b) = t := by
  unfold stripOf
  rw [List.append_assoc, List.dropWhile_append_of_pos ha]
  have e : (t ++ b).dropWhile p = t ++ b := dropWhile_head (by
    intro c hc
    rw [List.head?_append_of_ne_nil _ hne] at hc
    exact h1 c hc)
  rw [e, List.reverse_append, List.dropWhile_append_of_pos (by simpa using hb)]
  rw [dropWhile_head (by rw [List.head?_reverse]; exact h2), List.reverse_reverse]

/-- A text without white space, with an end of line -/
theorem strip_line {t : Txt} (h : GitName t) : strip (t ++ ['\n']) = t := by
  have := stripOf_eq (p := isBlank) (a := []) (t := t) (b := ['\n']) (by simp) (by decide) h.1
    (fun c hc => (isBlank_iff c).2 (h.2 c (List.mem_of_mem_head? hc))) (fun c hc => (isBlank_iff c).2 (h.2 c (List.mem_of_mem_getLast? hc)))
  simpa [strip] using this

theorem strip_name {t : Txt} (h : GitName t) : strip t = t := by
  have := stripOf_eq (p := isBlank) (a := []) (t := t) (b := []) (by simp) (by simp) h.1
    (fun c hc => (isBlank_iff c).2 (h.2 c (List.mem_of_mem_head? hc))) (fun c hc => (isBlank_iff c).2 (h.2 c (List.mem_of_mem_getLast? hc)))
  simpa [strip] using this

theorem mem_dropWhile {t : Txt} {c : Char} (hc : c ∈ t) (hv : Visible c) : c ∈ t.dropWhile isBlank := by
  have hb := (isBlank_iff c).2 hv
  rw [← List.takeWhile_append_dropWhile (p := isBlank) (l := t)] at hc
  rcases List.mem_append.1 hc with h' | h'
  · have := List.mem_takeWhile_imp h'
    rw [hb] at this
    cases this
  · exact h'

theorem mem_strip {t : Txt} {c : Char} (hc : c ∈ t) (hv : Visible c) : c ∈ strip t := by
  unfold strip stripOf
  exact List.mem_reverse.2 (mem_dropWhile (List.mem_reverse.2 (mem_dropWhile hc hv)) hv)

theorem splitLines_ne {t : Txt} (h : t ≠ []) : splitLines t ≠ [] := by
  cases t with
  | nil => exact absurd rfl h
  | cons c t =>
    unfold splitLines
    split
    · simp
    · split <;> simp

theorem lastDash_eq {a b : Txt} (hb : '-' ∉ b) : lastDash (a ++ '-' :: b) = some (a, b) := by
  unfold lastDash
  rw [if_pos (by simp)]
  have hr : ∀ c ∈ b.reverse, (decide (c ≠ '-')) = true := by
    intro c hc
    have := List.mem_reverse.1 hc
    simp only [decide_eq_true_eq]
    rintro rfl
    exact hb this
  have e : (a ++ '-' :: b).reverse = b.reverse ++ '-' :: a.reverse := by simp
  rw [e, List.dropWhile_append_of_pos hr, List.takeWhile_append_of_pos hr]
  simp

theorem decimal_digits {d : Txt} (h : Decimal d) : d.all isDigit = true := List.all_eq_true.2 fun c hc => (isDigit_iff c).2 (h.2.1 c hc)

theorem readDigits_append (acc : Nat) (a : Txt) (c : Char) {v : Nat} (ha : ∀ x ∈ a, isDigit x = true) (hc : PyText.digitValue c = some v) :
    (PyText.readDigits acc (a ++ [c])).1 = (PyText.readDigits acc a).1 * 10 + v := by
  induction a generalizing acc with
  | nil => simp [PyText.readDigits, hc]
  | cons x a ih =>
    obtain ⟨w, hw⟩ := Option.isSome_iff_exists.1 (show (PyText.digitValue x).isSome = true from ha x (by simp))
    simp only [List.cons_append, PyText.readDigits, hw]
    exact ih _ fun y hy => ha y (by simp [hy])

theorem digit_of_value {c : Char} {v : Nat} (h : PyText.digitValue c = some v) : v < 10 ∧ PyText.digit v = c := by
  have hm : c ∈ "0123456789".toList := (isDigit_iff c).1 (by unfold isDigit; rw [h]; rfl)
  have key : ∀ c ∈ "0123456789".toList, ∀ v, PyText.digitValue c = some v → v < 10 ∧ PyText.digit v = c := by
    intro c hc
    have : ∃ w, PyText.digitValue c = some w ∧ w < 10 ∧ PyText.digit w = c := by
      revert hc
      revert c
      decide
    obtain ⟨w, hw, h1, h2⟩ := this
    intro v hv
    rw [hw] at hv
    cases hv
    exact ⟨h1, h2⟩
  exact key c hm v h

/-- `int` and `%d` -/
theorem nat_readDigits {d : Txt} (h : Decimal d) : PyText.nat (PyText.readDigits 0 d).1 = d := by
  obtain ⟨hne, hd, h0⟩ := h
  induction d using List.reverseRecOn with
  | nil => exact absurd rfl hne
  | append_singleton a c ih =>
    have ha : ∀ x ∈ a, isDigit x = true := fun x hx => (isDigit_iff x).2 (hd x (by simp [hx]))
    obtain ⟨v, hv⟩ := Option.isSome_iff_exists.1 (show (PyText.digitValue c).isSome = true from (isDigit_iff c).2 (hd c (by simp)))
    obtain ⟨hv10, hvc⟩ := digit_of_value hv
    rw [readDigits_append 0 a c ha hv]
    by_cases hae : a = []
    · subst hae
      unfold PyText.nat
      simp [PyText.readDigits, hv10, hvc]
    · have hz : a.head? ≠ some '0' := by
        intro h'
        have := h0 (by rw [List.head?_append_of_ne_nil _ hae]; exact h')
        cases a with
        | nil => exact hae rfl
        | cons x a => simp at this
      have ih' := ih hae (fun x hx => hd x (by simp [hx])) (fun h' => absurd h' hz)
      have hpos : (PyText.readDigits 0 a).1 ≠ 0 := by
        intro e
        rw [e] at ih'
        have e0 : PyText.nat 0 = ['0'] := by unfold PyText.nat; rfl
        rw [e0] at ih'
        rw [← ih'] at hz
        exact hz rfl
      unfold PyText.nat
      rw [if_neg (by omega)]
      have e1 : ((PyText.readDigits 0 a).1 * 10 + v) / 10 = (PyText.readDigits 0 a).1 := by omega
      have e2 : ((PyText.readDigits 0 a).1 * 10 + v) % 10 = v := by omega
      rw [e1, e2, ih', hvc]

theorem intOf_decimal {d : Txt} (h : Decimal d) : ∃ n, intOf d = some n ∧ PyText.nat n = d := by
  refine ⟨_, ?_, nat_readDigits h⟩
  unfold intOf
  rw [if_pos ⟨h.1, decimal_digits h⟩]

theorem dash_digits {d : Txt} (h : ∀ c ∈ d, c ∈ "0123456789abcdef".toList) : '-' ∉ d := fun hc => absurd (h _ hc) (by decide)

theorem digits_hex {c : Char} (h : c ∈ "0123456789".toList) : c ∈ "0123456789abcdef".toList := by
  revert h
  revert c
  decide

theorem parse_describe {c : Checkout} (h : c.Sound) :
    ∃ n, parseDescribe ('v' :: (c.tag ++ '-' :: (c.number ++ '-' :: 'g' :: c.hash))) = some ('v' :: c.tag, n, c.hash) ∧
      PyText.nat n = c.number := by
  obtain ⟨n, hn, hn'⟩ := intOf_decimal h.number
  refine ⟨n, ?_, hn'⟩
  have hg : '-' ∉ 'g' :: c.hash := by
    intro hc
    rcases List.mem_cons.1 hc with e | hc
    · revert e; decide
    · exact dash_digits h.hash.2 hc
  have e1 := lastDash_eq (a := 'v' :: (c.tag ++ '-' :: c.number)) hg
  have e2 := lastDash_eq (a := 'v' :: c.tag) (b := c.number) (dash_digits fun x hx => digits_hex (h.number.2.1 x hx))
  simp only [List.cons_append, List.append_assoc] at e1 e2
  unfold parseDescribe
  simp only [e1, e2, hn, Option.bind_eq_bind, Option.bind_some]
  have e3 : dropStart ['g'] ('g' :: c.hash) = some c.hash := PyText.after_append ['g'] c.hash
  rw [e3]
  simp only [Option.bind_some]
  rw [if_pos]
  refine ⟨h.hash.1, List.all_eq_true.2 fun x hx => (isHex_iff x).2 (h.hash.2 x hx), by simp, ?_⟩
  intro hc
  rcases List.mem_cons.1 hc with e | hc
  · revert e; decide
  · exact absurd (h.tag.2 _ hc) (by unfold Visible; decide)

theorem splitDirty_dirty (t : Txt) : splitDirty (t ++ "-dirty".toList) = (true, t) := by
  unfold splitDirty
  rw [if_pos (List.suffix_append _ _)]
  simp

theorem splitDirty_hash {a h : Txt} (hh : HashText h) : splitDirty (a ++ h) = (false, a ++ h) := by
  unfold splitDirty
  rw [if_neg]
  rintro ⟨u, hu⟩
  have e := congrArg List.getLast? hu
  rw [List.getLast?_append_of_ne_nil _ hh.1, List.getLast?_append_of_ne_nil _ (by decide)] at e
  have hy : h.getLast? = some 'y' := by rw [← e]; decide
  exact absurd (hh.2 _ (List.mem_of_getLast? hy)) (by decide)

/-- Only the front is stripped: the text ends with `t`, apart from white space. -/
theorem strip_front {q t b : Txt} (hb : ∀ c ∈ b, isBlank c = true) (hne : t ≠ []) (h1 : ∀ c, t.head? = some c → Visible c)
    (h2 : ∀ c, t.getLast? = some c → Visible c) : strip (q ++ t ++ b) = q.dropWhile isBlank ++ t := by
  have h3 : (t ++ b).dropWhile isBlank = t ++ b := dropWhile_head (by
    intro c hc
    rw [List.head?_append_of_ne_nil _ hne] at hc
    exact (isBlank_iff c).2 (h1 c hc))
  have h4 : (q ++ t ++ b).dropWhile isBlank = q.dropWhile isBlank ++ t ++ b := by
    rw [List.append_assoc, List.dropWhile_append]
    split
    · rename_i e
      rw [List.isEmpty_iff.1 e, h3, List.nil_append]
    · rw [List.append_assoc]
  unfold strip stripOf
  rw [h4, List.reverse_append, List.dropWhile_append_of_pos (by simpa using hb)]
  rw [dropWhile_head, List.reverse_reverse]
  intro c hc
  rw [List.head?_reverse, List.getLast?_append_of_ne_nil _ hne] at hc
  exact (isBlank_iff c).2 (h2 c hc)

theorem splitLines_one {t : Txt} (h : t ≠ []) (hn : '\n' ∉ t) : splitLines t = [t] := by
  induction t with
  | nil => exact absurd rfl h
  | cons c t ih =>
    unfold splitLines
    rw [if_neg (by rintro rfl; simp at hn)]
    cases t with
    | nil => rfl
    | cons d t => rw [ih (by simp) (fun hc => hn (List.mem_cons_of_mem _ hc))]

theorem splitLines_last (q : Txt) {t : Txt} (h : t ≠ []) (hn : '\n' ∉ t) : ∃ l ls, splitLines (q ++ '\n' :: t) = l :: (ls ++ [t]) := by
  induction q with
  | nil =>
    refine ⟨[], [], ?_⟩
    rw [List.nil_append]
    conv_lhs => unfold splitLines
    rw [if_pos rfl, splitLines_one h hn]
    rfl
  | cons c q ih =>
    obtain ⟨l, ls, e⟩ := ih
    rw [List.cons_append]
    unfold splitLines
    rw [e]
    split
    · exact ⟨[], l :: ls, rfl⟩
    · exact ⟨c :: l, ls, rfl⟩

theorem replaceBlank_eq {new a b : Txt} (h : ∀ c ∈ a, c ≠ ' ') : replaceBlank new (a ++ ' ' :: b) = a ++ (new ++ b) := by
  induction a with
  | nil => simp [replaceBlank]
  | cons c a ih =>
    rw [List.cons_append]
    unfold replaceBlank
    rw [if_neg (h c (by simp)), ih fun x hx => h x (by simp [hx])]
    rfl

end Verif.Version
