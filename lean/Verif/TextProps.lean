import Verif.SortProps
import Verif.SaveDemo

/-!
# Properties of rulesets: the texts which Python writes

The theorems on sorting and membership suppose that the texts of lists can be told apart.  Those which Python writes can.
-/

namespace Verif.TextProps

open Verif Spec RuleSet RuleSetProps PyText

/-- The texts of names, indexes, bounds and predictions are those of Python's `str`. -/
structure WritesAsPython (printable : Char → Bool) (F : Floats) (R : RsEnv) : Prop where
  names : ∀ o, R.strNames o = String.ofList (PyText.option (PyText.text printable) o)
  indexes : ∀ o, R.strIndexes o = String.ofList (PyText.option PyText.int o)
  bounds : ∀ o, R.strBounds o = String.ofList (PyText.option (PyText.num F) o)
  none : R.strPred none = "None"
  num : ∀ x, R.strPred (some (.num x)) = String.ofList (PyText.num F x)
  text : ∀ s, R.strPred (some (.text s)) = s

theorem selfDelimiting {α : Type} {f : α → List Char} {read : List Char → Option (α × List Char)} (hf : Reads f read) :
    SelfDelimiting fun o => String.ofList (PyText.option f o) := by
  intro a b x y h
  have h := congrArg String.toList h
  simp only [String.toList_append, String.toList_ofList] at h
  have h1 := readOption_option hf a x.toList
  rw [h, readOption_option hf b y.toList] at h1
  have h1 := Option.some.inj h1
  exact ⟨(congrArg Prod.fst h1).symm, (String.toList_inj.1 (congrArg Prod.snd h1)).symm⟩

theorem num_inj {F : Floats} {x y : Num} (h : PyText.num F x = PyText.num F y) : x = y := by
  have h1 := readNum_num F x (rest := []) (Or.inl rfl)
  rw [h, readNum_num F y (Or.inl rfl)] at h1
  cases h1
  rfl

/-- The numbers of a list begin with a digit, a minus, `n` or `i`. -/
theorem num_ne_none (F : Floats) (x : Num) : PyText.num F x ≠ ['N', 'o', 'n', 'e'] := by
  cases x with
  | fin x =>
    obtain ⟨c, t, hc, h | h⟩ := F.write_head x
    · intro e
      rw [show PyText.num F (.fin x) = F.write x from rfl, h] at e
      cases e
      exact absurd hc (by decide)
    · intro e
      rw [show PyText.num F (.fin x) = F.write x from rfl, h] at e
      cases e
  | nan => exact (fun e => by cases e)
  | inf => exact (fun e => by cases e)
  | ninf => exact (fun e => by cases e)

/-- **C27, C34.**  The texts of lists of names (whatever signs, quotes, commas they contain), of indexes and of bounds which Python
writes can be told apart: what follows cannot be taken for a part of them. -/
theorem C27_texts {printable : Char → Bool} {F : Floats} {R : RsEnv} (h : WritesAsPython printable F R) : TextsTellApart R := by
  refine ⟨?_, ?_, ?_⟩
  · rw [show R.strNames = fun o => String.ofList (PyText.option (PyText.text printable) o) from funext h.names]
    exact selfDelimiting (reads_text printable)
  · rw [show R.strIndexes = fun o => String.ofList (PyText.option PyText.int o) from funext h.indexes]
    exact selfDelimiting reads_int
  · rw [show R.strBounds = fun o => String.ofList (PyText.option (PyText.num F) o) from funext h.bounds]
    exact selfDelimiting (reads_num F)

/-- The texts of Python, numbers being written as fractions -/
def writtenRs : RsEnv :=
  { someRs with
    strNames := fun o => String.ofList (PyText.option (PyText.text SaveProps.someTexts.printable) o)
    strIndexes := fun o => String.ofList (PyText.option PyText.int o)
    strBounds := fun o => String.ofList (PyText.option (PyText.num SaveProps.fractions) o)
    strPred := fun o => match o with
      | none => "None"
      | some (.num x) => String.ofList (PyText.num SaveProps.fractions x)
      | some (.text s) => s }

theorem writtenRs_writes : WritesAsPython SaveProps.someTexts.printable SaveProps.fractions writtenRs :=
  ⟨fun _ => rfl, fun _ => rfl, fun _ => rfl, rfl, fun _ => rfl, fun _ => rfl⟩

example : TextsTellApart writtenRs := C27_texts writtenRs_writes

/-- Names which contain quotes, commas and brackets -/
example : writtenRs.strNames (some ["a', 'b", "]"]) = "[\"a', 'b\", ']']" ∧
    writtenRs.strNames (some ["a", "b", "]"]) = "['a', 'b', ']']" := by decide +kernel

/-- The predictions of these rules are numbers. -/
def PredictsNumbers (R : RsEnv) (m : Member) : Prop :=
  ∀ o, m.rule.getPrediction (R.ofKind m.kind) = .ok o → o = none ∨ ∃ x, o = some (.num x)

/-- **C34.**  With the texts of Python, `rule in ruleset` is true for a rule without prediction or with a number as prediction exactly
when the ruleset has a rule with the same features (names if the ruleset has names, indexes otherwise), the same bounds and the same
prediction.
Missing: classes (`C34_prediction_false`). -/
theorem C34_numbers_partial {printable : Char → Bool} {F : Floats} {R : RsEnv} {s : RuleSet} {m : Member} {b : Bool}
    (hW : WritesAsPython printable F R) (hm : PredictsNumbers R m) (hs : ∀ m' ∈ s.rules, PredictsNumbers R m')
    (h : contains R s m = .ok b) :
    b = true ↔ ∃ m' ∈ s.rules,
      (if 0 < s.names.length then m.rule.cond.names = m'.rule.cond.names else m.rule.cond.indexes = m'.rule.cond.indexes) ∧
      m.rule.cond.bmins = m'.rule.cond.bmins ∧ m.rule.cond.bmaxs = m'.rule.cond.bmaxs ∧
      m.rule.getPrediction (R.ofKind m.kind) = m'.rule.getPrediction (R.ofKind m'.kind) := by
  rw [C34_contains_partial (C27_texts hW) h]
  have hif : ∀ m' : Member, (if decide (0 < s.names.length) = true then m.rule.cond.names = m'.rule.cond.names
      else m.rule.cond.indexes = m'.rule.cond.indexes) ↔
      (if 0 < s.names.length then m.rule.cond.names = m'.rule.cond.names else m.rule.cond.indexes = m'.rule.cond.indexes) := by
    intro m'
    by_cases hn : 0 < s.names.length <;> simp [hn]
  constructor
  · rintro ⟨m', hm', h1, h2, h3, p, q, hp, hq, e⟩
    refine ⟨m', hm', (hif m').1 h1, h2, h3, ?_⟩
    rw [hp, hq]
    rcases hm p hp with rfl | ⟨x, rfl⟩ <;> rcases hs m' hm' q hq with rfl | ⟨y, rfl⟩
    · rfl
    · rw [hW.none, hW.num] at e
      have e := congrArg String.toList e.symm
      rw [String.toList_ofList] at e
      exact absurd e (num_ne_none F y)
    · rw [hW.none, hW.num] at e
      have e := congrArg String.toList e
      rw [String.toList_ofList] at e
      exact absurd e (num_ne_none F x)
    · rw [hW.num, hW.num] at e
      have e := congrArg String.toList e
      rw [String.toList_ofList, String.toList_ofList] at e
      rw [num_inj e]
  · rintro ⟨m', hm', h1, h2, h3, h4⟩
    have : ∃ p, m.rule.getPrediction (R.ofKind m.kind) = .ok p := by
      unfold contains at h
      simp only [bind, Except.bind] at h
      split at h
      · cases h
      split at h
      · cases h
      rename_i t ht
      unfold ruleText at ht
      simp only [bind, Except.bind] at ht
      split at ht
      · cases ht
      · rename_i p hp
        exact ⟨p, hp⟩
    obtain ⟨p, hp⟩ := this
    exact ⟨m', hm', (hif m').2 h1, h2, h3, p, p, hp, h4 ▸ hp, rfl⟩

example : (∀ m' ∈ twoRules.rules, PredictsNumbers writtenRs m') ∧ PredictsNumbers writtenRs (member 1 [1, 1, 1]) ∧
    contains writtenRs twoRules (member 1 [1, 1, 1]) = .ok true ∧ contains writtenRs twoRules (member 2 [1, 1, 1]) = .ok false := by
  have hp : ∀ lo v, PredictsNumbers writtenRs (member lo v) := by
    intro lo v o h
    cases h
    exact Or.inr ⟨_, rfl⟩
  refine ⟨fun m' hm' => ?_, hp _ _, by decide +kernel, by decide +kernel⟩
  have hm' : m' ∈ [member 0 [1, 0, 0], member 1 [0, 0, 1]] := hm'
  rcases List.mem_cons.1 hm' with rfl | hm'
  · exact hp _ _
  · rw [List.mem_singleton.1 hm']
    exact hp _ _

end Verif.TextProps
