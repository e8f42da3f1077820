import Verif.VersionLemmas
import Mathlib.Data.List.Lex

/-!
# Lemmas for C81: what the methods return
-/

namespace Verif.VersionProps

open Verif Spec Version

theorem visible_of {c : Char} (h : c ∈ "0123456789abcdef".toList) : Visible c := by
  revert h
  revert c
  unfold Visible
  decide

theorem fromKeywords_unexpanded (pre : Txt) : fromKeywords unexpanded pre = .error .notThis := by
  have e1 : dateOf "$Format:%ci$".toList = .ok "$Format:%ci$".toList := by decide +kernel
  have e2 : (dropStart "$Format".toList (strip "$Format:%d$".toList)).isSome = true := by decide +kernel
  unfold fromKeywords unexpanded
  simp only [Option.elim, e1, e2, bind, Except.bind, Except.map, if_true]

theorem branchOf_ok {run : Cmd → Option Txt} (h1 : run .branch ≠ none) (h2 : run .contains ≠ none) : ∃ b, branchOf run = .ok b := by
  obtain ⟨a, ha⟩ := Option.ne_none_iff_exists'.1 h1
  obtain ⟨b, hb⟩ := Option.ne_none_iff_exists'.1 h2
  unfold branchOf
  simp only [ha, hb, need, Option.elim, bind, Except.bind]
  split
  · exact ⟨_, rfl⟩
  · exact ⟨_, rfl⟩

theorem dateOf_ok {t : Txt} (h : t ≠ []) : ∃ d, dateOf t = .ok d := by
  unfold dateOf
  cases e : (splitLines t).getLast? with
  | none => exact absurd (List.getLast?_eq_none_iff.1 e) (splitLines_ne h)
  | some l => exact ⟨_, rfl⟩

theorem commitDate_ok {out : Cmd → Option Txt} (h : ∃ d, out .date = some d ∧ ∃ c ∈ d, Visible c) :
    ∃ d, commitDate (fun c => (out c).map strip) = .ok d := by
  obtain ⟨d, hd, c, hc, hv⟩ := h
  obtain ⟨e, he⟩ := dateOf_ok (List.ne_nil_of_mem (mem_strip (mem_strip hc hv) hv))
  refine ⟨e, ?_⟩
  unfold commitDate
  simp only [hd, Option.map_some, Option.elim, bind, Except.bind]
  exact he

theorem dirty_visible : ∀ x ∈ "-dirty".toList, Visible x := by
  unfold Visible
  decide

theorem describe_name {c : Checkout} (h : c.Sound) :
    GitName ('v' :: (c.tag ++ '-' :: (c.number ++ '-' :: 'g' :: (c.hash ++ (if c.dirty then "-dirty".toList else []))))) := by
  refine ⟨by simp, ?_⟩
  intro x hx
  simp only [List.mem_cons, List.mem_append] at hx
  rcases hx with rfl | hx | rfl | hx | rfl | rfl | hx | hx
  · unfold Visible; decide
  · exact h.tag.2 x hx
  · unfold Visible; decide
  · exact visible_of (digits_hex (h.number.2.1 x hx))
  · unfold Visible; decide
  · unfold Visible; decide
  · exact visible_of (h.hash.2 x hx)
  · split at hx
    · exact dirty_visible x hx
    · cases hx

/-- The pieces of a checkout -/
theorem gitPieces_checkout {W : World} {head : Txt} {c : Checkout} (h : InCheckout W head c) :
    ∃ p d, gitPieces ['v'] W.git = .ok p ∧ p.long = head ∧ p.error = none ∧ p.dirty = c.dirty ∧ p.tag = some c.tag ∧
      PyText.nat p.distance = c.number ∧ p.short = c.hash ∧ p.date = some d ∧ commitDate (fun c => (W.git c).map strip) = .ok d := by
  obtain ⟨hw, hs, hd⟩ := h
  obtain ⟨dir, hdir⟩ := Option.ne_none_iff_exists'.1 hw.dir
  obtain ⟨b, hb⟩ := branchOf_ok (run := fun c => (W.git c).map strip) (by simpa using hw.branch) (by simpa using hw.contains)
  obtain ⟨date, hdate⟩ := commitDate_ok hw.date
  have hname := describe_name hs
  obtain ⟨n, hn, hn'⟩ := parse_describe hs
  have hout : (W.git .describe).map strip = some ('v' :: (c.tag ++ '-' :: (c.number ++ '-' :: 'g' :: (c.hash ++
      (if c.dirty then "-dirty".toList else []))))) := by
    rw [hd, Option.map_some]
    congr 1
    have := strip_line hname
    simpa [Checkout.describe] using this
  have hsplit : splitDirty ('v' :: (c.tag ++ '-' :: (c.number ++ '-' :: 'g' :: (c.hash ++ (if c.dirty then "-dirty".toList else []))))) =
      (c.dirty, 'v' :: (c.tag ++ '-' :: (c.number ++ '-' :: 'g' :: c.hash))) := by
    cases hcd : c.dirty with
    | true =>
      have := splitDirty_dirty ('v' :: (c.tag ++ '-' :: (c.number ++ '-' :: 'g' :: c.hash)))
      simpa using this
    | false =>
      have := splitDirty_hash (a := 'v' :: (c.tag ++ '-' :: (c.number ++ '-' :: ['g']))) hs.hash
      simpa using this
  have hpre : dropStart ['v'] ('v' :: c.tag) = some c.tag := PyText.after_append ['v'] c.tag
  have hhead : (W.git .head).map strip = some head := by rw [hw.head_eq, Option.map_some, strip_line hw.head_name]
  refine ⟨{ long := head, short := c.hash, error := none, branch := b, dirty := c.dirty, tag := some c.tag, distance := n, date := some date }, date, ?_, rfl,
    rfl, rfl, rfl, hn', rfl, rfl, hdate⟩
  unfold gitPieces
  simp only [hdir, hout, hhead, Option.map_some, need, Option.elim, bind, Except.bind, hb, strip_name hname, strip_name hw.head_name, hsplit, hdate]
  unfold taggedPieces
  simp only [hn, hpre]
  simp

theorem local_inj {c c' : Checkout} (h : c.Sound) (h' : c'.Sound)
    (e : c.number ++ '.' :: 'g' :: (c.hash ++ (if c.dirty then ".dirty".toList else [])) =
      c'.number ++ '.' :: 'g' :: (c'.hash ++ if c'.dirty then ".dirty".toList else [])) :
    c.number = c'.number ∧ c.hash = c'.hash ∧ c.dirty = c'.dirty := by
  have dot : ∀ {t : Txt}, (∀ x ∈ t, x ∈ "0123456789abcdef".toList) → '.' ∉ t := fun ht hc => absurd (ht _ hc) (by decide)
  have first : ∀ {a b a' b' : Txt}, '.' ∉ a → '.' ∉ a' → a ++ '.' :: b = a' ++ '.' :: b' → a = a' ∧ b = b' := by
    intro a b a' b' ha ha' e
    have e1 := congrArg (List.takeWhile (· ≠ '.')) e
    have e2 := congrArg (List.dropWhile (· ≠ '.')) e
    have p1 : ∀ x ∈ a, (decide (x ≠ '.')) = true := fun x hx => by
      simp only [decide_eq_true_eq]
      rintro rfl
      exact ha hx
    have p2 : ∀ x ∈ a', (decide (x ≠ '.')) = true := fun x hx => by
      simp only [decide_eq_true_eq]
      rintro rfl
      exact ha' hx
    rw [List.takeWhile_append_of_pos p1, List.takeWhile_append_of_pos p2] at e1
    rw [List.dropWhile_append_of_pos p1, List.dropWhile_append_of_pos p2] at e2
    simp at e1 e2
    exact ⟨e1, e2⟩
  obtain ⟨e1, e2⟩ := first (dot fun x hx => digits_hex (h.number.2.1 x hx)) (dot fun x hx => digits_hex (h'.number.2.1 x hx)) e
  refine ⟨e1, ?_⟩
  have e3 := (List.cons.inj e2).2
  have k : ∀ (t : Txt) (b : Bool), (t ++ if b then ".dirty".toList else []) = if b then t ++ '.' :: "dirty".toList else t := by
    intro t b
    cases b <;> simp
  rw [k, k] at e3
  cases hb : c.dirty <;> cases hb' : c'.dirty <;> rw [hb, hb'] at e3 <;> simp only [if_true, Bool.false_eq_true, if_false] at e3
  · exact ⟨e3, rfl⟩
  · exact absurd (e3 ▸ (by simp : '.' ∈ c'.hash ++ '.' :: "dirty".toList)) (dot h.hash.2)
  · exact absurd (e3 ▸ (by simp : '.' ∈ c.hash ++ '.' :: "dirty".toList)) (dot h'.hash.2)
  · exact ⟨(first (dot h.hash.2) (dot h'.hash.2) e3).1, rfl⟩

theorem dateOf_lines {q d t z : Txt} (hq : q = [] ∨ ∃ p, q = p ++ ['\n']) (hd : GitName d) (ht : GitName t) (hz : GitName z) :
    dateOf (strip (strip (q ++ (d ++ ' ' :: (t ++ ' ' :: z)) ++ ['\n']))) = .ok (d ++ 'T' :: (t ++ z)) := by
  have hne : d ++ ' ' :: (t ++ ' ' :: z) ≠ [] := by simp
  have h1 : ∀ c, (d ++ ' ' :: (t ++ ' ' :: z)).head? = some c → Visible c := by
    intro c hc
    rw [List.head?_append_of_ne_nil _ hd.1] at hc
    exact hd.2 c (List.mem_of_mem_head? hc)
  have h2 : ∀ c, (d ++ ' ' :: (t ++ ' ' :: z)).getLast? = some c → Visible c := by
    intro c hc
    have e : d ++ ' ' :: (t ++ ' ' :: z) = (d ++ ' ' :: (t ++ [' '])) ++ z := by simp
    rw [e, List.getLast?_append_of_ne_nil _ hz.1] at hc
    exact hz.2 c (List.mem_of_getLast? hc)
  have blank : ∀ {x : Txt}, GitName x → ∀ c ∈ x, c ≠ ' ' := by
    rintro x hx c hc rfl
    exact absurd (hx.2 _ hc) (by unfold Visible; decide)
  have line : ∀ {x : Txt}, GitName x → '\n' ∉ x := fun hx hc => absurd (hx.2 _ hc) (by unfold Visible; decide)
  have hn : '\n' ∉ d ++ ' ' :: (t ++ ' ' :: z) := by
    intro hc
    simp only [List.mem_append, List.mem_cons] at hc
    rcases hc with hc | hc | hc | hc | hc
    · exact line hd hc
    · revert hc; decide
    · exact line ht hc
    · revert hc; decide
    · exact line hz hc
  have e1 := strip_front (q := q) (b := ['\n']) (by decide) hne h1 h2
  have e2 := strip_front (q := q.dropWhile isBlank) (b := []) (by simp) hne h1 h2
  rw [List.append_nil] at e2
  have e3 := strip_front (q := []) (b := []) (by simp) hne h1 h2
  rw [List.append_nil, List.nil_append, List.dropWhile_nil, List.nil_append] at e3
  rw [e1, e2]
  generalize hq' : (q.dropWhile isBlank).dropWhile isBlank = q'
  have hend : q' = [] ∨ ∃ p, q' = p ++ ['\n'] := by
    have suf : q' <:+ q := hq' ▸ (List.dropWhile_suffix _).trans (List.dropWhile_suffix _)
    rcases hq with rfl | ⟨p, rfl⟩
    · exact Or.inl (List.suffix_nil.1 suf)
    · by_cases e : q' = []
      · exact Or.inl e
      · obtain ⟨u, hu⟩ := suf
        have := congrArg List.getLast? hu
        rw [List.getLast?_append_of_ne_nil _ e, List.getLast?_append_of_ne_nil _ (by simp)] at this
        refine Or.inr ⟨q'.dropLast, ?_⟩
        have hl := List.dropLast_append_getLast? '\n' this
        exact hl.symm
  have hlast : (splitLines (q' ++ (d ++ ' ' :: (t ++ ' ' :: z)))).getLast? = some (d ++ ' ' :: (t ++ ' ' :: z)) := by
    rcases hend with rfl | ⟨p, rfl⟩
    · rw [List.nil_append, splitLines_one hne hn]
      rfl
    · rw [List.append_assoc, List.singleton_append]
      obtain ⟨l, ls, e⟩ := splitLines_last p hne hn
      rw [e, ← List.cons_append, List.getLast?_append_of_ne_nil _ (by simp)]
      rfl
  unfold dateOf
  rw [hlast]
  simp only [e3]
  rw [replaceBlank_eq (blank hd)]
  have e5 : d ++ (['T'] ++ (t ++ ' ' :: z)) = (d ++ 'T' :: t) ++ ' ' :: z := by simp
  rw [e5, replaceBlank_eq]
  · simp
  · intro c hc
    simp only [List.mem_append, List.mem_cons] at hc
    rcases hc with hc | rfl | hc
    · exact blank hd c hc
    · decide
    · exact blank ht c hc

theorem intercalate_spaces (n : Txt) (l : List Txt) :
    List.intercalate [',', ' '] (n :: l) = List.intercalate [','] (n :: l.map (' ' :: ·)) := by
  induction l generalizing n with
  | nil => simp
  | cons m l ih =>
    rw [List.intercalate_cons_cons, ih, List.map_cons, List.intercalate_cons_cons]
    cases l with
    | nil => simp
    | cons k l => simp [List.intercalate_cons_cons]

theorem intercalate_head {n : Txt} {l : List Txt} (hn : n ≠ []) : (List.intercalate [',', ' '] (n :: l)).head? = n.head? := by
  cases l with
  | nil => simp
  | cons m l => rw [List.intercalate_cons_cons, List.append_assoc, List.head?_append_of_ne_nil _ hn]

theorem intercalate_last {n : Txt} {l : List Txt} (h : ∀ t ∈ n :: l, t ≠ []) :
    ∃ t ∈ n :: l, (List.intercalate [',', ' '] (n :: l)).getLast? = t.getLast? := by
  induction l generalizing n with
  | nil => exact ⟨n, by simp, by simp⟩
  | cons m l ih =>
    obtain ⟨t, ht, e⟩ := ih (n := m) fun t ht => h t (List.mem_cons_of_mem _ ht)
    refine ⟨t, List.mem_cons_of_mem _ ht, ?_⟩
    have hne : List.intercalate [',', ' '] (m :: l) ≠ [] := by
      intro e'
      have := intercalate_head (n := m) (l := l) (h m (by simp))
      rw [e'] at this
      exact h m (by simp) (List.head?_eq_none_iff.1 this.symm)
    rw [List.intercalate_cons_cons, List.getLast?_append_of_ne_nil _ hne, e]

theorem strip_ref {t : Txt} (h : RefName t) (a : Txt) (ha : ∀ c ∈ a, isBlank c = true) : strip (a ++ t) = t := by
  have := stripOf_eq (p := isBlank) (a := a) (t := t) (b := []) ha (by simp) h.nonempty
    (fun c hc => (isBlank_iff c).2 (h.first c hc)) (fun c hc => (isBlank_iff c).2 (h.last c hc))
  simpa [strip] using this

/-- The names come back. -/
theorem refsOf_text {names : List Txt} (hne : names ≠ []) (h : ∀ t ∈ names, RefName t) : refsOf (strip (refsText names)) = names.dedup := by
  obtain ⟨n, l, rfl⟩ := List.exists_cons_of_ne_nil hne
  have hnn : ∀ t ∈ n :: l, t ≠ [] := fun t ht => (h t ht).nonempty
  have e1 : strip (refsText (n :: l)) = '(' :: (List.intercalate [',', ' '] (n :: l) ++ [')']) := by
    have := stripOf_eq (p := isBlank) (a := [' ']) (t := '(' :: (List.intercalate [',', ' '] (n :: l) ++ [')'])) (b := []) (by decide) (by simp)
      (by simp) (by intro c hc; simp at hc; subst hc; decide) (by
        intro c hc
        rw [← List.cons_append, List.getLast?_append_of_ne_nil _ (by simp)] at hc
        simp at hc
        subst hc
        decide)
    simpa [strip, refsText] using this
  have hx : List.intercalate [',', ' '] (n :: l) ≠ [] := by
    intro e'
    have := intercalate_head (n := n) (l := l) (hnn n (by simp))
    rw [e'] at this
    exact hnn n (by simp) (List.head?_eq_none_iff.1 this.symm)
  have e2 : stripOf (fun c => c = '(' || c = ')') ('(' :: (List.intercalate [',', ' '] (n :: l) ++ [')'])) = List.intercalate [',', ' '] (n :: l) := by
    have := stripOf_eq (p := fun c => c = '(' || c = ')') (a := ['(']) (t := List.intercalate [',', ' '] (n :: l)) (b := [')']) (by decide) (by decide) hx
      (by
        intro c hc
        rw [intercalate_head (hnn n (by simp))] at hc
        have := (h n (by simp)).comma c (List.mem_of_mem_head? hc)
        simp [this.2.1, this.2.2])
      (by
        intro c hc
        obtain ⟨t, ht, e⟩ := intercalate_last hnn
        rw [e] at hc
        have := (h t ht).comma c (List.mem_of_getLast? hc)
        simp [this.2.1, this.2.2])
    simpa using this
  unfold refsOf
  rw [e1, e2, intercalate_spaces, List.splitOn_intercalate]
  · congr 1
    rw [List.map_cons, List.map_map]
    congr 1
    · simpa using strip_ref (h n (by simp)) [] (by simp)
    · conv_rhs => rw [← List.map_id l]
      apply List.map_congr_left
      intro t ht
      exact strip_ref (h t (by simp [ht])) [' '] (by decide)
  · intro t ht hc
    rcases List.mem_cons.1 ht with rfl | ht
    · exact ((h t (by simp)).comma _ hc).1 rfl
    · obtain ⟨u, hu, rfl⟩ := List.mem_map.1 ht
      rcases List.mem_cons.1 hc with e | hc
      · revert e; decide
      · exact ((h u (by simp [hu])).comma _ hc).1 rfl
  · simp

theorem versionTag_iff {t r : Txt} : versionTag ['v'] t = some r ↔ VersionTag t r := by
  unfold versionTag VersionTag
  constructor
  · intro h
    split at h
    · cases h
    · rename_i r' hr
      split at h
      · rename_i hd
        cases h
        refine ⟨PyText.after_eq hr, ?_⟩
        cases r with
        | nil => simp at hd
        | cons c r => exact ⟨c, rfl, (isDigit_iff c).1 (by simpa using hd)⟩
      · cases h
  · rintro ⟨rfl, c, hc, hd⟩
    have : dropStart ['v'] ('v' :: r) = some r := PyText.after_append ['v'] r
    rw [this]
    simp only
    rw [Option.mem_def.1 hc]
    simp [(isDigit_iff c).2 hd]

theorem mem_tags {names : List Txt} {t r : Txt} (h : VersionTag t r) : t ∈ tagsOf names.dedup ↔ Candidate names t := by
  have key : ∀ u, u ∈ (names.dedup.filterMap (dropStart "tag: ".toList)).dedup ↔ tagText u ∈ names := by
    intro u
    rw [List.mem_dedup, List.mem_filterMap]
    constructor
    · rintro ⟨a, ha, e⟩
      have : a = "tag: ".toList ++ u := PyText.after_eq e
      rw [List.mem_dedup, this] at ha
      exact ha
    · intro hu
      exact ⟨_, List.mem_dedup.2 hu, PyText.after_append _ _⟩
  unfold tagsOf Candidate
  simp only
  split
  · rename_i he
    have hno : ∀ u, tagText u ∉ names := fun u hu => by
      have := (key u).2 hu
      rw [he] at this
      cases this
    rw [List.mem_filter, List.mem_dedup]
    constructor
    · rintro ⟨ht, -⟩
      exact Or.inr ⟨hno, ht⟩
    · rintro (hu | ⟨-, ht⟩)
      · exact absurd hu (hno t)
      · refine ⟨ht, ?_⟩
        obtain ⟨rfl, c, hc, hd⟩ := h
        exact List.any_eq_true.2 ⟨c, List.mem_cons_of_mem _ (List.mem_of_mem_head? hc), (isDigit_iff c).2 hd⟩
  · rename_i he
    rw [key]
    constructor
    · exact Or.inl
    · rintro (hu | ⟨hno, -⟩)
      · exact hu
      · obtain ⟨u, hu⟩ := List.exists_mem_of_ne_nil _ he
        exact absurd ((key u).1 hu) (hno u)

theorem sorted_texts (l : List Txt) : (sortTexts l).Pairwise (· ≤ ·) := by
  haveI : Std.Total (· ≤ · : Txt → Txt → Prop) := ⟨List.le_total⟩
  haveI : IsTrans Txt (· ≤ ·) := ⟨fun _ _ _ => List.le_trans⟩
  exact List.pairwise_insertionSort _ l

theorem findSome_sorted {f : Txt → Option Txt} {l : List Txt} (h : l.Pairwise (· ≤ ·)) {r : Txt} (hr : l.findSome? f = some r) :
    ∃ t ∈ l, f t = some r ∧ ∀ u ∈ l, ∀ v, f u = some v → t ≤ u := by
  induction l with
  | nil => cases hr
  | cons a l ih =>
    rw [List.findSome?_cons] at hr
    cases e : f a with
    | some v =>
      rw [e] at hr
      cases hr
      refine ⟨a, by simp, e, ?_⟩
      intro u hu v _
      rcases List.mem_cons.1 hu with rfl | hu
      · exact List.le_refl _
      · exact (List.pairwise_cons.1 h).1 u hu
    | none =>
      rw [e] at hr
      obtain ⟨t, ht, h1, h2⟩ := ih (List.pairwise_cons.1 h).2 hr
      refine ⟨t, List.mem_cons_of_mem _ ht, h1, ?_⟩
      intro u hu v hv
      rcases List.mem_cons.1 hu with rfl | hu
      · rw [e] at hv
        cases hv
      · exact h2 u hu v hv

end Verif.VersionProps
