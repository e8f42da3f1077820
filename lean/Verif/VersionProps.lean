import Verif.VersionRun

/-!
# C81: the version names the source
-/

namespace Verif.VersionProps

open Verif Spec Version

/-- **C81 (checkout).** In a checkout whose closest tag is `v…`, the version is the rest of the tag if the tree is exactly the tagged one, and otherwise this with the
number of commits since, the hash and whether there are changes. The revision is the commit. -/
theorem C81_checkout {W : World} {head : Txt} {c : Checkout} (h : InCheckout W head c) :
    ∃ i, getVersions W = .ok i ∧ c.HasVersion i.version ∧ i.full = some head ∧ i.dirty = some c.dirty ∧ i.error = none := by
  obtain ⟨p, d, hp, h1, h2, h3, h4, h5, h6, -, -⟩ := gitPieces_checkout h
  obtain ⟨f, hf⟩ := Option.ne_none_iff_exists'.1 h.1.file
  refine ⟨render p, ?_, ?_, ?_, ?_, ?_⟩
  · unfold getVersions
    rw [h.1.keywords, fromKeywords_unexpanded, hf, hp]
    rfl
  · have hz : p.distance ≠ 0 ∨ p.dirty = true ↔ ¬ c.AtTag := by
      unfold Checkout.AtTag
      have hnat : p.distance = 0 ↔ c.number = ['0'] := by
        have e0 : PyText.nat 0 = ['0'] := by unfold PyText.nat; rfl
        constructor
        · intro e
          rw [← h5, e, e0]
        · intro e
          rw [← e0, ← h5] at e
          have r1 := PyText.readNat_nat p.distance (rest := []) (by simp [PyText.NotDigit])
          have r2 := PyText.readNat_nat 0 (rest := []) (by simp [PyText.NotDigit])
          rw [e] at r1
          rw [r2] at r1
          exact (Prod.mk.inj (Option.some.inj r1)).1.symm
      rw [← hnat, ← h3, not_and_or, Bool.not_eq_false]
    have hv : (render p).version = renderPep440 p := by unfold render; rw [h2]
    rw [hv]
    obtain ⟨x, t, hx⟩ := List.exists_cons_of_ne_nil h.2.1.tag.1
    unfold renderPep440
    rw [h4, hx]
    constructor
    · intro ha
      simp only
      rw [if_neg (by rw [hz]; exact not_not.2 ha), List.append_nil]
      exact hx.symm
    · intro ha
      simp only
      rw [if_pos (hz.2 ha)]
      unfold plusOrDot localPart
      rw [h5, h6, h3, ← hx]
      split <;> simp
  · unfold render
    rw [h2, h1]
  · unfold render
    rw [h2, h3]
  · unfold render
    rw [h2]

/-- A world whose git prints these texts -/
def worldOf (k : Keywords) (describe count date : Option String) : World where
  keywords := k
  file := some ["_version.py".toList, "ruleskit".toList, "ruleskit-1.9".toList, "src".toList]
  git c := (match c with
    | .gitDir => some ".git\n"
    | .describe => describe
    | .head => some "0123456789abcdef\n"
    | .branch => some "HEAD\n"
    | .contains => some "* (HEAD detached at 0123456)\n  develop\n"
    | .count => count
    | .date => date : Option String).map String.toList

/-- A checkout without keywords -/
def checkoutOf (describe : String) : World := worldOf unexpanded (some describe) (some "57\n") (some "2022-01-05 10:11:12 +0100\n")

/-- Three commits after the tag v1.2-rc1, with changes -/
def someCheckout : Checkout := ⟨"1.2-rc1".toList, ['3'], "0123456".toList, true⟩

theorem works (describe : String) : GitWorks (checkoutOf describe) "0123456789abcdef".toList where
  keywords := rfl
  file := by intro h; cases h
  dir := by intro h; cases h
  branch := by intro h; cases h
  contains := by intro h; cases h
  head_eq := rfl
  head_name := ⟨by decide, by unfold Visible; decide⟩
  date := ⟨_, rfl, '2', by decide, by unfold Visible; decide⟩

theorem name_of {t : Txt} (h1 : t ≠ []) (h2 : (t.all fun c => !isBlank c) = true) : GitName t :=
  ⟨h1, fun c hc => (isBlank_iff c).1 (by simpa using List.all_eq_true.1 h2 c hc)⟩

theorem someCheckout_in : InCheckout (checkoutOf "v1.2-rc1-3-g0123456-dirty\n") "0123456789abcdef".toList someCheckout :=
  ⟨works _, ⟨name_of (by decide) (by decide), ⟨by decide, by decide, by decide⟩, ⟨by decide, by decide⟩⟩, by decide +kernel⟩

example : (getVersions (checkoutOf "v1.2-rc1-3-g0123456-dirty\n")).toOption.map (·.version) = some "1.2-rc1+3.g0123456.dirty".toList ∧
    (getVersions (checkoutOf "v1.2-0-g0123456\n")).toOption.map (·.version) = some "1.2".toList :=
  ⟨by decide +kernel, by decide +kernel⟩

/-- **C81 (identifies).** Two checkouts with the same version have the same tag, and they are both exactly the tagged tree, or have the same number of commits since, the
same hash and both changes or both none.

Missing: tags with a `+` (`C81_plus_false`). -/
theorem C81_identifies_partial {W W' : World} {head head' : Txt} {c c' : Checkout} {i i' : Info} (h : InCheckout W head c)
    (h' : InCheckout W' head' c') (hp : '+' ∉ c.tag) (hp' : '+' ∉ c'.tag) (hi : getVersions W = .ok i) (hi' : getVersions W' = .ok i')
    (he : i.version = i'.version) :
    c.tag = c'.tag ∧ (c.AtTag ∧ c'.AtTag ∨ c.number = c'.number ∧ c.hash = c'.hash ∧ c.dirty = c'.dirty) := by
  obtain ⟨j, hj, hv, -⟩ := C81_checkout h
  obtain ⟨j', hj', hv', -⟩ := C81_checkout h'
  rw [hi] at hj
  cases hj
  rw [hi'] at hj'
  cases hj'
  by_cases ha : c.AtTag <;> by_cases ha' : c'.AtTag
  · exact ⟨by rw [← hv.clean ha, ← hv'.clean ha', he], Or.inl ⟨ha, ha'⟩⟩
  · have := hv'.later ha'
    rw [← he, hv.clean ha, if_neg hp'] at this
    exact absurd (this ▸ (by simp)) hp
  · have := hv.later ha
    rw [he, hv'.clean ha', if_neg hp] at this
    exact absurd (this ▸ (by simp)) hp'
  · have e := hv.later ha
    rw [he, hv'.later ha', if_neg hp, if_neg hp'] at e
    have plus : ∀ {x : Checkout}, x.Sound → '+' ∉ x.number ++ '.' :: 'g' :: (x.hash ++ if x.dirty then ".dirty".toList else []) := by
      intro x hx hc
      simp only [List.mem_append, List.mem_cons] at hc
      rcases hc with hc | hc | hc | hc | hc
      · exact absurd (hx.number.2.1 _ hc) (by decide)
      · exact absurd hc (by decide)
      · exact absurd hc (by decide)
      · exact absurd (hx.hash.2 _ hc) (by decide)
      · split at hc
        · exact absurd hc (by decide)
        · cases hc
    obtain ⟨e1, -, e2⟩ := (List.append_cons_inj_of_notMem hp' (plus h'.2.1)).1 e
    obtain ⟨a, b, d⟩ := local_inj h'.2.1 h.2.1 e2
    exact ⟨e1.symm, Or.inr ⟨a.symm, b.symm, d.symm⟩⟩

/-- **C81 is false for tags with a `+`:** the tag `v1.0+3.gabc` and three commits after the tag `v1.0` have the same version. -/
theorem C81_plus_false :
    InCheckout (checkoutOf "v1.0+3.gabc-0-g0123456\n") "0123456789abcdef".toList ⟨"1.0+3.gabc".toList, ['0'], "0123456".toList, false⟩ ∧
    InCheckout (checkoutOf "v1.0-3-gabc\n") "0123456789abcdef".toList ⟨"1.0".toList, ['3'], "abc".toList, false⟩ ∧
    (getVersions (checkoutOf "v1.0+3.gabc-0-g0123456\n")).toOption.map (·.version) =
      (getVersions (checkoutOf "v1.0-3-gabc\n")).toOption.map (·.version) ∧
    (getVersions (checkoutOf "v1.0-3-gabc\n")).toOption.map (·.version) = some "1.0+3.gabc".toList :=
  ⟨⟨works _, ⟨name_of (by decide) (by decide), ⟨by decide, by decide, by decide⟩, ⟨by decide, by decide⟩⟩, by decide +kernel⟩,
    ⟨works _, ⟨name_of (by decide) (by decide), ⟨by decide, by decide, by decide⟩, ⟨by decide, by decide⟩⟩, by decide +kernel⟩, by decide +kernel,
    by decide +kernel⟩

/-- The same checkout twice, with another path -/
example : InCheckout { checkoutOf "v1.2-rc1-3-g0123456-dirty\n" with file := some [] } "0123456789abcdef".toList someCheckout ∧ '+' ∉ someCheckout.tag :=
  ⟨⟨{ works "v1.2-rc1-3-g0123456-dirty\n" with file := by intro h; cases h }, someCheckout_in.2⟩, by decide⟩

/-- **C81 (date).** The date of the version is that of the commit, in the form of ISO 8601, also if lines of a signature come first. -/
theorem C81_date {W : World} {head : Txt} {c : Checkout} {q d t z : Txt} {i : Info} (h : InCheckout W head c)
    (hq : q = [] ∨ ∃ p, q = p ++ ['\n']) (hd : GitName d) (ht : GitName t) (hz : GitName z)
    (ho : W.git .date = some (q ++ (d ++ ' ' :: (t ++ ' ' :: z)) ++ ['\n'])) (hi : getVersions W = .ok i) :
    i.date = some (d ++ 'T' :: (t ++ z)) := by
  obtain ⟨p, e, hp, h1, h2, h3, h4, h5, h6, h7, h8⟩ := gitPieces_checkout h
  obtain ⟨f, hf⟩ := Option.ne_none_iff_exists'.1 h.1.file
  have hr : getVersions W = .ok (render p) := by
    unfold getVersions
    rw [h.1.keywords, fromKeywords_unexpanded, hf, hp]
    rfl
  rw [hi] at hr
  cases hr
  unfold commitDate at h8
  simp only [ho, Option.map_some, Option.elim, bind, Except.bind, dateOf_lines hq hd ht hz] at h8
  cases h8
  unfold render
  rw [h2]
  exact h7

example : (getVersions (worldOf unexpanded (some "v1.2-0-g0123456\n") none (some "gpg: good\n\n2022-01-05 10:11:12 +0100\n"))).toOption.map (·.date) =
    some (some "2022-01-05T10:11:12+0100".toList) := by decide +kernel

/-- **C81 (no tag).** Without a tag, the version says so, with the number of all commits, the first seven characters of the hash and whether there are changes. -/
theorem C81_untagged {W : World} {head hash number : Txt} {dirty : Bool} (h : GitWorks W head) (hh : HashText hash) (hn : Decimal number)
    (hd : W.git .describe = some (hash ++ ((if dirty then "-dirty".toList else []) ++ ['\n']))) (hc : W.git .count = some (number ++ ['\n'])) :
    ∃ i, getVersions W = .ok i ∧ i.full = some head ∧ i.dirty = some dirty ∧ i.error = none ∧
      i.version = "0+untagged.".toList ++ (number ++ '.' :: 'g' :: (head.take 7 ++ if dirty then ".dirty".toList else [])) := by
  obtain ⟨dir, hdir⟩ := Option.ne_none_iff_exists'.1 h.dir
  obtain ⟨b, hb⟩ := branchOf_ok (run := fun c => (W.git c).map strip) (by simpa using h.branch) (by simpa using h.contains)
  obtain ⟨date, hdate⟩ := commitDate_ok h.date
  obtain ⟨f, hf⟩ := Option.ne_none_iff_exists'.1 h.file
  obtain ⟨n, hn1, hn2⟩ := intOf_decimal hn
  have hname : GitName (hash ++ if dirty then "-dirty".toList else []) := by
    refine ⟨by simp [hh.1], ?_⟩
    intro x hx
    rcases List.mem_append.1 hx with hx | hx
    · exact visible_of (hh.2 x hx)
    · split at hx
      · exact dirty_visible x hx
      · cases hx
  have hout : (W.git .describe).map strip = some (hash ++ if dirty then "-dirty".toList else []) := by
    rw [hd, Option.map_some]
    congr 1
    have := strip_line hname
    simpa using this
  have hsplit : splitDirty (hash ++ if dirty then "-dirty".toList else []) = (dirty, hash) := by
    cases dirty with
    | true => simpa using splitDirty_dirty hash
    | false => simpa using splitDirty_hash (a := []) hh
  have hcount : countOf (fun c => (W.git c).map strip) = .ok n := by
    have : strip (number ++ ['\n']) = number := strip_line ⟨hn.1, fun x hx => visible_of (digits_hex (hn.2.1 x hx))⟩
    unfold countOf
    simp only [hc, Option.map_some, this, Option.elim, bind, Except.bind, hn1]
  have hhead : (W.git .head).map strip = some head := by rw [h.head_eq, Option.map_some, strip_line h.head_name]
  refine ⟨render { long := head, short := head.take 7, error := none, branch := b, dirty, tag := none, distance := n, date := some date }, ?_, rfl, rfl, rfl, ?_⟩
  · have hp : gitPieces ['v'] W.git =
        .ok { long := head, short := head.take 7, error := none, branch := b, dirty, tag := none, distance := n, date := some date } := by
      unfold gitPieces
      simp only [hdir, hout, hhead, Option.map_some, need, Option.elim, bind, Except.bind, hb, strip_name hname, strip_name h.head_name, hsplit, hdate,
        hcount]
      rw [if_neg (dash_digits hh.2)]
    unfold getVersions
    rw [h.keywords, fromKeywords_unexpanded, hf, hp]
    rfl
  · unfold render renderPep440 localPart
    simp [hn2]

example : (getVersions (checkoutOf "0123456-dirty\n")).toOption.map (·.version) = some "0+untagged.57.g0123456.dirty".toList ∧
    HashText "0123456".toList ∧ Decimal "57".toList :=
  ⟨by decide +kernel, ⟨by decide, by decide⟩, by decide, by decide, by decide⟩

/-- **The import may fail:** if git knows the commit but not its date, `get_versions` raises an exception. -/
theorem C81_raises_false :
    getVersions (worldOf unexpanded (some "v1.2-0-g0123456\n") (some "57\n") none) = .error (.err .attributeError) ∧
    getVersions (worldOf unexpanded (some "0123456\n") none (some "2022-01-05 10:11:12 +0100\n")) = .error (.err .typeError) :=
  ⟨by decide +kernel, by decide +kernel⟩

/-- **C81 (neither).** Without archive and git, the version is what follows `ruleskit-` in the name of the nearest of the three directories above the package with
such a name, and `0+unknown` otherwise. There is no exception. -/
theorem C81_unpacked {W : World} {path : List Txt} (h : Unpacked W path) :
    ∃ i, getVersions W = .ok i ∧ i.full = none ∧
      ((∃ k < 3, (path.drop (2 + k)).headD [] = "ruleskit-".toList ++ i.version ∧
          ∀ j < k, ∀ v, (path.drop (2 + j)).headD [] ≠ "ruleskit-".toList ++ v) ∨
        i.version = "0+unknown".toList ∧ ∀ k < 3, ∀ v, (path.drop (2 + k)).headD [] ≠ "ruleskit-".toList ++ v) := by
  have hg : gitPieces ['v'] W.git = .error .notThis := by
    unfold gitPieces
    simp only [h.dir, Option.map_none, need, Option.elim, bind, Except.bind]
  have e : ∀ k, (path.tail.tail).drop k = path.drop (2 + k) := by
    intro k
    rw [← List.drop_one, ← List.drop_one, List.drop_drop, List.drop_drop, show 1 + (1 + k) = 2 + k by omega]
  have e0 := e 0
  have e1 := e 1
  have e2 := e 2
  have d0 : ∀ {t v : Txt}, dropStart "ruleskit-".toList t = some v → t = "ruleskit-".toList ++ v := PyText.after_eq
  have dn : ∀ {t : Txt}, dropStart "ruleskit-".toList t = none → ∀ v, t ≠ "ruleskit-".toList ++ v := by
    intro t ht v hv
    rw [hv, dropStart, PyText.after_append] at ht
    cases ht
  have hv : getVersions W = orElse (fromParents "ruleskit-".toList path.tail.tail)
      (.ok ⟨"0+unknown".toList, none, none, some "unable to compute version".toList, none⟩) := by
    unfold getVersions
    rw [h.keywords, fromKeywords_unexpanded, h.file, hg]
    rfl
  rw [hv]
  rw [List.drop_zero] at e0
  rw [List.drop_one] at e1
  have e2' : path.tail.tail.tail.tail = path.drop (2 + 2) := by rw [← e2, ← List.drop_one, ← List.drop_one, List.drop_drop]
  unfold fromParents
  simp only [List.map_cons, List.map_nil, List.findSome?_cons, List.findSome?_nil]
  rw [e2', e1, e0]
  cases h0 : dropStart "ruleskit-".toList ((path.drop (2 + 0)).headD []) with
  | some v => exact ⟨⟨v, none, some false, none, none⟩, rfl, rfl, Or.inl ⟨0, by omega, d0 h0, fun j hj => absurd hj (by omega)⟩⟩
  | none =>
    cases h1 : dropStart "ruleskit-".toList ((path.drop (2 + 1)).headD []) with
    | some v =>
      refine ⟨⟨v, none, some false, none, none⟩, rfl, rfl, Or.inl ⟨1, by omega, d0 h1, fun j hj => ?_⟩⟩
      obtain rfl : j = 0 := by omega
      exact dn h0
    | none =>
      cases h2 : dropStart "ruleskit-".toList ((path.drop (2 + 2)).headD []) with
      | some v =>
        refine ⟨⟨v, none, some false, none, none⟩, rfl, rfl, Or.inl ⟨2, by omega, d0 h2, fun j hj => ?_⟩⟩
        rcases (by omega : j = 0 ∨ j = 1) with rfl | rfl
        · exact dn h0
        · exact dn h1
      | none =>
        refine ⟨⟨"0+unknown".toList, none, none, some "unable to compute version".toList, none⟩, rfl, rfl, Or.inr ⟨rfl, fun k hk => ?_⟩⟩
        rcases (by omega : k = 0 ∨ k = 1 ∨ k = 2) with rfl | rfl | rfl
        · exact dn h0
        · exact dn h1
        · exact dn h2

/-- In the second directory, and nowhere -/
example : (getVersions { checkoutOf "" with git := fun _ => none }).toOption.map (·.version) = some "1.9".toList ∧
    (getVersions { checkoutOf "" with git := fun _ => none, file := some ["_version.py".toList, "ruleskit".toList] }).toOption.map (·.version) =
      some "0+unknown".toList :=
  ⟨by decide +kernel, by decide +kernel⟩

/-- **C81 (archive).** In an archive, the version is the smallest of the version tags of the commit (in the order of texts), and `0+unknown` if there is none; the revision
is the commit. -/
theorem C81_archive {W : World} {names : List Txt} {full : Txt} (h : InArchive W names full) :
    ∃ i, getVersions W = .ok i ∧ i.full = some full ∧
      ((∃ t, Candidate names t ∧ VersionTag t i.version ∧ i.error = none ∧
          ∀ u r, Candidate names u → VersionTag u r → i.version ≤ r) ∨
        i.version = "0+unknown".toList ∧ i.error ≠ none ∧ ∀ u r, Candidate names u → ¬ VersionTag u r) := by
  have hd : ∃ d, (W.keywords.date.elim (.ok none) fun d => (dateOf d).map some : Except Fail (Option Txt)) = .ok d := by
    cases e : W.keywords.date with
    | none => exact ⟨_, rfl⟩
    | some d =>
      obtain ⟨x, hx⟩ := dateOf_ok (h.date d e)
      exact ⟨some x, by simp only [Option.elim, hx, Except.map]⟩
  obtain ⟨d, hd⟩ := hd
  have hf : (dropStart "$Format".toList (strip (refsText names))).isSome = false := by
    cases e : dropStart "$Format".toList (strip (refsText names)) with
    | none => rfl
    | some v =>
      have e' : strip (refsText names) = "$Format".toList ++ v := PyText.after_eq e
      have e'' := congrArg List.head? e'
      have hs : strip (refsText names) = '(' :: (List.intercalate [',', ' '] names ++ [')']) := by
        have := stripOf_eq (p := isBlank) (a := [' ']) (t := '(' :: (List.intercalate [',', ' '] names ++ [')'])) (b := []) (by decide) (by simp)
          (by simp) (by intro c hc; simp at hc; subst hc; decide) (by
            intro c hc
            rw [← List.cons_append, List.getLast?_append_of_ne_nil _ (by simp)] at hc
            simp at hc
            subst hc
            decide)
        simpa [strip, refsText] using this
      rw [hs] at e''
      simp at e''
  have hk : ∀ i, fromKeywords W.keywords ['v'] = .ok i → getVersions W = .ok i := by
    intro i hi
    unfold getVersions
    rw [hi]
    rfl
  have hrefs := refsOf_text h.names_ne h.sound
  have hstrip : strip full = full := strip_name h.full_name
  cases hfind : (sortTexts (tagsOf names.dedup)).findSome? (versionTag ['v']) with
  | some r =>
    refine ⟨⟨r, some full, some false, none, d⟩, hk _ ?_, rfl, Or.inl ?_⟩
    · unfold fromKeywords
      simp only [h.refnames, h.full_eq, Option.elim_some, hd, bind, Except.bind, hf, hrefs, hfind, hstrip, Bool.false_eq_true, if_false]
    · obtain ⟨t, ht, h1, h2⟩ := findSome_sorted (sorted_texts _) hfind
      have h1' := versionTag_iff.1 h1
      refine ⟨t, (mem_tags h1').1 ((List.mem_insertionSort _).1 ht), h1', rfl, ?_⟩
      intro u r' hu hv
      have := h2 u ((List.mem_insertionSort _).2 ((mem_tags hv).2 hu)) r' (versionTag_iff.2 hv)
      rw [h1'.1, hv.1] at this
      simpa [List.cons_le_cons_iff] using this
  | none =>
    refine ⟨⟨"0+unknown".toList, some full, some false, some "no suitable tags".toList, none⟩, hk _ ?_, rfl, Or.inr ⟨rfl, by simp, ?_⟩⟩
    · unfold fromKeywords
      simp only [h.refnames, h.full_eq, Option.elim_some, hd, bind, Except.bind, hf, hrefs, hfind, hstrip, Bool.false_eq_true, if_false]
    · intro u r hu hv
      have := List.findSome?_eq_none_iff.1 hfind u ((List.mem_insertionSort _).2 ((mem_tags hv).2 hu))
      rw [versionTag_iff.2 hv] at this
      cases this

/-- **C81 (order of the names).** The order and the number of times in which the names are listed do not matter. -/
theorem C81_archive_order {W W' : World} {names names' : List Txt} {full full' : Txt} {i i' : Info} (h : InArchive W names full)
    (h' : InArchive W' names' full') (hs : ∀ t, t ∈ names ↔ t ∈ names') (hi : getVersions W = .ok i) (hi' : getVersions W' = .ok i') :
    i.version = i'.version := by
  have hc : ∀ t, Candidate names t ↔ Candidate names' t := by
    intro t
    unfold Candidate
    simp only [hs]
  obtain ⟨j, hj, -, hv⟩ := C81_archive h
  obtain ⟨j', hj', -, hv'⟩ := C81_archive h'
  rw [hi] at hj
  cases hj
  rw [hi'] at hj'
  cases hj'
  rcases hv with ⟨t, h1, h2, -, h3⟩ | ⟨h1, -, h2⟩ <;> rcases hv' with ⟨t', h1', h2', -, h3'⟩ | ⟨h1', -, h2'⟩
  · exact List.le_antisymm (h3 _ _ ((hc _).2 h1') h2') (h3' _ _ ((hc _).1 h1) h2)
  · exact absurd h2 (h2' _ _ ((hc _).1 h1))
  · exact absurd h2' (h2 _ _ ((hc _).2 h1'))
  · rw [h1, h1']

/-- **C81 (release).** A tag which is another one with something appended, as `v2.0rc1` and `v2.0`, is not taken. -/
theorem C81_release {W : World} {names : List Txt} {full r s : Txt} {i : Info} (h : InArchive W names full) (hs : s ≠ [])
    (hr : Candidate names ('v' :: r)) (hv : VersionTag ('v' :: r) r) (hi : getVersions W = .ok i) : i.version ≠ r ++ s := by
  obtain ⟨j, hj, -, hv'⟩ := C81_archive h
  rw [hi] at hj
  cases hj
  rcases hv' with ⟨t, -, -, -, h3⟩ | ⟨-, -, h2⟩
  · intro e
    have h1 := h3 _ _ hr hv
    rw [e] at h1
    have := List.le_antisymm h1 List.le_append_left
    have := congrArg List.length this
    rw [List.length_append] at this
    exact hs (List.length_eq_zero_iff.1 (by omega))
  · exact absurd hv (h2 _ _ hr)

/-- **C81 (archive and checkout).** If the commit has one version tag, an archive of it has the version of a checkout of the tag without changes. -/
theorem C81_agree {W W' : World} {names : List Txt} {full head : Txt} {c : Checkout} {i i' : Info} (h : InArchive W names full)
    (h' : InCheckout W' head c) (hc : c.AtTag) (ht : Candidate names ('v' :: c.tag)) (hv : VersionTag ('v' :: c.tag) c.tag)
    (hone : ∀ u r, Candidate names u → VersionTag u r → r = c.tag) (hi : getVersions W = .ok i) (hi' : getVersions W' = .ok i') :
    i.version = i'.version := by
  obtain ⟨j, hj, -, hv1⟩ := C81_archive h
  obtain ⟨j', hj', hv2, -⟩ := C81_checkout h'
  rw [hi] at hj
  cases hj
  rw [hi'] at hj'
  cases hj'
  rw [hv2.clean hc]
  rcases hv1 with ⟨t, h1, h2, -⟩ | ⟨-, -, h2⟩
  · exact hone _ _ h1 h2
  · exact absurd hv (h2 _ _ ht)

/-- Four names -/
def someNames : List Txt := ["HEAD -> master".toList, "tag: v2.0rc1".toList, "tag: v2.0".toList, "tag: best".toList]

/-- An archive of a commit with these names -/
def archiveOf (refnames : String) : World := worldOf ⟨some refnames.toList, some "0123456789abcdef".toList, none⟩ none none none

theorem refName_of {t : Txt} (h1 : t ≠ []) (h2 : (t.all fun c => c != ',' && c != '(' && c != ')') = true)
    (h3 : (t.head?.all fun c => !isBlank c) = true) (h4 : (t.getLast?.all fun c => !isBlank c) = true) : RefName t :=
  ⟨h1, fun c hc => by simpa [and_assoc] using List.all_eq_true.1 h2 c hc, fun c hc => (isBlank_iff c).1 (by rw [hc] at h3; simpa using h3),
    fun c hc => (isBlank_iff c).1 (by rw [hc] at h4; simpa using h4)⟩

theorem someArchive : InArchive (archiveOf " (HEAD -> master, tag: v2.0rc1, tag: v2.0, tag: best)") someNames "0123456789abcdef".toList where
  refnames := by decide +kernel
  names_ne := by decide
  sound := by
    intro t ht
    simp only [someNames, List.mem_cons, List.not_mem_nil, or_false] at ht
    rcases ht with rfl | rfl | rfl | rfl <;> exact refName_of (by decide) (by decide) (by decide) (by decide)
  full_eq := rfl
  full_name := name_of (by decide) (by decide)
  date := fun d h => by cases h

/-- The release is taken. -/
example : (getVersions (archiveOf " (HEAD -> master, tag: v2.0rc1, tag: v2.0, tag: best)")).toOption.map (·.version) = some "2.0".toList ∧
    Candidate someNames "v2.0".toList ∧ VersionTag "v2.0".toList "2.0".toList :=
  ⟨by decide +kernel, Or.inl (by decide), rfl, '2', by decide, by decide⟩

/-- **Not the latest version:** of the tags `v9.0` and `v10.0` of one commit the archive takes the second one, of `v1.9` and `v1.10` too. It is the smallest
text, neither the largest nor the smallest number. -/
theorem C81_smallest_false :
    (getVersions (archiveOf " (tag: v9.0, tag: v10.0)")).toOption.map (·.version) = some "10.0".toList ∧
    (getVersions (archiveOf " (tag: v1.1, tag: v1.2)")).toOption.map (·.version) = some "1.1".toList :=
  ⟨by decide +kernel, by decide +kernel⟩

end Verif.VersionProps
