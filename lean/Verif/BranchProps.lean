import Verif.VersionProps
import Mathlib.Data.List.SplitOn

/-!
# Properties of the branch found by git (C81)
-/

namespace Verif.VersionProps

open Verif Spec Version

theorem taggedPieces_branch (pre : Txt) (base : Pieces) (o t : Txt) : (taggedPieces pre base o t).branch = base.branch := by
  unfold taggedPieces
  split
  · rfl
  · split <;> rfl

theorem gitPieces_branch {pre : Txt} {out : Cmd → Option Txt} {p : Pieces} (h : gitPieces pre out = .ok p) :
    branchOf (fun c => (out c).map strip) = .ok p.branch := by
  unfold gitPieces at h
  simp only [bind, Except.bind] at h
  split at h
  · cases h
  split at h
  · cases h
  split at h
  · cases h
  split at h
  · cases h
  rename_i b hb
  rw [hb]
  split at h
  · split at h
    · cases h
      rw [taggedPieces_branch]
    · split at h
      · cases h
      · cases h
        show Except.ok b = .ok (taggedPieces _ _ _ _).branch
        rw [taggedPieces_branch]
  · split at h
    · cases h
    split at h
    · cases h
    · cases h
      rfl

/-- **C81 (branch).** On a branch, the pieces found by git name this branch. -/
theorem C81_branch {pre : Txt} {out : Cmd → Option Txt} {p : Pieces} {name : Txt} (h : gitPieces pre out = .ok p) (hn : GitName name)
    (hb : out .branch = some (name ++ ['\n'])) (hd : name ≠ "HEAD".toList) : p.branch = some name := by
  have e := gitPieces_branch h
  unfold branchOf need at e
  simp only [hb] at e
  simp only [Option.map_some, Option.elim_some, bind, Except.bind] at e
  rw [strip_line hn, strip_name hn, if_neg hd] at e
  exact (Except.ok.inj e).symm

/-- What `git branch --contains` prints without a branch: a first line with parentheses, then the branches -/
def containsText (first : Txt) (names : List Txt) : Txt :=
  List.intercalate ['\n'] (first :: names.map fun n => ' ' :: ' ' :: n) ++ ['\n']

theorem lines_last {first : Txt} {names : List Txt} (hl : ∀ c, first.getLast? = some c → Visible c) (hf : first ≠ [])
    (hg : ∀ n ∈ names, GitName n) :
    ∀ c, (List.intercalate ['\n'] (first :: names.map fun n => ' ' :: ' ' :: n)).getLast? = some c → Visible c := by
  induction names generalizing first with
  | nil =>
    intro c hc
    simp [List.intercalate] at hc
    exact hl c hc
  | cons n names ih =>
    intro c hc
    have e : List.intercalate ['\n'] (first :: (n :: names).map fun n => ' ' :: ' ' :: n) =
        first ++ '\n' :: List.intercalate ['\n'] ((' ' :: ' ' :: n) :: names.map fun n => ' ' :: ' ' :: n) := by
      simp [List.intercalate, List.intersperse]
    rw [e, List.getLast?_append_of_ne_nil _ (by simp), List.getLast?_cons_of_ne_nil (by cases names <;> simp [List.intercalate, List.intersperse])] at hc
    have hn := hg n List.mem_cons_self
    refine ih (first := ' ' :: ' ' :: n) ?_ (by simp) (fun m hm => hg m (List.mem_cons_of_mem _ hm)) c hc
    intro c hc
    rw [List.getLast?_cons_of_ne_nil (by simp), List.getLast?_cons_of_ne_nil hn.1] at hc
    exact hn.2 c (List.mem_of_getLast? hc)

/-- **C81 (detached).** Without a branch, the pieces found by git name the branch `master` if it contains the commit, otherwise the first
branch which does, otherwise none. -/
theorem C81_detached {pre : Txt} {out : Cmd → Option Txt} {p : Pieces} {first : Txt} {names : List Txt} (h : gitPieces pre out = .ok p)
    (hb : out .branch = some ("HEAD".toList ++ ['\n'])) (hg : ∀ n ∈ names, GitName n) (hp : '(' ∈ first) (hl : '\n' ∉ first)
    (h1 : ∀ c, first.head? = some c → Visible c) (h2 : ∀ c, first.getLast? = some c → Visible c)
    (hc : out .contains = some (containsText first names)) :
    ("master".toList ∈ names → p.branch = some "master".toList) ∧ ("master".toList ∉ names → p.branch = names.head?) := by
  have hf : first ≠ [] := List.ne_nil_of_mem hp
  have hH : GitName "HEAD".toList := name_of (by decide) (by decide)
  have e := gitPieces_branch h
  unfold branchOf need at e
  simp only [hb, hc] at e
  simp only [Option.map_some, Option.elim_some, bind, Except.bind] at e
  have hs : strip (containsText first names) = List.intercalate ['\n'] (first :: names.map fun n => ' ' :: ' ' :: n) := by
    have := stripOf_eq (p := isBlank) (a := []) (b := ['\n']) (by simp) (by decide)
      (t := List.intercalate ['\n'] (first :: names.map fun n => ' ' :: ' ' :: n))
      (by cases names <;> simp [List.intercalate, List.intersperse, hf])
      (fun c hc => (isBlank_iff c).2 (h1 c (by
        cases names with
        | nil => simpa [List.intercalate] using hc
        | cons n names =>
          simp only [List.intercalate, List.map_cons, List.intersperse, List.flatten_cons] at hc
          rwa [List.head?_append_of_ne_nil _ hf] at hc)))
      (fun c hc => (isBlank_iff c).2 (lines_last h2 hf hg c hc))
    simpa [strip, containsText] using this
  have hsplit : (List.intercalate ['\n'] (first :: names.map fun n => ' ' :: ' ' :: n)).splitOn '\n' =
      first :: names.map fun n => ' ' :: ' ' :: n := by
    refine List.splitOn_intercalate '\n' ?_ (by simp)
    intro l hl'
    rcases List.mem_cons.1 hl' with rfl | hl'
    · exact hl
    · obtain ⟨n, hn, rfl⟩ := List.mem_map.1 hl'
      intro hmem
      have : '\n' ∈ n := by simpa using hmem
      exact (hg n hn).2 _ this (by decide)
  rw [strip_line hH, strip_name hH, if_pos rfl, hs, hsplit] at e
  simp only [List.headD_cons, hp, if_true, List.tail_cons, List.map_map] at e
  have hdrop : names.map ((fun x : Txt => x.drop 2) ∘ fun n => ' ' :: ' ' :: n) = names := by
    conv_rhs => rw [← List.map_id names]
    exact List.map_congr_left fun n _ => rfl
  rw [hdrop] at e
  constructor
  · intro hm
    rw [if_pos hm] at e
    exact (Except.ok.inj e).symm
  · intro hm
    rw [if_neg hm] at e
    exact (Except.ok.inj e).symm

/-- A commit which is on the branches `develop` and `master`, and is no branch itself -/
def detachedOut : Cmd → Option Txt := fun c => (match c with
  | .gitDir => some ".git\n"
  | .describe => some "v1.2-3-g0123456\n"
  | .head => some "0123456789abcdef\n"
  | .branch => some "HEAD\n"
  | .contains => some "* (HEAD detached at 0123456)\n  develop\n  master\n"
  | .count => some "57\n"
  | .date => some "2022-01-05 10:11:12 +0100\n" : Option String).map String.toList

example : (∃ p, gitPieces ['v'] detachedOut = .ok p ∧ p.branch = some "master".toList) ∧
    detachedOut .contains = some (containsText "* (HEAD detached at 0123456)".toList ["develop".toList, "master".toList]) := by
  refine ⟨?_, by decide +kernel⟩
  have h : (gitPieces ['v'] detachedOut).toOption.map (·.branch) = some (some "master".toList) := by decide +kernel
  cases hp : gitPieces ['v'] detachedOut with
  | error e => rw [hp] at h; cases h
  | ok p => exact ⟨p, rfl, by rw [hp] at h; simpa [Except.toOption] using h⟩

end Verif.VersionProps
