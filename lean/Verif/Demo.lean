import Verif.HistoryLemmas

/-!
# Concrete reachable states

Used by the examples beside the theorems and as witnesses of violations.
-/

namespace Verif.ActivationProps

open Verif Verif.Spec Verif.Codec Verif.Activation

/-! ## Concrete histories, used in the examples -/

/-- No files at the start; file numbers 0, 1, 2, ...; object sizes as given. -/
def world (d : DType) (willCompare : Bool) (sizes : Nat → Bool) : World :=
  { dtype := d, willCompare := willCompare, storeRaw := false, files := fun _ => none
    sizes := sizes, nSizes := 0, rands := fun n => n, nRands := 0 }

/-- Create an activation from a raw vector. -/
def mk (u : List Bool) (toFile : Bool) : Op := .new u (.arr (arr u)) true none toFile

/-- Run a list of operations. -/
def runs : List Op → Heap → Heap
  | [], h => h
  | op :: ops, h => runs ops (step op h).2

/-- The vectors after a list of operations. -/
def values : List Op → Heap → Values → Values
  | [], _, us => us
  | op :: ops, h, us => values ops (step op h).2 (after us op (step op h).1 (step op h).2.objs.length)

/-- Creations are legal. -/
def IsMk : Op → Prop
  | .new u (.arr v) _ _ _ => v = arr u ∧ 2 ≤ u.length
  | _ => False

theorem runs_reach {w₀ : World} (ops : List Op) : ∀ {h : Heap} {us : Values}, Reach w₀ h us →
    (∀ op ∈ ops, IsMk op) → Reach w₀ (runs ops h) (values ops h us) := by
  induction ops with
  | nil => intro h us hr _; exact hr
  | cons op ops ih =>
    intro h us hr ho
    refine ih (hr.step op ?_) (fun o h => ho o (by simp [h]))
    have := ho op (by simp)
    match op, this with
    | .new u (.arr v) _ _ _, ⟨h1, h2⟩ =>
      exact ⟨Or.inl h1, by intro hc; simp [hc] at h2, Or.inr h2⟩

def demoWorld : World := world .str false (fun n => n % 2 == 0)
def demoOps : List Op :=
  [mk [true, false, true] false, mk [true, true, false] true, mk [true, false, false] false, mk [true, true, true] true]
/-- Four activations: bits, file, compressed text, file. -/
def demo : Heap := runs demoOps ⟨[], demoWorld⟩
def demoValues : Values :=
  [some [true, false, true], some [true, true, false], some [true, false, false], some [true, true, true]]

theorem demo_formats : demo.objs.map (·.data) =
    [.bits [true, false, true], .file (.vec 0), .text "1,1,3".toList, .file (.vec 1)] := by decide +kernel

theorem demo_reach : Reach demoWorld demo demoValues := by
  have : values demoOps ⟨[], demoWorld⟩ [] = demoValues := by decide +kernel
  rw [← this]
  exact runs_reach demoOps .start (by simp [demoOps, mk, IsMk])

def intsWorld : World := world .ndarray true (fun _ => true)
/-- Two activations stored as integers. -/
def ints : Heap := runs [mk [true, false, true] false, mk [true, true, false] false] ⟨[], intsWorld⟩

theorem ints_reach : Reach intsWorld ints [some [true, false, true], some [true, true, false]] := by
  have : values [mk [true, false, true] false, mk [true, true, false] false] ⟨[], intsWorld⟩ [] =
    [some [true, false, true], some [true, true, false]] := by decide +kernel
  rw [← this]
  exact runs_reach _ .start (by simp [mk, IsMk])

end Verif.ActivationProps
