import Verif.Spec

/-!
# Facts about vectors used by the property theorems
-/

namespace Verif.Spec

theorem included_cons (x y : Bool) (v u : List Bool) :
    Included (x :: v) (y :: u) ↔ (x = true → y = true) ∧ Included v u := by
  constructor
  · intro h
    exact ⟨fun hx => by simpa [hx] using h 0, fun p hp => by simpa using h (p + 1) (by simpa using hp)⟩
  · rintro ⟨h1, h2⟩ p hp
    cases p with
    | zero => simpa using h1 (by simpa using hp)
    | succ p => simpa using h2 p (by simpa using hp)

theorem count_and : ∀ (u v : List Bool), u.length = v.length →
    (List.zipWith (fun a b => a && b) u v).count true ≤ v.count true ∧
    ((List.zipWith (fun a b => a && b) u v).count true = v.count true ↔ Included v u)
  | [], [], _ => by simp [Included]
  | y :: u, x :: v, h => by
    obtain ⟨h1, h2⟩ := count_and u v (by simpa using h)
    rw [included_cons, ← h2]
    cases x <;> cases y <;> simp <;> omega

theorem zipWith_and_comm (u v : List Bool) :
    List.zipWith (fun a b => a && b) u v = List.zipWith (fun a b => a && b) v u := by
  rw [List.zipWith_comm]
  congr 1
  funext a b
  exact Bool.and_comm b a

theorem agreements_le : ∀ (u v : List Bool), u.length = v.length → agreements u v ≤ u.length
  | [], [], _ => by simp [agreements]
  | a :: u, b :: v, h => by
    have := agreements_le u v (by simpa using h)
    cases a <;> cases b <;> simp [agreements] at this ⊢ <;> omega

theorem agreements_comm (u v : List Bool) : agreements u v = agreements v u := by
  unfold agreements
  rw [List.zipWith_comm]
  congr 2
  funext a b
  exact Bool.beq_comm

theorem agreements_eq : ∀ (u v : List Bool), u.length = v.length → (agreements u v = u.length ↔ u = v)
  | [], [], _ => by simp [agreements]
  | a :: u, b :: v, h => by
    have h' : u.length = v.length := by simpa using h
    have := agreements_eq u v h'
    have := agreements_le u v h'
    cases a <;> cases b <;> simp [agreements] at * <;> first | (rw [← this]) | omega

theorem agreements_zero : ∀ (u v : List Bool), u.length = v.length → (agreements u v = 0 ↔ v = u.map not)
  | [], [], _ => by simp [agreements]
  | a :: u, b :: v, h => by
    have h' : u.length = v.length := by simpa using h
    have := agreements_zero u v h'
    cases a <;> cases b <;> simp [agreements] at this ⊢ <;> exact this

theorem agreements_triangle : ∀ (u v w : List Bool), u.length = v.length → v.length = w.length →
    agreements u v + agreements v w ≤ u.length + agreements u w
  | [], [], [], _, _ => by simp [agreements]
  | a :: u, b :: v, c :: w, h1, h2 => by
    have := agreements_triangle u v w (by simpa using h1) (by simpa using h2)
    cases a <;> cases b <;> cases c <;> simp [agreements] at this ⊢ <;> omega

end Verif.Spec
