import Verif.Codec
import Verif.Spec

/-!
Helper lemmas about the encodings of `Verif.Codec`.
-/

namespace Verif.Codec

open Verif Verif.Spec

@[simp] theorem arr_length (u : List Bool) : (arr u).length = u.length := by simp [arr]
@[simp] theorem arr_nil : arr [] = [] := rfl
@[simp] theorem arr_cons (x : Bool) (t : List Bool) : arr (x :: t) = x.toNat :: arr t := rfl
@[simp] theorem arr_append (u v : List Bool) : arr (u ++ v) = arr u ++ arr v := by simp [arr]

theorem arr_injective {u v : List Bool} (h : arr u = arr v) : u = v := by
  induction u generalizing v with
  | nil => cases v <;> simp_all
  | cons x t ih =>
    cases v with
    | nil => simp at h
    | cons y s =>
      simp only [arr_cons, List.cons.injEq] at h
      obtain ⟨h1, h2⟩ := h
      have : x = y := by cases x <;> cases y <;> simp_all
      rw [this, ih h2]

theorem arr_le_one (u : List Bool) : ∀ x ∈ arr u, x ≤ 1 := by
  intro x hx
  simp only [arr, List.mem_map] at hx
  obtain ⟨b, _, rfl⟩ := hx
  cases b <;> simp

theorem arr_getLast? (u : List Bool) (h : u ≠ []) :
    (arr u).getLast? = some 0 ∨ (arr u).getLast? = some 1 := by
  have h' : arr u ≠ [] := by simpa [arr] using h
  rw [List.getLast?_eq_some_getLast h']
  have := arr_le_one u _ (List.getLast_mem h')
  simp only [Option.some.injEq]
  omega

/-- Change positions of the suffix `x :: t` of a vector, `x` being at position `k`. -/
def chg : Nat → Bool → List Bool → List Nat
  | _, _, [] => []
  | k, x, y :: t => if x = y then chg (k + 1) y t else (k + 1) :: chg (k + 1) y t

theorem whereOne_absDiff (k : Nat) (x : Bool) (t : List Bool) :
    (whereOne k (absDiff (arr (x :: t)))).map (· + 1) = chg k x t := by
  induction t generalizing k x with
  | nil => simp [absDiff, whereOne, chg]
  | cons y t ih =>
    have := ih (k + 1) y
    cases x <;> cases y <;> simp_all [absDiff, whereOne, chg]

theorem compressList_eq (x : Bool) (t : List Bool) :
    compressList x.toNat (arr t) = x.toNat :: (chg 0 x t ++ [t.length + 1]) := by
  have := whereOne_absDiff 0 x t
  simp only [arr_cons] at this
  simp [compressList, this]

theorem chg_gt (k : Nat) (x : Bool) (t : List Bool) : ∀ i ∈ chg k x t, k < i ∧ i ≤ k + t.length := by
  induction t generalizing k x with
  | nil => simp [chg]
  | cons y t ih =>
    intro i hi
    have := ih (k + 1) y
    simp only [chg] at hi
    split at hi
    · have := this i hi; simp only [List.length_cons]; omega
    · rcases List.mem_cons.1 hi with rfl | hi
      · simp
      · have := this i hi; simp only [List.length_cons]; omega

theorem fillOnes_eq (P : Arr) (c m j : Nat) (hj : P.length < j) (hjn : j ≤ P.length + 1 + m) :
    fillOnes (P ++ c :: List.replicate m 0) P.length j =
      .ok (P ++ List.replicate (j - P.length) 1 ++ List.replicate (P.length + 1 + m - j) 0) := by
  have h1 : ¬ j < P.length := by omega
  have hlen : (P ++ c :: List.replicate m 0).length = P.length + 1 + m := by simp; omega
  have hd : List.drop j (P ++ c :: List.replicate m 0) = List.replicate (P.length + 1 + m - j) 0 := by
    rw [List.drop_append, List.drop_eq_nil_of_le (by omega), List.nil_append]
    obtain ⟨d, hd⟩ : ∃ d, j - P.length = d + 1 := ⟨j - P.length - 1, by omega⟩
    rw [hd, List.drop_succ_cons, List.drop_replicate]
    congr 1; omega
  simp only [fillOnes, h1, if_false, hlen]
  rw [Nat.min_eq_left hjn, Nat.min_eq_left (show P.length ≤ P.length + 1 + m by omega)]
  simp only [true_or, if_true, hd, List.take_left']

/-- The loop rebuilds the vector: closed state. -/
theorem fillLoop_chg (t : List Bool) : ∀ (k : Nat) (x : Bool) (P : Arr) (prev : Nat) (c : Nat),
    (x = false → P.length = k → c = 0 →
      fillLoop (P ++ c :: List.replicate t.length 0) false prev (chg k x t ++ [k + t.length + 1]) =
        .ok (P ++ arr (x :: t))) ∧
    (x = true → P.length ≤ k →
      fillLoop (P ++ c :: List.replicate (k + t.length - P.length) 0) true P.length
        (chg k x t ++ [k + t.length + 1]) =
        .ok (P ++ List.replicate (k - P.length) 1 ++ arr (x :: t))) := by
  induction t with
  | nil =>
    intro k x P prev c
    constructor
    · rintro rfl hP rfl
      simp [chg, fillLoop, arr]
    · rintro rfl hP
      simp only [chg, List.nil_append, List.length_nil, Nat.add_zero, fillLoop]
      rw [fillOnes_eq P c (k - P.length) (k + 1) (by omega) (by omega)]
      have e1 : k + 1 - P.length = (k - P.length) + 1 := by omega
      have e2 : P.length + 1 + (k - P.length) - (k + 1) = 0 := by omega
      simp [Bind.bind, Except.bind, e1, e2, List.replicate_succ', arr]
  | cons y t ih =>
    intro k x P prev c
    constructor
    · rintro rfl hP rfl
      cases y with
      | false =>
        have := (ih (k + 1) false (P ++ [0]) prev 0).1 rfl (by simp [hP]) rfl
        simp only [chg, if_true, List.length_cons, List.replicate_succ]
        have e : k + (t.length + 1) + 1 = k + 1 + t.length + 1 := by omega
        rw [e]
        simpa [arr] using this
      | true =>
        have := (ih (k + 1) true (P ++ [0]) prev 0).2 rfl (by simp [hP])
        simp only [chg, Bool.false_eq_true, if_false, List.length_cons, List.replicate_succ,
          List.cons_append, fillLoop]
        have e : k + (t.length + 1) + 1 = k + 1 + t.length + 1 := by omega
        have e2 : k + 1 + t.length - (P ++ [0]).length = t.length := by simp; omega
        have e3 : k + 1 - (P ++ [0]).length = 0 := by simp; omega
        have e4 : (P ++ [0]).length = k + 1 := by simp [hP]
        rw [e2, e3, e4] at this
        rw [e]
        simpa [arr] using this
    · rintro rfl hP
      cases y with
      | true =>
        have := (ih (k + 1) true P prev c).2 rfl (by omega)
        simp only [chg, if_true, List.length_cons]
        have e : k + (t.length + 1) + 1 = k + 1 + t.length + 1 := by omega
        have e2 : k + (t.length + 1) - P.length = k + 1 + t.length - P.length := by omega
        rw [e, e2, this]
        have e3 : k + 1 - P.length = (k - P.length) + 1 := by omega
        simp [arr, e3, List.replicate_succ']
      | false =>
        simp only [chg, Bool.true_eq_false, if_false, List.length_cons, List.cons_append, fillLoop]
        rw [fillOnes_eq P c (k + (t.length + 1) - P.length) (k + 1) (by omega) (by omega)]
        have e1 : k + 1 - P.length = (k - P.length) + 1 := by omega
        have e2 : P.length + 1 + (k + (t.length + 1) - P.length) - (k + 1) = t.length + 1 := by omega
        have e : k + (t.length + 1) + 1 = k + 1 + t.length + 1 := by omega
        have := (ih (k + 1) false (P ++ List.replicate (k - P.length + 1) 1) (k + 1) 0).1 rfl
          (by simp; omega) rfl
        simp only [Bind.bind, Except.bind]
        rw [e1, e2, e, List.replicate_succ (n := t.length), this]
        simp [arr, List.replicate_succ']

theorem chg_eq_nil (k : Nat) (x : Bool) (t : List Bool) (h : chg k x t = []) :
    t = List.replicate t.length x := by
  induction t generalizing k x with
  | nil => rfl
  | cons y t ih =>
    simp only [chg] at h
    split at h
    · next hxy =>
      subst hxy
      have := ih _ _ h
      rw [List.length_cons, List.replicate_succ, ← this]
    · simp at h

theorem expand_compressList (x : Bool) (t : List Bool) :
    expand (compressList x.toNat (arr t)) = .ok (arr (x :: t)) := by
  rw [compressList_eq]
  have hlast : (x.toNat :: (chg 0 x t ++ [t.length + 1])).getLast (by simp) = t.length + 1 := by
    rw [List.getLast_cons (by simp)]; simp
  simp only [expand, hlast]
  by_cases h2 : (x.toNat :: (chg 0 x t ++ [t.length + 1])).length = 2
  · have hnil : chg 0 x t = [] := by
      cases hc : chg 0 x t with
      | nil => rfl
      | cons a l => simp [hc] at h2
    have := chg_eq_nil 0 x t hnil
    cases x
    · rw [if_neg (by simp), if_pos h2, arr_cons, this]
      simp [arr, List.replicate_succ]
    · rw [if_neg (by simp), if_pos h2, arr_cons, this]
      simp [arr, List.replicate_succ]
  · cases x with
    | false =>
      have := (fillLoop_chg t 0 false [] 0 0).1 rfl rfl rfl
      rw [if_neg (by simp), if_neg h2]
      simpa [List.replicate_succ] using this
    | true =>
      have := (fillLoop_chg t 0 true [] 0 1).2 rfl (by simp)
      rw [if_neg (by simp), if_neg h2]
      simpa [List.replicate_succ] using this

end Verif.Codec

namespace Verif.Codec

open Verif Verif.Spec

/-! ### Text form -/

theorem digit_toNat (d : Nat) (h : d < 10) : (Char.ofNat (48 + d)).toNat = 48 + d := by
  have : d = 0 ∨ d = 1 ∨ d = 2 ∨ d = 3 ∨ d = 4 ∨ d = 5 ∨ d = 6 ∨ d = 7 ∨ d = 8 ∨ d = 9 := by omega
  rcases this with h | h | h | h | h | h | h | h | h | h <;> subst h <;> decide

theorem digit_isDigit (d : Nat) (h : d < 10) : (Char.ofNat (48 + d)).isDigit = true := by
  have : d = 0 ∨ d = 1 ∨ d = 2 ∨ d = 3 ∨ d = 4 ∨ d = 5 ∨ d = 6 ∨ d = 7 ∨ d = 8 ∨ d = 9 := by omega
  rcases this with h | h | h | h | h | h | h | h | h | h <;> subst h <;> decide

theorem digits_isDigit (n : Nat) : ∀ c ∈ digits n, c.isDigit = true := by
  induction n using Nat.strongRecOn with
  | ind n ih =>
    intro c hc
    rw [digits] at hc
    split at hc
    · next h => simp only [List.mem_singleton] at hc; subst hc; exact digit_isDigit n h
    · rcases List.mem_append.1 hc with hc | hc
      · exact ih (n / 10) (by omega) c hc
      · simp only [List.mem_singleton] at hc; subst hc; exact digit_isDigit _ (by omega)

theorem digits_ne_nil (n : Nat) : digits n ≠ [] := by
  rw [digits]; split <;> simp

theorem digits_foldl (n : Nat) :
    (digits n).foldl (fun acc c => acc * 10 + (c.toNat - 48)) 0 = n := by
  induction n using Nat.strongRecOn with
  | ind n ih =>
    rw [digits]
    split
    · next h => simp [digit_toNat n h]
    · rw [List.foldl_append, ih (n / 10) (by omega)]
      simp only [List.foldl_cons, List.foldl_nil, digit_toNat (n % 10) (by omega)]
      omega

theorem digits_head (n : Nat) (h : n ≠ 0) : (digits n).head? ≠ some '0' := by
  induction n using Nat.strongRecOn with
  | ind n ih =>
    rw [digits]
    split
    · next h10 =>
      simp only [List.head?_cons, ne_eq, Option.some.injEq]
      intro hc
      have := digit_toNat n h10
      rw [hc] at this
      have h0 : ('0' : Char).toNat = 48 := by decide
      omega
    · rw [List.head?_append]
      have h2 := ih (n / 10) (by omega) (by omega)
      cases hd : (digits (n / 10)).head? with
      | none => rw [List.head?_eq_none_iff] at hd; exact absurd hd (digits_ne_nil _)
      | some c => rw [hd] at h2; simpa using h2

theorem parseNat_digits (n : Nat) : parseNat (digits n) = some n := by
  have h1 : ¬ (digits n = [] ∨ ¬ (digits n).all Char.isDigit) := by
    intro h
    rcases h with h | h
    · exact digits_ne_nil n h
    · apply h; rw [List.all_eq_true]; exact digits_isDigit n
  rw [parseNat, if_neg h1]
  simp only [digits_foldl]
  rw [if_neg]
  rintro ⟨h2, h3⟩
  exact digits_head n h3 h2

theorem isDigit_ne {c : Char} (h : c.isDigit = true) : c ≠ ',' ∧ c ≠ ' ' := by
  constructor <;> (rintro rfl; revert h; decide)

theorem splitComma_noComma (w : List Char) (h : ∀ c ∈ w, c ≠ ',') : splitComma w = [w] := by
  induction w with
  | nil => rfl
  | cons c t ih =>
    have := ih (fun c hc => h c (by simp [hc]))
    simp [splitComma, h c (by simp), this]

theorem splitComma_append (w r : List Char) (h : ∀ c ∈ w, c ≠ ',') :
    splitComma (w ++ ',' :: r) = w :: splitComma r := by
  induction w with
  | nil => simp [splitComma]
  | cons c t ih =>
    have := ih (fun c hc => h c (by simp [hc]))
    simp [splitComma, h c (by simp), this]

theorem splitComma_render (n : Nat) (l : List Nat) :
    splitComma (render (n :: l)) = (n :: l).map digits := by
  induction l generalizing n with
  | nil =>
    simp only [render, List.map_cons, List.map_nil]
    exact splitComma_noComma _ (fun c hc => (isDigit_ne (digits_isDigit n c hc)).1)
  | cons m l ih =>
    simp only [render, List.map_cons]
    rw [splitComma_append _ _ (fun c hc => (isDigit_ne (digits_isDigit n c hc)).1), ih]
    rfl

theorem render_noBlank (l : List Nat) : (render l).filter (· ≠ ' ') = render l := by
  rw [List.filter_eq_self]
  induction l with
  | nil => simp [render]
  | cons n l ih =>
    cases l with
    | nil =>
      intro c hc
      simpa using (isDigit_ne (digits_isDigit n c hc)).2
    | cons m l =>
      intro c hc
      simp only [render, List.mem_append, List.mem_cons] at hc
      rcases hc with hc | rfl | hc
      · simpa using (isDigit_ne (digits_isDigit n c hc)).2
      · simp
      · exact ih c hc

theorem mapM_parse (l : List Nat) : (l.map digits).mapM parseNat = some l := by
  induction l with
  | nil => rfl
  | cons n l ih => simp [parseNat_digits, ih]

theorem literalEval_render (a b : Nat) (l : List Nat) :
    literalEval (render (a :: b :: l)) = .ok (.tuple (a :: b :: l)) := by
  simp only [literalEval, render_noBlank]
  rw [splitComma_render]
  have hne : ((a :: b :: l).map digits).getLast? ≠ some [] := by
    intro h
    have := List.mem_of_getLast? h
    rw [List.mem_map] at this
    obtain ⟨n, _, hn⟩ := this
    exact digits_ne_nil n hn
  split
  · next h => simp at h
  · rw [if_neg hne, mapM_parse]

end Verif.Codec

namespace Verif.Codec

open Verif Verif.Spec

/-! ### Integers and bitarrays -/

/-- The number written by a vector of bits, most significant first. -/
def bitsVal (u : List Bool) : Nat := u.foldl (fun acc x => 2 * acc + x.toNat) 0

theorem bitsVal_append (u : List Bool) (x : Bool) : bitsVal (u ++ [x]) = 2 * bitsVal u + x.toNat := by
  simp [bitsVal]

theorem arr_foldl (u : List Bool) (n : Nat) :
    (arr u).foldl (fun acc b => 2 * acc + b % 256) n =
      u.foldl (fun acc x => 2 * acc + x.toNat) n := by
  induction u generalizing n with
  | nil => rfl
  | cons x t ih =>
    simp only [arr_cons, List.foldl_cons]
    rw [ih]
    cases x <;> simp

theorem binDigits_length_pos (n : Nat) : 0 < (binDigits n).length := by
  rw [binDigits]; split <;> simp

/-- Reversed view: padding the binary digits of the value of `u` up to `u.length` gives `u` back. -/
theorem binDigits_bitsVal (r : List Bool) :
    r ≠ [] → (binDigits (bitsVal r.reverse)).length ≤ r.length ∧
      List.replicate (r.length - (binDigits (bitsVal r.reverse)).length) 0 ++
        binDigits (bitsVal r.reverse) = arr r.reverse := by
  induction r with
  | nil => intro h; exact absurd rfl h
  | cons x t ih =>
    intro _
    simp only [List.reverse_cons, bitsVal_append, List.length_cons, arr_append]
    cases t with
    | nil => cases x <;> simp [bitsVal, binDigits, arr]
    | cons y s =>
      obtain ⟨h1, h2⟩ := ih (by simp)
      generalize hv : bitsVal (y :: s).reverse = v at h1 h2 ⊢
      have hx : x.toNat < 2 := by cases x <;> simp
      by_cases hv0 : v = 0
      · subst hv0
        have hb : binDigits (2 * 0 + x.toNat) = [x.toNat] := by
          rw [binDigits, dif_pos (by omega)]; simp
        have hb0 : binDigits 0 = [0] := by rw [binDigits, dif_pos (by omega)]
        rw [hb]
        rw [hb0] at h2
        simp only [List.length_cons, List.length_nil, Nat.zero_add, Nat.add_sub_cancel] at h2 ⊢
        constructor
        · omega
        · rw [← h2, List.replicate_succ' (n := s.length)]; simp [arr]
      · have hb : binDigits (2 * v + x.toNat) = binDigits v ++ [x.toNat] := by
          rw [binDigits, dif_neg (by omega)]
          have e1 : (2 * v + x.toNat) / 2 = v := by omega
          have e2 : (2 * v + x.toNat) % 2 = x.toNat := by omega
          rw [e1, e2]
        rw [hb]
        constructor
        · simp only [List.length_append, List.length_singleton]; omega
        · have e : (y :: s).length + 1 - (binDigits v ++ [x.toNat]).length =
              (y :: s).length - (binDigits v).length := by
            simp only [List.length_append, List.length_singleton]; omega
          rw [e, ← List.append_assoc, h2]; rfl

theorem binDigits_pad (u : List Bool) (h : u ≠ []) :
    (binDigits (bitsVal u)).length ≤ u.length ∧
      List.replicate (u.length - (binDigits (bitsVal u)).length) 0 ++ binDigits (bitsVal u) = arr u := by
  have := binDigits_bitsVal u.reverse (by simpa using h)
  simpa using this

theorem integerToRaw_bitsVal (u : List Bool) (h : u ≠ []) :
    integerToRaw (bitsVal u) u.length = .ok (arr u) := by
  obtain ⟨h1, h2⟩ := binDigits_pad u h
  rw [integerToRaw]
  simp only [if_neg (Nat.not_lt.2 h1), h2]

theorem rawToInteger_arr (u : List Bool) (h : u ≠ []) : rawToInteger (arr u) = .ok (bitsVal u) := by
  have hall : (arr u).all (· % 256 ≤ 1) = true := by
    rw [List.all_eq_true]; intro x hx
    have := arr_le_one u x hx
    simp only [decide_eq_true_eq]; omega
  rcases arr_getLast? u h with h1 | h1 <;> simp [rawToInteger, h1, hall, arr_foldl, bitsVal]

theorem rawToBitarray_arr (u : List Bool) : rawToBitarray (arr u) = .ok u := by
  have hall : (arr u).all (· ≤ 1) = true := by
    rw [List.all_eq_true]; intro x hx
    simpa using arr_le_one u x hx
  have hm : (arr u).map (· == 1) = u := by
    simp only [arr, List.map_map]
    conv => rhs; rw [← List.map_id u]
    apply List.map_congr_left
    intro x _; cases x <;> rfl
  by_cases h : u = []
  · subst h; rfl
  · rcases arr_getLast? u h with h1 | h1 <;> simp [rawToBitarray, h1, hall, hm]

theorem integerToBitarray_bitsVal (u : List Bool) (h : u ≠ []) :
    integerToBitarray (bitsVal u) u.length = u := by
  obtain ⟨h1, h2⟩ := binDigits_pad u h
  have := congrArg (List.map (· == 1)) h2
  have hm : (arr u).map (· == 1) = u := by
    simp only [arr, List.map_map]
    conv => rhs; rw [← List.map_id u]
    apply List.map_congr_left
    intro x _; cases x <;> rfl
  rw [hm] at this
  have h3 : integerToBitarray (bitsVal u) u.length =
      List.map (· == 1) (List.replicate (u.length - (binDigits (bitsVal u)).length) 0 ++
        binDigits (bitsVal u)) := by
    simp [integerToBitarray]
  rw [h3, this]

theorem bitarrayToInteger_eq (u : List Bool) (h : u ≠ []) :
    bitarrayToInteger u = .ok (bitsVal u) := by
  cases u with
  | nil => exact absurd rfl h
  | cons x t => rfl

theorem decompressArr_arr (u : List Bool) : decompressArr (arr u) = .ok (arr u) := by
  have hm : (arr u).map (· % 256) = arr u := by
    conv => rhs; rw [← List.map_id (arr u)]
    apply List.map_congr_left
    intro x hx
    have := arr_le_one u x hx
    simp only [id]; omega
  by_cases h : u = []
  · subst h; rfl
  · rcases arr_getLast? u h with h1 | h1 <;> simp [decompressArr, h1, hm]

theorem render_ne_nil (a : Nat) (l : List Nat) : render (a :: l) ≠ [] := by
  cases l with
  | nil => exact digits_ne_nil a
  | cons b l => simp [render]

theorem decompressStr_compressList (x : Bool) (t : List Bool) :
    decompressStr (render (compressList x.toNat (arr t))) = .ok (arr (x :: t)) := by
  have hexp := expand_compressList x t
  rw [compressList_eq] at hexp ⊢
  have hne := render_ne_nil x.toNat (chg 0 x t ++ [t.length + 1])
  rw [decompressStr, if_neg hne]
  obtain ⟨b, l, hbl⟩ : ∃ b l, chg 0 x t ++ [t.length + 1] = b :: l := by
    cases h : chg 0 x t ++ [t.length + 1] with
    | nil => simp at h
    | cons b l => exact ⟨b, l, rfl⟩
  rw [hbl] at hexp ⊢
  rw [literalEval_render]
  exact hexp

theorem compress_str (x : Bool) (t : List Bool) :
    compress (arr (x :: t)) .str = .text (render (compressList x.toNat (arr t))) := by
  have := arr_getLast? (x :: t) (by simp)
  rw [arr_cons] at this ⊢
  simp only [compress, if_pos this]

theorem compress_ndarray (x : Bool) (t : List Bool) :
    compress (arr (x :: t)) .ndarray = .array (compressList x.toNat (arr t)) := by
  have := arr_getLast? (x :: t) (by simp)
  rw [arr_cons] at this ⊢
  simp only [compress, if_pos this]

theorem decompressArr_compressList (x : Bool) (t : List Bool) (h : t ≠ []) :
    decompressArr (compressList x.toNat (arr t)) = .ok (arr (x :: t)) := by
  have hexp := expand_compressList x t
  rw [compressList_eq] at hexp ⊢
  have hl : (x.toNat :: (chg 0 x t ++ [t.length + 1])).getLast? = some (t.length + 1) := by
    rw [← List.cons_append, List.getLast?_concat]
  have : 0 < t.length := List.length_pos_iff.2 h
  rw [decompressArr, hl]
  simp only
  rw [if_neg (by omega), hexp]

end Verif.Codec

namespace Verif.Codec

open Verif Verif.Spec

/-! ### Links with the specifications -/

theorem foldl_numeral (u : List Bool) (n : Nat) :
    u.foldl (fun acc x => 2 * acc + x.toNat) n = n * 2 ^ u.length + numeral u := by
  induction u generalizing n with
  | nil => simp [numeral]
  | cons x t ih =>
    simp only [List.foldl_cons, ih, numeral, List.length_cons, Nat.pow_succ]
    rw [Nat.add_mul, Nat.add_assoc, Nat.mul_comm 2 n, Nat.mul_assoc, Nat.mul_comm 2]

theorem bitsVal_eq_numeral (u : List Bool) : bitsVal u = numeral u := by
  simp [bitsVal, foldl_numeral]

theorem numeral_lt (u : List Bool) : numeral u < 2 ^ u.length := by
  induction u with
  | nil => simp [numeral]
  | cons x t ih =>
    simp only [numeral, List.length_cons, Nat.pow_succ]
    cases x <;> simp <;> omega

/-- Every number below `2 ^ n` is written by a vector of length `n`. -/
theorem exists_numeral (n v : Nat) (h : v < 2 ^ n) : ∃ u : List Bool, u.length = n ∧ numeral u = v := by
  induction n generalizing v with
  | zero => exact ⟨[], rfl, by simp at h; simp [numeral, h]⟩
  | succ n ih =>
    rw [Nat.pow_succ] at h
    by_cases hv : v < 2 ^ n
    · obtain ⟨u, h1, h2⟩ := ih v hv
      exact ⟨false :: u, by simp [h1], by simp [numeral, h2]⟩
    · obtain ⟨u, h1, h2⟩ := ih (v - 2 ^ n) (by omega)
      exact ⟨true :: u, by simp [h1], by simp [numeral, h1, h2]; omega⟩

theorem binDigits_length (v : Nat) : ∀ n, 1 ≤ n → ((binDigits v).length ≤ n ↔ v < 2 ^ n) := by
  induction v using Nat.strongRecOn with
  | ind v ih =>
    intro n hn
    rw [binDigits]
    obtain ⟨m, rfl⟩ : ∃ m, n = m + 1 := ⟨n - 1, by omega⟩
    have hp : 0 < 2 ^ m := Nat.pow_pos (by omega)
    rw [Nat.pow_succ]
    split
    · simp only [List.length_singleton]; omega
    · simp only [List.length_append, List.length_singleton]
      cases m with
      | zero =>
        have := binDigits_length_pos (v / 2)
        rw [Nat.pow_zero]; omega
      | succ m =>
        have := ih (v / 2) (by omega) (m + 1) (by omega)
        omega

theorem integerToRaw_ok_iff (n len : Nat) (v : Arr) :
    integerToRaw n len = .ok v ↔ ∃ u, u ≠ [] ∧ u.length = len ∧ numeral u = n ∧ v = arr u := by
  constructor
  · intro h
    simp only [integerToRaw] at h
    split at h
    · cases h
    · next hl =>
      have hpos := binDigits_length_pos n
      have hlt := (binDigits_length n len (by omega)).1 (by omega)
      obtain ⟨u, h1, h2⟩ := exists_numeral len n hlt
      have hne : u ≠ [] := by intro hc; subst hc; simp at h1; omega
      have := integerToRaw_bitsVal u hne
      rw [bitsVal_eq_numeral, h2, h1, integerToRaw, if_neg hl, h] at this
      cases this
      exact ⟨u, hne, h1, h2, rfl⟩
  · rintro ⟨u, hne, rfl, rfl, rfl⟩
    rw [← bitsVal_eq_numeral]
    exact integerToRaw_bitsVal u hne

theorem range_filter_changes (k : Nat) (x : Bool) (t : List Bool) (v : List Bool)
    (hk : v.drop k = x :: t) :
    chg k x t = (List.range' (k + 1) t.length).filter (fun i => decide (v[i]? ≠ v[i - 1]?)) := by
  induction t generalizing k x with
  | nil => simp [chg]
  | cons y t ih =>
    have hk1 : v.drop (k + 1) = y :: t := by
      rw [← List.drop_drop, hk]; rfl
    have h1 : v[k]? = some x := by
      have := congrArg (fun l => l[0]?) hk
      simpa using this
    have h2 : v[k + 1]? = some y := by
      have := congrArg (fun l => l[0]?) hk1
      simpa using this
    simp only [chg, List.length_cons, List.range'_succ, List.filter_cons, Nat.add_sub_cancel, h1, h2]
    rw [ih (k + 1) y hk1]
    by_cases hxy : x = y
    · simp [hxy]
    · have : ¬ (some y = some x) := by simp; exact fun h => hxy h.symm
      simp [hxy, this]

theorem chg_eq_changes (x : Bool) (t : List Bool) : chg 0 x t = changes (x :: t) := by
  rw [range_filter_changes 0 x t (x :: t) rfl, changes]
  rw [List.length_cons, List.range_eq_range', List.range'_succ]
  simp only [List.filter_cons, Nat.zero_add]
  simp only [Nat.lt_irrefl, false_and, decide_false, Bool.false_eq_true, if_false]
  apply List.filter_congr
  intro i hi
  rw [List.mem_range'_1] at hi
  have : 0 < i := by omega
  simp [this]

/-- Every increasing list of positions is the list of changes of a vector. -/
theorem exists_chg (n : Nat) : ∀ (k : Nat) (x : Bool) (ps : List Nat), ps.Pairwise (· < ·) →
    (∀ p ∈ ps, k < p ∧ p ≤ k + n) → ∃ t : List Bool, t.length = n ∧ chg k x t = ps := by
  induction n with
  | zero =>
    intro k x ps _ hb
    cases ps with
    | nil => exact ⟨[], rfl, rfl⟩
    | cons p ps => have := hb p (by simp); omega
  | succ n ih =>
    intro k x ps hp hb
    cases ps with
    | nil =>
      obtain ⟨t, h1, h2⟩ := ih (k + 1) x [] (by simp) (by simp)
      exact ⟨x :: t, by simp [h1], by simp [chg, h2]⟩
    | cons p ps =>
      rw [List.pairwise_cons] at hp
      have hbp := hb p (by simp)
      by_cases hpk : p = k + 1
      · subst hpk
        obtain ⟨t, h1, h2⟩ := ih (k + 1) (!x) ps hp.2 (by
          intro q hq
          have := hp.1 q hq
          have := hb q (by simp [hq])
          omega)
        refine ⟨(!x) :: t, by simp [h1], ?_⟩
        cases x <;> simp [chg] at h2 ⊢ <;> exact h2
      · obtain ⟨t, h1, h2⟩ := ih (k + 1) x (p :: ps) (List.pairwise_cons.2 hp) (by
          intro q hq
          have := hb q hq
          rcases List.mem_cons.1 hq with rfl | hq
          · omega
          · have := hp.1 q hq; omega)
        exact ⟨x :: t, by simp [h1], by simp [chg, h2]⟩

end Verif.Codec
