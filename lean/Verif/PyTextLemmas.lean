import Verif.PyText

/-!
# Lemmas on texts of Python values: they can be read back
-/

namespace Verif

namespace PyText

/-! ## Hexadecimal digits -/

theorem hexValue_hexDigit : ∀ n < 16, hexValue (hexDigit n) = some n := by decide

theorem readHex_append (acc : Nat) (a b : List Char) :
    readHex acc (a ++ b) = (readHex acc a).bind fun n => readHex n b := by
  induction a generalizing acc with
  | nil => rfl
  | cons c a ih =>
    simp only [List.cons_append, readHex]
    cases hexValue c with
    | none => rfl
    | some v => exact ih _

theorem readHex_hex (w n : Nat) (h : n < 16 ^ w) : readHex 0 (hex w n) = some n := by
  induction w generalizing n with
  | zero =>
    simp only [Nat.pow_zero, Nat.lt_one_iff] at h
    rw [h]
    rfl
  | succ w ih =>
    rw [hex, readHex_append, ih _ (by rw [Nat.pow_succ] at h; omega)]
    simp only [Option.bind_some, readHex, hexValue_hexDigit _ (Nat.mod_lt n (by omega : 16 > 0))]
    congr 1
    omega

theorem hex_length (w n : Nat) : (hex w n).length = w := by
  induction w generalizing n with
  | zero => rfl
  | succ w ih => simp [hex, ih]

theorem readHexEscape_hex (w : Nat) (c : Char) (rest : List Char) (h : c.toNat < 16 ^ w) :
    readHexEscape w (hex w c.toNat ++ rest) = some (c, rest) := by
  unfold readHexEscape
  rw [if_neg (by simp [hex_length]), List.take_left' (hex_length _ _), List.drop_left' (hex_length _ _), readHex_hex _ _ h]
  simp

/-! ## Texts -/

/-- A character which is written -/
theorem readChars_escape (printable : Char → Bool) (q c : Char) (hq : q = '\'' ∨ q = '"') (fuel : Nat) (l : List Char) :
    readChars q (fuel + 1) (escape printable q c ++ l) = (readChars q fuel l).map fun p => (c :: p.1, p.2) := by
  have hb : ('\\' : Char) ≠ q := by rcases hq with rfl | rfl <;> decide
  have hesc : ∀ t, readEscape t = some (c, l) →
      readChars q (fuel + 1) ('\\' :: t) = (readChars q fuel l).map fun p => (c :: p.1, p.2) := by
    intro t ht
    rw [readChars, if_neg hb, if_pos rfl, ht]
  unfold escape
  split
  · rename_i h
    refine hesc (c :: l) ?_
    unfold readEscape
    rcases h with rfl | rfl
    · rcases hq with rfl | rfl <;> simp +decide
    · simp +decide
  rename_i h
  push Not at h
  split
  · rename_i e
    subst e
    exact hesc _ rfl
  split
  · rename_i e
    subst e
    exact hesc _ rfl
  split
  · rename_i e
    subst e
    exact hesc _ rfl
  split
  · rw [List.singleton_append, readChars, if_neg h.1, if_neg h.2]
  split
  · rw [List.singleton_append, readChars, if_neg h.1, if_neg h.2]
  split
  · rename_i e
    refine hesc ('x' :: (hex 2 c.toNat ++ l)) ?_
    exact readHexEscape_hex 2 c l e
  split
  · rename_i e
    refine hesc ('u' :: (hex 4 c.toNat ++ l)) ?_
    exact readHexEscape_hex 4 c l e
  · refine hesc ('U' :: (hex 8 c.toNat ++ l)) ?_
    refine readHexEscape_hex 8 c l ?_
    have : c.toNat < 1114112 := by
      have := c.valid
      rcases this with h | h
      · exact lt_of_lt_of_le h (by decide)
      · exact h.2
    exact lt_trans this (by decide)

theorem readChars_text (printable : Char → Bool) (q : Char) (hq : q = '\'' ∨ q = '"') (s : List Char) (fuel : Nat)
    (rest : List Char) (h : s.length < fuel) :
    readChars q fuel (s.flatMap (escape printable q) ++ q :: rest) = some (s, rest) := by
  induction s generalizing fuel with
  | nil =>
    obtain ⟨f, rfl⟩ : ∃ f, fuel = f + 1 := ⟨fuel - 1, by simp at h; omega⟩
    simp [readChars]
  | cons c s ih =>
    obtain ⟨f, rfl⟩ : ∃ f, fuel = f + 1 := ⟨fuel - 1, by simp at h; omega⟩
    rw [List.flatMap_cons, List.append_assoc, readChars_escape printable q c hq, ih f (by simp at h; omega)]
    rfl

theorem escape_length (printable : Char → Bool) (q c : Char) : 1 ≤ (escape printable q c).length := by
  unfold escape
  repeat' split
  all_goals simp

theorem flatMap_escape_length (printable : Char → Bool) (q : Char) (s : List Char) :
    s.length ≤ (s.flatMap (escape printable q)).length := by
  induction s with
  | nil => exact Nat.zero_le _
  | cons c s ih =>
    rw [List.flatMap_cons, List.length_append, List.length_cons]
    have := escape_length printable q c
    omega

theorem quoteOf_cases (s : List Char) : quoteOf s = '\'' ∨ quoteOf s = '"' := by
  unfold quoteOf
  split
  · exact Or.inr rfl
  · exact Or.inl rfl

/-- A text is read back from its `repr`. -/
theorem readText_text (printable : Char → Bool) (s : String) (rest : List Char) :
    readText (text printable s ++ rest) = some (s, rest) := by
  unfold readText text
  simp only [List.cons_append, List.append_assoc, List.nil_append]
  rw [if_pos (quoteOf_cases _), readChars_text printable _ (quoteOf_cases _) s.toList _ rest
    (by
      have := flatMap_escape_length printable (quoteOf s.toList) s.toList
      simp only [List.length_append, List.length_cons]
      omega)]
  simp

/-! ## Integers -/

theorem digitValue_digit : ∀ n < 10, digitValue (digit n) = some n := by decide

/-- The text goes on with something which is not a digit. -/
def NotDigit (rest : List Char) : Prop := ∀ c t, rest = c :: t → digitValue c = none

theorem readDigits_end (acc : Nat) {rest : List Char} (h : NotDigit rest) : readDigits acc rest = (acc, rest) := by
  cases rest with
  | nil => rfl
  | cons c t =>
    unfold readDigits
    rw [h c t rfl]

/-- Reading digits and what follows -/
theorem readNat_nat_append (n : Nat) (l : List Char) : readNat (nat n ++ l) = some (readDigits n l) := by
  induction n using Nat.strong_induction_on generalizing l with
  | _ n ih =>
    unfold nat
    split
    · rename_i h
      rw [List.singleton_append, readNat, digitValue_digit _ h]
    · rename_i h
      rw [List.append_assoc, ih (n / 10) (by omega), List.singleton_append, readDigits,
        digitValue_digit _ (Nat.mod_lt _ (by omega))]
      simp only
      congr 2
      omega

theorem readNat_nat (n : Nat) {rest : List Char} (h : NotDigit rest) : readNat (nat n ++ rest) = some (n, rest) := by
  rw [readNat_nat_append, readDigits_end _ h]

theorem nat_head (n : Nat) : ∃ c t, nat n = c :: t ∧ (digitValue c).isSome = true := by
  induction n using Nat.strong_induction_on with
  | _ n ih =>
    unfold nat
    split
    · rename_i h
      exact ⟨_, _, rfl, by rw [digitValue_digit _ h]; rfl⟩
    · obtain ⟨c, t, e, hc⟩ := ih (n / 10) (by omega)
      exact ⟨c, t ++ [digit (n % 10)], by rw [e]; rfl, hc⟩

theorem digit_ne {c d : Char} (h : (digitValue c).isSome = true) (hd : digitValue d = none) : c ≠ d := by
  rintro rfl
  rw [hd] at h
  cases h

/-- An integer is read back from its `str`. -/
theorem readInt_int (i : Int) {rest : List Char} (h : NotDigit rest) : readInt (int i ++ rest) = some (i, rest) := by
  unfold int
  split
  · rename_i hi
    simp only [List.cons_append, readInt, if_pos]
    rw [readNat_nat _ h]
    simp only [Option.map_some, Option.some.injEq, Prod.mk.injEq, and_true]
    omega
  · rename_i hi
    obtain ⟨c, t, e, hc⟩ := nat_head i.natAbs
    have hne := digit_ne hc (d := '-') (by decide)
    have : readInt (nat i.natAbs ++ rest) = (readNat (nat i.natAbs ++ rest)).map fun p => ((p.1 : Int), p.2) := by
      rw [e]
      simp only [List.cons_append, readInt, if_neg hne]
    rw [this, readNat_nat _ h]
    simp only [Option.map_some, Option.some.injEq, Prod.mk.injEq, and_true]
    omega

/-! ## Floats -/

theorem after_append (p l : List Char) : after p (p ++ l) = some l := by
  induction p with
  | nil => rfl
  | cons c p ih => simp [after, ih]

theorem after_eq {p l rest : List Char} (h : after p l = some rest) : l = p ++ rest := by
  induction p generalizing l with
  | nil => simpa [after] using h
  | cons c p ih =>
    cases l with
    | nil => cases h
    | cons d l =>
      unfold after at h
      split at h
      · rename_i e
        rw [ih h, e]
        rfl
      · cases h

theorem after_none {c : Char} {p : List Char} {d : Char} {l : List Char} (h : c ≠ d) : after (c :: p) (d :: l) = none := by
  rw [after, if_neg h]

/-- What may follow a number in a list, or the end -/
def Stops (rest : List Char) : Prop := rest = [] ∨ (∃ t, rest = ',' :: t) ∨ ∃ t, rest = ']' :: t

theorem Stops.notDigit {rest : List Char} (h : Stops rest) : NotDigit rest := by
  rintro c t rfl
  rcases h with h | ⟨u, h⟩ | ⟨u, h⟩
  · cases h
  · cases h; decide
  · cases h; decide

/-- A float is read back from its `str`. -/
theorem readNum_num (F : Floats) (x : Num) {rest : List Char} (h : Stops rest) : readNum F (num F x ++ rest) = some (x, rest) := by
  unfold readNum
  cases x with
  | nan => rfl
  | inf => rfl
  | ninf => rfl
  | fin x =>
    obtain ⟨c, t, hc, hw⟩ := F.write_head x
    have n1 := digit_ne hc (d := 'n') (by decide)
    have n2 := digit_ne hc (d := 'i') (by decide)
    have n3 := digit_ne hc (d := '-') (by decide)
    have e1 : after ['n', 'a', 'n'] (F.write x ++ rest) = none := by
      rcases hw with e | e <;> rw [e, List.cons_append]
      · exact after_none n1.symm
      · exact after_none (by decide)
    have e2 : after ['i', 'n', 'f'] (F.write x ++ rest) = none := by
      rcases hw with e | e <;> rw [e, List.cons_append]
      · exact after_none n2.symm
      · exact after_none (by decide)
    have e3 : after ['-', 'i', 'n', 'f'] (F.write x ++ rest) = none := by
      rcases hw with e | e <;> rw [e, List.cons_append]
      · exact after_none n3.symm
      · rw [after, if_pos rfl, List.cons_append]
        exact after_none n2.symm
    have e : num F (.fin x) = F.write x := rfl
    rw [e, e1]
    simp only
    rw [e2]
    simp only
    rw [e3]
    simp only
    rw [F.read_write x rest h]
    rfl

/-! ## Lists -/

/-- `read` reads back what `f` writes in a list, and what `f` writes does not begin with a closing bracket. -/
structure Reads {α : Type} (f : α → List Char) (read : List Char → Option (α × List Char)) : Prop where
  back : ∀ a rest, Stops rest → read (f a ++ rest) = some (a, rest)
  head : ∀ a, ∃ c t, f a = c :: t ∧ c ≠ ']'

theorem items_stops {α : Type} (f : α → List Char) (l : List α) (rest : List Char) : Stops (items f l ++ rest) := by
  cases l with
  | nil => exact Or.inr (Or.inr ⟨_, rfl⟩)
  | cons a l => exact Or.inr (Or.inl ⟨_, rfl⟩)

theorem items_length {α : Type} (f : α → List Char) (l : List α) : l.length < (items f l).length := by
  induction l with
  | nil => simp [items]
  | cons a l ih => simp only [items, List.length_cons, List.length_append]; omega

theorem readItems_items {α : Type} {f : α → List Char} {read : List Char → Option (α × List Char)} (hf : Reads f read)
    (l : List α) (fuel : Nat) (rest : List Char) (h : l.length < fuel) :
    readItems read fuel (items f l ++ rest) = some (l, rest) := by
  induction l generalizing fuel with
  | nil =>
    obtain ⟨k, rfl⟩ : ∃ k, fuel = k + 1 := ⟨fuel - 1, by simp at h; omega⟩
    rfl
  | cons a l ih =>
    obtain ⟨k, rfl⟩ : ∃ k, fuel = k + 1 := ⟨fuel - 1, by simp at h; omega⟩
    simp only [items, List.cons_append, List.append_assoc]
    rw [readItems, after_none (by decide)]
    simp only [after, if_true]
    rw [hf.back a _ (items_stops f l rest)]
    simp only
    rw [ih k (by simp at h; omega)]
    rfl

/-- A list is read back from its `str`. -/
theorem readList_list {α : Type} {f : α → List Char} {read : List Char → Option (α × List Char)} (hf : Reads f read)
    (l : List α) (rest : List Char) : readList read (list f l ++ rest) = some (l, rest) := by
  cases l with
  | nil => rfl
  | cons a l =>
    obtain ⟨c, t, e, hc⟩ := hf.head a
    simp only [list, List.cons_append, List.append_assoc]
    have e1 : after ['[', ']'] ('[' :: (f a ++ (items f l ++ rest))) = none := by
      rw [after, if_pos rfl, e, List.cons_append]
      exact after_none hc.symm
    unfold readList
    rw [e1]
    simp only [after, if_true]
    rw [hf.back a _ (items_stops f l rest)]
    simp only
    rw [readItems_items hf l _ rest (by
      rw [List.length_append]
      have := items_length f l
      omega)]
    rfl

theorem list_head {α : Type} (f : α → List Char) (l : List α) : ∃ t, list f l = '[' :: t := by
  cases l with
  | nil => exact ⟨_, rfl⟩
  | cons a l => exact ⟨_, rfl⟩

/-- `None` or a list is read back from its `str`. -/
theorem readOption_option {α : Type} {f : α → List Char} {read : List Char → Option (α × List Char)} (hf : Reads f read)
    (o : Option (List α)) (rest : List Char) : readOption read (option f o ++ rest) = some (o, rest) := by
  cases o with
  | none => rfl
  | some l =>
    unfold readOption option
    obtain ⟨t, e⟩ := list_head f l
    have e1 : after ['N', 'o', 'n', 'e'] (list f l ++ rest) = none := by
      rw [e, List.cons_append]
      exact after_none (by decide)
    simp only
    rw [e1, readList_list hf]
    rfl

theorem reads_text (printable : Char → Bool) : Reads (text printable) readText where
  back s rest _ := readText_text printable s rest
  head s := ⟨_, _, rfl, by rcases quoteOf_cases s.toList with h | h <;> rw [h] <;> decide⟩

theorem reads_int : Reads int readInt where
  back i rest h := readInt_int i h.notDigit
  head i := by
    unfold int
    split
    · exact ⟨_, _, rfl, by decide⟩
    · obtain ⟨c, t, e, hc⟩ := nat_head i.natAbs
      exact ⟨c, t, e, digit_ne hc (by decide)⟩

theorem reads_num (F : Floats) : Reads (num F) (readNum F) where
  back x rest h := readNum_num F x h
  head x := by
    cases x with
    | nan => exact ⟨_, _, rfl, by decide⟩
    | inf => exact ⟨_, _, rfl, by decide⟩
    | ninf => exact ⟨_, _, rfl, by decide⟩
    | fin x =>
      obtain ⟨c, t, hc, h | h⟩ := F.write_head x
      · exact ⟨c, t, h, digit_ne hc (by decide)⟩
      · exact ⟨_, _, h, by decide⟩

end PyText

end Verif
