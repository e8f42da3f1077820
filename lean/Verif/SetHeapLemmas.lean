import Verif.SetHeapSpec
import Verif.RuleHeapLemmas

/-!
# Helper lemmas: rulesets over the heap of activations
-/

namespace Verif.SetHeap

open Verif Verif.Activation Verif.RuleHeap Verif.ActivationProps Verif.Spec

/-- What is known of objects is still known. -/
structure Keeps (h h' : Heap) (us us' : Values) : Prop where
  kept : ∀ (k : Nat) (x : List Bool), us[k]? = some (some x) → us'[k]? = some (some x)
  size : us.length ≤ us'.length
  dtype : h'.w.dtype = h.w.dtype

theorem Keeps.refl (h : Heap) (us : Values) : Keeps h h us us := ⟨fun _ _ h => h, Nat.le_refl _, rfl⟩

theorem Keeps.trans {h h' h'' : Heap} {us us' us'' : Values} (a : Keeps h h' us us') (b : Keeps h' h'' us' us'') :
    Keeps h h'' us us'' :=
  ⟨fun k x hx => b.kept k x (a.kept k x hx), a.size.trans b.size, b.dtype.trans a.dtype⟩

theorem after_size (us : Values) (op : Op) (r : Except Err Out) (n : Nat) : us.length ≤ (after us op r n).length := by
  cases r with
  | error e => simp [after]
  | ok o =>
    cases op with
    | bin k a b => cases k <;> simp [after]
    | multi b m ids => cases b <;> simp [after]
    | _ => simp [after]

theorem keep_step {w₀ : World} {h : Heap} {us : Values} (op : Op) (hr : Activation.Reach w₀ h us) (hl : Legal h.w us op)
    (h1 : ∀ k, op ≠ .clear k) (h2 : ∀ k, op ≠ .delete k) (h3 : op.sets = false) :
    Activation.Reach w₀ (step op h).2 (after us op (step op h).1 (step op h).2.objs.length) ∧
      Keeps h (step op h).2 us (after us op (step op h).1 (step op h).2.objs.length) :=
  ⟨hr.step op hl, fun k _ hx => after_keep op _ _ hx (h1 k) (h2 k), after_size _ _ _ _, ((step_world op hr.abs hl).1 h3).1⟩

theorem state_of_bind {σ α β : Type} (m : Py σ α) (f : α → β) (s : σ) :
    (do let x ← m; pure (f x) : Py σ β) s = ((m s).1.map f, (m s).2) := by
  rw [Py.bind_run]
  rcases m s with ⟨e | x, s'⟩ <;> rfl

/-- Reading a live object. -/
theorem keep_raw {w₀ : World} {h : Heap} {us : Values} {i : Nat} {u : List Bool} (hr : Activation.Reach w₀ h us)
    (hi : us[i]? = some (some u)) :
    ∃ h', onObj i raw h = (.ok (arr u), h') ∧ Activation.Reach w₀ h' us ∧ Keeps h h' us us := by
  obtain ⟨h', e, -⟩ := onObj_raw hr.abs hi
  obtain ⟨k1, k2⟩ := keep_step (.read .raw i) hr ⟨u, by simp [Vectors, hi]⟩ (by simp) (by simp) rfl
  have hs : step (.read .raw i) h = (.ok (.array (arr u)), h') := by
    simp only [step, Read.run, onObj] at e ⊢
    cases ha : h.objs[i]? with
    | none => simp [ha] at e
    | some a =>
      simp only [ha] at e ⊢
      rw [state_of_bind]
      rcases hraw : raw ⟨a, h.w⟩ with ⟨e' | v, o'⟩ <;> simp [hraw, Except.map] at e ⊢
      exact e
  rw [hs] at k1 k2
  exact ⟨h', e, k1, k2⟩

theorem keep_new {w₀ : World} {h : Heap} {us : Values} {u : List Bool} (opt toFile : Bool) (hr : Activation.Reach w₀ h us)
    (hne : u ≠ []) (hf : Fits h.w u) :
    ∃ us', Activation.Reach w₀ (new (.arr (arr u)) opt none toFile false h).2 us' ∧
      Keeps h (new (.arr (arr u)) opt none toFile false h).2 us us' ∧
      ∀ n, (new (.arr (arr u)) opt none toFile false h).1 = .ok n → n = us.length ∧ us'[n]? = some (some u) := by
  have hd : Describes h.w (.arr (arr u)) none u := Or.inl rfl
  obtain ⟨k1, k2⟩ := keep_step (.new u (.arr (arr u)) opt none toFile) hr ⟨hd, hne, hf⟩ (by simp) (by simp) rfl
  have e : (step (.new u (.arr (arr u)) opt none toFile) h).2 = (new (.arr (arr u)) opt none toFile false h).2 := by
    simp only [step]; rw [state_of_bind]
  have e1 : (step (.new u (.arr (arr u)) opt none toFile) h).1 = (new (.arr (arr u)) opt none toFile false h).1.map .object := by
    simp only [step]; rw [state_of_bind]
  rw [e] at k1 k2
  refine ⟨_, k1, k2, fun n hn => ?_⟩
  have hlen : n = us.length := by
    rcases new_abs opt toFile hr.abs (hd.stands hne) hne hf with ⟨a, w', r1, _⟩ | ⟨e', r1, _⟩
    · rw [r1] at hn; cases hn; rfl
    · rw [r1] at hn; cases hn
  refine ⟨hlen, ?_⟩
  rw [e1, hn, hlen]
  simp [after, Except.map]

theorem keep_or {w₀ : World} {h : Heap} {us : Values} {i j : Nat} {u v : List Bool} (hr : Activation.Reach w₀ h us)
    (hi : us[i]? = some (some u)) (hj : us[j]? = some (some v)) (hf : Fits h.w u) :
    ∃ us', Activation.Reach w₀ (binop .or i j h).2 us' ∧ Keeps h (binop .or i j h).2 us us' ∧
      ∀ n, (binop .or i j h).1 = .ok n → n = us.length ∧ us'[n]? = some (some (List.zipWith (· || ·) u v)) := by
  obtain ⟨k1, k2⟩ := keep_step (.bin .or i j) hr ⟨u, v, by simp [Vectors, hi, hj], hf⟩ (by simp) (by simp) rfl
  have e : (step (.bin .or i j) h).2 = (binop .or i j h).2 := by
    simp only [step]; rw [state_of_bind]
  have e1 : (step (.bin .or i j) h).1 = (binop .or i j h).1.map .object := by
    simp only [step]; rw [state_of_bind]
  rw [e] at k1 k2
  refine ⟨_, k1, k2, fun n hn => ?_⟩
  have hlen : n = us.length := by
    by_cases hl : u.length = v.length
    · by_cases hint : IsInt h i ∧ IsInt h j
      · rw [binop_int .or hr.abs hi hj hint.1 hint.2] at hn; cases hn
      · rcases binop_abs .or hr.abs hi hj hl hf hint with ⟨h0, a, w', r1, _⟩ | ⟨e', h0, r1, _⟩
        · rw [r1] at hn; cases hn; rfl
        · rw [r1] at hn; cases hn
    · rw [binop_length .or hr.abs hi hj hl] at hn; cases hn
  refine ⟨hlen, ?_⟩
  rw [e1, hn, hlen]
  simp [after, Except.map, vectorOf_eq hi, vectorOf_eq hj]

theorem keep_multi {w₀ : World} {h : Heap} {us : Values} {ids : List Nat} {u : List Bool} {vs : List (List Bool)} (mem : Mem)
    (hr : Activation.Reach w₀ h us) (hv : Vectors us ids (u :: vs)) (hl : ∀ v ∈ vs, v.length = u.length) (hf : Fits h.w u) :
    ∃ us', Activation.Reach w₀ (multi false mem ids h).2 us' ∧ Keeps h (multi false mem ids h).2 us us' ∧
      ∀ n, (multi false mem ids h).1 = .ok n → n = us.length ∧ us'[n]? = some (some (markedBySome u.length (u :: vs))) := by
  obtain ⟨k1, k2⟩ := keep_step (.multi false mem ids) hr ⟨u, vs, hv, hl, hf⟩ (by simp) (by simp) rfl
  have e : (step (.multi false mem ids) h).2 = (multi false mem ids h).2 := by
    simp only [step]; rw [state_of_bind]
  have e1 : (step (.multi false mem ids) h).1 = (multi false mem ids h).1.map .object := by
    simp only [step]; rw [state_of_bind]
  rw [e] at k1 k2
  refine ⟨_, k1, k2, fun n hn => ?_⟩
  cases ids with
  | nil => simp [Vectors] at hv
  | cons i ids =>
    have hlen : n = us.length := by
      rcases multi_abs false mem hr.abs hv hl hf with ⟨h0, a, w', r1, _⟩ | ⟨h', r1, _⟩ | ⟨e', h0, r1, _⟩
      · rw [r1] at hn; cases hn; rfl
      · rw [r1] at hn; cases hn
      · rw [r1] at hn; cases hn
    refine ⟨hlen, ?_⟩
    have hi : vectorOf us i = u := by
      obtain ⟨v, vt, h1, hi, _⟩ := Live.cons hv
      cases h1
      exact vectorOf_eq hi
    rw [e1, hn, hlen]
    simp [after, Except.map, hv.map, hi]

/-- One union after the other. -/
theorem keep_pairs {w₀ : World} {n : Nat} : ∀ {ids : List Nat} {h : Heap} {us : Values} {i : Nat} {u : List Bool}
    {vs : List (List Bool)}, Activation.Reach w₀ h us → us[i]? = some (some u) → Vectors us ids vs →
    (∀ v ∈ u :: vs, v.length = n) → (h.w.dtype = .str ∨ 2 ≤ n) →
    ∃ us', Activation.Reach w₀ (unionPairs i ids h).2 us' ∧ Keeps h (unionPairs i ids h).2 us us' ∧
      ∀ m, (unionPairs i ids h).1 = .ok m → (ids = [] ∧ m = i ∨ us.length ≤ m) ∧
        us'[m]? = some (some (vs.foldl (List.zipWith (· || ·)) u)) := by
  intro ids
  induction ids with
  | nil =>
    intro h us i u vs hr hi hv hl hf
    have : vs = [] := Live.nil hv
    subst this
    refine ⟨us, hr, Keeps.refl h us, fun m hm => ?_⟩
    cases hm
    exact ⟨Or.inl ⟨rfl, rfl⟩, hi⟩
  | cons j ids ih =>
    intro h us i u vs hr hi hv hl hf
    obtain ⟨v, vt, rfl, hj, hvt⟩ := Live.cons hv
    have hu : u.length = n := hl u (by simp)
    have hvn : v.length = n := hl v (by simp)
    have hfu : Fits h.w u := by rcases hf with hf | hf; exacts [Or.inl hf, Or.inr (by omega)]
    obtain ⟨us1, k1, k2, k3⟩ := keep_or hr hi hj hfu
    rcases hb : binop .or i j h with ⟨e | k, h1⟩
    · have e1 : unionPairs i (j :: ids) h = (.error e, h1) := by
        simp only [unionPairs]; exact Py.bind_err hb
      rw [e1]
      rw [hb] at k1 k2
      exact ⟨us1, k1, k2, (fun m hm => by cases hm)⟩
    · have e1 : unionPairs i (j :: ids) h = unionPairs k ids h1 := by
        simp only [unionPairs]; exact Py.bind_ok hb
      rw [e1]
      rw [hb] at k1 k2 k3
      obtain ⟨hk, hku⟩ := k3 k rfl
      have hvt' : Vectors us1 ids vt := by
        have hx : ∀ (ids : List Nat) (vt : List (List Bool)), Vectors us ids vt → Vectors us1 ids vt := by
          intro ids
          induction ids with
          | nil => intro vt hvt; rw [Live.nil hvt]; rfl
          | cons a t iht =>
            intro vt hvt
            obtain ⟨x, xt, rfl, ha, hxt⟩ := Live.cons hvt
            have := iht xt hxt
            simp only [Vectors, List.map_cons, List.cons.injEq] at this ⊢
            exact ⟨k2.kept a x ha, this⟩
        exact hx ids vt hvt
      obtain ⟨us2, p1, p2, p3⟩ := ih k1 hku hvt' (by
        intro x hx
        rcases List.mem_cons.1 hx with rfl | hx
        · simp [hu, hvn]
        · exact hl x (by simp [hx])) (by rw [k2.dtype]; exact hf)
      refine ⟨us2, p1, k2.trans p2, fun m hm => ?_⟩
      obtain ⟨q1, q2⟩ := p3 m hm
      refine ⟨Or.inr ?_, q2⟩
      rcases q1 with ⟨-, rfl⟩ | q1
      · omega
      · exact k2.size.trans q1

theorem available_live {w₀ : World} {h : Heap} {us : Values} {i : Nat} {u : List Bool} {r : HRule}
    (hr : Activation.Reach w₀ h us) (hs : r.act = some i) (hi : us[i]? = some (some u)) : available r h = (.ok true, h) := by
  obtain ⟨hne, a, ha, hra⟩ := hr.abs.rep i u hi
  have hd := hra.data
  simp only [available, hs, look, ha, Py.bind_run, Py.get_run]
  cases hd' : a.data <;> simp_all [DataRep]

theorem allAvailable_live {w₀ : World} {h : Heap} {us : Values} (hr : Activation.Reach w₀ h us) :
    ∀ {rules : List HRule} {vs : List (List Bool)}, Held us rules vs → allAvailable rules h = (.ok true, h) := by
  intro rules
  induction rules with
  | nil => intro vs _; rfl
  | cons r rest ih =>
    rintro vs ⟨ids, h1, h2⟩
    cases ids with
    | nil => simp at h1
    | cons i ids =>
      obtain ⟨v, vt, rfl, hi, hvt⟩ := Live.cons h2
      simp only [List.map_cons, List.cons.injEq] at h1
      have e := ih ⟨ids, h1.2, hvt⟩
      simp [allAvailable, Py.bind_run, available_live hr h1.1 hi, e]

theorem available_same (r : HRule) (h : Heap) : (available r h).2 = h := by
  unfold available
  cases r.act with
  | none => rfl
  | some i =>
    simp only [look, Py.bind_run]
    cases h.objs[i]? with
    | none => rfl
    | some o => simp only [Py.bind_run, Py.get_run]; cases o.data <;> rfl

/-- One rule without activation is enough. -/
theorem allAvailable_false {h : Heap} : ∀ {rules : List HRule}, (∀ r ∈ rules, ∃ b, (available r h).1 = .ok b) →
    (∃ r ∈ rules, (available r h).1 = .ok false) → allAvailable rules h = (.ok false, h) := by
  have run : ∀ {r : HRule} {b : Bool}, (available r h).1 = .ok b → available r h = (.ok b, h) :=
    fun {r b} e => Prod.ext e (available_same r h)
  have all : ∀ {rules : List HRule}, (∀ r ∈ rules, ∃ b, (available r h).1 = .ok b) → ∃ b, allAvailable rules h = (.ok b, h) := by
    intro rules
    induction rules with
    | nil => intro _; exact ⟨true, rfl⟩
    | cons r rest ih =>
      intro ha
      obtain ⟨b, hb⟩ := ha r (.head _)
      obtain ⟨c, hc⟩ := ih fun x hx => ha x (.tail _ hx)
      exact ⟨b && c, by simp [allAvailable, Py.bind_run, run hb, hc]⟩
  intro rules
  induction rules with
  | nil => rintro _ ⟨r, hr, _⟩; cases hr
  | cons r rest ih =>
    rintro ha ⟨q, hq, hf⟩
    have hrest : ∀ x ∈ rest, ∃ b, (available x h).1 = .ok b := fun x hx => ha x (.tail _ hx)
    rcases List.mem_cons.1 hq with rfl | hq
    · obtain ⟨c, hc⟩ := all hrest
      simp [allAvailable, Py.bind_run, run hf, hc]
    · obtain ⟨b, hb⟩ := ha r (.head _)
      simp [allAvailable, Py.bind_run, run hb, ih hrest ⟨q, hq, hf⟩]

theorem filterMap_acts {rules : List HRule} {ids : List Nat} (h : rules.map (·.act) = ids.map some) :
    rules.filterMap (·.act) = ids := by
  have : rules.filterMap (·.act) = (rules.map (·.act)).filterMap id := by rw [List.filterMap_map]; rfl
  rw [this, h]
  simp [List.filterMap_map]

/-- The activation of the ruleset from those of its rules. -/
theorem evaluateSelf_live {w₀ : World} {h : Heap} {us : Values} {n : Nat} {rules : List HRule} {vs : List (List Bool)}
    (mem : Mem) (hr : Activation.Reach w₀ h us) (hne : rules ≠ []) (hh : Held us rules vs) (hl : ∀ v ∈ vs, v.length = n)
    (hf : h.w.dtype = .str ∨ 2 ≤ n) :
    ∃ us', Activation.Reach w₀ (evaluateSelf mem rules h).2 us' ∧ Keeps h (evaluateSelf mem rules h).2 us us' ∧
      ∀ r, (evaluateSelf mem rules h).1 = .ok r → ∃ m, r = some m ∧ us.length ≤ m ∧
        us'[m]? = some (some (markedBySome n vs)) := by
  have hav := allAvailable_live hr hh
  obtain ⟨ids, h1, h2⟩ := hh
  have hfm := filterMap_acts h1
  have e0 : evaluateSelf mem rules h = (match ids with
      | [] => (pure none : Py Heap (Option Nat))
      | [i] => do
        let v ← onObj i raw
        let a ← look i
        let n ← new (.arr v) a.optimize none a.toFile false
        pure (some n)
      | i :: ids => do
        let n ← orPairs (multi false mem (i :: ids)) (unionPairs i ids)
        pure (some n)) h := by
    unfold evaluateSelf
    split
    · exact absurd rfl hne
    · rw [Py.bind_run, hav, hfm]
      rfl
  rw [e0]
  match ids, h2 with
  | [], _ =>
    cases rules with
    | nil => exact absurd rfl hne
    | cons r t => simp at h1
  | [i], h2 =>
    obtain ⟨u, vt, rfl, hi, hvt⟩ := Live.cons h2
    have : vt = [] := Live.nil hvt
    subst this
    have hu : u.length = n := hl u (by simp)
    obtain ⟨h', q1, q2, q3⟩ := keep_raw hr hi
    obtain ⟨hune, a, ha, -⟩ := q2.abs.rep i u hi
    have hfu : Fits h'.w u := by
      rcases hf with hf | hf
      · exact Or.inl (q3.dtype.trans hf)
      · exact Or.inr (by omega)
    obtain ⟨us1, k1, k2, k3⟩ := keep_new a.optimize a.toFile q2 hune hfu
    have e1 : (do
        let v ← onObj i raw
        let a ← look i
        let n ← new (.arr v) a.optimize none a.toFile false
        pure (some n) : Py Heap (Option Nat)) h =
        ((new (.arr (arr u)) a.optimize none a.toFile false h').1.map some, (new (.arr (arr u)) a.optimize none a.toFile false h').2) := by
      rw [Py.bind_ok q1, Py.bind_ok (a := a) (s' := h') (by simp [look, ha]), state_of_bind]
    show ∃ us', Activation.Reach w₀ ((do
        let v ← onObj i raw
        let a ← look i
        let n ← new (.arr v) a.optimize none a.toFile false
        pure (some n) : Py Heap (Option Nat)) h).2 us' ∧ Keeps h ((do
        let v ← onObj i raw
        let a ← look i
        let n ← new (.arr v) a.optimize none a.toFile false
        pure (some n) : Py Heap (Option Nat)) h).2 us us' ∧
      ∀ r, ((do
        let v ← onObj i raw
        let a ← look i
        let n ← new (.arr v) a.optimize none a.toFile false
        pure (some n) : Py Heap (Option Nat)) h).1 = .ok r → ∃ m, r = some m ∧ us.length ≤ m ∧
        us'[m]? = some (some (markedBySome n [u]))
    rw [e1]
    refine ⟨us1, k1, q3.trans k2, fun r hrr => ?_⟩
    cases hx : (new (.arr (arr u)) a.optimize none a.toFile false h').1 with
    | error e => rw [hx] at hrr; cases hrr
    | ok m =>
      rw [hx] at hrr
      cases hrr
      obtain ⟨p1, p2⟩ := k3 m hx
      refine ⟨m, rfl, p1.ge, ?_⟩
      rw [p2]
      have := markedBySome_eq u [] (by simp)
      simp only [List.foldl_nil] at this
      rw [hu] at this
      rw [← this]
  | i :: j :: ids, h2 =>
    obtain ⟨u, vt, rfl, hi, hvt⟩ := Live.cons h2
    have hu : u.length = n := hl u (by simp)
    have hfu : Fits h.w u := by rcases hf with hf | hf; exacts [Or.inl hf, Or.inr (by omega)]
    have hlt : ∀ v ∈ vt, v.length = u.length := fun v hv => by rw [hu]; exact hl v (by simp [hv])
    obtain ⟨us1, k1, k2, k3⟩ := keep_multi mem hr h2 hlt hfu
    have key : ∃ us', Activation.Reach w₀ (orPairs (multi false mem (i :: j :: ids)) (unionPairs i (j :: ids)) h).2 us' ∧
        Keeps h (orPairs (multi false mem (i :: j :: ids)) (unionPairs i (j :: ids)) h).2 us us' ∧
        ∀ m, (orPairs (multi false mem (i :: j :: ids)) (unionPairs i (j :: ids)) h).1 = .ok m → us.length ≤ m ∧
          us'[m]? = some (some (markedBySome n (u :: vt))) := by
      unfold orPairs
      rcases hm : multi false mem (i :: j :: ids) h with ⟨e | m, h1⟩
      · rw [hm] at k1 k2
        by_cases he : e = .memoryError
        · subst he
          have hvt' : Vectors us1 (j :: ids) vt := by
            have hx : ∀ (ids : List Nat) (vt : List (List Bool)), Vectors us ids vt → Vectors us1 ids vt := by
              intro ids
              induction ids with
              | nil => intro vt hvt; rw [Live.nil hvt]; rfl
              | cons a t iht =>
                intro vt hvt
                obtain ⟨x, xt, rfl, ha, hxt⟩ := Live.cons hvt
                have := iht xt hxt
                simp only [Vectors, List.map_cons, List.cons.injEq] at this ⊢
                exact ⟨k2.kept a x ha, this⟩
            exact hx _ vt hvt
          obtain ⟨us2, p1, p2, p3⟩ := keep_pairs (n := n) k1 (k2.kept i u hi) hvt' hl (by rw [k2.dtype]; exact hf)
          refine ⟨us2, p1, k2.trans p2, fun m hm => ?_⟩
          obtain ⟨q1, q2⟩ := p3 m hm
          rcases q1 with ⟨hc, -⟩ | q1
          · cases hc
          · refine ⟨k2.size.trans q1, ?_⟩
            rw [q2, ← hu, ← markedBySome_eq u vt hlt]
            rfl
        · refine ⟨us1, ?_, ?_, ?_⟩
          all_goals (cases e <;> first | exact absurd rfl he | skip)
          all_goals first | exact k1 | exact k2 | (intro m hm; cases hm)
      · rw [hm] at k1 k2 k3
        refine ⟨us1, k1, k2, fun k hk => ?_⟩
        cases hk
        obtain ⟨q1, q2⟩ := k3 m rfl
        exact ⟨q1.ge, by rw [q2, hu]⟩
    obtain ⟨us2, p1, p2, p3⟩ := key
    show ∃ us', Activation.Reach w₀ ((do
        let n ← orPairs (multi false mem (i :: j :: ids)) (unionPairs i (j :: ids))
        pure (some n) : Py Heap (Option Nat)) h).2 us' ∧ Keeps h ((do
        let n ← orPairs (multi false mem (i :: j :: ids)) (unionPairs i (j :: ids))
        pure (some n) : Py Heap (Option Nat)) h).2 us us' ∧
      ∀ r, ((do
        let n ← orPairs (multi false mem (i :: j :: ids)) (unionPairs i (j :: ids))
        pure (some n) : Py Heap (Option Nat)) h).1 = .ok r → ∃ m, r = some m ∧ us.length ≤ m ∧
        us'[m]? = some (some (markedBySome n (u :: vt)))
    rw [state_of_bind]
    refine ⟨us2, p1, p2, fun r hrr => ?_⟩
    cases hx : (orPairs (multi false mem (i :: j :: ids)) (unionPairs i (j :: ids)) h).1 with
    | error e => rw [hx] at hrr; cases hrr
    | ok m =>
      rw [hx] at hrr
      cases hrr
      exact ⟨m, rfl, p3 m hx⟩

theorem evaluateSelf_ok {w₀ : World} {h : Heap} {us : Values} {n : Nat} {rules : List HRule} {vs : List (List Bool)}
    (mem : Mem) (hr : Activation.Reach w₀ h us) (hne : rules ≠ []) (hh : Held us rules vs) (hl : ∀ v ∈ vs, v.length = n)
    (hf : h.w.dtype = .str ∨ 2 ≤ n) (hmem : 2 * (mem.before - mem.after) ≤ mem.before ∧ mem.oomPairs = false)
    (hfile : h.w.storeRaw = true ∨ h.w.files (.vec (h.w.rands h.w.nRands)) = none) :
    ∃ a h', evaluateSelf mem rules h = (.ok a, h') := by
  have hav := allAvailable_live hr hh
  obtain ⟨ids, h1, h2⟩ := hh
  have hfm := filterMap_acts h1
  have nofail : ∀ w : World, w = h.w → w.storeRaw = false → NameFree w := by
    rintro w rfl hs
    rcases hfile with hc | hc
    · rw [hs] at hc; cases hc
    · exact hc
  unfold evaluateSelf
  split
  · exact absurd rfl hne
  · rw [Py.bind_ok hav]
    simp only [if_true, hfm]
    match ids, h2 with
    | [], _ => exact ⟨none, h, rfl⟩
    | [i], h2 =>
      obtain ⟨u, vt, rfl, hi, hvt⟩ := Live.cons h2
      have hu : u.length = n := hl u (by simp)
      obtain ⟨h', q1, q2, q3⟩ := keep_raw hr hi
      obtain ⟨hune, a, ha, -⟩ := q2.abs.rep i u hi
      have hfu : Fits h'.w u := by
        rcases hf with hf | hf
        · exact Or.inl (q3.dtype.trans hf)
        · exact Or.inr (by omega)
      have hw : h'.w = h.w := by
        obtain ⟨h'', e, -, s1⟩ := onObj_raw hr.abs hi
        rw [q1] at e
        cases e
        exact s1.w
      have hd : Describes h'.w (.arr (arr u)) none u := Or.inl rfl
      rcases new_abs a.optimize a.toFile q2.abs (hd.stands hune) hune hfu with ⟨b, w', r1, _⟩ | ⟨e', r1, _, _, _, r2, r3⟩
      · refine ⟨some us.length, ⟨h'.objs ++ [b], w'⟩, ?_⟩
        show (do
          let v ← onObj i raw
          let a ← look i
          let n ← new (.arr v) a.optimize none a.toFile false
          pure (some n) : Py Heap (Option Nat)) h = _
        rw [Py.bind_ok q1, Py.bind_ok (a := a) (s' := h') (by simp [look, ha]), Py.bind_ok r1]
        rfl
      · exact absurd (nofail _ hw r2) r3
    | i :: j :: ids, h2 =>
      obtain ⟨u, vt, rfl, hi, hvt⟩ := Live.cons h2
      have hu : u.length = n := hl u (by simp)
      have hfu : Fits h.w u := by rcases hf with hf | hf; exacts [Or.inl hf, Or.inr (by omega)]
      have hlt : ∀ v ∈ vt, v.length = u.length := fun v hv => by rw [hu]; exact hl v (by simp [hv])
      rcases multi_abs false mem hr.abs h2 hlt hfu with ⟨h0, a, w', r1, _⟩ | ⟨h', r1, _, _, r2⟩ | ⟨e', h0, r1, _, _, _, r2, r3⟩
      · refine ⟨some us.length, ⟨h0.objs ++ [a], w'⟩, ?_⟩
        show (do
          let n ← orPairs (multi false mem (i :: j :: ids)) (unionPairs i (j :: ids))
          pure (some n) : Py Heap (Option Nat)) h = _
        rw [Py.bind_ok (a := us.length) (s' := ⟨h0.objs ++ [a], w'⟩) (by simp [orPairs, r1])]
        rfl
      · rcases r2 with r2 | r2
        · omega
        · rw [hmem.2] at r2; cases r2
      · exact absurd (nofail _ rfl r2) r3

/-- The step from one state to another: what others hold is left alone. -/
structure Goes (w₀ : World) (n : Nat) (st st' : State) (us us' : Values) : Prop where
  inv : Inv w₀ n st' us'
  dtype : st'.h.w.dtype = st.h.w.dtype
  kept : ∀ (k : Nat) (x : List Bool), us[k]? = some (some x) → st.s.act ≠ some k →
    us'[k]? = some (some x) ∧ st'.s.act ≠ some k

theorem Inv.held {w₀ : World} {n : Nat} {st : State} {us : Values} (hi : Inv w₀ n st us) :
    ∃ vs, Held us st.s.rules vs ∧ ∀ v ∈ vs, v.length = n := by
  have : ∀ rules : List HRule, (∀ r ∈ rules, ∃ i x, r.act = some i ∧ us[i]? = some (some x) ∧ x.length = n ∧ st.s.act ≠ some i) →
      ∃ vs, Held us rules vs ∧ ∀ v ∈ vs, v.length = n := by
    intro rules
    induction rules with
    | nil => intro _; exact ⟨[], ⟨[], rfl, rfl⟩, by simp⟩
    | cons r t ih =>
      intro h
      obtain ⟨vs, ⟨ids, h1, h2⟩, h3⟩ := ih fun r hr => h r (by simp [hr])
      obtain ⟨i, x, k1, k2, k3, -⟩ := h r (by simp)
      refine ⟨x :: vs, ⟨i :: ids, by simp [h1, k1], ?_⟩, ?_⟩
      · simp only [Vectors, List.map_cons, List.cons.injEq] at h2 ⊢
        exact ⟨k2, h2⟩
      · intro v hv
        rcases List.mem_cons.1 hv with rfl | hv
        · exact k3
        · exact h3 v hv
  exact this _ hi.rules

theorem lt_of_live {us : Values} {k : Nat} {x : List Bool} (h : us[k]? = some (some x)) : k < us.length :=
  (List.getElem?_eq_some_iff.1 h).1

/-- A heap action which keeps everything, the ruleset staying as it is. -/
theorem goes_same {w₀ : World} {n : Nat} {s : HSet} {h h' : Heap} {us us' : Values} (hi : Inv w₀ n ⟨s, h⟩ us)
    (hr : Activation.Reach w₀ h' us') (hk : Keeps h h' us us') : Goes w₀ n ⟨s, h⟩ ⟨s, h'⟩ us us' := by
  refine ⟨⟨hr, by rw [show (State.mk s h').h.w.dtype = h.w.dtype from hk.dtype]; exact hi.fits, ?_, ?_⟩, hk.dtype,
    fun k x hx ho => ⟨hk.kept k x hx, ho⟩⟩
  · intro r hrr
    obtain ⟨i, x, k1, k2, k3, k4⟩ := hi.rules r hrr
    exact ⟨i, x, k1, hk.kept i x k2, k3, k4⟩
  · intro i hs
    obtain ⟨x, k1, k2⟩ := hi.own i hs
    exact ⟨x, hk.kept i x k1, k2⟩

/-- A heap action which made a new object, the new activation of the ruleset. -/
theorem goes_new {w₀ : World} {n m : Nat} {s : HSet} {h h' : Heap} {us us' : Values} {z : List Bool} (hi : Inv w₀ n ⟨s, h⟩ us)
    (hr : Activation.Reach w₀ h' us') (hk : Keeps h h' us us') (hm : us.length ≤ m) (hz : us'[m]? = some (some z))
    (hn : z.length = n) : Goes w₀ n ⟨s, h⟩ ⟨{ s with act := some m }, h'⟩ us us' := by
  refine ⟨⟨hr, by rw [show (State.mk { s with act := some m } h').h.w.dtype = h.w.dtype from hk.dtype]; exact hi.fits, ?_, ?_⟩,
    hk.dtype, fun k x hx ho => ⟨hk.kept k x hx, ?_⟩⟩
  · intro r hrr
    obtain ⟨i, x, k1, k2, k3, k4⟩ := hi.rules r hrr
    refine ⟨i, x, k1, hk.kept i x k2, k3, ?_⟩
    have := lt_of_live k2
    intro hc
    cases hc
    omega
  · intro i hs
    cases hs
    exact ⟨z, hz, hn⟩
  · have := lt_of_live hx
    intro hc
    cases hc
    omega

theorem Goes.trans {w₀ : World} {n : Nat} {a b c : State} {us us' us'' : Values} (h : Goes w₀ n a b us us')
    (h' : Goes w₀ n b c us' us'') : Goes w₀ n a c us us'' :=
  ⟨h'.inv, h'.dtype.trans h.dtype, fun k x hx ho => h'.kept k x (h.kept k x hx ho).1 (h.kept k x hx ho).2⟩

theorem markedBySome_length (n : Nat) (vs : List (List Bool)) : (markedBySome n vs).length = n := by simp [markedBySome]

theorem computeSelf_goes {w₀ : World} {n : Nat} {st : State} {us : Values} {vs : List (List Bool)} (mem : Mem)
    (hi : Inv w₀ n st us) (hne : st.s.rules ≠ []) (hh : Held us st.s.rules vs) (hl : ∀ v ∈ vs, v.length = n) :
    ∃ us', Goes w₀ n st (computeSelf mem st).2 us us' ∧ (computeSelf mem st).2.s.rules = st.s.rules ∧
      ((computeSelf mem st).1 = .ok () → ∃ m, (computeSelf mem st).2.s.act = some m ∧ us.length ≤ m ∧
        us'[m]? = some (some (markedBySome n vs))) := by
  obtain ⟨s, h⟩ := st
  obtain ⟨us', k1, k2, k3⟩ := evaluateSelf_live mem hi.reach hne hh hl hi.fits
  simp only at k1 k2 k3
  have e : computeSelf mem ⟨s, h⟩ = (match evaluateSelf mem s.rules h with
      | (.ok a, h') => (.ok (), ⟨{ s with act := a }, h'⟩)
      | (.error e, h') => (.error e, ⟨s, h'⟩)) := by
    simp only [computeSelf, Py.bind_run, Py.get_run, onHeap]
    rcases evaluateSelf mem s.rules h with ⟨e | a, h'⟩ <;> rfl
  rw [e]
  rcases hev : evaluateSelf mem s.rules h with ⟨e' | a, h'⟩
  · rw [hev] at k1 k2
    exact ⟨us', goes_same hi k1 k2, rfl, (fun hc => by cases hc)⟩
  · rw [hev] at k1 k2 k3
    obtain ⟨m, rfl, hm, hz⟩ := k3 a rfl
    exact ⟨us', goes_new hi k1 k2 hm hz (markedBySome_length n vs), rfl, fun _ => ⟨m, rfl, hm, hz⟩⟩

theorem missing_live {w₀ : World} {h : Heap} {us : Values} {i : Nat} {u : List Bool}
    (hr : Activation.Reach w₀ h us) (hi : us[i]? = some (some u)) : missing (some i) h = (.ok false, h) := by
  obtain ⟨hne, a, ha, hra⟩ := hr.abs.rep i u hi
  have : u.length ≠ 0 := fun hc => hne (List.length_eq_zero_iff.1 hc)
  simp [missing, look, Py.bind_run, ha, hra.length, this]

theorem append_goes {w₀ : World} {n : Nat} {st : State} {us : Values} {r : HRule} {i : Nat} {x : List Bool} (toFile : Bool)
    (hi : Inv w₀ n st us) (hr : r.act = some i) (hx : us[i]? = some (some x)) (hn : x.length = n) (ho : st.s.act ≠ some i) :
    ∃ us', Goes w₀ n st (append toFile r st).2 us us' ∧ (append toFile r st).2.s.rules = st.s.rules ++ [r] ∧
      ((append toFile r st).1 = .ok () → ∃ m, (append toFile r st).2.s.act = some m ∧ us.length ≤ m ∧
        (st.s.act = none → us'[m]? = some (some x)) ∧
        ∀ k y, st.s.act = some k → us[k]? = some (some y) → us'[m]? = some (some (List.zipWith (· || ·) y x))) := by
  obtain ⟨s, h⟩ := st
  have hi' : Inv w₀ n ⟨{ s with rules := s.rules ++ [r] }, h⟩ us := by
    refine ⟨hi.reach, hi.fits, ?_, hi.own⟩
    intro q hq
    simp only [List.mem_append, List.mem_singleton] at hq
    rcases hq with hq | rfl
    · exact hi.rules q hq
    · exact ⟨i, x, hr, hx, hn, ho⟩
  have lift : ∀ st' us', Goes w₀ n ⟨{ s with rules := s.rules ++ [r] }, h⟩ st' us us' → Goes w₀ n ⟨s, h⟩ st' us us' :=
    fun st' us' g => ⟨g.inv, g.dtype, g.kept⟩
  have hav := available_live hi.reach hr hx
  cases hs : s.act with
  | none =>
    obtain ⟨h', q1, q2, q3⟩ := keep_raw hi.reach hx
    have hune := (hi.reach.abs.rep i x hx).1
    have hfu : Fits h'.w x := by
      rcases hi.fits with hf | hf
      · exact Or.inl (q3.dtype.trans hf)
      · exact Or.inr (by omega)
    obtain ⟨us1, k1, k2, k3⟩ := keep_new true toFile q2 hune hfu
    have hact : RuleHeap.activation r h = (.ok (some (arr x)), h') := by
      simp only [RuleHeap.activation, hr]
      rw [Py.bind_ok (truthy_live hi.reach hx)]
      simp only [if_true]
      rw [Py.bind_ok q1]
      rfl
    have e : append toFile r ⟨s, h⟩ = (match new (.arr (arr x)) true none toFile false h' with
        | (.ok m, h2) => (.ok (), ⟨{ s with rules := s.rules ++ [r], act := some m }, h2⟩)
        | (.error e, h2) => (.error e, ⟨{ s with rules := s.rules ++ [r] }, h2⟩)) := by
      simp only [append, updateActivation, Py.bind_run, Py.modify_run, Py.get_run, onHeap, hav, hs, missing, Py.pure_run, if_true,
        hact]
      rcases new (.arr (arr x)) true none toFile false h' with ⟨e | m, h2⟩
      · simp only [hs]
      · simp
    rw [e]
    rcases hev : new (.arr (arr x)) true none toFile false h' with ⟨e' | m, h2⟩
    · rw [hev] at k1 k2
      exact ⟨us1, lift _ _ (goes_same hi' k1 (q3.trans k2)), rfl, (fun hc => by cases hc)⟩
    · rw [hev] at k1 k2 k3
      obtain ⟨p1, p2⟩ := k3 m rfl
      exact ⟨us1, lift _ _ (goes_new hi' k1 (q3.trans k2) p1.ge p2 hn), rfl,
        fun _ => ⟨m, rfl, p1.ge, fun _ => p2, (fun k y hk => by cases hk)⟩⟩
  | some j =>
    obtain ⟨y, hy, hyn⟩ := hi.own j hs
    have hfu : Fits h.w y := by rcases hi.fits with hf | hf; exacts [Or.inl hf, Or.inr (by omega)]
    obtain ⟨us1, k1, k2, k3⟩ := keep_or hi.reach hy hx hfu
    have hmi := missing_live hi.reach hy
    simp only at hmi k1 k2 k3
    have e : append toFile r ⟨s, h⟩ = (match binop .or j i h with
        | (.ok m, h2) => (.ok (), ⟨{ s with rules := s.rules ++ [r], act := some m }, h2⟩)
        | (.error e, h2) => (.error e, ⟨{ s with rules := s.rules ++ [r] }, h2⟩)) := by
      simp only [append, updateActivation, Py.bind_run, Py.modify_run, Py.get_run, onHeap, hav, hs, hmi, if_true, hr]
      simp only [Bool.false_eq_true, if_false, Py.bind_run, onHeap]
      rcases binop .or j i h with ⟨e | m, h2⟩
      · simp only [hs]
      · simp
    rw [e]
    rcases hev : binop .or j i h with ⟨e' | m, h2⟩
    · rw [hev] at k1 k2
      exact ⟨us1, lift _ _ (goes_same hi' k1 k2), rfl, (fun hc => by cases hc)⟩
    · rw [hev] at k1 k2 k3
      obtain ⟨p1, p2⟩ := k3 m rfl
      refine ⟨us1, lift _ _ (goes_new hi' k1 k2 p1.ge p2 (by simp [hyn, hn])), rfl, fun _ => ⟨m, rfl, p1.ge, ?_, ?_⟩⟩
      · intro hc; cases hc
      · intro k y' hk hy'
        cases hk
        rw [hy] at hy'
        cases hy'
        exact p2

theorem clearOwn_goes {w₀ : World} {n : Nat} {st : State} {us : Values} (hi : Inv w₀ n st us) :
    ∃ us', Goes w₀ n st (clearOwn st).2 us us' ∧ (clearOwn st).2.s = st.s ∧ (clearOwn st).1 = .ok () ∧
      ∀ i, st.s.act = some i → us'[i]? = some (some (List.replicate n false)) := by
  obtain ⟨s, h⟩ := st
  cases hs : s.act with
  | none =>
    have e : clearOwn ⟨s, h⟩ = (.ok (), ⟨s, h⟩) := by simp [clearOwn, Py.bind_run, hs]
    rw [e]
    exact ⟨us, goes_same hi hi.reach (Keeps.refl _ _), rfl, rfl, (fun i hc => by cases hc)⟩
  | some i =>
    obtain ⟨x, hx, hn⟩ := hi.own i hs
    have hf : Fits h.w x := by rcases hi.fits with hf | hf; exacts [Or.inl hf, Or.inr (by omega)]
    obtain ⟨h', r1, -, -⟩ := clear_abs hi.reach.abs hx hf
    have hleg : Legal h.w us (.clear i) := ⟨x, by simp [Vectors, hx], hf⟩
    have hst : step (.clear i) h = (.ok .done, h') := by simp only [step]; rw [Py.bind_ok r1]; rfl
    have hr' := hi.reach.step (.clear i) hleg
    have hw := ((step_world (.clear i) hi.reach.abs hleg).1 rfl).1
    rw [show (State.mk s h).h = h from rfl, hst] at hr' hw
    have e : clearOwn ⟨s, h⟩ = (.ok (), ⟨s, h'⟩) := by
      simp [clearOwn, Py.bind_run, hs, onHeap, r1]
    rw [e]
    have hkeep : ∀ (k : Nat) (y : List Bool), us[k]? = some (some y) → k ≠ i →
        (after us (.clear i) (.ok .done) h'.objs.length)[k]? = some (some y) := by
      intro k y hy hk
      exact after_keep _ _ _ hy (by intro hc; cases hc; exact hk rfl) (by simp)
    have hown : (after us (.clear i) (.ok .done) h'.objs.length)[i]? = some (some (List.replicate n false)) := by
      simp [after, List.getElem?_set_self (lt_of_live hx), vectorOf_eq hx, hn]
    refine ⟨_, ⟨⟨hr', ?_, ?_, ?_⟩, hw, ?_⟩, rfl, rfl, ?_⟩
    · show h'.w.dtype = .str ∨ _
      rw [hw]; exact hi.fits
    · intro r hr
      obtain ⟨k, y, k1, k2, k3, k4⟩ := hi.rules r hr
      refine ⟨k, y, k1, hkeep k y k2 ?_, k3, k4⟩
      rintro rfl
      exact k4 hs
    · intro k hk
      have : k = i := by
        have := hk.symm.trans hs
        simpa using this
      subst this
      exact ⟨_, hown, by simp⟩
    · intro k y hy hk
      refine ⟨hkeep k y hy ?_, hk⟩
      rintro rfl
      exact hk hs
    · intro k hk
      cases hk
      exact hown

theorem run_goes {w₀ : World} {n : Nat} {st : State} {us : Values} (op : SetOp) (hi : Inv w₀ n st us)
    (hne : st.s.rules ≠ []) (hf : op.Fine n st us) :
    ∃ us', Goes w₀ n st (op.run st).2 us us' ∧ (op.run st).2.s.rules ≠ [] := by
  cases op with
  | compute mem =>
    obtain ⟨vs, h1, h2⟩ := hi.held
    obtain ⟨us', g, hr, -⟩ := computeSelf_goes mem hi hne h1 h2
    exact ⟨us', g, by simp only [SetOp.run, hr]; exact hne⟩
  | append toFile r =>
    obtain ⟨i, x, h1, h2, h3, h4⟩ := hf
    obtain ⟨us', g, hr, -⟩ := append_goes toFile hi h1 h2 h3 h4
    exact ⟨us', g, by simp [SetOp.run, hr]⟩
  | clear =>
    obtain ⟨us', g, hr, -⟩ := clearOwn_goes hi
    exact ⟨us', g, by simp only [SetOp.run, hr]; exact hne⟩

theorem runOps_goes {w₀ : World} {n : Nat} : ∀ (ops : List SetOp) {st : State} {us : Values}, Inv w₀ n st us →
    st.s.rules ≠ [] → (∀ op ∈ ops, op.Fine n st us) → ∃ us', Goes w₀ n st (runOps ops st) us us' := by
  intro ops
  induction ops with
  | nil => intro st us hi _ _; exact ⟨us, goes_same hi hi.reach (Keeps.refl _ _)⟩
  | cons op rest ih =>
    intro st us hi hne hf
    obtain ⟨us1, g1, hne1⟩ := run_goes op hi hne (hf op (by simp))
    obtain ⟨us2, g2⟩ := ih g1.inv hne1 (by
      intro q hq
      have := hf q (by simp [hq])
      cases q with
      | append t r =>
        obtain ⟨i, x, h1, h2, h3, h4⟩ := this
        exact ⟨i, x, h1, (g1.kept i x h2 h4).1, h3, (g1.kept i x h2 h4).2⟩
      | compute m => trivial
      | clear => trivial)
    exact ⟨us2, g1.trans g2⟩

/-! ### Deleting -/

/-- The data of object `i` is not there any more. -/
def Gone (h : Heap) (i : Nat) : Prop :=
  ∃ a, h.objs[i]? = some a ∧ ((∃ c, a.data = .deleted c) ∨ ∃ p, a.data = .file p ∧ h.w.files p = none)

theorem Gone.available {h : Heap} {i : Nat} {r : HRule} (hg : Gone h i) (hr : r.act = some i) :
    available r h = (.ok false, h) := by
  obtain ⟨a, ha, hd⟩ := hg
  simp only [RuleHeap.available, hr, look, ha, Py.bind_run, Py.get_run]
  rcases hd with ⟨c, hd⟩ | ⟨p, hd, hp⟩
  · simp [hd]
  · simp [hd, hp]

theorem delete_gone {h : Heap} {i : Nat} {a : Act} (ha : h.objs[i]? = some a) :
    ∃ h', onObj i delete h = (.ok (), h') ∧ Gone h' i ∧ h'.objs.length = h.objs.length ∧
      (∀ k, k ≠ i → h'.objs[k]? = h.objs[k]?) ∧
      (∀ p, h'.w.files p = h.w.files p ∨ h'.w.files p = none) := by
  have hlt := (List.getElem?_eq_some_iff.1 ha).1
  have fin : ∀ (a' : Act) (w' : World), onObj i delete h = (.ok (), ⟨h.objs.set i a', w'⟩) →
      ((∃ c, a'.data = .deleted c) ∨ ∃ p, a'.data = .file p ∧ w'.files p = none) →
      (∀ p, w'.files p = h.w.files p ∨ w'.files p = none) →
      ∃ h', onObj i delete h = (.ok (), h') ∧ Gone h' i ∧ h'.objs.length = h.objs.length ∧
      (∀ k, k ≠ i → h'.objs[k]? = h.objs[k]?) ∧
      (∀ p, h'.w.files p = h.w.files p ∨ h'.w.files p = none) := by
    intro a' w' e hd hf
    refine ⟨_, e, ⟨a', List.getElem?_set_self hlt, hd⟩, by simp, fun k hk => List.getElem?_set_ne (Ne.symm hk), hf⟩
  rcases hd : a.data with b | n | t | c | r | p | c
  case file =>
    refine fin a { h.w with files := fun q => if q = p then none else h.w.files q } ?_ (Or.inr ⟨p, hd, by simp⟩) ?_
    · simp [onObj, ha, delete, Py.bind_run, hd, setWorld]
    · intro q
      by_cases hq : q = p <;> simp [hq]
  case text => exact fin { a with data := .deleted true } h.w (by simp [onObj, ha, delete, Py.bind_run, hd, setSelf]) (Or.inl ⟨_, rfl⟩) (fun _ => Or.inl rfl)
  case carr => exact fin { a with data := .deleted true } h.w (by simp [onObj, ha, delete, Py.bind_run, hd, setSelf]) (Or.inl ⟨_, rfl⟩) (fun _ => Or.inl rfl)
  case deleted =>
    cases c
    · exact fin { a with data := .deleted false } h.w (by simp [onObj, ha, delete, Py.bind_run, hd, setSelf]) (Or.inl ⟨_, rfl⟩) (fun _ => Or.inl rfl)
    · exact fin { a with data := .deleted true } h.w (by simp [onObj, ha, delete, Py.bind_run, hd, setSelf]) (Or.inl ⟨_, rfl⟩) (fun _ => Or.inl rfl)
  all_goals exact fin { a with data := .deleted false } h.w (by simp [onObj, ha, delete, Py.bind_run, hd, setSelf]) (Or.inl ⟨_, rfl⟩) (fun _ => Or.inl rfl)

theorem delete_keeps_gone {h h' : Heap} {i k : Nat} (e : onObj i delete h = (.ok (), h')) (hk : Gone h k) : Gone h' k := by
  cases ha : h.objs[i]? with
  | none => simp [onObj, ha] at e
  | some a =>
    obtain ⟨h2, e2, g, -, ho, hf⟩ := delete_gone ha
    rw [e] at e2
    cases e2
    by_cases hki : k = i
    · exact hki ▸ g
    · obtain ⟨b, hb, hd⟩ := hk
      refine ⟨b, (ho k hki).trans hb, ?_⟩
      rcases hd with hd | ⟨p, hd, hp⟩
      · exact Or.inl hd
      · refine Or.inr ⟨p, hd, ?_⟩
        rcases hf p with hq | hq
        · rw [hq, hp]
        · exact hq

theorem delEach_keeps_gone : ∀ {rules : List HRule} {h h' : Heap} {k : Nat}, delEach rules h = (.ok (), h') → Gone h k →
    Gone h' k := by
  intro rules
  induction rules with
  | nil => intro h h' k e hk; cases e; exact hk
  | cons r t ih =>
    intro h h' k e hk
    obtain ⟨u, h1, e1, e2⟩ := Py.bind_eq_ok e
    refine ih e2 ?_
    unfold RuleHeap.delActivation at e1
    cases hr : r.act with
    | none => simp only [hr] at e1; cases e1; exact hk
    | some i => simp only [hr] at e1; exact delete_keeps_gone e1 hk

/-- Deleting the activations of rules, each of which has its own. -/
theorem delEach_live {w₀ : World} : ∀ {rules : List HRule} {ids : List Nat} {h : Heap} {us : Values} {vs : List (List Bool)},
    Activation.Reach w₀ h us → rules.map (·.act) = ids.map some → Vectors us ids vs → ids.Nodup →
    ∃ h' us', delEach rules h = (.ok (), h') ∧ Activation.Reach w₀ h' us' ∧ (∀ i ∈ ids, Gone h' i) ∧
      ∀ (k : Nat) (x : List Bool), us[k]? = some (some x) → k ∉ ids → us'[k]? = some (some x) := by
  intro rules
  induction rules with
  | nil =>
    intro ids h us vs hr h1 h2 h3
    have : ids = [] := by cases ids with
      | nil => rfl
      | cons a t => simp at h1
    subst this
    exact ⟨h, us, rfl, hr, by simp, fun k x hx _ => hx⟩
  | cons r t ih =>
    intro ids h us vs hr h1 h2 h3
    cases ids with
    | nil => simp at h1
    | cons i ids =>
      obtain ⟨u, vt, rfl, hi, hvt⟩ := Live.cons h2
      simp only [List.map_cons, List.cons.injEq] at h1
      obtain ⟨hnot, hnd⟩ := List.nodup_cons.1 h3
      have hleg : Legal h.w us (.delete i) := ⟨u, by simp [Vectors, hi]⟩
      obtain ⟨hne, a, ha, -⟩ := hr.abs.rep i u hi
      obtain ⟨h1', e1, g1, -⟩ := delete_gone ha
      have hst : step (.delete i) h = (.ok .done, h1') := by simp only [step]; rw [Py.bind_ok e1]; rfl
      have hr1 := hr.step (.delete i) hleg
      rw [hst] at hr1
      have hk1 : ∀ (k : Nat) (x : List Bool), us[k]? = some (some x) → k ≠ i →
          (after us (.delete i) (.ok .done) h1'.objs.length)[k]? = some (some x) := by
        intro k x hx hk
        exact after_keep _ _ _ hx (by simp) (by intro hc; cases hc; exact hk rfl)
      have hvt' : Vectors (after us (.delete i) (.ok .done) h1'.objs.length) ids vt := by
        have hx : ∀ (ids : List Nat) (vt : List (List Bool)), i ∉ ids → Vectors us ids vt →
            Vectors (after us (.delete i) (.ok .done) h1'.objs.length) ids vt := by
          intro ids
          induction ids with
          | nil => intro vt _ hvt; rw [Live.nil hvt]; rfl
          | cons a t iht =>
            intro vt hn hvt
            obtain ⟨x, xt, rfl, ha, hxt⟩ := Live.cons hvt
            have := iht xt (fun hc => hn (by simp [hc])) hxt
            simp only [Vectors, List.map_cons, List.cons.injEq] at this ⊢
            exact ⟨hk1 a x ha (fun hc => hn (by simp [hc])), this⟩
        exact hx ids vt hnot hvt
      obtain ⟨h2', us2, e2, r2, g2, k2⟩ := ih hr1 h1.2 hvt' hnd
      have e1' : RuleHeap.delActivation r h = (.ok (), h1') := by simp only [RuleHeap.delActivation, h1.1]; exact e1
      refine ⟨h2', us2, ?_, r2, ?_, ?_⟩
      · simp only [delEach]
        rw [Py.bind_ok e1']
        exact e2
      · intro k hk
        rcases List.mem_cons.1 hk with rfl | hk
        · exact delEach_keeps_gone e2 g1
        · exact g2 k hk
      · intro k x hx hk
        simp only [List.mem_cons, not_or] at hk
        exact k2 k x (hk1 k x hx hk.1) hk.2

theorem setAvailable_live {w₀ : World} {st : State} {us : Values} {i : Nat} {u : List Bool} (hr : Activation.Reach w₀ st.h us)
    (hs : st.s.act = some i) (hi : us[i]? = some (some u)) : setAvailable st = (.ok true, st) := by
  obtain ⟨hne, a, ha, hra⟩ := hr.abs.rep i u hi
  have hd := hra.data
  have hz : u.length ≠ 0 := fun hc => hne (List.length_eq_zero_iff.1 hc)
  simp only [setAvailable, hs, look, ha, Py.bind_run, Py.get_run, onHeap, hra.length]
  cases hd' : a.data <;> simp_all [DataRep]

theorem setAvailable_gone {st : State} {i : Nat} (hs : st.s.act = some i) (hg : Gone st.h i) :
    setAvailable st = (.ok false, st) := by
  obtain ⟨a, ha, hd⟩ := hg
  simp only [setAvailable, hs, look, ha, Py.bind_run, Py.get_run, onHeap]
  split
  · rfl
  · rcases hd with ⟨c, hd⟩ | ⟨p, hd, hp⟩
    · simp [hd]
    · simp [hd, hp]

end Verif.SetHeap
