import Verif.Spec.Similarity
import Verif.Lemmas.ParseTpm
import Verif.Lemmas.Utils
import Mathlib.Algebra.BigOperators.Group.Finset.Basic
import Mathlib.Algebra.BigOperators.Ring.Finset
import Mathlib.Tactic.Ring
import Mathlib.Tactic.Linarith
import Mathlib.Tactic.FieldSimp

/-! # Lemmas on the comparisons of profiles -/

namespace Demod

/-- An alignment of two words, with its cost. -/
inductive Align {α : Type} : Nat → List α → List α → Prop
  | nil : Align 0 [] []
  | del (n : Nat) (x : α) (a b : List α) : Align n a b → Align (n + 1) (x :: a) b
  | ins (n : Nat) (y : α) (a b : List α) : Align n a b → Align (n + 1) a (y :: b)
  | rep (n : Nat) (x y : α) (a b : List α) : Align n a b → Align (n + 1) (x :: a) (y :: b)
  | keep (n : Nat) (x : α) (a b : List α) : Align n a b → Align n (x :: a) (x :: b)

section
variable {α : Type} [DecidableEq α]

theorem editDistance_nil (b : List α) : editDistance [] b = b.length := rfl

theorem editDistance_cons_nil (x : α) (a : List α) : editDistance (x :: a) [] = a.length + 1 := rfl

theorem editDistance_cons (x y : α) (a b : List α) : editDistance (x :: a) (y :: b)
    = min (min (editDistance a (y :: b) + 1) (editDistance (x :: a) b + 1)) (editDistance a b + if x = y then 0 else 1) := rfl

omit [DecidableEq α] in
theorem align_all_ins (b : List α) : Align b.length [] b := by
  induction b with
  | nil => exact .nil
  | cons y b ih => exact .ins _ y _ _ ih

omit [DecidableEq α] in
theorem align_all_del (a : List α) : Align a.length a [] := by
  induction a with
  | nil => exact .nil
  | cons y b ih => exact .del _ y _ _ ih

theorem align_editDistance (a b : List α) : Align (editDistance a b) a b := by
  induction a generalizing b with
  | nil => exact align_all_ins b
  | cons x a iha =>
    induction b with
    | nil => exact align_all_del (x :: a)
    | cons y b ihb =>
      rw [editDistance_cons]
      rcases min_choice (min (editDistance a (y :: b) + 1) (editDistance (x :: a) b + 1)) (editDistance a b + if x = y then 0 else 1) with h | h
      · rw [h]
        rcases min_choice (editDistance a (y :: b) + 1) (editDistance (x :: a) b + 1) with h | h
        · rw [h]; exact .del _ _ _ _ (iha _)
        · rw [h]; exact .ins _ _ _ _ ihb
      · rw [h]
        split
        · rename_i e
          subst e
          exact .keep _ _ _ _ (iha _)
        · exact .rep _ _ _ _ _ (iha _)

theorem editDistance_le_del (x : α) (a b : List α) : editDistance (x :: a) b ≤ editDistance a b + 1 := by
  cases b with
  | nil =>
    rw [editDistance_cons_nil]
    cases a with
    | nil => simp [editDistance_nil]
    | cons y a => rw [editDistance_cons_nil]; simp
  | cons y b => rw [editDistance_cons]; omega

theorem editDistance_le_ins (y : α) (a b : List α) : editDistance a (y :: b) ≤ editDistance a b + 1 := by
  cases a with
  | nil => simp [editDistance_nil]
  | cons x a => rw [editDistance_cons]; omega

theorem editDistance_le_align {n : Nat} {a b : List α} (h : Align n a b) : editDistance a b ≤ n := by
  induction h with
  | nil => simp [editDistance_nil]
  | del n x a b _ ih => have := editDistance_le_del x a b; omega
  | ins n y a b _ ih => have := editDistance_le_ins y a b; omega
  | rep n x y a b _ ih => rw [editDistance_cons]; split <;> omega
  | keep n x a b _ ih => rw [editDistance_cons, if_pos rfl]; omega

omit [DecidableEq α] in
theorem align_refl (a : List α) : Align 0 a a := by
  induction a with
  | nil => exact .nil
  | cons x a ih => exact .keep _ _ _ _ ih

omit [DecidableEq α] in
theorem align_edit {b c : List α} (he : Edit b c) : ∀ (n : Nat) (a : List α), Align n a b → ∃ m ≤ n + 1, Align m a c := by
  have key : ∀ (pre : List α) (n : Nat) (a b c : List α), (∀ (n : Nat) (a : List α), Align n a b → ∃ m ≤ n + 1, Align m a c) →
      Align n a (pre ++ b) → ∃ m ≤ n + 1, Align m a (pre ++ c) := by
    intro pre n a b c hbc h
    generalize hw : pre ++ b = w at h
    induction h generalizing pre with
    | nil =>
      simp only [List.append_eq_nil_iff] at hw
      rw [hw.1]
      rw [hw.2] at hbc
      exact hbc 0 [] .nil
    | del n x a b' _ ih =>
      obtain ⟨m, hm, h⟩ := ih pre hw
      exact ⟨m + 1, by omega, .del _ _ _ _ h⟩
    | ins n y a b' h ih =>
      cases pre with
      | nil =>
        simp only [List.nil_append] at hw
        rw [hw] at hbc
        exact hbc _ _ (.ins _ _ _ _ h)
      | cons z pre =>
        rw [List.cons_append, List.cons.injEq] at hw
        obtain ⟨m, hm, h⟩ := ih pre hw.2
        exact ⟨m + 1, by omega, .ins _ _ _ _ h⟩
    | rep n x y a b' h ih =>
      cases pre with
      | nil =>
        simp only [List.nil_append] at hw
        rw [hw] at hbc
        exact hbc _ _ (.rep _ _ _ _ _ h)
      | cons z pre =>
        rw [List.cons_append, List.cons.injEq] at hw
        obtain ⟨m, hm, h⟩ := ih pre hw.2
        exact ⟨m + 1, by omega, .rep _ _ _ _ _ h⟩
    | keep n x a b' h ih =>
      cases pre with
      | nil =>
        simp only [List.nil_append] at hw
        rw [hw] at hbc
        exact hbc _ _ (.keep _ _ _ _ h)
      | cons z pre =>
        rw [List.cons_append, List.cons.injEq] at hw
        obtain ⟨m, hm, h⟩ := ih pre hw.2
        rw [hw.1]
        exact ⟨m, hm, .keep _ _ _ _ h⟩
  have hdel : ∀ (x : α) (post : List α) (n : Nat) (a : List α), Align n a (x :: post) → ∃ m ≤ n + 1, Align m a post := by
    intro x post n a h
    generalize hw : x :: post = w at h
    induction h with
    | nil => cases hw
    | del n z a b _ ih =>
      obtain ⟨m, hm, h⟩ := ih hw
      exact ⟨m + 1, by omega, .del _ _ _ _ h⟩
    | ins n y a b h _ =>
      rw [List.cons.injEq] at hw
      rw [hw.2]
      exact ⟨n, by omega, h⟩
    | rep n z y a b h _ =>
      rw [List.cons.injEq] at hw
      rw [hw.2]
      exact ⟨n + 1, by omega, .del _ _ _ _ h⟩
    | keep n z a b h _ =>
      rw [List.cons.injEq] at hw
      rw [hw.2]
      exact ⟨n + 1, by omega, .del _ _ _ _ h⟩
  have hrep : ∀ (x y : α) (post : List α) (n : Nat) (a : List α), Align n a (x :: post) → ∃ m ≤ n + 1, Align m a (y :: post) := by
    intro x y' post n a h
    generalize hw : x :: post = w at h
    induction h with
    | nil => cases hw
    | del n z a b _ ih =>
      obtain ⟨m, hm, h⟩ := ih hw
      exact ⟨m + 1, by omega, .del _ _ _ _ h⟩
    | ins n y a b h _ =>
      rw [List.cons.injEq] at hw
      rw [hw.2]
      exact ⟨n + 1, by omega, .ins _ _ _ _ h⟩
    | rep n z y a b h _ =>
      rw [List.cons.injEq] at hw
      rw [hw.2]
      exact ⟨n + 1, by omega, .rep _ _ _ _ _ h⟩
    | keep n z a b h _ =>
      rw [List.cons.injEq] at hw
      rw [hw.2]
      exact ⟨n + 1, by omega, .rep _ _ _ _ _ h⟩
  cases he with
  | insertion pre post x => exact fun n a => key pre n a post _ fun n a h => ⟨n + 1, le_refl _, .ins _ _ _ _ h⟩
  | deletion pre post x => exact fun n a => key pre n a _ _ (hdel x post)
  | replacement pre post x y => exact fun n a => key pre n a _ _ (hrep x y post)

theorem editDistance_le_edits {n : Nat} {a b : List α} (h : EditsIn n a b) : editDistance a b ≤ n := by
  have : ∃ m ≤ n, Align m a b := by
    induction h with
    | nothing p => exact ⟨0, le_refl _, align_refl _⟩
    | more n p q r _ he ih =>
      obtain ⟨m, hm, h⟩ := ih
      obtain ⟨m', hm', h'⟩ := align_edit he m p h
      exact ⟨m', by omega, h'⟩
  obtain ⟨m, hm, h⟩ := this
  exact (editDistance_le_align h).trans hm

end

section
variable {α : Type}

theorem Edit.cons {a b : List α} (x : α) (h : Edit a b) : Edit (x :: a) (x :: b) := by
  cases h with
  | insertion pre post y => exact .insertion (x :: pre) post y
  | deletion pre post y => exact .deletion (x :: pre) post y
  | replacement pre post y z => exact .replacement (x :: pre) post y z

theorem Edit.symm {a b : List α} (h : Edit a b) : Edit b a := by
  cases h with
  | insertion pre post y => exact .deletion pre post y
  | deletion pre post y => exact .insertion pre post y
  | replacement pre post y z => exact .replacement pre post z y

theorem EditsIn.cons {n : Nat} {a b : List α} (x : α) (h : EditsIn n a b) : EditsIn n (x :: a) (x :: b) := by
  induction h with
  | nothing p => exact .nothing _
  | more n p q r _ he ih => exact .more _ _ _ _ ih (he.cons x)

theorem EditsIn.trans {m n : Nat} {a b c : List α} (h : EditsIn m a b) (h' : EditsIn n b c) : EditsIn (m + n) a c := by
  induction h' with
  | nothing p => exact h
  | more n p q r _ he ih => exact .more _ _ _ _ (ih h) he

theorem EditsIn.symm {n : Nat} {a b : List α} (h : EditsIn n a b) : EditsIn n b a := by
  induction h with
  | nothing p => exact .nothing _
  | more n p q r _ he ih =>
    have := (EditsIn.more 0 r r q (.nothing r) he.symm).trans ih
    rwa [Nat.zero_add, Nat.add_comm] at this

theorem edits_of_align {n : Nat} {a b : List α} (h : Align n a b) : EditsIn n a b := by
  induction h with
  | nil => exact .nothing _
  | del n x a b _ ih => exact .more _ _ _ _ (ih.cons x) (.deletion [] b x)
  | ins n y a b _ ih => exact .more _ _ _ _ ih (.insertion [] b y)
  | rep n x y a b _ ih => exact .more _ _ _ _ (ih.cons x) (.replacement [] b x y)
  | keep n x a b _ ih => exact ih.cons x

end

theorem editDistance_map {α β : Type} [DecidableEq α] [DecidableEq β] (f : α → β) (a b : List α)
    (hf : ∀ x ∈ a, ∀ y ∈ b, f x = f y → x = y) : editDistance (a.map f) (b.map f) = editDistance a b := by
  induction a generalizing b with
  | nil => simp [editDistance_nil]
  | cons x a iha =>
    induction b with
    | nil => simp [editDistance_cons_nil]
    | cons y b ihb =>
      have h1 := iha (y :: b) fun u hu v hv => hf u (List.mem_cons_of_mem _ hu) v hv
      have h2 := ihb fun u hu v hv => hf u hu v (List.mem_cons_of_mem _ hv)
      have h3 := iha b fun u hu v hv => hf u (List.mem_cons_of_mem _ hu) v (List.mem_cons_of_mem _ hv)
      simp only [List.map_cons] at h1 h2 ⊢
      have hxy : (f x = f y) ↔ x = y := ⟨hf x (by simp) y (by simp), fun e => by rw [e]⟩
      rw [editDistance_cons, editDistance_cons, h1, h2, h3]
      simp only [hxy]

theorem intStr_digit (v : Int) (h0 : 0 ≤ v) (h9 : v ≤ 9) : intStr v = [digitChar v.toNat] := by
  obtain ⟨n, rfl⟩ := Int.eq_ofNat_of_zero_le h0
  have : n < 10 := by omega
  show decimal n = _
  unfold decimal
  rw [decimalAux, if_pos this]
  rfl

theorem digitChar_inj (m n : Nat) (hm : m < 10) (hn : n < 10) (h : digitChar m = digitChar n) : m = n := by
  have : ∀ m < 10, ∀ n < 10, digitChar m = digitChar n → m = n := by decide
  exact this m hm n hn h

theorem levenshtein_digits (p q : List Int) (hp : Digits p) (hq : Digits q) :
    levenshteinEditDistance p q = editDistance p q := by
  have e : ∀ p : List Int, Digits p → p.flatMap intStr = p.map fun v => digitChar v.toNat := by
    intro p hp
    induction p with
    | nil => rfl
    | cons v p ih =>
      have hv := hp v (by simp)
      rw [List.flatMap_cons, intStr_digit v hv.1 hv.2, ih fun w hw => hp w (List.mem_cons_of_mem _ hw)]
      rfl
  unfold levenshteinEditDistance
  rw [e p hp, e q hq]
  apply editDistance_map
  intro x hx y hy h
  have h1 := hp x hx
  have h2 := hq y hy
  have := digitChar_inj _ _ (by omega) (by omega) h
  omega

/-! ## Pairs -/

theorem flatMap_range_get {β : Type} (len : Nat → Nat) (f : Nat → Nat → β) (n i k : Nat) (hi : i < n) (hk : k < len i) :
    ((List.range n).flatMap fun a => (List.range (len a)).map (f a))[(∑ a ∈ Finset.range i, len a) + k]? = some (f i k) := by
  have hlen : ∀ m, ((List.range m).flatMap fun a => (List.range (len a)).map (f a)).length = ∑ a ∈ Finset.range m, len a := by
    intro m
    induction m with
    | zero => simp
    | succ m ih => rw [List.range_succ, List.flatMap_append, List.length_append, ih, Finset.sum_range_succ]; simp
  induction n with
  | zero => omega
  | succ n ih =>
    rw [List.range_succ, List.flatMap_append]
    by_cases h : i = n
    · subst h
      rw [List.getElem?_append_right (by rw [hlen]; omega), hlen]
      simp [hk]
    · rw [List.getElem?_append_left, ih (by omega)]
      rw [hlen]
      have : (∑ a ∈ Finset.range (i + 1), len a) ≤ ∑ a ∈ Finset.range n, len a :=
        Finset.sum_le_sum_of_subset (by intro x; simp; omega)
      rw [Finset.sum_range_succ] at this
      omega

theorem pairs_before (n i : Nat) (h : i ≤ n) : (∑ a ∈ Finset.range i, (n - (a + 1))) * 2 + i * (i + 1) = 2 * (n * i) := by
  induction i with
  | zero => simp
  | succ i ih =>
    rw [Finset.sum_range_succ]
    have := ih (by omega)
    obtain ⟨m, rfl⟩ : ∃ m, n = i + 1 + m := ⟨n - (i + 1), by omega⟩
    rw [Nat.add_sub_cancel_left]
    nlinarith

theorem pdist_length {α : Type} (d : List α → List α → Rat) (D : Diaries α) : (pdist d D).length * 2 = D.nP * (D.nP - 1) := by
  have hlen : ∀ m, ((List.range m).flatMap fun i => (List.range (D.nP - (i + 1))).map fun k => d (D.row i) (D.row (i + 1 + k))).length
      = ∑ a ∈ Finset.range m, (D.nP - (a + 1)) := by
    intro m
    induction m with
    | zero => simp
    | succ m ih => rw [List.range_succ, List.flatMap_append, List.length_append, ih, Finset.sum_range_succ]; simp
  unfold pdist
  rw [hlen]
  have := pairs_before D.nP D.nP (le_refl _)
  cases h : D.nP with
  | zero => simp
  | succ n =>
    rw [h] at this
    simp only [Nat.add_sub_cancel] at this ⊢
    nlinarith

theorem sum_pairs (f : Nat → Nat → Rat) (hf : ∀ i j, f i j = f j i) (n : Nat) :
    2 * ∑ i ∈ Finset.range n, ∑ k ∈ Finset.range (n - (i + 1)), f i (i + 1 + k)
      = ∑ i ∈ Finset.range n, ∑ j ∈ Finset.range n, if i = j then 0 else f i j := by
  induction n with
  | zero => simp
  | succ n ih =>
    have e1 : ∑ i ∈ Finset.range (n + 1), ∑ k ∈ Finset.range (n + 1 - (i + 1)), f i (i + 1 + k)
        = (∑ i ∈ Finset.range n, ∑ k ∈ Finset.range (n - (i + 1)), f i (i + 1 + k)) + ∑ i ∈ Finset.range n, f i n := by
      rw [Finset.sum_range_succ, ← Finset.sum_add_distrib]
      simp only [Nat.sub_self, Finset.range_zero, Finset.sum_empty, add_zero]
      apply Finset.sum_congr rfl
      intro i hi
      rw [Finset.mem_range] at hi
      rw [show n + 1 - (i + 1) = n - (i + 1) + 1 by omega, Finset.sum_range_succ, show i + 1 + (n - (i + 1)) = n by omega]
    have e2 : ∑ i ∈ Finset.range (n + 1), ∑ j ∈ Finset.range (n + 1), (if i = j then 0 else f i j)
        = (∑ i ∈ Finset.range n, ∑ j ∈ Finset.range n, if i = j then 0 else f i j) + 2 * ∑ i ∈ Finset.range n, f i n := by
      rw [Finset.sum_range_succ, Finset.sum_range_succ, if_pos rfl, add_zero, two_mul]
      have a : ∑ i ∈ Finset.range n, ∑ j ∈ Finset.range (n + 1), (if i = j then 0 else f i j)
          = (∑ i ∈ Finset.range n, ∑ j ∈ Finset.range n, if i = j then 0 else f i j) + ∑ i ∈ Finset.range n, f i n := by
        rw [← Finset.sum_add_distrib]
        apply Finset.sum_congr rfl
        intro i hi
        rw [Finset.mem_range] at hi
        rw [Finset.sum_range_succ, if_neg (by omega)]
      have b : ∑ j ∈ Finset.range n, (if n = j then 0 else f n j) = ∑ i ∈ Finset.range n, f i n := by
        apply Finset.sum_congr rfl
        intro j hj
        rw [Finset.mem_range] at hj
        rw [if_neg (by omega), hf]
      rw [a, b]
      ring
    rw [e1, e2, mul_add, ih]

theorem pdist_sum {α : Type} (d : List α → List α → Rat) (D : Diaries α) :
    (pdist d D).sum = ∑ i ∈ Finset.range D.nP, ∑ k ∈ Finset.range (D.nP - (i + 1)), d (D.row i) (D.row (i + 1 + k)) := by
  have h1 : ∀ (m : Nat) (g : Nat → Rat), ((List.range m).map g).sum = ∑ k ∈ Finset.range m, g k := by
    intro m g
    induction m with
    | zero => simp
    | succ m ih => rw [List.range_succ, List.map_append, List.sum_append, ih, Finset.sum_range_succ]; simp
  have : ∀ m, ((List.range m).flatMap fun i => (List.range (D.nP - (i + 1))).map fun k => d (D.row i) (D.row (i + 1 + k))).sum
      = ∑ i ∈ Finset.range m, ∑ k ∈ Finset.range (D.nP - (i + 1)), d (D.row i) (D.row (i + 1 + k)) := by
    intro m
    induction m with
    | zero => simp
    | succ m ih =>
      rw [List.range_succ, List.flatMap_append, List.sum_append, ih, Finset.sum_range_succ]
      simp [h1]
  exact this _

theorem sum_count {α : Type} [DecidableEq α] (u xs : List α) (hu : u.Nodup) (h : ∀ x ∈ xs, x ∈ u) :
    (u.map fun v => xs.count v).sum = xs.length := by
  induction xs with
  | nil => simp
  | cons x xs ih =>
    have h' := ih fun y hy => h y (List.mem_cons_of_mem _ hy)
    have hx : u.count x = 1 := List.count_eq_one_of_mem hu (h x (by simp))
    have e : (u.map fun v => (x :: xs).count v).sum = (u.map fun v => xs.count v).sum + u.count x := by
      clear h' hx h hu ih
      induction u with
      | nil => simp
      | cons v u ih =>
        rw [List.map_cons, List.sum_cons, ih, List.map_cons, List.sum_cons, List.count_cons, List.count_cons]
        by_cases hv : x = v
        · subst hv; simp; omega
        · have : ¬ v = x := fun e => hv e.symm
          simp [hv, this]
          omega
    rw [e, h', hx]
    simp

end Demod
