import Verif.Lemmas.ParseDur
import Mathlib.Tactic.Ring
import Mathlib.Tactic.Linarith
import Mathlib.Tactic.FieldSimp
import Mathlib.Algebra.Order.Ring.Rat

namespace Demod

/-! ## np.unique -/

theorem mem_insertUniq {α : Type} {lt : α → α → Bool} (h : StrictTotal lt) (a x : α) (l : List α) :
    x ∈ insertUniq lt a l ↔ x = a ∨ x ∈ l := by
  induction l with
  | nil => simp [insertUniq]
  | cons b l ih =>
    unfold insertUniq
    split
    · simp
    · split
      · rw [List.mem_cons, ih, List.mem_cons]
        tauto
      · have : a = b := h.total a b (by simpa using ‹¬ lt a b = true›) (by simpa using ‹¬ lt b a = true›)
        subst this
        simp

theorem insertUniq_sorted {α : Type} {lt : α → α → Bool} (h : StrictTotal lt) (a : α) (l : List α)
    (hl : l.Pairwise (fun x y => lt x y = true)) : (insertUniq lt a l).Pairwise (fun x y => lt x y = true) := by
  induction l with
  | nil => simp [insertUniq]
  | cons b l ih =>
    rw [List.pairwise_cons] at hl
    unfold insertUniq
    split
    · rename_i hab
      rw [List.pairwise_cons]
      refine ⟨?_, List.pairwise_cons.2 hl⟩
      intro y hy
      rcases List.mem_cons.1 hy with rfl | hy
      · exact hab
      · exact h.trans _ _ _ hab (hl.1 y hy)
    · split
      · rename_i hba
        rw [List.pairwise_cons]
        refine ⟨?_, ih hl.2⟩
        intro y hy
        rcases (mem_insertUniq h a y l).1 hy with rfl | hy
        · exact hba
        · exact hl.1 y hy
      · exact List.pairwise_cons.2 hl

theorem mem_npUnique {α : Type} {lt : α → α → Bool} (h : StrictTotal lt) (x : α) (l : List α) :
    x ∈ npUnique lt l ↔ x ∈ l := by
  unfold npUnique
  induction l with
  | nil => simp
  | cons b l ih => rw [List.foldr_cons, mem_insertUniq h, ih, List.mem_cons]

theorem npUnique_sorted {α : Type} {lt : α → α → Bool} (h : StrictTotal lt) (l : List α) :
    (npUnique lt l).Pairwise (fun x y => lt x y = true) := by
  unfold npUnique
  induction l with
  | nil => simp
  | cons b l ih => rw [List.foldr_cons]; exact insertUniq_sorted h b _ ih

theorem npUnique_nodup {α : Type} {lt : α → α → Bool} (h : StrictTotal lt) (l : List α) : (npUnique lt l).Nodup := by
  refine (npUnique_sorted h l).imp ?_
  intro a b hab he
  subst he
  rw [h.irrefl] at hab
  cases hab

/-! ## Sums -/

theorem sumTo_nonneg (n : Nat) (f : Nat → Rat) (h : ∀ j, 0 ≤ f j) : 0 ≤ sumTo n f := by
  unfold sumTo
  induction n with
  | zero => simp
  | succ n ih => rw [List.range_succ, List.map_append, List.sum_append]; simp; linarith [h n]

theorem sumTo_succ (n : Nat) (f : Nat → Rat) : sumTo (n + 1) f = sumTo n f + f n := by
  unfold sumTo; rw [List.range_succ, List.map_append, List.sum_append]; simp

theorem sumTo_div (n : Nat) (f : Nat → Rat) (s : Rat) : sumTo n (fun j => f j / s) = sumTo n f / s := by
  induction n with
  | zero => simp [sumTo]
  | succ n ih => rw [sumTo_succ, sumTo_succ, ih]; ring

theorem sumTo_congr (n : Nat) (f g : Nat → Rat) (h : ∀ j, j < n → f j = g j) : sumTo n f = sumTo n g := by
  induction n with
  | zero => rfl
  | succ n ih => rw [sumTo_succ, sumTo_succ, ih (fun j hj => h j (by omega)), h n (by omega)]

theorem sumTo_const_zero (n : Nat) : sumTo n (fun _ => 0) = 0 := by
  induction n with
  | zero => rfl
  | succ n ih => rw [sumTo_succ, ih]; ring

theorem sumTo_single (n i : Nat) (v : Rat) : sumTo n (fun j => if j = i then v else 0) = if i < n then v else 0 := by
  induction n with
  | zero => simp [sumTo]
  | succ n ih =>
    rw [sumTo_succ, ih]
    rcases Nat.lt_trichotomy i n with h | h | h
    · rw [if_pos h, if_neg (by omega), if_pos (by omega)]; ring
    · rw [if_neg (by omega), if_pos h.symm, if_pos (by omega)]; ring
    · rw [if_neg (by omega), if_neg (by omega), if_neg (by omega)]; ring

theorem sumTo_add (n : Nat) (f g : Nat → Rat) : sumTo n (fun j => f j + g j) = sumTo n f + sumTo n g := by
  induction n with
  | zero => simp [sumTo]
  | succ n ih => rw [sumTo_succ, sumTo_succ, sumTo_succ, ih]; ring

theorem sumTo_eq_zero (n : Nat) (f : Nat → Rat) (h : ∀ j, 0 ≤ f j) (hs : sumTo n f = 0) (j : Nat) (hj : j < n) : f j = 0 := by
  induction n with
  | zero => omega
  | succ n ih =>
    rw [sumTo_succ] at hs
    have h1 := sumTo_nonneg n f h
    have h2 := h n
    rcases Nat.lt_or_ge j n with h3 | h3
    · exact ih (by linarith) h3
    · have : j = n := by omega
      subst this; linarith

/-- Counting by value: the counts of the classes add up. -/
theorem sumTo_countP {α : Type} (n : Nat) (xs : List α) (P : α → Bool) (f : α → Nat) (h : ∀ x ∈ xs, P x = true → f x < n) :
    sumTo n (fun j => (xs.countP (fun x => P x && decide (f x = j)) : Rat)) = (xs.countP P : Rat) := by
  induction xs with
  | nil => simpa using sumTo_const_zero n
  | cons a xs ih =>
    have ih := ih (fun x hx => h x (List.mem_cons_of_mem _ hx))
    have ha := h a List.mem_cons_self
    by_cases hP : P a = true
    · rw [List.countP_cons_of_pos hP]
      push_cast
      rw [← ih, show (1 : Rat) = sumTo n (fun j => if j = f a then 1 else 0) from by rw [sumTo_single, if_pos (ha hP)], ← sumTo_add]
      apply sumTo_congr
      intro j _
      rw [List.countP_cons]
      by_cases hj : f a = j
      · simp [hP, hj]
      · simp [hP, hj, Ne.symm hj]
    · rw [List.countP_cons_of_neg hP, ← ih]
      apply sumTo_congr
      intro j _
      rw [List.countP_cons]
      simp [hP]

theorem countsToTpm_row (n : Nat) (c : Nat → Nat → Rat) (i j : Nat) :
    countsToTpm n c i j = if sumTo n (c i) = 0 then (if j = i then 1 else 0) else c i j / sumTo n (c i) := by
  unfold countsToTpm
  by_cases hs : sumTo n (c i) = 0
  · simp [hs, sumTo_const_zero]
  · simp only [if_neg hs]
    rw [sumTo_div, div_self hs, if_neg (by norm_num)]

theorem countsToTpm_nonneg (n : Nat) (c : Nat → Nat → Rat) (h : ∀ i j, 0 ≤ c i j) (i j : Nat) : 0 ≤ countsToTpm n c i j := by
  unfold countsToTpm
  have h1 := sumTo_nonneg n (c i) (h i)
  have h2 : 0 ≤ (if sumTo n (c i) = 0 then 0 else c i j / sumTo n (c i) : Rat) := by
    split
    · exact le_refl _
    · exact div_nonneg (h i j) h1
  by_cases h3 : sumTo n (c i) = 0
  · simp only [if_pos h3]
    split
    · split <;> norm_num
    · norm_num
  · simp only [if_neg h3] at h2 ⊢
    split
    · split
      · norm_num
      · exact h2
    · exact h2

theorem countsToTpm_sum (n : Nat) (c : Nat → Nat → Rat) (i : Nat) (hi : i < n) :
    sumTo n (countsToTpm n c i) = 1 := by
  rw [sumTo_congr n _ _ (fun j _ => countsToTpm_row n c i j)]
  by_cases hs : sumTo n (c i) = 0
  · simp only [if_pos hs]
    rw [sumTo_single, if_pos hi]
  · simp only [if_neg hs]
    rw [sumTo_div, div_self hs]

theorem countsToPdf_row (n : Nat) (c : Nat → Rat) (h : ∀ j, 0 ≤ c j) (hn : 0 < n) (d : Nat) (hd : d < n) :
    countsToPdf n c d = if sumTo n c = 0 then (if d = 0 then 1 else 0) else c d / sumTo n c := by
  unfold countsToPdf
  by_cases hs : sumTo n c = 0
  · simp only [if_pos hs]
    have hz := sumTo_eq_zero n c h hs
    have e : sumTo n (fun d => if d = 0 then 1 else c d) = 1 := by
      rw [sumTo_congr n _ (fun d => if d = 0 then 1 else 0) (fun j hj => by rw [hz j hj]), sumTo_single, if_pos hn]
    rw [e, hz d hd]; simp
  · simp only [if_neg hs]

theorem countsToPdf_isPdf (n : Nat) (c : Nat → Rat) (h : ∀ j, 0 ≤ c j) (hn : 0 < n) : IsPdf n (countsToPdf n c) := by
  constructor
  · intro j
    unfold countsToPdf
    by_cases hs : sumTo n c = 0
    · simp only [if_pos hs]
      have : ∀ d, 0 ≤ (if d = 0 then 1 else c d : Rat) := by
        intro d; split
        · norm_num
        · exact h d
      exact div_nonneg (this j) (sumTo_nonneg _ _ this)
    · simp only [if_neg hs]
      exact div_nonneg (h j) (sumTo_nonneg _ _ h)
  · show sumTo n _ = 1
    rw [sumTo_congr n _ _ (fun d hd => countsToPdf_row n c h hn d hd)]
    by_cases hs : sumTo n c = 0
    · simp only [if_pos hs]
      rw [sumTo_single, if_pos hn]
    · simp only [if_neg hs]
      rw [sumTo_div, div_self hs]

/-! ## Bound on the states -/

theorem le_maxState (D : Diaries Nat) (p t : Nat) (hp : p < D.nP) (ht : t < D.nT) : D.at' p t ≤ maxState D := by
  have inner : ∀ (p a : Nat) (ts : List Nat), a ≤ ts.foldr (fun t b => max (D.at' p t) b) a ∧
      ∀ t ∈ ts, D.at' p t ≤ ts.foldr (fun t b => max (D.at' p t) b) a := by
    intro p a ts
    induction ts with
    | nil => simp
    | cons x ts ih =>
      rw [List.foldr_cons]
      refine ⟨le_trans ih.1 (le_max_right _ _), ?_⟩
      intro t ht
      rcases List.mem_cons.1 ht with rfl | ht
      · exact le_max_left _ _
      · exact le_trans (ih.2 t ht) (le_max_right _ _)
  unfold maxState
  have outer : ∀ ps : List Nat, p ∈ ps → D.at' p t ≤ ps.foldr (fun p a => (List.range D.nT).foldr (fun t b => max (D.at' p t) b) a) 0 := by
    intro ps
    induction ps with
    | nil => simp
    | cons x ps ih =>
      intro h
      rw [List.foldr_cons]
      rcases List.mem_cons.1 h with rfl | h
      · exact (inner p _ _).2 t (List.mem_range.2 ht)
      · exact le_trans (ih h) (inner x _ _).1
  exact outer _ (List.mem_range.2 hp)

theorem maxState_lt (D : Diaries Nat) (n : Nat) (hn : 0 < n) (h : ∀ p t, p < D.nP → t < D.nT → D.at' p t < n) : maxState D < n := by
  have inner : ∀ (p a : Nat) (ts : List Nat), a < n → (∀ t ∈ ts, D.at' p t < n) →
      ts.foldr (fun t b => max (D.at' p t) b) a < n := by
    intro p a ts ha hts
    induction ts with
    | nil => simpa using ha
    | cons x ts ih =>
      rw [List.foldr_cons]
      exact max_lt (hts x List.mem_cons_self) (ih fun t ht => hts t (List.mem_cons_of_mem _ ht))
  unfold maxState
  have outer : ∀ ps : List Nat, (∀ p ∈ ps, p < D.nP) → ps.foldr (fun p a => (List.range D.nT).foldr (fun t b => max (D.at' p t) b) a) 0 < n := by
    intro ps hps
    induction ps with
    | nil => simpa using hn
    | cons x ps ih =>
      rw [List.foldr_cons]
      exact inner _ _ _ (ih fun p hp => hps p (List.mem_cons_of_mem _ hp))
        (fun t ht => h x t (hps x List.mem_cons_self) (List.mem_range.1 ht))
  exact outer _ (fun p hp => List.mem_range.1 hp)

/-! ## Counting the records of one time -/

theorem countP_flatMap_single {α : Type} (n t : Nat) (f : Nat → List α) (P : α → Bool) (ht : t < n)
    (h : ∀ s, s < n → s ≠ t → ∀ x ∈ f s, P x = false) :
    ((List.range n).flatMap f).countP P = (f t).countP P := by
  induction n with
  | zero => omega
  | succ n ih =>
    rw [List.range_succ, List.flatMap_append, List.countP_append]
    simp only [List.flatMap_cons, List.flatMap_nil, List.append_nil]
    rcases Nat.lt_or_ge t n with h1 | h1
    · rw [ih h1 (fun s hs => h s (by omega))]
      have : (f n).countP P = 0 := by
        rw [List.countP_eq_zero]
        intro x hx
        simp [h n (by omega) (by omega) x hx]
      omega
    · have : t = n := by omega
      subst this
      have : ((List.range t).flatMap f).countP P = 0 := by
        rw [List.countP_eq_zero]
        intro x hx
        obtain ⟨s, hs, hx⟩ := List.mem_flatMap.1 hx
        have hs := List.mem_range.1 hs
        simp [h s (by omega) (by omega) x hx]
      omega

/-- Counting records of time `t` is counting the diaries that change at `t`. -/
theorem changes_countP (D : Diaries Nat) (ign : Bool) (t : Nat) (ht : t < D.nT) (Q : Nat × Nat × Nat × Nat → Bool) :
    (changes D false ign).countP (fun r => decide (r.1 = t) && Q r) =
      howMany D fun p => decide (D.before ign p t ≠ D.at' p t) && Q (t, p, D.before ign p t, D.at' p t) := by
  unfold changes howMany
  rw [countP_flatMap_single D.nT t _ _ ht]
  · rw [List.countP_map, List.countP_filter]
    apply List.countP_congr
    intro p _
    simp [and_comm]
  · intro s hs hst x hx
    obtain ⟨p, _, rfl⟩ := List.mem_map.1 hx
    simp [hst]

/-! ## Initial durations -/

theorem initial_loop (D : Diaries Nat) (m : Nat) :
    (∀ p, ((List.range m).foldl (initialStep D) (fun _ => true, fun _ _ => 0)).1 p =
      (List.range m).all fun t => decide (D.at' p 0 = D.at' p t)) ∧
    ∀ i d, ((List.range m).foldl (initialStep D) (fun _ => true, fun _ _ => 0)).2 i d =
      if d < m then ((List.range D.nP).countP fun p => decide (D.at' p 0 ≠ D.at' p d) &&
        (List.range d).all (fun t => decide (D.at' p 0 = D.at' p t)) && decide (D.at' p 0 = i) : Rat) else 0 := by
  induction m with
  | zero => simp
  | succ m ih =>
    rw [List.range_succ, List.foldl_append]
    simp only [List.foldl_cons, List.foldl_nil]
    generalize (List.range m).foldl (initialStep D) (fun _ => true, fun _ _ => 0) = st at ih
    obtain ⟨h1, h2⟩ := ih
    constructor
    · intro p
      simp only [initialStep, h1, List.all_append, List.all_cons, List.all_nil]
      by_cases h : D.at' p 0 = D.at' p m
      · simp [h]
      · simp only [ne_eq, h, not_false_eq_true, decide_true, Bool.true_and, decide_false, Bool.false_and, Bool.and_false]
        split
        · rfl
        · rename_i h; simpa using h
    · intro i d
      simp only [initialStep]
      by_cases hd : d = m
      · subst hd
        rw [if_pos rfl, if_pos (by omega)]
        congr 1
        apply List.countP_congr
        intro p _
        rw [h1]
      · rw [if_neg hd, h2]
        by_cases hlt : d < m
        · rw [if_pos hlt, if_pos (by omega)]
        · rw [if_neg hlt, if_neg (by omega)]

theorem firstDuration_iff (D : Diaries Nat) (p d : Nat) (hd : d < D.nT) :
    firstDuration D p = d ↔ D.at' p 0 ≠ D.at' p d ∧ ∀ t, t < d → D.at' p 0 = D.at' p t := by
  unfold firstDuration
  constructor
  · intro h
    cases hf : (List.range D.nT).find? fun t => decide (D.at' p 0 ≠ D.at' p t) with
    | none => rw [hf] at h; simp at h; omega
    | some x =>
      rw [hf] at h
      simp only [Option.getD_some] at h
      subst h
      rw [List.find?_range_eq_some] at hf
      obtain ⟨h1, _, h2⟩ := hf
      exact ⟨by simpa using h1, fun t ht => by simpa using h2 t ht⟩
  · rintro ⟨h1, h2⟩
    have : (List.range D.nT).find? (fun t => decide (D.at' p 0 ≠ D.at' p t)) = some d := by
      rw [List.find?_range_eq_some]
      exact ⟨by simpa using h1, List.mem_range.2 hd, fun t ht => by simpa using h2 t ht⟩
    rw [this]; rfl

theorem firstDuration_full (D : Diaries Nat) (p : Nat) :
    firstDuration D p = D.nT ↔ ∀ t, t < D.nT → D.at' p 0 = D.at' p t := by
  unfold firstDuration
  constructor
  · intro h t ht
    cases hf : (List.range D.nT).find? fun t => decide (D.at' p 0 ≠ D.at' p t) with
    | none =>
      rw [List.find?_eq_none] at hf
      simpa using hf t (List.mem_range.2 ht)
    | some x =>
      rw [hf] at h
      have := List.mem_range.1 (List.mem_of_find?_eq_some hf)
      simp at h; omega
  · intro h
    have : (List.range D.nT).find? (fun t => decide (D.at' p 0 ≠ D.at' p t)) = none := by
      rw [List.find?_eq_none]
      intro x hx
      simpa using h x (List.mem_range.1 hx)
    rw [this]; rfl

theorem firstDuration_le (D : Diaries Nat) (p : Nat) : firstDuration D p ≤ D.nT := by
  unfold firstDuration
  cases hf : (List.range D.nT).find? fun t => decide (D.at' p 0 ≠ D.at' p t) with
  | none => simp
  | some x =>
    have := List.mem_range.1 (List.mem_of_find?_eq_some hf)
    simp; omega

theorem runLength_le (D : Diaries Nat) (p t : Nat) : runLength D p t ≤ D.nT := by
  unfold runLength
  cases hf : (List.range D.nT).find? fun d => decide (D.at' p ((t + d) % D.nT) ≠ D.at' p t) with
  | none => simp
  | some x =>
    have := List.mem_range.1 (List.mem_of_find?_eq_some hf)
    simp; omega

theorem keptFor_le (D : Diaries Nat) (ign : Bool) (p t : Nat) : keptFor D ign p t ≤ D.nT := by
  unfold keptFor
  split
  · omega
  · exact runLength_le D p t

/-- A state that is entered does not last the whole day. -/
theorem keptFor_lt (D : Diaries Nat) (ign : Bool) (p t : Nat) (ht : t < D.nT) (h : D.before ign p t ≠ D.at' p t) :
    keptFor D ign p t < D.nT := by
  unfold keptFor
  split
  · omega
  · have hex : ∃ s, s < D.nT ∧ D.at' p s ≠ D.at' p t := by
      unfold Diaries.before at h
      split at h
      · split at h
        · rename_i h1 _; subst h1; exact absurd rfl h
        · exact ⟨D.nT - 1, by omega, h⟩
      · exact ⟨t - 1, by omega, h⟩
    obtain ⟨s, hs, hne⟩ := hex
    unfold runLength
    cases hf : (List.range D.nT).find? fun d => decide (D.at' p ((t + d) % D.nT) ≠ D.at' p t) with
    | none =>
      exfalso
      rw [List.find?_eq_none] at hf
      rcases Nat.lt_or_ge s t with h1 | h1
      · have := hf (s + D.nT - t) (List.mem_range.2 (by omega))
        rw [show t + (s + D.nT - t) = s + D.nT by omega, Nat.add_mod_right, Nat.mod_eq_of_lt hs] at this
        simp [hne] at this
      · have := hf (s - t) (List.mem_range.2 (by omega))
        rw [show t + (s - t) = s by omega, Nat.mod_eq_of_lt hs] at this
        simp [hne] at this
    | some x =>
      have := List.mem_range.1 (List.mem_of_find?_eq_some hf)
      simpa using this

end Demod
