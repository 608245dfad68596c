import Verif.Model.Atus
import Verif.Spec.Atus
import Mathlib.Data.List.Induction

namespace Demod.Atus

theorem maxOf_spec (x : Nat) (xs : List Nat) : (∀ y ∈ x :: xs, y ≤ xs.foldl max x) ∧ xs.foldl max x ∈ x :: xs := by
  induction xs generalizing x with
  | nil => simp
  | cons a xs ih =>
    obtain ⟨h1, h2⟩ := ih (max x a)
    rw [List.foldl_cons]
    refine ⟨fun y hy => ?_, ?_⟩
    · have h0 := h1 (max x a) (by simp)
      rcases List.mem_cons.1 hy with rfl | hy
      · omega
      · rcases List.mem_cons.1 hy with rfl | hy
        · omega
        · exact h1 y (by simp [hy])
    · rcases List.mem_cons.1 h2 with h | h
      · rw [h]
        rcases Nat.le_total x a with h | h
        · rw [Nat.max_eq_right h]; simp
        · rw [Nat.max_eq_left h]; simp
      · simp [h]

theorem size_ok (given : Option Nat) (xs : List Nat) (n : Nat) : size given xs = .ok n ↔ AxisSize given xs n := by
  unfold size AxisSize
  cases xs with
  | nil => simp [maxOf]; intro h; cases h
  | cons x xs =>
    obtain ⟨h1, h2⟩ := maxOf_spec x xs
    show (match given with
      | none => Except.ok (xs.foldl max x + 1)
      | some n => if n > xs.foldl max x then .ok n else Except.error PyErr.assertionError) = .ok n ↔ _
    generalize xs.foldl max x = m at *
    cases given with
    | none =>
      dsimp only
      constructor
      · intro h
        have h := Except.ok.inj h
        subst h
        exact ⟨fun y hy => Nat.lt_succ_of_le (h1 y hy), m, h2, Or.inr ⟨rfl, rfl⟩⟩
      · rintro ⟨ha, y, hy, hc | ⟨_, rfl⟩⟩
        · cases hc
        · have := h1 y hy
          have := ha m h2
          congr 1
          omega
    | some g =>
      dsimp only
      by_cases hg : g > m
      · rw [if_pos hg]
        constructor
        · intro h
          have h := Except.ok.inj h
          subst h
          exact ⟨fun y hy => Nat.lt_of_le_of_lt (h1 y hy) hg, m, h2, Or.inl rfl⟩
        · rintro ⟨_, y, hy, hc | ⟨hc, _⟩⟩
          · rw [Option.some.inj hc]
          · cases hc
      · rw [if_neg hg]
        constructor
        · intro h; cases h
        · rintro ⟨ha, y, hy, hc | ⟨hc, _⟩⟩
          · rw [Option.some.inj hc] at hg
            exact absurd (ha m h2) hg
          · cases hc

theorem size_error (given : Option Nat) (xs : List Nat) (e : PyErr) (h : size given xs = .error e) :
    (xs = [] ∧ e = .valueError) ∨ (xs ≠ [] ∧ e = .assertionError) := by
  unfold size at h
  cases xs with
  | nil => left; exact ⟨rfl, (Except.error.inj h).symm⟩
  | cons x xs =>
    right
    refine ⟨by simp, ?_⟩
    change (match given with
      | none => Except.ok (xs.foldl max x + 1)
      | some n => if n > xs.foldl max x then .ok n else Except.error PyErr.assertionError) = .error e at h
    cases given with
    | none => cases h
    | some g =>
      dsimp only at h
      split at h
      · cases h
      · exact (Except.error.inj h).symm

theorem mask_recs (times persons new : List Nat) (h1 : times.length = persons.length) (h2 : times.length = new.length) (t : Nat) :
    (maskSel (atTime times t) persons).zip (maskSel (atTime times t) new) =
      ((changeList times persons new).filter fun r => r.1 == t).map (·.2) := by
  unfold maskSel atTime changeList
  induction times generalizing persons new with
  | nil => simp
  | cons a times ih =>
    cases persons with
    | nil => simp at h1
    | cons b persons =>
      cases new with
      | nil => simp at h2
      | cons c new =>
        have := ih persons new (by simpa using h1) (by simpa using h2)
        by_cases h : (a == t) = true
        · simp only [List.map_cons, List.zip_cons_cons, List.filterMap_cons, List.filter_cons, h, if_true, this]
        · have h' : (a == t) = false := by simpa using h
          simp only [List.map_cons, List.zip_cons_cons, List.filterMap_cons, List.filter_cons, h', Bool.false_eq_true, if_false]
          exact this

theorem sel_recs (times persons new : List Nat) (h1 : times.length = persons.length) (h2 : times.length = new.length) (t : Nat) :
    maskSel (atTime times t) new = ((changeList times persons new).filter fun r => r.1 == t).map (·.2.2) := by
  have h := mask_recs times persons new h1 h2 t
  have hl : (maskSel (atTime times t) persons).length = (maskSel (atTime times t) new).length := by
    clear h
    unfold maskSel atTime
    induction times generalizing persons new with
    | nil => simp
    | cons a times ih =>
      cases persons with
      | nil => simp at h1
      | cons b persons =>
        cases new with
        | nil => simp at h2
        | cons c new =>
          have := ih persons new (by simpa using h1) (by simpa using h2)
          simp only [List.map_cons, List.zip_cons_cons, List.filterMap_cons]
          split <;> split <;> simp_all
  have := congrArg (List.map Prod.snd) h
  rw [List.map_snd_zip (by omega)] at this
  rw [this, List.map_map]
  rfl

theorem foldl_set (L : List (Nat × Nat)) (s : List Nat) (p : Nat) (hp : p < s.length) :
    (L.foldl (fun s q => s.set q.1 q.2) s).length = s.length ∧
    (L.foldl (fun s q => s.set q.1 q.2) s).getD p 0 = ((L.filter fun q => q.1 == p).getLast?.map (·.2)).getD (s.getD p 0) := by
  induction L using List.reverseRecOn with
  | nil => simp
  | append_singleton L q ih =>
    rw [List.foldl_append, List.filter_append]
    simp only [List.foldl_cons, List.foldl_nil, List.length_set, ih.1, true_and]
    by_cases h : q.1 = p
    · subst h
      simp [List.getD_eq_getElem?_getD, ih.1, hp]
    · have : (List.filter (fun q : Nat × Nat => q.1 == p) [q]) = [] := by simp [h]
      rw [this, List.append_nil, ← ih.2]
      simp [List.getD_eq_getElem?_getD, List.getElem?_set, h]

theorem next_length (times persons new : List Nat) (t : Nat) (s : List Nat) : (next times persons new t s).length = s.length := by
  unfold next
  generalize (maskSel (atTime times t) persons).zip (maskSel (atTime times t) new) = L
  induction L generalizing s with
  | nil => rfl
  | cons q L ih => rw [List.foldl_cons, ih, List.length_set]

theorem next_get (times persons new : List Nat) (h1 : times.length = persons.length) (h2 : times.length = new.length) (t : Nat)
    (s : List Nat) (p : Nat) (hp : p < s.length) :
    (next times persons new t s).getD p 0 =
      (((changeList times persons new).filter fun r => r.2.1 == p && r.1 == t).getLast?.map (·.2.2)).getD (s.getD p 0) := by
  unfold next
  rw [mask_recs times persons new h1 h2, (foldl_set _ s p hp).2, List.filter_map, List.filter_filter]
  rw [List.getLast?_map, Option.map_map]
  rfl

theorem last_index {α : Type} (R : List α) (f : α → Bool) (r : α) (h : (R.filter f).getLast? = some r) :
    ∃ k : Nat, R[k]? = some r ∧ f r = true ∧ ∀ (j : Nat) (q : α), R[j]? = some q → f q = true → j ≤ k := by
  induction R using List.reverseRecOn with
  | nil => simp at h
  | append_singleton R a ih =>
    rw [List.filter_append] at h
    by_cases ha : f a = true
    · have : List.filter f [a] = [a] := by simp [ha]
      rw [this, List.getLast?_append, List.getLast?_singleton] at h
      have h : a = r := by simpa using h
      subst h
      refine ⟨R.length, by simp, ha, fun j q hj _ => ?_⟩
      have := (List.getElem?_eq_some_iff.1 hj).1
      simp at this
      omega
    · have : List.filter f [a] = [] := by simp [ha]
      rw [this, List.append_nil] at h
      obtain ⟨k, h1, h2, h3⟩ := ih h
      have hk := (List.getElem?_eq_some_iff.1 h1).1
      refine ⟨k, by rw [List.getElem?_append_left hk]; exact h1, h2, fun j q hj hq => ?_⟩
      rcases Nat.lt_or_ge j R.length with hl | hl
      · rw [List.getElem?_append_left hl] at hj
        exact h3 j q hj hq
      · rw [List.getElem?_append_right hl] at hj
        have : q = a := by
          rcases hz : j - R.length with _ | z
          · rw [hz] at hj; simpa using hj.symm
          · rw [hz] at hj; simp at hj
        subst this
        exact absurd hq ha

/-- As `Shown`, with the transitions before `t` only. -/
def Before (R : List Change) (first : Nat → Nat) (p t v : Nat) : Prop :=
  ((∀ r ∈ R, r.2.1 = p → t ≤ r.1) ∧ v = first p) ∨
  ∃ (k : Nat) (r : Change), R[k]? = some r ∧ r.2.1 = p ∧ r.1 < t ∧ r.2.2 = v ∧
    ∀ (j : Nat) (q : Change), R[j]? = some q → q.2.1 = p → q.1 < t → q.1 < r.1 ∨ (q.1 = r.1 ∧ j ≤ k)

theorem before_succ (R : List Change) (first : Nat → Nat) (p t v : Nat) : Before R first p (t + 1) v ↔ Shown R first p t v := by
  unfold Before Shown
  simp only [Nat.lt_succ_iff, Nat.succ_le_iff]

theorem before_step (R : List Change) (first : Nat → Nat) (p t v : Nat) (h : Before R first p t v) :
    Shown R first p t (((R.filter fun r => r.2.1 == p && r.1 == t).getLast?.map (·.2.2)).getD v) := by
  cases hl : (R.filter fun r => r.2.1 == p && r.1 == t).getLast? with
  | none =>
    have hno : ∀ r ∈ R, r.2.1 = p → r.1 ≠ t := by
      rw [List.getLast?_eq_none_iff, List.filter_eq_nil_iff] at hl
      intro r hr h1 h2
      exact hl r hr (by simp [h1, h2])
    simp only [Option.map_none, Option.getD_none]
    rcases h with ⟨h1, h2⟩ | ⟨k, r, hk, hp, ht, hv, hm⟩
    · exact Or.inl ⟨fun r hr hp => Nat.lt_of_le_of_ne (h1 r hr hp) (Ne.symm (hno r hr hp)), h2⟩
    · refine Or.inr ⟨k, r, hk, hp, by omega, hv, fun j q hj hq hqt => hm j q hj hq ?_⟩
      exact Nat.lt_of_le_of_ne hqt (hno q (List.mem_of_getElem? hj) hq)
  | some r =>
    obtain ⟨k, hk, hf, hm⟩ := last_index R _ r hl
    simp only [Bool.and_eq_true, beq_iff_eq] at hf hm
    refine Or.inr ⟨k, r, hk, hf.1, by omega, rfl, fun j q hj hq hqt => ?_⟩
    rcases Nat.lt_or_ge q.1 t with h' | h'
    · left; omega
    · right
      exact ⟨by omega, hm j q hj ⟨hq, by omega⟩⟩

theorem loop_shown (times persons new : List Nat) (h1 : times.length = persons.length) (h2 : times.length = new.length)
    (first : Nat → Nat) (n t : Nat) (s : List Nat)
    (hs : ∀ p, p < s.length → Before (changeList times persons new) first p t (s.getD p 0)) (j : Nat) (hj : j < n) :
    ∃ row, (loop times persons new n t s)[j]? = some row ∧ row.length = s.length ∧
      ∀ p, p < s.length → Shown (changeList times persons new) first p (t + j) (row.getD p 0) := by
  induction n generalizing t s j with
  | zero => omega
  | succ n ih =>
    have hstep : ∀ p, p < s.length → Shown (changeList times persons new) first p t ((next times persons new t s).getD p 0) := by
      intro p hp
      rw [next_get times persons new h1 h2 t s p hp]
      exact before_step _ _ _ _ _ (hs p hp)
    cases j with
    | zero => exact ⟨_, rfl, next_length .., hstep⟩
    | succ j =>
      have hl := next_length times persons new t s
      obtain ⟨row, hr, hrl, hsh⟩ := ih (t + 1) (next times persons new t s) (fun p hp => (before_succ ..).2 (hstep p (by omega))) j (by omega)
      refine ⟨row, ?_, by omega, fun p hp => ?_⟩
      · rw [loop]; exact hr
      · have := hsh p (by omega)
        rwa [show t + 1 + j = t + (j + 1) by omega] at this

theorem loop_length (times persons new : List Nat) (n t : Nat) (s : List Nat) : (loop times persons new n t s).length = n := by
  induction n generalizing t s with
  | zero => rfl
  | succ n ih => rw [loop, List.length_cons, ih]

theorem shown_unique (R : List Change) (first : Nat → Nat) (p t v w : Nat) (h1 : Shown R first p t v) (h2 : Shown R first p t w) : v = w := by
  rcases h1 with ⟨a1, a2⟩ | ⟨k, r, hk, hp, ht, hv, hm⟩
  · rcases h2 with ⟨b1, b2⟩ | ⟨k, r, hk, hp, ht, hv, hm⟩
    · rw [a2, b2]
    · have := a1 r (List.mem_of_getElem? hk) hp
      omega
  · rcases h2 with ⟨b1, b2⟩ | ⟨k', r', hk', hp', ht', hv', hm'⟩
    · have := b1 r (List.mem_of_getElem? hk) hp
      omega
    · have e1 := hm k' r' hk' hp' ht'
      have e2 := hm' k r hk hp ht
      have : k = k' := by omega
      subst this
      rw [hk] at hk'
      rw [← hv, ← hv', Option.some.inj hk']

/-- The value of the last record with `f`, or `b`. -/
def val (f : Change → Bool) (R : List Change) (b : Option Nat) : Option Nat := R.foldl (fun b r => if f r then some r.2.2 else b) b

theorem val_eq (f : Change → Bool) (R : List Change) (b : Option Nat) : val f R b = ((R.filter f).getLast?.map (·.2.2)).or b := by
  induction R using List.reverseRecOn with
  | nil => simp [val]
  | append_singleton R r ih =>
    unfold val at *
    rw [List.foldl_append, List.filter_append, List.foldl_cons, List.foldl_nil]
    by_cases h : f r = true
    · simp [h]
    · rw [if_neg h, ih]
      simp [h]

theorem shown_val (R : List Change) (hR : ByPerson R) (first : Nat → Nat) (p t : Nat) :
    Shown R first p t ((val (fun r => r.2.1 == p && decide (r.1 ≤ t)) R none).getD (first p)) := by
  rw [val_eq]
  cases hl : (R.filter fun r => r.2.1 == p && decide (r.1 ≤ t)).getLast? with
  | none =>
    rw [List.getLast?_eq_none_iff, List.filter_eq_nil_iff] at hl
    refine Or.inl ⟨fun r hr hp => ?_, rfl⟩
    have := hl r hr
    simp only [hp, beq_self_eq_true, Bool.true_and, decide_eq_true_eq] at this
    omega
  | some r =>
    obtain ⟨k, hk, hf, hm⟩ := last_index R _ r hl
    simp only [Bool.and_eq_true, beq_iff_eq, decide_eq_true_eq] at hf hm
    refine Or.inr ⟨k, r, hk, hf.1, hf.2, rfl, fun j q hj hq hqt => ?_⟩
    have hjk := hm j q hj ⟨hq, hqt⟩
    rcases Nat.lt_or_eq_of_le hjk with hlt | rfl
    · obtain ⟨a1, a2⟩ := List.getElem?_eq_some_iff.1 hj
      obtain ⟨b1, b2⟩ := List.getElem?_eq_some_iff.1 hk
      have := List.pairwise_iff_getElem.1 hR j k a1 b1 hlt
      rw [a2, b2] at this
      omega
    · rw [hk] at hj
      rw [Option.some.inj hj]
      omega

theorem shown_iff_val (R : List Change) (hR : ByPerson R) (first : Nat → Nat) (p t v : Nat) :
    Shown R first p t v ↔ v = (val (fun r => r.2.1 == p && decide (r.1 ≤ t)) R none).getD (first p) := by
  constructor
  · intro h
    exact shown_unique _ _ _ _ _ _ h (shown_val R hR first p t)
  · rintro rfl
    exact shown_val R hR first p t

theorem kept_cons {α : Type} (b : Bool) (m : List Bool) (x : α) (xs : List α) :
    keptBy (b :: m) (x :: xs) = if b then x :: keptBy m xs else keptBy m xs := by
  unfold keptBy
  rw [List.zip_cons_cons, List.filterMap_cons]
  cases b <;> rfl

theorem keep_val (p t : Nat) (R : List Change) (hR : ByPerson R) (prev : Option (Nat × Nat)) (b : Option Nat)
    (hb : ∀ q, prev = some q → q.1 = p → b = some q.2 ∨ ∀ r ∈ R, r.2.1 = p → t < r.1) :
    val (fun r => r.2.1 == p && decide (r.1 ≤ t)) (keptBy (realLoop prev (R.map (·.2))) R) b =
      val (fun r => r.2.1 == p && decide (r.1 ≤ t)) R b := by
  induction R generalizing prev b with
  | nil => rfl
  | cons r R ih =>
    have hR' := List.pairwise_cons.1 hR
    rw [List.map_cons, realLoop, kept_cons]
    have hv : ∀ L b, val (fun r => r.2.1 == p && decide (r.1 ≤ t)) (r :: L) b =
        val (fun r => r.2.1 == p && decide (r.1 ≤ t)) L (if (r.2.1 == p && decide (r.1 ≤ t)) = true then some r.2.2 else b) := fun _ _ => rfl
    have hnext : ∀ q, some r.2 = some q → q.1 = p →
        (if (r.2.1 == p && decide (r.1 ≤ t)) = true then some r.2.2 else b) = some q.2 ∨ ∀ r' ∈ R, r'.2.1 = p → t < r'.1 := by
      intro q hq hp
      have hq := Option.some.inj hq
      subst hq
      by_cases ht : r.1 ≤ t
      · left; simp [hp, ht]
      · right
        intro r' hr' hp'
        have := hR'.1 r' hr'
        omega
    by_cases hprev : prev = some r.2
    · rw [if_pos hprev, if_neg (by simp), hv]
      have hsame : (if (r.2.1 == p && decide (r.1 ≤ t)) = true then some r.2.2 else b) = b := by
        split
        · rename_i hf
          simp only [Bool.and_eq_true, beq_iff_eq, decide_eq_true_eq] at hf
          rcases hb r.2 hprev hf.1 with h | h
          · exact h.symm
          · have := h r (by simp) hf.1
            omega
        · rfl
      rw [hsame] at hnext ⊢
      exact ih hR'.2 (some r.2) b hnext
    · rw [if_neg hprev, if_pos rfl, hv, hv]
      exact ih hR'.2 (some r.2) _ hnext

theorem realLoop_length (prev : Option (Nat × Nat)) (L : List (Nat × Nat)) : (realLoop prev L).length = L.length := by
  induction L generalizing prev with
  | nil => rfl
  | cons q L ih => rw [realLoop, List.length_cons, List.length_cons, ih]

theorem kept_sublist {α : Type} (m : List Bool) (xs : List α) : (keptBy m xs).Sublist xs := by
  induction xs generalizing m with
  | nil => unfold keptBy; simp
  | cons x xs ih =>
    cases m with
    | nil => unfold keptBy; simp
    | cons b m =>
      rw [kept_cons]
      split
      · exact (ih m).cons_cons x
      · exact (ih m).cons x

theorem kept_map {α β : Type} (f : α → β) (m : List Bool) (xs : List α) : keptBy m (xs.map f) = (keptBy m xs).map f := by
  induction xs generalizing m with
  | nil => unfold keptBy; simp
  | cons x xs ih =>
    cases m with
    | nil => unfold keptBy; simp
    | cons b m =>
      rw [List.map_cons, kept_cons, kept_cons, ih]
      split <;> simp

theorem unzip_changes (times persons new : List Nat) (h1 : persons.length = times.length) (h2 : new.length = times.length) :
    (changeList times persons new).map (·.1) = times ∧ (changeList times persons new).map (·.2.1) = persons ∧
      (changeList times persons new).map (·.2.2) = new ∧ (changeList times persons new).map (·.2) = persons.zip new ∧
      (changeList times persons new).length = times.length := by
  unfold changeList
  have a : (times.zip (persons.zip new)).map (·.2) = persons.zip new := List.map_snd_zip (by simp; omega)
  refine ⟨List.map_fst_zip (by simp; omega), ?_, ?_, a, by simp; omega⟩
  · rw [show (fun x : Nat × Nat × Nat => x.2.1) = (Prod.fst ∘ fun x => x.2) from rfl, ← List.map_map, a]
    exact List.map_fst_zip (by omega)
  · rw [show (fun x : Nat × Nat × Nat => x.2.2) = (Prod.snd ∘ fun x => x.2) from rfl, ← List.map_map, a]
    exact List.map_snd_zip (by omega)

theorem zip_changes (R : List Change) : changeList (R.map (·.1)) (R.map (·.2.1)) (R.map (·.2.2)) = R := by
  unfold changeList
  rw [List.zip_map', List.zip_map']
  exact List.map_id _

theorem byPerson_iff (R : List Change) :
    (sortedNext (R.map (·.2.1)) = true ∧ subsorted (R.map fun r => (r.2.1, r.1)) = true) ↔ ByPerson R := by
  unfold ByPerson
  induction R with
  | nil => simp [sortedNext, subsorted]
  | cons a R ih =>
    rw [List.pairwise_cons, ← ih]
    cases R with
    | nil => simp [sortedNext, subsorted]
    | cons b R =>
      simp only [List.map_cons, sortedNext, subsorted, Bool.and_eq_true, Bool.or_eq_true, decide_eq_true_eq]
      constructor
      · rintro ⟨⟨h1, h2⟩, h3, h4⟩
        have hab : a.2.1 < b.2.1 ∨ (a.2.1 = b.2.1 ∧ a.1 ≤ b.1) := by omega
        refine ⟨fun c hc => ?_, h2, h4⟩
        rcases List.mem_cons.1 hc with rfl | hc
        · exact hab
        · have := (List.pairwise_cons.1 (ih.1 ⟨h2, h4⟩)).1 c hc
          omega
      · rintro ⟨h1, h2, h3⟩
        have := h1 b (by simp)
        exact ⟨⟨by omega, h2⟩, by omega, h3⟩

end Demod.Atus
