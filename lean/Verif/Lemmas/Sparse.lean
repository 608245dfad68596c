import Verif.Spec.Sparse
import Verif.Lemmas.Population

namespace Demod
namespace SparseTPM

theorem map_fst_zip' {α β : Type} : ∀ (xs : List α) (ys : List β), xs.length = ys.length →
    (xs.zip ys).map (·.1) = xs
  | [], [], _ => rfl
  | x :: xs, y :: ys, h => by simp [map_fst_zip' xs ys (by simpa using h)]

theorem map_snd_zip' {α β : Type} : ∀ (xs : List α) (ys : List β), xs.length = ys.length →
    (xs.zip ys).map (·.2) = ys
  | [], [], _ => rfl
  | x :: xs, y :: ys, h => by simp [map_snd_zip' xs ys (by simpa using h)]

theorem WF.times_eq {s : SparseTPM} (h : s.WF) : s.times = s.entries.map (·.1) := by
  unfold entries; rw [map_fst_zip']; simp [h.lf, h.lt, h.lv]

theorem WF.from_eq {s : SparseTPM} (h : s.WF) : s.indsFrom = s.entries.map (·.2.1) := by
  unfold entries
  have e : (fun p : Nat × Nat × Nat × Rat => p.2.1) = (fun p : Nat × Nat × Rat => p.1) ∘ (fun p : Nat × Nat × Nat × Rat => p.2) := rfl
  rw [e, ← List.map_map, map_snd_zip', map_fst_zip'] <;> simp [h.lf, h.lt, h.lv]

theorem WF.to_eq {s : SparseTPM} (h : s.WF) : s.indsTo = s.entries.map (·.2.2.1) := by
  unfold entries
  have e : (fun p : Nat × Nat × Nat × Rat => p.2.2.1) = (fun p : Nat × Rat => p.1) ∘ (fun p : Nat × Nat × Rat => p.2) ∘ (fun p : Nat × Nat × Nat × Rat => p.2) := rfl
  rw [e, ← List.map_map, ← List.map_map, map_snd_zip', map_snd_zip', map_fst_zip'] <;> simp [h.lf, h.lt, h.lv]

theorem WF.values_eq {s : SparseTPM} (h : s.WF) : s.values = s.entries.map (·.2.2.2) := by
  unfold entries
  have e : (fun p : Nat × Nat × Nat × Rat => p.2.2.2) = (fun p : Nat × Rat => p.2) ∘ (fun p : Nat × Nat × Rat => p.2) ∘ (fun p : Nat × Nat × Nat × Rat => p.2) := rfl
  rw [e, ← List.map_map, ← List.map_map, map_snd_zip', map_snd_zip', map_snd_zip'] <;> simp [h.lf, h.lt, h.lv]

theorem select_map {α γ : Type} (E : List γ) (p : γ → Bool) (f : γ → α) :
    select (E.map p) (E.map f) = .ok ((E.filter p).map f) := by
  unfold select
  rw [if_pos (by simp)]
  congr 1
  induction E with
  | nil => rfl
  | cons e E ih =>
    simp only [List.map_cons, List.zip_cons_cons, List.filterMap_cons, List.filter_cons]
    by_cases h : p e
    · simp [h, ih]
    · simp [h, ih]

theorem zip_maps {γ : Type} (E : List γ) (a b c : γ → Nat) (d : γ → Rat) :
    (E.map a).zip ((E.map b).zip ((E.map c).zip (E.map d))) = E.map fun e => (a e, b e, c e, d e) := by
  induction E with
  | nil => rfl
  | cons e E ih => simp [ih]

theorem checkTime_wf {s : SparseTPM} (h : s.WF) (key : Int) :
    s.checkTime key = .ok (key % (s.nTimes : Int)).toNat := by
  unfold checkTime; rw [if_neg (by have := h.pos; omega)]

theorem mod_lt {s : SparseTPM} (h : s.WF) (key : Int) : (key % (s.nTimes : Int)).toNat < s.nTimes := by
  have h1 := Int.emod_nonneg key (b := (s.nTimes : Int)) (by have := h.pos; omega)
  have h2 := Int.emod_lt_of_pos key (b := (s.nTimes : Int)) (by have := h.pos; omega)
  omega

theorem mod_self_of_lt {s : SparseTPM} (_h : s.WF) (t : Nat) (ht : t < s.nTimes) :
    ((t : Int) % (s.nTimes : Int)).toNat = t := by
  rw [Int.emod_eq_of_lt (by omega) (by omega)]; simp

/-- The dense matrix at (normalised) time `t`. -/
def denseAt (s : SparseTPM) (t : Nat) : List (List Rat) :=
  tabulate s.nStates (((s.entries.filter fun e => e.1 == t).map (·.2)).foldl assign fun _ _ => 0)

theorem zip_maps3 {γ : Type} (E : List γ) (b c : γ → Nat) (d : γ → Rat) :
    (E.map b).zip ((E.map c).zip (E.map d)) = E.map fun e => (b e, c e, d e) := by
  induction E with
  | nil => rfl
  | cons e E ih => simp [ih]

theorem getItem_wf {s : SparseTPM} (h : s.WF) (key : Int) :
    s.getItem key = .ok (s.denseAt (key % (s.nTimes : Int)).toNat) := by
  unfold getItem
  rw [checkTime_wf h]
  generalize (key % (s.nTimes : Int)).toNat = t
  have hm : s.times.map (· == t) = s.entries.map (fun e => e.1 == t) := by
    rw [h.times_eq, List.map_map]; rfl
  simp only [bind, Except.bind]
  rw [hm]
  conv => lhs; rw [h.from_eq, h.to_eq, h.values_eq]
  simp only [select_map]
  rw [if_pos, denseAt, zip_maps3]
  rw [Bool.and_eq_true, List.all_eq_true, List.all_eq_true]
  constructor
  · intro i hi
    obtain ⟨e, he, rfl⟩ := List.mem_map.1 hi
    have : e.2.1 ∈ s.indsFrom := by rw [h.from_eq]; exact List.mem_map_of_mem (List.mem_filter.1 he).1
    simpa using h.bf _ this
  · intro i hi
    obtain ⟨e, he, rfl⟩ := List.mem_map.1 hi
    have : e.2.2.1 ∈ s.indsTo := by rw [h.to_eq]; exact List.mem_map_of_mem (List.mem_filter.1 he).1
    simpa using h.bt _ this

theorem nonzero_lt (n : Nat) (m : List (List Rat)) : ∀ e ∈ nonzero n m, e.1 < n ∧ e.2.1 < n := by
  intro e he
  unfold nonzero at he
  obtain ⟨i, hi, he⟩ := List.mem_flatMap.1 he
  obtain ⟨j, hj, he⟩ := List.mem_filterMap.1 he
  simp only at he
  split at he
  · cases he; exact ⟨List.mem_range.1 hi, List.mem_range.1 hj⟩
  · cases he

/-- The state after a successful assignment. -/
def setTo (s : SparseTPM) (t : Nat) (m : List (List Rat)) : SparseTPM :=
  let E := (s.entries.filter fun e => !(e.1 == t)) ++ (nonzero s.nStates m).map fun e => (t, e)
  { s with
    times := E.map (·.1)
    indsFrom := E.map (·.2.1)
    indsTo := E.map (·.2.2.1)
    values := E.map (·.2.2.2) }

theorem setTo_entries (s : SparseTPM) (t : Nat) (m : List (List Rat)) :
    (s.setTo t m).entries =
      (s.entries.filter fun e => !(e.1 == t)) ++ (nonzero s.nStates m).map fun e => (t, e) := by
  unfold setTo
  generalize (s.entries.filter fun e => !(e.1 == t)) ++ (nonzero s.nStates m).map (fun e => (t, e)) = E
  unfold entries
  rw [zip_maps]; simp

theorem setTo_wf {s : SparseTPM} (h : s.WF) (t : Nat) (m : List (List Rat)) : (s.setTo t m).WF := by
  have hn := nonzero_lt s.nStates m
  refine ⟨by simp [setTo], by simp [setTo], by simp [setTo], h.pos, ?_, ?_⟩
  · intro i hi
    simp only [setTo] at hi
    obtain ⟨e, he, rfl⟩ := List.mem_map.1 hi
    rcases List.mem_append.1 he with he | he
    · have : e.2.1 ∈ s.indsFrom := by rw [h.from_eq]; exact List.mem_map_of_mem (List.mem_filter.1 he).1
      exact h.bf _ this
    · obtain ⟨e', he', rfl⟩ := List.mem_map.1 he
      exact (hn e' he').1
  · intro i hi
    simp only [setTo] at hi
    obtain ⟨e, he, rfl⟩ := List.mem_map.1 hi
    rcases List.mem_append.1 he with he | he
    · have : e.2.2.1 ∈ s.indsTo := by rw [h.to_eq]; exact List.mem_map_of_mem (List.mem_filter.1 he).1
      exact h.bt _ this
    · obtain ⟨e', he', rfl⟩ := List.mem_map.1 he
      exact (hn e' he').2

theorem setItem_wf {s : SparseTPM} (h : s.WF) (key : Int) (m : List (List Rat)) :
    s.setItem key m = if isSquare s.nStates m then
      .ok (s.setTo (key % (s.nTimes : Int)).toNat m) else .error .valueError := by
  unfold setItem
  rw [checkTime_wf h]
  generalize (key % (s.nTimes : Int)).toNat = t
  simp only [bind, Except.bind]
  by_cases hs : isSquare s.nStates m = true
  · rw [if_neg (by simpa using hs), if_pos hs]
    have hm : s.times.map (fun t' => !(t' == t)) = s.entries.map (fun e => !(e.1 == t)) := by
      rw [h.times_eq, List.map_map]; rfl
    rw [hm]
    have e1 := select_map s.entries (fun e => !(e.1 == t)) (fun e => e.2.1)
    have e2 := select_map s.entries (fun e => !(e.1 == t)) (fun e => e.2.2.1)
    have e3 := select_map s.entries (fun e => !(e.1 == t)) (fun e => e.1)
    have e4 := select_map s.entries (fun e => !(e.1 == t)) (fun e => e.2.2.2)
    rw [← h.from_eq] at e1
    rw [← h.to_eq] at e2
    rw [← h.times_eq] at e3
    rw [← h.values_eq] at e4
    rw [e1, e2, e3, e4]
    simp [setTo, Function.comp_def]
  · rw [if_pos (by simpa using hs), if_neg hs]

theorem assign_other (es : List (Nat × Nat × Rat)) (f : Nat → Nat → Rat) (i j : Nat)
    (h : ∀ e ∈ es, ¬ (i = e.1 ∧ j = e.2.1)) : es.foldl assign f i j = f i j := by
  induction es generalizing f with
  | nil => rfl
  | cons e es ih =>
    rw [List.foldl_cons, ih _ (fun e he => h e (by simp [he]))]
    unfold assign; rw [if_neg (h e (by simp))]

theorem assign_hit (es : List (Nat × Nat × Rat)) (f : Nat → Nat → Rat) (i j : Nat) (v : Rat)
    (hmem : (i, j, v) ∈ es) (huniq : ∀ e ∈ es, i = e.1 ∧ j = e.2.1 → e.2.2 = v) :
    es.foldl assign f i j = v := by
  induction es generalizing f with
  | nil => cases hmem
  | cons e es ih =>
    rw [List.foldl_cons]
    by_cases h : ∃ e' ∈ es, i = e'.1 ∧ j = e'.2.1
    · obtain ⟨e', he', h1, h2⟩ := h
      have h3 := huniq e' (by simp [he']) ⟨h1, h2⟩
      refine ih _ ?_ (fun e he => huniq e (by simp [he]))
      have : (i, j, v) = e' := by rw [h1, h2, ← h3]
      rw [this]; exact he'
    · rw [assign_other _ _ _ _ (fun e' he' hc => h ⟨e', he', hc⟩)]
      rcases List.mem_cons.1 hmem with rfl | hm
      · simp [assign]
      · exact absurd ⟨(i, j, v), hm, rfl, rfl⟩ h

theorem mem_nonzero (n : Nat) (m : List (List Rat)) (i j : Nat) (v : Rat) :
    (i, j, v) ∈ nonzero n m ↔ i < n ∧ j < n ∧ v = (m.getD i []).getD j 0 ∧ v ≠ 0 := by
  unfold nonzero
  rw [List.mem_flatMap]
  constructor
  · rintro ⟨i', hi, he⟩
    obtain ⟨j', hj, he⟩ := List.mem_filterMap.1 he
    simp only at he
    split at he
    · rename_i hne
      cases he
      exact ⟨List.mem_range.1 hi, List.mem_range.1 hj, rfl, hne⟩
    · cases he
  · rintro ⟨hi, hj, rfl, hv⟩
    refine ⟨i, List.mem_range.2 hi, List.mem_filterMap.2 ⟨j, List.mem_range.2 hj, ?_⟩⟩
    simp only [if_pos hv]

theorem nonzero_fold (n : Nat) (m : List (List Rat)) (i j : Nat) (hi : i < n) (hj : j < n) :
    (nonzero n m).foldl assign (fun _ _ => 0) i j = (m.getD i []).getD j 0 := by
  by_cases hv : (m.getD i []).getD j 0 = 0
  · rw [assign_other, hv]
    rintro ⟨a, b, v⟩ he ⟨h1, h2⟩
    have := (mem_nonzero n m a b v).1 he
    simp only at h1 h2
    subst h1 h2
    exact this.2.2.2 (by rw [this.2.2.1, hv])
  · apply assign_hit
    · exact (mem_nonzero n m i j _).2 ⟨hi, hj, rfl, hv⟩
    · rintro ⟨a, b, v⟩ he ⟨h1, h2⟩
      have := (mem_nonzero n m a b v).1 he
      simp only at h1 h2
      subst h1 h2
      exact this.2.2.1

theorem nonzero_sorted (n : Nat) (m : List (List Rat)) :
    (nonzero n m).Pairwise fun e f => e.1 < f.1 ∨ (e.1 = f.1 ∧ e.2.1 < f.2.1) := by
  unfold nonzero
  rw [List.pairwise_flatMap]
  refine ⟨?_, ?_⟩
  · intro i _
    rw [List.pairwise_filterMap]
    refine List.Pairwise.imp ?_ List.pairwise_lt_range
    intro a b hab x hx y hy
    simp only at hx hy
    split at hx
    · split at hy
      · cases hx; cases hy; right; exact ⟨rfl, hab⟩
      · cases hy
    · cases hx
  · refine List.Pairwise.imp ?_ List.pairwise_lt_range
    intro a b hab x hx y hy
    obtain ⟨j, _, hx⟩ := List.mem_filterMap.1 hx
    obtain ⟨k, _, hy⟩ := List.mem_filterMap.1 hy
    simp only at hx hy
    split at hx
    · split at hy
      · cases hx; cases hy; left; exact hab
      · cases hy
    · cases hx

theorem isSquare_iff (n : Nat) (m : List (List Rat)) : isSquare n m = true ↔ Square n m := by
  unfold isSquare Square
  rw [Bool.and_eq_true, List.all_eq_true]
  simp

theorem tabulate_square (n : Nat) (m : List (List Rat)) (h : Square n m) :
    tabulate n (fun i j => (m.getD i []).getD j 0) = m := by
  obtain ⟨h1, h2⟩ := h
  unfold tabulate
  apply List.ext_getElem
  · simp [h1]
  · intro i hi hi'
    have hr := h2 _ (List.getElem_mem hi')
    simp only [List.getElem_map, List.getElem_range]
    apply List.ext_getElem
    · simp [hr]
    · intro j hj hj'
      simp [List.getD, List.getElem?_eq_getElem hi', List.getElem?_eq_getElem hj']

theorem tabulate_congr (n : Nat) (f g : Nat → Nat → Rat) (h : ∀ i j, i < n → j < n → f i j = g i j) :
    tabulate n f = tabulate n g := by
  unfold tabulate
  apply List.map_congr_left
  intro i hi
  apply List.map_congr_left
  intro j hj
  exact h i j (List.mem_range.1 hi) (List.mem_range.1 hj)

theorem denseAt_setTo_same (s : SparseTPM) (t : Nat) (m : List (List Rat)) (h : Square s.nStates m) :
    (s.setTo t m).denseAt t = m := by
  unfold denseAt
  rw [setTo_entries, List.filter_append]
  have e1 : ((s.entries.filter fun e => !(e.1 == t)).filter fun e => e.1 == t) = [] := by
    rw [List.filter_filter, List.filter_eq_nil_iff]
    intro e _; simp
  have e2 : (((nonzero s.nStates m).map fun e => (t, e)).filter fun e => e.1 == t) =
      (nonzero s.nStates m).map fun e => (t, e) := by
    rw [List.filter_eq_self]
    intro e he
    obtain ⟨e', _, rfl⟩ := List.mem_map.1 he
    simp
  rw [e1, e2, List.nil_append, List.map_map]
  have e3 : ((fun x : Nat × Nat × Nat × Rat => x.2) ∘ fun e => (t, e)) = id := rfl
  rw [e3, List.map_id]
  show tabulate s.nStates _ = m
  rw [← tabulate_square s.nStates m h]
  apply tabulate_congr
  intro i j hi hj
  rw [tabulate_square s.nStates m h]
  exact nonzero_fold s.nStates m i j hi hj

theorem denseAt_setTo_other (s : SparseTPM) (t t' : Nat) (m : List (List Rat)) (h : t' ≠ t) :
    (s.setTo t m).denseAt t' = s.denseAt t' := by
  unfold denseAt
  rw [setTo_entries, List.filter_append]
  have e1 : ((s.entries.filter fun e => !(e.1 == t)).filter fun e => e.1 == t') =
      s.entries.filter fun e => e.1 == t' := by
    rw [List.filter_filter]
    apply List.filter_congr
    intro e _
    by_cases he : e.1 = t'
    · simp [he, h]
    · simp [he]
  have e2 : (((nonzero s.nStates m).map fun e => (t, e)).filter fun e => e.1 == t') = [] := by
    rw [List.filter_eq_nil_iff]
    intro e he
    obtain ⟨e', _, rfl⟩ := List.mem_map.1 he
    simp; exact fun hc => h hc.symm
  rw [e1, e2, List.append_nil]
  rfl

end SparseTPM
end Demod
