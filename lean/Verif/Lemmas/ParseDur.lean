import Verif.Lemmas.Parse

namespace Demod

theorem maskSel_zip {α β : Type} : ∀ (m : List Bool) (A : List α) (B : List β), A.length = B.length →
    maskSel m (A.zip B) = (maskSel m A).zip (maskSel m B)
  | [], _, _, _ => by simp [maskSel]
  | b :: m, [], [], _ => by simp [maskSel]
  | b :: m, x :: A, y :: B, h => by
    have := maskSel_zip m A B (by simpa using h)
    unfold maskSel at this ⊢
    cases b <;> simp [this]

theorem mem_maskSel_map {α γ : Type} (E : List γ) (xs : List α) (p : γ → Bool) (hl : xs.length = E.length)
    (k : Nat) (h : k < E.length) (hp : p E[k] = true) : xs[k] ∈ maskSel (E.map p) xs := by
  unfold maskSel
  rw [List.mem_filterMap]
  refine ⟨(true, xs[k]), ?_, by simp⟩
  rw [List.mem_iff_getElem]
  exact ⟨k, by simp [hl, h], by simp [hp]⟩

variable {σ : Type} [DecidableEq σ]

theorem personDurations_length (nT : Nat) (ign : Bool) (ts : List Nat) (a b : σ) :
    (personDurations nT ign ts a b).length = ts.length := by
  unfold personDurations
  cases ts with
  | nil => rfl
  | cons t ts => simp

theorem personDurations_inner (nT : Nat) (ign : Bool) (ts : List Nat) (a b : σ) (j : Nat) (h : j + 1 < ts.length) :
    (personDurations nT ign ts a b)[j]'(by rw [personDurations_length]; omega) = ts[j + 1] - ts[j] := by
  unfold personDurations
  cases ts with
  | nil => simp at h
  | cons t ts =>
    simp only
    rw [List.getElem_append_left (by simp at h ⊢; omega)]
    simp

theorem personDurations_last (nT : Nat) (ign : Bool) (ts : List Nat) (a b : σ) (h : 0 < ts.length) :
    (personDurations nT ign ts a b)[ts.length - 1]'(by rw [personDurations_length]; omega) =
      if a = b then ts[0] + (nT - ts[ts.length - 1]) else if ign then 0 else nT - ts[ts.length - 1] := by
  unfold personDurations
  cases ts with
  | nil => simp at h
  | cons t ts =>
    simp only
    rw [List.getElem_append_right (by simp)]
    simp only [List.length_map, List.length_zip, List.tail_cons, List.length_cons, List.getElem_cons_zero]
    have : (t :: ts).getLast?.getD 0 = (t :: ts)[ts.length] := by
      simp [List.getLast?_eq_getElem?]
    simp [this]

/-- The change times of one diary. -/
def changeTimes (D : Diaries σ) (ign : Bool) (p : Nat) : List Nat :=
  (List.range D.nT).filter fun t => decide (D.before ign p t ≠ D.at' p t)

theorem changeTimes_sorted (D : Diaries σ) (ign : Bool) (p : Nat) : (changeTimes D ign p).Pairwise (· < ·) :=
  List.Pairwise.filter _ List.pairwise_lt_range

theorem mem_changeTimes (D : Diaries σ) (ign : Bool) (p t : Nat) :
    t ∈ changeTimes D ign p ↔ t < D.nT ∧ D.before ign p t ≠ D.at' p t := by
  unfold changeTimes; rw [List.mem_filter]; simp

/-- No change strictly between two consecutive change times. -/
theorem no_change_between (D : Diaries σ) (ign : Bool) (p : Nat) (j : Nat) (h : j + 1 < (changeTimes D ign p).length)
    (x : Nat) (h1 : (changeTimes D ign p)[j] < x) (h2 : x < (changeTimes D ign p)[j + 1]) :
    D.before ign p x = D.at' p x := by
  by_contra hc
  have hlt : (changeTimes D ign p)[j + 1] < D.nT := ((mem_changeTimes D ign p _).1 (List.getElem_mem h)).1
  have hx : x ∈ changeTimes D ign p := (mem_changeTimes D ign p x).2 ⟨by omega, hc⟩
  obtain ⟨i, hi, rfl⟩ := List.getElem_of_mem hx
  have hs := List.pairwise_iff_getElem.1 (changeTimes_sorted D ign p)
  rcases Nat.lt_trichotomy i j with h3 | h3 | h3
  · have := hs i j hi (by omega) h3; omega
  · subst h3; omega
  · rcases Nat.lt_trichotomy i (j + 1) with h4 | h4 | h4
    · omega
    · subst h4; omega
    · have := hs (j + 1) i h hi h4; omega

theorem no_change_after (D : Diaries σ) (ign : Bool) (p : Nat) (h : 0 < (changeTimes D ign p).length)
    (x : Nat) (h1 : (changeTimes D ign p)[(changeTimes D ign p).length - 1] < x) (h2 : x < D.nT) :
    D.before ign p x = D.at' p x := by
  by_contra hc
  have hx : x ∈ changeTimes D ign p := (mem_changeTimes D ign p x).2 ⟨by omega, hc⟩
  obtain ⟨i, hi, rfl⟩ := List.getElem_of_mem hx
  have hs := List.pairwise_iff_getElem.1 (changeTimes_sorted D ign p)
  rcases Nat.lt_or_ge i ((changeTimes D ign p).length - 1) with h3 | h3
  · have := hs i _ hi (by omega) h3; omega
  · have : i = (changeTimes D ign p).length - 1 := by omega
    subst this; omega

theorem no_change_before (D : Diaries σ) (ign : Bool) (p : Nat) (h : 0 < (changeTimes D ign p).length)
    (x : Nat) (h2 : x < (changeTimes D ign p)[0]) :
    D.before ign p x = D.at' p x := by
  by_contra hc
  have hlt : (changeTimes D ign p)[0] < D.nT := ((mem_changeTimes D ign p _).1 (List.getElem_mem h)).1
  have hx : x ∈ changeTimes D ign p := (mem_changeTimes D ign p x).2 ⟨by omega, hc⟩
  obtain ⟨i, hi, rfl⟩ := List.getElem_of_mem hx
  have hs := List.pairwise_iff_getElem.1 (changeTimes_sorted D ign p)
  rcases Nat.eq_zero_or_pos i with h3 | h3
  · subst h3; omega
  · have := hs 0 i h hi h3; omega

omit [DecidableEq σ] in
/-- A stretch without changes is constant. -/
theorem const_of_no_change (D : Diaries σ) (ign : Bool) (p a b : Nat)
    (h : ∀ x, a < x → x < b → D.before ign p x = D.at' p x) (x : Nat) (h1 : a ≤ x) (h2 : x < b) :
    D.at' p x = D.at' p a := by
  induction x with
  | zero => have : a = 0 := by omega
            subst this; rfl
  | succ x ih =>
    rcases Nat.eq_or_lt_of_le h1 with h3 | h3
    · rw [h3]
    · have := h (x + 1) h3 h2
      unfold Diaries.before at this
      rw [if_neg (by omega), Nat.add_sub_cancel] at this
      rw [← this]
      exact ih (by omega) (by omega)

/-- The values filled in for one person. -/
theorem durations_person [Inhabited σ] (D : Diaries σ) (ign : Bool) (tr : Transitions σ)
    (htr : statesToTransitions D false ign = .ok tr) :
    (transitionDurations D.nT ign tr).length = (changes D false ign).length ∧
    ∀ p, p < D.nP → changeTimes D ign p ≠ [] →
      maskSel ((changes D false ign).map fun r => r.2.1 == p) (transitionDurations D.nT ign tr) =
        personDurations D.nT ign (changeTimes D ign p)
          (D.before ign p ((changeTimes D ign p).headD 0)) (D.at' p ((changeTimes D ign p).getLastD 0)) := by
  have hT : D.nT ≠ 0 := by
    intro hc; unfold statesToTransitions at htr; rw [if_pos hc] at htr; cases htr
  rw [statesToTransitions_eq D false ign hT] at htr
  have htr := (Except.ok.inj htr).symm
  subst htr
  let vals : Nat → List Nat := fun q =>
    personDurations D.nT ign (maskSel (((changes D false ign).map (·.2.1)).map (· == q)) ((changes D false ign).map (·.1)))
      ((maskSel (((changes D false ign).map (·.2.1)).map (· == q)) ((changes D false ign).map (·.2.2.1))).headD default)
      ((maskSel (((changes D false ign).map (·.2.1)).map (· == q)) ((changes D false ign).map (·.2.2.2))).getLastD default)
  have hmask : ∀ q, ((changes D false ign).map (·.2.1)).map (· == q) = (changes D false ign).map fun r => r.2.1 == q := by
    intro q; rw [List.map_map]; rfl
  have hlen : ∀ q, (vals q).length = (((changes D false ign).map (·.2.1)).map (· == q)).countP (· == true) := by
    intro q
    simp only [vals]
    rw [personDurations_length, hmask, maskSel_map, List.length_map, List.countP_map, List.countP_eq_length_filter]
    congr 1
    apply List.filter_congr
    intro r _; simp
  obtain ⟨h1, h2⟩ := fill_loop ((changes D false ign).map (·.2.1)) vals (uniqueSorted ((changes D false ign).map (·.2.1)))
    (uniqueSorted_nodup _) (((changes D false ign).map (·.1)).map fun _ => 0) (by simp) (fun q _ => hlen q)
  refine ⟨h1.trans (by simp), ?_⟩
  intro p hp hne
  have h3 := h2 p
  rw [hmask] at h3
  have hrec := changes_person D ign p hp
  have hmem : p ∈ uniqueSorted ((changes D false ign).map (·.2.1)) := by
    rw [mem_uniqueSorted, List.mem_map]
    obtain ⟨t, ht⟩ := List.exists_mem_of_ne_nil _ hne
    have : (t, p, D.before ign p t, D.at' p t) ∈ (changes D false ign).filter (fun r => r.2.1 == p) := by
      rw [hrec]; exact List.mem_map_of_mem ht
    exact ⟨_, (List.mem_filter.1 this).1, rfl⟩
  rw [if_pos hmem] at h3
  have hval : vals p = personDurations D.nT ign (changeTimes D ign p)
          (D.before ign p ((changeTimes D ign p).headD 0)) (D.at' p ((changeTimes D ign p).getLastD 0)) := by
    simp only [vals]
    rw [hmask, maskSel_map, maskSel_map, maskSel_map, hrec]
    simp only [List.map_map]
    have e1 : ∀ {β : Type} (f : Nat × Nat × σ × σ → β),
        (f ∘ fun t => (t, p, D.before ign p t, D.at' p t)) = fun t => f (t, p, D.before ign p t, D.at' p t) := fun f => rfl
    rw [e1, e1, e1]
    simp only []
    show personDurations D.nT ign ((changeTimes D ign p).map _) (((changeTimes D ign p).map _).headD default) (((changeTimes D ign p).map _).getLastD default) = _
    have e2 : (changeTimes D ign p).map (fun t => t) = changeTimes D ign p := List.map_id _
    rw [e2]
    cases hct : changeTimes D ign p with
    | nil => exact absurd hct hne
    | cons t ts =>
      congr 1
      simp only [List.map_cons, List.getLastD_eq_getLast?]
      rw [← List.map_cons, List.getLast?_map]
      simp [List.getLast?_cons]
  rw [hval] at h3
  exact h3

/-- A transition with its duration, in terms of the change times of its person. -/
theorem duration_mem [Inhabited σ] (D : Diaries σ) (ign : Bool) (tr : Transitions σ)
    (htr : statesToTransitions D false ign = .ok tr) (k : Nat) (hk : k < (changes D false ign).length)
    (hk' : k < (transitionDurations D.nT ign tr).length) :
    ∃ j, ∃ hj : j < (changeTimes D ign ((changes D false ign)[k]).2.1).length,
      ((changes D false ign)[k]).2.1 < D.nP ∧
      (changes D false ign)[k] = ((changeTimes D ign ((changes D false ign)[k]).2.1)[j], ((changes D false ign)[k]).2.1,
        D.before ign ((changes D false ign)[k]).2.1 ((changeTimes D ign ((changes D false ign)[k]).2.1)[j]),
        D.at' ((changes D false ign)[k]).2.1 ((changeTimes D ign ((changes D false ign)[k]).2.1)[j])) ∧
      (transitionDurations D.nT ign tr)[k] =
        (personDurations D.nT ign (changeTimes D ign ((changes D false ign)[k]).2.1)
          (D.before ign ((changes D false ign)[k]).2.1 ((changeTimes D ign ((changes D false ign)[k]).2.1).headD 0))
          (D.at' ((changes D false ign)[k]).2.1 ((changeTimes D ign ((changes D false ign)[k]).2.1).getLastD 0)))[j]'(by
            rw [personDurations_length]; exact hj) := by
  obtain ⟨hl, hp⟩ := durations_person D ign tr htr
  have hmem := List.getElem_mem hk
  have hmem2 := hmem
  obtain ⟨t, ht, hmem2⟩ := List.mem_flatMap.1 (show (changes D false ign)[k] ∈ List.flatMap _ _ from hmem2)
  obtain ⟨p, hp1, he⟩ := List.mem_map.1 hmem2
  have hp2 := List.mem_filter.1 hp1
  have hpn : p < D.nP := List.mem_range.1 hp2.1
  have hpe : ((changes D false ign)[k]).2.1 = p := by rw [← he]
  have hct : t ∈ changeTimes D ign p := by
    rw [mem_changeTimes]; refine ⟨List.mem_range.1 ht, ?_⟩
    simpa using hp2.2
  have hne : changeTimes D ign p ≠ [] := by intro hc; rw [hc] at hct; cases hct
  have hz : ((changes D false ign).zip (transitionDurations D.nT ign tr))[k]'(by simp; omega) ∈
      maskSel ((changes D false ign).map fun r => r.2.1 == p) ((changes D false ign).zip (transitionDurations D.nT ign tr)) := by
    apply mem_maskSel_map _ _ _ (by simp [hl]) k hk
    simp [hpe]
  rw [maskSel_zip _ _ _ hl.symm, hp p hpn hne] at hz
  have hsel : maskSel ((changes D false ign).map fun r => r.2.1 == p) (changes D false ign) =
      (changeTimes D ign p).map fun t => (t, p, D.before ign p t, D.at' p t) := by
    have := maskSel_map (changes D false ign) (fun r => r.2.1 == p) id
    rw [List.map_id, List.map_id, changes_person D ign p hpn] at this
    exact this
  rw [hsel] at hz
  obtain ⟨j, hj, hje⟩ := List.getElem_of_mem hz
  have hj1 : j < (changeTimes D ign p).length := by simp at hj; omega
  rw [hpe]
  refine ⟨j, hj1, hpn, ?_, ?_⟩
  · have := congrArg Prod.fst hje
    simp at this
    rw [← this]
  · have := congrArg Prod.snd hje
    simp only [List.getElem_zip] at this
    rw [← this]

theorem first_eq_last_of_wrap (D : Diaries σ) (p : Nat) (h : 0 < (changeTimes D false p).length) :
    D.before false p (changeTimes D false p)[0] =
      D.at' p (changeTimes D false p)[(changeTimes D false p).length - 1] := by
  have hl : (changeTimes D false p)[(changeTimes D false p).length - 1] < D.nT :=
    ((mem_changeTimes D false p _).1 (List.getElem_mem _)).1
  have hend : D.at' p (D.nT - 1) = D.at' p (changeTimes D false p)[(changeTimes D false p).length - 1] :=
    const_of_no_change D false p _ D.nT (fun x h1 h2 => no_change_after D false p h x h1 h2) _ (by omega) (by omega)
  rcases Nat.eq_zero_or_pos (changeTimes D false p)[0] with h0 | h0
  · unfold Diaries.before
    rw [if_pos h0]
    simpa using hend
  · have h1 : D.before false p 0 = D.at' p 0 := no_change_before D false p h 0 h0
    have h2 : D.at' p ((changeTimes D false p)[0] - 1) = D.at' p 0 :=
      const_of_no_change D false p 0 (changeTimes D false p)[0]
        (fun x _ h2 => no_change_before D false p h x h2) _ (by omega) (by omega)
    unfold Diaries.before at h1 ⊢
    rw [if_neg (by omega), h2, ← h1]
    simpa using hend

theorem first_ignored (D : Diaries σ) (p : Nat) (h : 0 < (changeTimes D true p).length) :
    0 < (changeTimes D true p)[0] ∧ D.before true p (changeTimes D true p)[0] = D.at' p 0 := by
  have hm := ((mem_changeTimes D true p _).1 (List.getElem_mem h)).2
  have h0 : 0 < (changeTimes D true p)[0] := by
    rcases Nat.eq_zero_or_pos (changeTimes D true p)[0] with h0 | h0
    · exfalso; apply hm
      generalize (changeTimes D true p)[0] = x at h0
      subst h0
      rfl
    · exact h0
  refine ⟨h0, ?_⟩
  have h2 : D.at' p ((changeTimes D true p)[0] - 1) = D.at' p 0 :=
      const_of_no_change D true p 0 (changeTimes D true p)[0]
        (fun x _ h2 => no_change_before D true p h x h2) _ (by omega) (by omega)
  unfold Diaries.before
  rw [if_neg (by omega), h2]

theorem last_change_state (D : Diaries σ) (ign : Bool) (p : Nat) (h : 0 < (changeTimes D ign p).length) :
    D.at' p (D.nT - 1) = D.at' p (changeTimes D ign p)[(changeTimes D ign p).length - 1] := by
  have hl : (changeTimes D ign p)[(changeTimes D ign p).length - 1] < D.nT :=
    ((mem_changeTimes D ign p _).1 (List.getElem_mem _)).1
  exact const_of_no_change D ign p _ D.nT (fun x h1 h2 => no_change_after D ign p h x h1 h2) _ (by omega) (by omega)

theorem headD_getElem {α : Type} (xs : List α) (d : α) (h : 0 < xs.length) : xs.headD d = xs[0] := by
  cases xs with
  | nil => simp at h
  | cons a l => rfl

theorem getLastD_getElem {α : Type} (xs : List α) (d : α) (h : 0 < xs.length) : xs.getLastD d = xs[xs.length - 1] := by
  rw [List.getLastD_eq_getLast?, List.getLast?_eq_getElem?, List.getElem?_eq_getElem (by omega)]; rfl

/-- The stretch that starts at a change lasts until the next one (around midnight for the last
change, if its state is the one before the first change). -/
theorem personDurations_run (D : Diaries σ) (ign : Bool) (p : Nat) (j : Nat)
    (hj : j < (changeTimes D ign p).length)
    (hw : j + 1 = (changeTimes D ign p).length →
      D.before ign p (changeTimes D ign p)[0] = D.at' p (changeTimes D ign p)[j]) :
    IsRun D p (changeTimes D ign p)[j] ((personDurations D.nT ign (changeTimes D ign p)
      (D.before ign p ((changeTimes D ign p).headD 0)) (D.at' p ((changeTimes D ign p).getLastD 0)))[j]'(by
        rw [personDurations_length]; exact hj)) := by
  have hs := List.pairwise_iff_getElem.1 (changeTimes_sorted D ign p)
  have hpos : 0 < (changeTimes D ign p).length := by omega
  have hlt : ∀ i (hi : i < (changeTimes D ign p).length), (changeTimes D ign p)[i] < D.nT :=
    fun i hi => ((mem_changeTimes D ign p _).1 (List.getElem_mem hi)).1
  have hch : ∀ i (hi : i < (changeTimes D ign p).length),
      D.before ign p (changeTimes D ign p)[i] ≠ D.at' p (changeTimes D ign p)[i] :=
    fun i hi => ((mem_changeTimes D ign p _).1 (List.getElem_mem hi)).2
  rcases Nat.lt_or_ge (j + 1) (changeTimes D ign p).length with h | h
  · rw [personDurations_inner _ _ _ _ _ _ h]
    have h1 := hs j (j + 1) hj h (by omega)
    have h2 := hlt (j + 1) h
    have hc := const_of_no_change D ign p _ _ (fun x a b => no_change_between D ign p j h x a b)
    refine ⟨by omega, fun i hi => ?_, ?_⟩
    · rw [Nat.mod_eq_of_lt (by omega)]
      exact hc _ (by omega) (by omega)
    · have e : (changeTimes D ign p)[j] + ((changeTimes D ign p)[j + 1] - (changeTimes D ign p)[j]) =
          (changeTimes D ign p)[j + 1] := by omega
      rw [e, Nat.mod_eq_of_lt h2]
      have h3 := hch (j + 1) h
      unfold Diaries.before at h3
      rw [if_neg (by omega), hc _ (by omega) (by omega)] at h3
      exact fun h => h3 h.symm
  · have hje : j = (changeTimes D ign p).length - 1 := by omega
    have hwrap := hw (by omega)
    have hl := personDurations_last D.nT ign (changeTimes D ign p)
      (D.before ign p ((changeTimes D ign p).headD 0)) (D.at' p ((changeTimes D ign p).getLastD 0)) hpos
    subst hje
    rw [hl, headD_getElem _ _ hpos, getLastD_getElem _ _ hpos, if_pos hwrap]
    have h1 := hlt _ hj
    have h0 := hlt _ hpos
    have hend := const_of_no_change D ign p _ D.nT (fun x a b => no_change_after D ign p hpos x a b)
    have hbeg : ∀ x, x < (changeTimes D ign p)[0] → D.at' p x = D.before ign p (changeTimes D ign p)[0] := by
      intro x hx
      have hb := const_of_no_change D ign p 0 (changeTimes D ign p)[0]
        (fun x _ h2 => no_change_before D ign p hpos x h2)
      have e : D.before ign p (changeTimes D ign p)[0] = D.at' p ((changeTimes D ign p)[0] - 1) := by
        unfold Diaries.before
        rw [if_neg (by omega)]
      rw [e]
      exact (hb x (by omega) hx).trans (hb _ (by omega) (by omega)).symm
    refine ⟨by omega, fun i hi => ?_, ?_⟩
    · rcases Nat.lt_or_ge ((changeTimes D ign p)[(changeTimes D ign p).length - 1] + i) D.nT with h3 | h3
      · rw [Nat.mod_eq_of_lt h3]
        exact hend _ (by omega) h3
      · have e : ((changeTimes D ign p)[(changeTimes D ign p).length - 1] + i) % D.nT =
            (changeTimes D ign p)[(changeTimes D ign p).length - 1] + i - D.nT := by
          rw [Nat.mod_eq_sub_mod h3, Nat.mod_eq_of_lt (by omega)]
        rw [e, hbeg _ (by omega), hwrap]
    · have e : ((changeTimes D ign p)[(changeTimes D ign p).length - 1] +
          ((changeTimes D ign p)[0] + (D.nT - (changeTimes D ign p)[(changeTimes D ign p).length - 1]))) % D.nT =
          (changeTimes D ign p)[0] := by
        have : (changeTimes D ign p)[(changeTimes D ign p).length - 1] +
          ((changeTimes D ign p)[0] + (D.nT - (changeTimes D ign p)[(changeTimes D ign p).length - 1])) =
          (changeTimes D ign p)[0] + D.nT := by omega
        rw [this, Nat.add_mod_right, Nat.mod_eq_of_lt h0]
      rw [e, ← hwrap]
      exact fun h => hch 0 hpos h.symm

theorem telescope : ∀ (t : Nat) (ts : List Nat), (t :: ts).Pairwise (· < ·) →
    (((t :: ts).zip ts).map fun p => p.2 - p.1).sum = (t :: ts).getLastD 0 - t ∧ t ≤ (t :: ts).getLastD 0
  | t, [], _ => by simp
  | t, u :: us, h => by
    obtain ⟨h1, h2⟩ := telescope u us (List.pairwise_cons.1 h).2
    have h3 : t < u := (List.pairwise_cons.1 h).1 u (by simp)
    have e : (t :: u :: us).getLastD 0 = (u :: us).getLastD 0 := by simp
    rw [e]
    refine ⟨?_, by omega⟩
    rw [List.zip_cons_cons, List.map_cons, List.sum_cons, h1]
    simp only; omega

theorem personDurations_sum (nT : Nat) (ign : Bool) (ts : List Nat) (a b : σ) (h : ts.Pairwise (· < ·)) (hne : ts ≠ [])
    (hlt : ∀ t ∈ ts, t < nT) :
    (personDurations nT ign ts a b).sum = if a = b then nT else if ign then ts.getLastD 0 - ts.headD 0 else nT - ts.headD 0 := by
  cases ts with
  | nil => exact absurd rfl hne
  | cons t ts =>
    obtain ⟨h1, h2⟩ := telescope t ts h
    have h3 : (t :: ts).getLastD 0 < nT := by
      apply hlt
      rw [getLastD_getElem _ _ (by simp)]
      exact List.getElem_mem _
    unfold personDurations
    simp only [List.tail_cons, List.sum_append, h1, List.sum_cons, List.sum_nil, List.headD_cons]
    split
    · omega
    · split <;> omega

theorem runLength_of_isRun (D : Diaries σ) (p t d : Nat) (ht : t < D.nT) (h : IsRun D p t d) :
    runLength D p t = d ∧ d < D.nT := by
  obtain ⟨h0, h1, h2⟩ := h
  have hd : d < D.nT := by
    by_contra hc
    apply h2
    have hm : (t + d) % D.nT < D.nT := Nat.mod_lt _ (by omega)
    rcases Nat.lt_or_ge ((t + d) % D.nT) t with h3 | h3
    · have := h1 ((t + d) % D.nT + D.nT - t) (by omega)
      have e : t + ((t + d) % D.nT + D.nT - t) = (t + d) % D.nT + D.nT := by omega
      rw [e, Nat.add_mod_right, Nat.mod_mod] at this
      exact this
    · have := h1 ((t + d) % D.nT - t) (by omega)
      have e : t + ((t + d) % D.nT - t) = (t + d) % D.nT := by omega
      rw [e, Nat.mod_mod] at this
      exact this
  refine ⟨?_, hd⟩
  unfold runLength
  have : (List.range D.nT).find? (fun d => decide (D.at' p ((t + d) % D.nT) ≠ D.at' p t)) = some d := by
    rw [List.find?_range_eq_some]
    refine ⟨by simpa using h2, List.mem_range.2 hd, fun j hj => ?_⟩
    simpa using h1 j hj
  rw [this]; rfl

theorem duration_keptFor [Inhabited σ] (D : Diaries σ) (ign : Bool) (p j : Nat)
    (hj : j < (changeTimes D ign p).length) :
    (personDurations D.nT ign (changeTimes D ign p)
      (D.before ign p ((changeTimes D ign p).headD 0)) (D.at' p ((changeTimes D ign p).getLastD 0)))[j]'(by
        rw [personDurations_length]; exact hj) = keptFor D ign p (changeTimes D ign p)[j] := by
  have hpos : 0 < (changeTimes D ign p).length := by omega
  have hlt : ∀ i (hi : i < (changeTimes D ign p).length), (changeTimes D ign p)[i] < D.nT :=
    fun i hi => ((mem_changeTimes D ign p _).1 (List.getElem_mem hi)).1
  have hall : ((List.range D.nT).all (fun x => decide ((changeTimes D ign p)[j] ≤ x → D.at' p x = D.at' p (changeTimes D ign p)[j])) = true) ↔
      j + 1 = (changeTimes D ign p).length := by
    rw [List.all_eq_true]
    constructor
    · intro h
      by_contra hc
      have h2 : j + 1 < (changeTimes D ign p).length := by omega
      have hs := List.pairwise_iff_getElem.1 (changeTimes_sorted D ign p) j (j + 1) hj h2 (by omega)
      have h3 := (((mem_changeTimes D ign p _).1 (List.getElem_mem h2)).2)
      unfold Diaries.before at h3
      rw [if_neg (by omega)] at h3
      have h4 := h ((changeTimes D ign p)[j + 1]) (List.mem_range.2 (hlt _ h2))
      have h5 := h ((changeTimes D ign p)[j + 1] - 1) (List.mem_range.2 (by have := hlt _ h2; omega))
      simp only [decide_eq_true_eq] at h4 h5
      exact h3 ((h5 (by omega)).trans (h4 (by omega)).symm)
    · intro h x hx
      simp only [decide_eq_true_eq]
      intro hle
      have hje : j = (changeTimes D ign p).length - 1 := by omega
      subst hje
      exact const_of_no_change D ign p _ D.nT (fun x a b => no_change_after D ign p hpos x a b) _ hle (List.mem_range.1 hx)
  unfold keptFor
  by_cases hc : ign = true ∧ D.at' p 0 ≠ D.at' p (D.nT - 1) ∧
      (List.range D.nT).all (fun x => decide ((changeTimes D ign p)[j] ≤ x → D.at' p x = D.at' p (changeTimes D ign p)[j])) = true
  · rw [if_pos hc]
    obtain ⟨h1, h2, h3⟩ := hc
    subst h1
    have hje := hall.1 h3
    have hje : j = (changeTimes D true p).length - 1 := by omega
    subst hje
    rw [personDurations_last _ _ _ _ _ hpos, headD_getElem _ _ hpos, getLastD_getElem _ _ hpos]
    rw [(first_ignored D p hpos).2, ← last_change_state D true p hpos, if_neg h2]
    rfl
  · rw [if_neg hc]
    refine ((runLength_of_isRun D p _ _ (hlt j hj) (personDurations_run D ign p j hj ?_)).1).symm
    intro hje
    have hje2 : j = (changeTimes D ign p).length - 1 := by omega
    have hl := hall.2 hje
    cases ign with
    | false => 
      subst hje2
      exact first_eq_last_of_wrap D p hpos
    | true =>
      rw [(first_ignored D p hpos).2]
      have : D.at' p 0 = D.at' p (D.nT - 1) := by
        by_contra h
        exact hc ⟨rfl, h, hl⟩
      rw [this, last_change_state D true p hpos]
      subst hje2
      rfl

/-- All the durations. -/
theorem transitionDurations_eq [Inhabited σ] (D : Diaries σ) (ign : Bool) (tr : Transitions σ)
    (htr : statesToTransitions D false ign = .ok tr) :
    transitionDurations D.nT ign tr = (changes D false ign).map fun r => keptFor D ign r.2.1 r.1 := by
  have hl := (durations_person D ign tr htr).1
  apply List.ext_getElem
  · simp [hl]
  · intro k h1 h2
    obtain ⟨j, hj, _, he, hd⟩ := duration_mem D ign tr htr k (by omega) h1
    rw [hd, duration_keptFor, List.getElem_map]
    have : ((changes D false ign)[k]'(by omega)).1 = _ := congrArg Prod.fst he
    rw [this]

end Demod
