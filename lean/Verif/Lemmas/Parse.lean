import Verif.Spec.Parse
import Verif.Lemmas.Population

namespace Demod

theorem maskSel_map {α γ : Type} (E : List γ) (p : γ → Bool) (f : γ → α) :
    maskSel (E.map p) (E.map f) = (E.filter p).map f := by
  unfold maskSel
  induction E with
  | nil => rfl
  | cons e E ih =>
    simp only [List.map_cons, List.zip_cons_cons, List.filterMap_cons, List.filter_cons]
    by_cases h : p e <;> simp [h, ih]

theorem whereIdx_map (n : Nat) (p : Nat → Bool) :
    whereIdx ((List.range n).map p) = (List.range n).filter p := by
  unfold whereIdx
  rw [List.length_map, List.length_range]
  apply List.filter_congr
  intro i hi
  have := List.mem_range.1 hi
  simp [List.getD, this]

theorem replicate_count (n i : Nat) (p : Nat → Bool) :
    List.replicate (((List.range n).map p).countP (· == true)) i = ((List.range n).filter p).map fun _ => i := by
  rw [List.map_const', List.countP_map]
  congr 1
  rw [List.countP_eq_length_filter]
  congr 1
  apply List.filter_congr
  intro x _; simp

section
variable {σ : Type} [DecidableEq σ]

theorem loop_eq (D : Diaries σ) (inc : Bool) (i m : Nat) (old : Nat → σ) :
    let bef := fun p t => if t = i then old p else D.at' p (t - 1)
    let R := (List.range' i m).flatMap fun t =>
      ((List.range D.nP).filter fun p => inc || decide (bef p t ≠ D.at' p t)).map
        fun p => (t, p, bef p t, D.at' p t)
    transitionsLoop inc i ((List.range D.nP).map old) ((List.range' i m).map D.col) =
      { times := R.map (·.1), persons := R.map (·.2.1), newStates := R.map (·.2.2.2), oldStates := R.map (·.2.2.1) } := by
  induction m generalizing i old with
  | zero => rfl
  | succ m ih =>
    intro bef R
    have hR : R = (((List.range D.nP).filter fun p => inc || decide (old p ≠ D.at' p i)).map
        fun p => (i, p, old p, D.at' p i)) ++
        (List.range' (i + 1) m).flatMap fun t =>
      ((List.range D.nP).filter fun p => inc || decide ((if t = i + 1 then D.at' p i else D.at' p (t - 1)) ≠ D.at' p t)).map
        fun p => (t, p, (if t = i + 1 then D.at' p i else D.at' p (t - 1)), D.at' p t) := by
      simp only [R]
      rw [List.range'_succ, List.flatMap_cons]
      congr 1
      · simp [bef]
      · apply List.flatMap_congr
        intro t ht
        have h1 := List.mem_range'_1.1 ht
        have h2 : ∀ p, bef p t = (if t = i + 1 then D.at' p i else D.at' p (t - 1)) := by
          intro p
          simp only [bef]
          rw [if_neg (by omega : ¬ t = i)]
          by_cases h : t = i + 1
          · subst h; simp
          · rw [if_neg h]
        simp only [h2]
    have hmask : (((List.range D.nP).map old).zip (D.col i)).map
        (fun p => if inc then true else decide (p.1 ≠ p.2)) =
        (List.range D.nP).map fun p => inc || decide (old p ≠ D.at' p i) := by
      unfold Diaries.col
      rw [List.zip_map', List.map_map]
      apply List.map_congr_left
      intro p _
      cases inc <;> simp
    rw [List.range'_succ, List.map_cons]
    unfold transitionsLoop
    simp only []
    rw [hmask]
    have ih' := ih (i + 1) (fun p => D.at' p i)
    simp only at ih'
    have hcol : D.col i = (List.range D.nP).map fun p => D.at' p i := rfl
    rw [hcol, ih', hR, replicate_count, whereIdx_map, maskSel_map, maskSel_map]
    simp [List.map_map, Function.comp_def]

theorem statesToTransitions_eq (D : Diaries σ) (inc ign : Bool) (hT : D.nT ≠ 0) :
    statesToTransitions D inc ign = .ok
      { times := (changes D inc ign).map (·.1), persons := (changes D inc ign).map (·.2.1)
        newStates := (changes D inc ign).map (·.2.2.2), oldStates := (changes D inc ign).map (·.2.2.1) } := by
  unfold statesToTransitions
  rw [if_neg hT]
  have := loop_eq D inc 0 D.nT (fun p => D.at' p (if ign then 0 else D.nT - 1))
  simp only at this
  have hc : D.cols = (List.range' 0 D.nT).map D.col := by
    unfold Diaries.cols; rw [List.range_eq_range']
  have hcol : D.col (if ign then 0 else D.nT - 1) = (List.range D.nP).map fun p => D.at' p (if ign then 0 else D.nT - 1) := rfl
  have hch : changes D inc ign = (List.range' 0 D.nT).flatMap fun t =>
      ((List.range D.nP).filter fun p => inc || decide ((if t = 0 then D.at' p (if ign then 0 else D.nT - 1) else D.at' p (t - 1)) ≠ D.at' p t)).map
        fun p => (t, p, (if t = 0 then D.at' p (if ign then 0 else D.nT - 1) else D.at' p (t - 1)), D.at' p t) := by
    unfold changes
    rw [List.range_eq_range' (n := D.nT)]
    apply List.flatMap_congr
    intro t _
    have : ∀ p, D.before ign p t = (if t = 0 then D.at' p (if ign then 0 else D.nT - 1) else D.at' p (t - 1)) := by
      intro p; unfold Diaries.before; cases ign <;> simp
    simp only [this]
  rw [hcol, hc, this, hch]

theorem secondary_loop (P S : Diaries σ) (hn : S.nP = P.nP) (i m : Nat) :
    secondaryLoop i (P.col (i - 1)) (S.col (i - 1)) ((List.range' i m).map fun t => (P.col t, S.col t)) =
      { times := ((List.range' i m).flatMap (eventsAt P S)).map (·.1)
        persons := (List.range' i m).flatMap fun t => vanished S P S t ++ vanished P P S t
        newStates := ((List.range' i m).flatMap (eventsAt P S)).map (·.2.2.2)
        oldStates := ((List.range' i m).flatMap (eventsAt P S)).map (·.2.2.1) } := by
  induction m generalizing i with
  | zero => rfl
  | succ m ih =>
    rw [List.range'_succ, List.map_cons]
    unfold secondaryLoop
    have ih' := ih (i + 1)
    rw [Nat.add_sub_cancel] at ih'
    have hm : ∀ X : Diaries σ, X.nP = P.nP → ((X.col (i - 1)).zip ((P.col i).zip (S.col i))).map
        (fun x => decide (x.1 ≠ x.2.1) && decide (x.1 ≠ x.2.2)) =
        (List.range P.nP).map fun p => decide (X.at' p (i - 1) ≠ P.at' p i) && decide (X.at' p (i - 1) ≠ S.at' p i) := by
      intro X hX
      unfold Diaries.col
      rw [hX, hn, List.zip_map', List.zip_map', List.map_map]
      rfl
    simp only []
    rw [hm P rfl, hm S hn, ih']
    have hc : ∀ t, P.col t = (List.range P.nP).map fun p => P.at' p t := fun _ => rfl
    have hc2 : ∀ t, S.col t = (List.range P.nP).map fun p => S.at' p t := fun t => by unfold Diaries.col; rw [hn]
    rw [hc, hc, hc2, hc2, maskSel_map, maskSel_map, maskSel_map, maskSel_map, whereIdx_map, whereIdx_map,
      List.replicate_add, replicate_count, replicate_count]
    simp [List.flatMap_cons, eventsAt, vanished, List.map_map, Function.comp_def]
    rw [← List.append_assoc, ← List.replicate_add]

theorem secondary_eq (P S : Diaries σ) (hn : S.nP = P.nP) (ht : S.nT = P.nT) (hT : P.nT ≠ 0) :
    statesToTransitionsSecondary P S = .ok
      { times := ((List.range P.nT).flatMap (eventsAt P S)).map (·.1)
        persons := (List.range P.nT).flatMap fun t => vanished S P S t ++ vanished P P S t
        newStates := ((List.range P.nT).flatMap (eventsAt P S)).map (·.2.2.2)
        oldStates := ((List.range P.nT).flatMap (eventsAt P S)).map (·.2.2.1) } := by
  unfold statesToTransitionsSecondary
  rw [if_neg hT]
  have := secondary_loop P S hn 0 P.nT
  unfold Diaries.cols
  rw [ht, List.zip_map', List.range_eq_range' (n := P.nT)]
  exact congrArg _ this

theorem filter_eq_singleton (n p : Nat) (c : Nat → Bool) (hp : p < n) :
    ((List.range n).filter fun q => c q && (q == p)) = if c p then [p] else [] := by
  induction n with
  | zero => omega
  | succ n ih =>
    rw [List.range_succ, List.filter_append]
    rcases Nat.lt_or_ge p n with h | h
    · rw [ih h]
      have : ¬ (n = p) := by omega
      simp [this]
    · have hpn : p = n := by omega
      subst hpn
      have : ((List.range p).filter fun q => c q && (q == p)) = [] := by
        rw [List.filter_eq_nil_iff]
        intro q hq
        have := List.mem_range.1 hq
        simp; omega
      rw [this]
      by_cases hc : c p <;> simp [hc]

/-- The records of one person. -/
theorem changes_person (D : Diaries σ) (ign : Bool) (p : Nat) (hp : p < D.nP) :
    (changes D false ign).filter (fun r => r.2.1 == p) =
      ((List.range D.nT).filter fun t => decide (D.before ign p t ≠ D.at' p t)).map
        fun t => (t, p, D.before ign p t, D.at' p t) := by
  unfold changes
  generalize List.range D.nT = L
  induction L with
  | nil => rfl
  | cons t L ih =>
    rw [List.flatMap_cons, List.filter_append, ih, List.filter_map, List.filter_filter]
    have h1 : ((List.range D.nP).filter fun a => ((fun r : Nat × Nat × σ × σ => r.2.1 == p) ∘ fun p => (t, p, D.before ign p t, D.at' p t)) a &&
        (false || decide (D.before ign a t ≠ D.at' a t))) =
        if decide (D.before ign p t ≠ D.at' p t) = true then [p] else [] := by
      rw [← filter_eq_singleton D.nP p (fun q => decide (D.before ign q t ≠ D.at' q t)) hp]
      apply List.filter_congr
      intro q _
      simp [Function.comp, Bool.and_comm]
    rw [h1, List.filter_cons]
    by_cases hc : decide (D.before ign p t ≠ D.at' p t) = true
    · rw [if_pos hc, if_pos hc]; simp
    · rw [if_neg hc, if_neg hc]; simp

/-! ## Filling by person -/

theorem maskFill_length {α : Type} : ∀ (m : List Bool) (xs vs : List α), (maskFill m xs vs).length = xs.length
  | [], xs, _ => by simp [maskFill]
  | true :: m, [], _ => by simp [maskFill]
  | true :: m, x :: xs, [] => by simp [maskFill]
  | true :: m, x :: xs, v :: vs => by simp [maskFill, maskFill_length m xs vs]
  | false :: m, [], _ => by simp [maskFill]
  | false :: m, x :: xs, vs => by simp [maskFill, maskFill_length m xs vs]

theorem maskSel_fill_same {α : Type} : ∀ (m : List Bool) (xs vs : List α), m.length = xs.length →
    vs.length = m.countP (· == true) → maskSel m (maskFill m xs vs) = vs
  | [], [], vs, _, h => by
    simp at h; subst h; rfl
  | true :: m, x :: xs, [], h, h' => by simp at h'
  | true :: m, x :: xs, v :: vs, h, h' => by
    have := maskSel_fill_same m xs vs (by simpa using h) (by simpa using h')
    simp only [maskFill]
    unfold maskSel at this ⊢
    simp [this]
  | false :: m, x :: xs, vs, h, h' => by
    have := maskSel_fill_same m xs vs (by simpa using h) (by simpa using h')
    simp only [maskFill]
    unfold maskSel at this ⊢
    simp [this]

theorem maskSel_fill_other {α : Type} : ∀ (m m' : List Bool) (xs vs : List α), m.length = xs.length →
    m'.length = xs.length → (∀ k (h : k < m.length) (h' : k < m'.length), m[k] = true → m'[k] = false) →
    maskSel m' (maskFill m xs vs) = maskSel m' xs
  | [], [], [], vs, _, _, _ => rfl
  | [], _ :: _, xs, _, h, h', _ => by cases xs <;> simp at h h'
  | _ :: _, [], xs, _, h, h', _ => by cases xs <;> simp at h h'
  | true :: m, b :: m', x :: xs, [], h, h', hd => by simp [maskFill]
  | true :: m, b :: m', x :: xs, v :: vs, h, h', hd => by
    have hb : b = false := hd 0 (by simp) (by simp) rfl
    have := maskSel_fill_other m m' xs vs (by simpa using h) (by simpa using h') (by
      intro k hk hk' hm
      have := hd (k + 1) (by simpa using hk) (by simpa using hk')
      simpa using this (by simpa using hm))
    simp only [maskFill]
    unfold maskSel at this ⊢
    simp [this, hb]
  | false :: m, b :: m', x :: xs, vs, h, h', hd => by
    have := maskSel_fill_other m m' xs vs (by simpa using h) (by simpa using h') (by
      intro k hk hk' hm
      have := hd (k + 1) (by simpa using hk) (by simpa using hk')
      simpa using this (by simpa using hm))
    simp only [maskFill]
    unfold maskSel at this ⊢
    cases b <;> simp [this]

theorem uniqueSorted_nodup (xs : List Nat) : (uniqueSorted xs).Nodup := by
  unfold uniqueSorted
  exact List.Nodup.sublist List.filter_sublist List.nodup_range

theorem mem_uniqueSorted (xs : List Nat) (x : Nat) : x ∈ uniqueSorted xs ↔ x ∈ xs := by
  unfold uniqueSorted
  rw [List.mem_filter]
  simp only [decide_eq_true_eq, List.mem_range]
  exact ⟨fun h => h.2, fun h => ⟨lt_bound xs x h, h⟩⟩

/-- The generic effect of the per-person loop. -/
theorem fill_loop (persons : List Nat) (vals : Nat → List Nat) (U : List Nat) (hU : U.Nodup) (init : List Nat)
    (hl : init.length = persons.length)
    (hv : ∀ q ∈ U, (vals q).length = (persons.map (· == q)).countP (· == true)) :
    let res := U.foldl (fun d q => maskFill (persons.map (· == q)) d (vals q)) init
    res.length = persons.length ∧
      ∀ q, maskSel (persons.map (· == q)) res =
        if q ∈ U then vals q else maskSel (persons.map (· == q)) init := by
  induction U generalizing init with
  | nil => simp [hl]
  | cons u U ih =>
    intro res
    have hU' := List.nodup_cons.1 hU
    have hl' : (maskFill (persons.map (· == u)) init (vals u)).length = persons.length := by
      rw [maskFill_length]; exact hl
    obtain ⟨h1, h2⟩ := ih hU'.2 (maskFill (persons.map (· == u)) init (vals u)) hl' (fun q hq => hv q (by simp [hq]))
    refine ⟨h1, ?_⟩
    intro q
    have h3 := h2 q
    show maskSel (persons.map (· == q)) (U.foldl _ (maskFill (persons.map (· == u)) init (vals u))) = _
    rw [h3]
    by_cases hq : q ∈ U
    · rw [if_pos hq, if_pos (by simp [hq])]
    · rw [if_neg hq]
      by_cases hqu : q = u
      · subst hqu
        rw [if_pos (by simp)]
        exact maskSel_fill_same _ _ _ (by simp [hl]) (hv q (by simp))
      · rw [if_neg (by simp [hq, hqu])]
        apply maskSel_fill_other
        · simp [hl]
        · simp [hl]
        · intro k hk hk' hm
          simp at hm ⊢
          omega

end
end Demod
