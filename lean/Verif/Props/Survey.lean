import Verif.Lemmas.Survey

/-! # C92, C93: occupancy of the diaries and households of the survey -/

namespace Demod

/-! ## C92 -/

/-- The estimated occupancy for any survey: nobody is at home while travelling; up to the first travel everybody is where the day started, at home if this is unknown; from the first to the
last travel nobody is at home, whatever they do; after the last travel everybody is where the day ended, and if this is unknown at home unless both last activities have the lowest
rating. -/
theorem C92_occupancy_partial (P S : Diaries Int) (hnP : S.nP = P.nP) (hnT : S.nT = P.nT) (hP : 0 < P.nP) (hT : 0 < P.nT) (initial final : Nat → Int) (dic : Int → Option Int) (h1 : Rated P dic) (h2 : Rated S dic) :
    ∃ occ, statesToOccupancy P S initial final dic = .ok occ ∧ occ.nP = P.nP ∧ occ.nT = P.nT ∧ ∀ p t, p < P.nP → t < P.nT →
      (OnTheWay P S p t → occ.at' p t = false) ∧
      ((∀ j, j ≤ t → ¬ OnTheWay P S p j) → (occ.at' p t = true ↔ initial p = 1 ∨ initial p = -1)) ∧
      ((∃ j, j ≤ t ∧ OnTheWay P S p j) → (∃ j, t ≤ j ∧ j < P.nT ∧ OnTheWay P S p j) → occ.at' p t = false) ∧
      ((∃ j, j ≤ t ∧ OnTheWay P S p j) → (∀ j, t ≤ j → j < P.nT → ¬ OnTheWay P S p j) →
        (occ.at' p t = true ↔ final p = 1 ∨ final p = -1 ∧ (NotLowest P dic p (P.nT - 1) ∨ NotLowest S dic p (P.nT - 1)))) := by
  obtain ⟨CP, LP, eP, cP1, cP2, getP, sortP, -, memP⟩ := convertArray_spec intLt intLt intLt_total intLt_total dic P hP hT h1
  obtain ⟨CS, LS, eS, cS1, cS2, getS, sortS, -, memS⟩ := convertArray_spec intLt intLt intLt_total intLt_total dic S (by omega) (by omega) h2
  have htr : ∀ p t, (isTransport (P.at' p t) || isTransport (S.at' p t)) = true ↔ OnTheWay P S p t := by
    intro p t
    rw [Bool.or_eq_true, isTransport_iff, isTransport_iff]
    rfl
  have htrf : ∀ p t, (isTransport (P.at' p t) || isTransport (S.at' p t)) = false ↔ ¬ OnTheWay P S p t := by
    intro p t
    rw [← htr, Bool.not_eq_true]
  refine ⟨⟨P.nP, P.nT, fun p t => (occLoop (fun t => isTransport (P.at' p t) || isTransport (S.at' p t)) (fun t => (CP.at' p t : Int) + (CS.at' p t : Int)) ((CP.at' p (P.nT - 1) : Int) + (CS.at' p (P.nT - 1) : Int))
        (lastTravel P.nT fun t => isTransport (P.at' p t) || isTransport (S.at' p t)) (final p) (List.range P.nT)
        ⟨if initial p = -1 then decide (0 ≤ (CP.at' p 0 : Int) + (CS.at' p 0 : Int)) else decide (initial p = 1), false, false⟩).getD t false⟩, ?_, rfl, rfl, ?_⟩
  · unfold statesToOccupancy
    rw [eP]
    change (do let sec ← convertArray intLt intLt dic S; _) = _
    rw [eS]
    rfl
  intro p t hp ht
  obtain ⟨-, i1, i2, i3⟩ := occ_invariant P.nT (fun t => isTransport (P.at' p t) || isTransport (S.at' p t)) (fun t => (CP.at' p t : Int) + (CS.at' p t : Int)) ((CP.at' p (P.nT - 1) : Int) + (CS.at' p (P.nT - 1) : Int))
    (final p) (if initial p = -1 then decide (0 ≤ (CP.at' p 0 : Int) + (CS.at' p 0 : Int)) else decide (initial p = 1)) (t + 1) (by omega)
  have hval : ∀ (b : Bool), ((List.range (t + 1)).foldl (fun s i => occStep (isTransport (P.at' p i) || isTransport (S.at' p i)) ((CP.at' p i : Int) + (CS.at' p i : Int)) ((CP.at' p (P.nT - 1) : Int) + (CS.at' p (P.nT - 1) : Int))
      (lastTravel P.nT fun t => isTransport (P.at' p t) || isTransport (S.at' p t)) (final p) i s) ⟨if initial p = -1 then decide (0 ≤ (CP.at' p 0 : Int) + (CS.at' p 0 : Int)) else decide (initial p = 1), false, false⟩).current = b →
      (occLoop (fun t => isTransport (P.at' p t) || isTransport (S.at' p t)) (fun t => (CP.at' p t : Int) + (CS.at' p t : Int)) ((CP.at' p (P.nT - 1) : Int) + (CS.at' p (P.nT - 1) : Int))
        (lastTravel P.nT fun t => isTransport (P.at' p t) || isTransport (S.at' p t)) (final p) (List.range P.nT)
        ⟨if initial p = -1 then decide (0 ≤ (CP.at' p 0 : Int) + (CS.at' p 0 : Int)) else decide (initial p = 1), false, false⟩).getD t false = b := by
    intro b hb
    rw [occLoop_get _ _ _ _ _ _ _ _ (by simpa using ht), List.take_range, Nat.min_eq_left (by omega)]
    exact hb
  have hnow : (∃ j, j ≤ t ∧ OnTheWay P S p j) → (∃ j, t ≤ j ∧ j < P.nT ∧ OnTheWay P S p j) → _ = false := fun ⟨j, hj, hjt⟩ ⟨k, hk, hkn, hkt⟩ =>
    hval false (i2 ⟨j, by omega, (htr p j).mpr hjt⟩ ⟨k, by omega, hkn, (htr p k).mpr hkt⟩)
  refine ⟨fun h => hnow ⟨t, le_refl _, h⟩ ⟨t, le_refl _, ht, h⟩, fun h => ?_, hnow, fun ⟨j, hj, hjt⟩ hno => ?_⟩
  · have e := hval _ (i1 fun j hj => (htrf p j).mpr (h j (by omega)))
    refine (Eq.congr_left (z := true) e).trans ?_
    by_cases hi : initial p = -1
    · rw [if_pos hi]
      have : (0 : Int) ≤ (CP.at' p 0 : Int) + (CS.at' p 0 : Int) := by omega
      simp [this, hi]
    · rw [if_neg hi]
      simp [hi]
  · have e := hval _ (i3 ⟨j, by omega, (htr p j).mpr hjt⟩ fun k hk hkn => (htrf p k).mpr (hno k (by omega) hkn))
    have hpos : ∀ (D C : Diaries _) (L : List Int), D.nP = P.nP → D.nT = P.nT → (∀ p t, p < D.nP → t < D.nT → L[C.at' p t]? = dic (D.at' p t)) → L.Pairwise (fun x y => intLt x y = true) → Rated D dic →
        (∀ y, y ∈ L ↔ ∃ p t, p < D.nP ∧ t < D.nT ∧ dic (D.at' p t) = some y) → (0 < C.at' p (P.nT - 1) ↔ NotLowest D dic p (P.nT - 1)) := by
      intro D C L d1 d2 hg hs hr hmem
      obtain ⟨r, hr⟩ := hr p (P.nT - 1) (by omega) (by omega)
      rw [code_pos_iff hs _ r (by rw [hg _ _ (by omega) (by omega), hr])]
      constructor
      · rintro ⟨z, hz, hzr⟩
        obtain ⟨q, u, hq, hu, e⟩ := (hmem z).mp hz
        exact ⟨q, u, r, z, hq, hu, e, hr, hzr⟩
      · rintro ⟨q, u, r', z, hq, hu, e, hr', hz⟩
        rw [hr] at hr'
        cases hr'
        exact ⟨z, (hmem z).mpr ⟨q, u, hq, hu, e⟩, hz⟩
    rw [← hpos P CP LP rfl rfl getP sortP h1 memP, ← hpos S CS LS hnP hnT getS sortS h2 memS]
    refine (Eq.congr_left (z := true) e).trans ?_
    simp only [Bool.or_eq_true, Bool.and_eq_true, decide_eq_true_eq]
    constructor
    · rintro (h | ⟨h, h'⟩)
      · exact .inl h
      · exact .inr ⟨h, by omega⟩
    · rintro (h | ⟨h, h'⟩)
      · exact .inl h
      · exact .inr ⟨h, by omega⟩

/-- Ratings of sleeping, paid work, eating and travelling, as in the dataset. -/
def demoRatings (s : Int) : Option Int := if s = 110 then some 1 else if s = 210 then some (-1) else if s = 120 then some 1 else if s = 941 then some 0 else if s = 0 then some 0 else none

/-- A person who sleeps, goes to work, comes home for lunch, goes back to work and comes home. -/
def lunchAtHome : Diaries Int := ⟨1, 9, fun _ t => [110, 941, 210, 941, 120, 941, 210, 941, 110].getD t 0⟩

/-- No secondary activities. -/
def noSecondary : Diaries Int := ⟨1, 9, fun _ _ => 0⟩

example : Rated lunchAtHome demoRatings ∧ Rated noSecondary demoRatings ∧ (∃ j, j < 9 ∧ OnTheWay lunchAtHome noSecondary 0 j) := by
  refine ⟨?_, ?_, 1, by omega, by decide⟩
  · intro p t hp ht
    have hp : p = 0 := by change p < 1 at hp; omega
    subst hp
    have : ∀ t, t < 9 → (demoRatings (lunchAtHome.at' 0 t)).isSome := by decide
    exact Option.isSome_iff_exists.mp (this t ht)
  · intro p t hp ht
    exact ⟨0, rfl⟩

/-- The full statement: the estimate uses the ratings at an unknown start and after each travel. -/
def C92_full : Prop := ∀ (P S : Diaries Int) (initial final : Nat → Int) (dic : Int → Option Int) (occ : Diaries Bool), S.nP = P.nP → S.nT = P.nT →
  statesToOccupancy P S initial final dic = .ok occ → EstimatesOccupancy P S initial dic occ

/-- Lunch at home counts as an absence. -/
theorem C92_lunch_counterexample : ∃ occ, statesToOccupancy lunchAtHome noSecondary (fun _ => 1) (fun _ => 1) demoRatings = .ok occ ∧
    (List.range 9).map (occ.at' 0) = [true, false, false, false, false, false, false, false, true] := ⟨_, rfl, by decide +kernel⟩

/-- Somebody whose start is unknown and who works away is counted at home. -/
theorem C92_start_counterexample : ∃ occ, statesToOccupancy ⟨1, 3, fun _ _ => 210⟩ ⟨1, 3, fun _ _ => 210⟩ (fun _ => -1) (fun _ => 2) demoRatings = .ok occ ∧ (List.range 3).map (occ.at' 0) = [true, true, true] :=
  ⟨_, rfl, by decide +kernel⟩

theorem C92_full_fails : ¬ C92_full := by
  intro h
  obtain ⟨occ, e, ho⟩ := C92_start_counterexample
  have := (h _ _ _ _ _ occ rfl rfl e).1 0 (-1) (-1) (by decide) rfl (by decide) (by decide) (by decide)
  have h0 : occ.at' 0 0 = true := by
    have := congrArg (fun l => l.getD 0 false) ho
    simpa [List.range_succ] using this
  rw [h0] at this
  exact absurd this (by decide)

/-- A final location that does not apply is replaced with the start of the *previous* diary; all the others are kept. -/
theorem C92_final_location (n : Nat) (initial final : Nat → Int) (p : Nat) (hp : p < n) :
    (final p ≠ -2 → finalLocation n initial final p = final p) ∧
    (final p = -2 → 0 < p → finalLocation n initial final p = initial (p - 1)) ∧ (final p = -2 → p = 0 → finalLocation n initial final p = initial (n - 1)) := by
  unfold finalLocation
  refine ⟨fun h => by rw [if_neg h], fun h h0 => ?_, fun h h0 => ?_⟩
  · rw [if_pos h]
    have : (p + (n - 1)) % n = p - 1 := by
      rw [show p + (n - 1) = p - 1 + n by omega, Nat.add_mod_right, Nat.mod_eq_of_lt (by omega)]
    rw [this]
  · rw [if_pos h, h0, Nat.zero_add, Nat.mod_eq_of_lt (by omega)]

/-- The start of the next day, at home, is not used. -/
theorem C92_final_location_counterexample : ∃ (initial final : Nat → Int), final 1 = -2 ∧ initial 2 = 1 ∧ finalLocation 3 initial final 1 = 2 :=
  ⟨fun p => if p = 2 then 1 else 2, fun _ => -2, by decide, by decide, by decide⟩

/-- Everybody is in the house, out for work or school, or out for something else. -/
theorem C92_out (occ : Bool) (prim sec : Int) :
    (outForWhat occ prim sec = 0 ↔ occ = true) ∧
    (outForWhat occ prim sec = 1 ↔ occ = false ∧ ∃ s ∈ [prim, sec], (200 ≤ s ∧ s < 400) ∨ (900 ≤ s ∧ s ≤ 940)) ∧
    (outForWhat occ prim sec = 2 ↔ occ = false ∧ ∀ s ∈ [prim, sec], ¬ ((200 ≤ s ∧ s < 400) ∨ (900 ≤ s ∧ s ≤ 940))) := by
  have hw : ∀ s, isWorkOrSchool s = true ↔ (200 ≤ s ∧ s < 400) ∨ (900 ≤ s ∧ s ≤ 940) := by
    intro s
    unfold isWorkOrSchool
    simp
  unfold outForWhat
  simp only [List.mem_cons, List.not_mem_nil, or_false, exists_eq_or_imp, exists_eq_left, forall_eq_or_imp, forall_eq, ← hw]
  cases occ <;> cases isWorkOrSchool prim <;> cases isWorkOrSchool sec <;> simp

/-! ## C93 -/

theorem mem_members (n : Nat) (household day : List Nat) (h d p : Nat) : p ∈ members n household day h d ↔ p < n ∧ household[p]? = some h ∧ day[p]? = some d := by
  unfold members
  rw [List.mem_filter, List.mem_range, decide_eq_true_eq]

/-- Grouping by household: there is exactly one row per recorded pair of day and household, in order of day, then household, and it is the sum over the members. -/
theorem C93_group (X : Diaries Nat) (household day : List Nat) (hh : household.length = X.nP) (hd : day.length = X.nP) :
    ∃ (Y : Diaries Nat) (keys : List (Nat × Nat)), groupHouseholds X household day = .ok Y ∧ Y.nP = keys.length ∧ Y.nT = X.nT ∧
      keys.Pairwise (fun a b : Nat × Nat => a.1 < b.1 ∨ a.1 = b.1 ∧ a.2 < b.2) ∧
      (∀ d h, (d, h) ∈ keys ↔ members X.nP household day h d ≠ []) ∧
      ∀ (r : Nat) d h, keys[r]? = some (d, h) → ∀ t, Y.at' r t = ((members X.nP household day h d).map fun p => X.at' p t).sum := by
  refine ⟨⟨(npUnique pairLt (day.zip household)).length, X.nT, fun r t => (((List.range X.nP).filter fun p => decide (household.getD p 0 = ((npUnique pairLt (day.zip household)).getD r (0, 0)).2) &&
      decide (day.getD p 0 = ((npUnique pairLt (day.zip household)).getD r (0, 0)).1)).map fun p => X.at' p t).sum⟩, npUnique pairLt (day.zip household), ?_, rfl, rfl, ?_, fun d h => ?_, fun r d h hr t => ?_⟩
  · unfold groupHouseholds
    rw [if_neg (by omega)]
  · refine (npUnique_sorted pairLt_total _).imp ?_
    intro a b hab
    simpa [pairLt] using hab
  · rw [mem_npUnique pairLt_total]
    constructor
    · intro hm
      obtain ⟨p, hp⟩ := List.getElem?_of_mem hm
      rw [List.getElem?_zip_eq_some] at hp
      have hlt : p < X.nP := by have := (List.getElem?_eq_some_iff.mp hp.1).1; omega
      exact List.ne_nil_of_mem ((mem_members _ _ _ _ _ _).mpr ⟨hlt, hp.2, hp.1⟩)
    · intro hne
      obtain ⟨p, hp⟩ := List.exists_mem_of_ne_nil _ hne
      obtain ⟨-, h1, h2⟩ := (mem_members _ _ _ _ _ _).mp hp
      exact List.mem_of_getElem? (List.getElem?_zip_eq_some.mpr ⟨h2, h1⟩)
  · simp only [List.getD_eq_getElem?_getD, hr, Option.getD_some]
    congr 2
    unfold members
    apply List.filter_congr
    intro p hp
    have hp : p < X.nP := List.mem_range.mp hp
    rw [List.getElem?_eq_getElem (show p < household.length by omega), List.getElem?_eq_getElem (show p < day.length by omega)]
    simp

/-- Wrong numbers of households or days are rejected. -/
theorem C93_rejects (X : Diaries Nat) (household day : List Nat) (h : household.length ≠ X.nP ∨ day.length ≠ X.nP) :
    groupHouseholds X household day = .error .assertionError ∧ groupHouseholds4 X household day = .error .assertionError := by
  unfold groupHouseholds groupHouseholds4
  rw [if_pos (by omega), if_pos (by omega)]
  exact ⟨rfl, rfl⟩

theorem sum_groups {κ : Type} [DecidableEq κ] (keys : List κ) (nd : keys.Nodup) (key : Nat → κ) (f : Nat → Nat) (l : List Nat) (h : ∀ p ∈ l, key p ∈ keys) :
    (keys.map fun k => ((l.filter fun p => decide (key p = k)).map f).sum).sum = (l.map f).sum := by
  induction l with
  | nil => simp
  | cons p l ih =>
    have hstep : ∀ k, (((p :: l).filter fun p => decide (key p = k)).map f).sum = (if key p = k then f p else 0) + ((l.filter fun p => decide (key p = k)).map f).sum := by
      intro k
      by_cases hk : key p = k <;> simp [hk]
    have hone : ∀ ks : List κ, ks.Nodup → (ks.map fun k => if key p = k then f p else 0).sum = if key p ∈ ks then f p else 0 := by
      intro ks hks
      induction ks with
      | nil => simp
      | cons k ks ihk =>
        rw [List.map_cons, List.sum_cons, ihk (List.nodup_cons.mp hks).2]
        by_cases hk : key p = k
        · have : key p ∉ ks := by rw [hk]; exact (List.nodup_cons.mp hks).1
          rw [if_pos hk, if_neg this, if_pos (by simp [hk])]
          omega
        · by_cases hm : key p ∈ ks <;> simp [hk, hm]
    simp only [hstep]
    rw [List.sum_map_add, hone keys nd, if_pos (h p List.mem_cons_self), ih fun q hq => h q (List.mem_cons_of_mem _ hq)]
    simp

/-- Nobody is lost or counted twice: the rows of the households add up to the sum over all the diaries. -/
theorem C93_conserves (X Y : Diaries Nat) (household day : List Nat) (h : groupHouseholds X household day = .ok Y) (t : Nat) :
    ((List.range Y.nP).map fun r => Y.at' r t).sum = ((List.range X.nP).map fun p => X.at' p t).sum := by
  unfold groupHouseholds at h
  split_ifs at h with hc
  have h := Except.ok.inj h
  subst h
  simp only
  have e : ∀ keys : List (Nat × Nat), (List.range keys.length).map (fun r => (((List.range X.nP).filter fun p => decide (household.getD p 0 = (keys.getD r (0, 0)).2) && decide (day.getD p 0 = (keys.getD r (0, 0)).1)).map fun p => X.at' p t).sum) =
      keys.map fun k => (((List.range X.nP).filter fun p => decide ((day.getD p 0, household.getD p 0) = k)).map fun p => X.at' p t).sum := by
    intro keys
    apply List.ext_getElem (by simp)
    intro r hr hr'
    have hr : r < keys.length := by simpa using hr
    simp only [List.getElem_map, List.getElem_range, List.getD_eq_getElem?_getD, List.getElem?_eq_getElem hr, Option.getD_some]
    congr 2
    apply List.filter_congr
    intro p _
    rw [Bool.eq_iff_iff]
    simp only [Bool.and_eq_true, decide_eq_true_eq, Prod.ext_iff]
    exact and_comm
  rw [e]
  refine sum_groups _ (npUnique_nodup pairLt_total _) (fun p => (day.getD p 0, household.getD p 0)) _ _ fun p hp => ?_
  have hp : p < X.nP := List.mem_range.mp hp
  rw [mem_npUnique pairLt_total]
  have h1 : p < day.length := by omega
  have h2 : p < household.length := by omega
  refine List.mem_of_getElem? (i := p) (List.getElem?_zip_eq_some.mpr ?_)
  simp [List.getD_eq_getElem?_getD, List.getElem?_eq_getElem h1, List.getElem?_eq_getElem h2]

/-- Three persons: two live together. -/
example : ∃ Y, groupHouseholds ⟨3, 2, fun p t => [[1, 10], [11, 0], [10, 11]].getD p [] |>.getD t 0⟩ [7, 3, 7] [1, 1, 1] = .ok Y ∧ (List.range Y.nP).map (fun r => (List.range Y.nT).map (Y.at' r)) = [[11, 0], [11, 21]] :=
  ⟨_, rfl, by decide +kernel⟩

theorem sum_filter_count (l : List Nat) (Q : Nat → Bool) (c : Nat) : (l.map fun p => if Q p then c else 0).sum = c * (l.filter Q).length := by
  induction l with
  | nil => simp
  | cons p l ih =>
    rw [List.map_cons, List.sum_cons, ih]
    cases h : Q p <;> simp [h, Nat.mul_add, Nat.add_comm]

/-- The states of the households of the four states model: the tens are the number of members at home, the units that of active members, for up to nine members. -/
theorem C93_four_states (occ : Diaries Bool) (act : Nat → Nat → Nat) (hact : ∀ p t, act p t = 0 ∨ act p t = 1) (household day : List Nat) (hh : household.length = occ.nP) (hd : day.length = occ.nP)
    (hsize : ∀ h d, (members occ.nP household day h d).length ≤ 9) :
    ∃ (Y : Diaries Nat) (keys : List (Nat × Nat)), groupHouseholds4 (fourStates occ act) household day = .ok Y ∧ Y.nP = keys.length ∧ Y.nT = occ.nT ∧
      keys.Pairwise (fun a b : Nat × Nat => a.1 < b.1 ∨ a.1 = b.1 ∧ a.2 < b.2) ∧ (∀ d h, (d, h) ∈ keys ↔ members occ.nP household day h d ≠ []) ∧
      ∀ (r : Nat) d h, keys[r]? = some (d, h) → ∀ t,
        Y.at' r t / 10 = ((members occ.nP household day h d).filter fun p => occ.at' p t).length ∧ Y.at' r t % 10 = ((members occ.nP household day h d).filter fun p => decide (act p t = 1)).length := by
  obtain ⟨Y, keys, e, k1, k2, k3, k4, k5⟩ := C93_group (fourStates occ act) household day hh hd
  refine ⟨Y, keys, ?_, k1, k2, k3, k4, fun r d h hr t => ?_⟩
  · unfold groupHouseholds4
    rw [if_neg (by change ¬¬(occ.nP = _ ∧ occ.nP = _); omega), if_neg ?_]
    · exact e
    · rw [not_not, List.all_eq_true]
      intro s hs
      obtain ⟨p, t, -, -, e⟩ := (Diaries.mem_flat _ s).mp hs
      rw [← e]
      rcases hact p t with ha | ha <;> cases ho : occ.at' p t <;> simp [fourStates, ha, ho]
  · have hs := k5 r d h hr t
    have hsz := hsize h d
    have hsplit : Y.at' r t = 10 * ((members occ.nP household day h d).filter fun p => occ.at' p t).length + 1 * ((members occ.nP household day h d).filter fun p => decide (act p t = 1)).length := by
      rw [hs, ← sum_filter_count, ← sum_filter_count, ← List.sum_map_add]
      congr 1
      apply List.map_congr_left
      intro p _
      change 10 * (if occ.at' p t then 1 else 0) + 1 * act p t = _
      rcases hact p t with ha | ha <;> cases ho : occ.at' p t <;> simp [ha]
    have hle := List.length_filter_le (fun p => decide (act p t = 1)) (members occ.nP household day h d)
    omega

/-- Wrong states are rejected. -/
theorem C93_four_states_rejects (X : Diaries Nat) (household day : List Nat) (p t : Nat) (hp : p < X.nP) (ht : t < X.nT) (h : X.at' p t ∉ [0, 1, 10, 11]) : groupHouseholds4 X household day = .error .assertionError := by
  unfold groupHouseholds4
  by_cases h1 : X.nP = household.length ∧ X.nP = day.length
  · rw [if_neg (not_not.mpr h1), if_pos]
    intro h2
    rw [List.all_eq_true] at h2
    have := h2 _ ((X.mem_flat _).mpr ⟨p, t, hp, ht, rfl⟩)
    simp at h this
    omega
  · rw [if_pos h1]

theorem three_filters (M : List Nat) (o a w : Nat → Bool) : (M.filter fun p => o p && a p).length + (M.filter fun p => !o p && w p).length + (M.filter fun p => !o p && !w p).length ≤ M.length := by
  induction M with
  | nil => simp
  | cons p M ih =>
    simp only [List.filter_cons, List.length_cons]
    cases o p <;> cases a p <;> cases w p <;> simp <;> omega

/-- The households of the sparse model: the digits in base 7 are the numbers of members active at home, out for work or school, and out for something else, for up to six members. -/
theorem C93_sparse (occ : Diaries Bool) (active : Nat → Nat → Bool) (P S : Diaries Int) (household day : List Nat) (hh : household.length = occ.nP) (hd : day.length = occ.nP)
    (hsize : ∀ h d, (members occ.nP household day h d).length ≤ 6) :
    ∃ (Y : Diaries Nat) (keys : List (Nat × Nat)), groupHouseholds ⟨occ.nP, occ.nT, fun p t => personaState (active p t) (outForWhat (occ.at' p t) (P.at' p t) (S.at' p t))⟩ household day = .ok Y ∧
      Y.nP = keys.length ∧ Y.nT = occ.nT ∧ keys.Nodup ∧ (∀ d h, (d, h) ∈ keys ↔ members occ.nP household day h d ≠ []) ∧
      ∀ (r : Nat) d h, keys[r]? = some (d, h) → ∀ t,
        Y.at' r t < 343 ∧
        Y.at' r t % 7 = ((members occ.nP household day h d).filter fun p => occ.at' p t && active p t).length ∧
        Y.at' r t / 7 % 7 = ((members occ.nP household day h d).filter fun p => !occ.at' p t && decide (∃ s ∈ [P.at' p t, S.at' p t], (200 ≤ s ∧ s < 400) ∨ (900 ≤ s ∧ s ≤ 940))).length ∧
        Y.at' r t / 49 = ((members occ.nP household day h d).filter fun p => !occ.at' p t && decide (¬ ∃ s ∈ [P.at' p t, S.at' p t], (200 ≤ s ∧ s < 400) ∨ (900 ≤ s ∧ s ≤ 940))).length := by
  obtain ⟨Y, keys, e, k1, k2, k3, k4, k5⟩ := C93_group ⟨occ.nP, occ.nT, fun p t => personaState (active p t) (outForWhat (occ.at' p t) (P.at' p t) (S.at' p t))⟩ household day hh hd
  refine ⟨Y, keys, e, k1, k2, k3.imp ?_, k4, fun r d h hr t => ?_⟩
  · intro a b hab hc
    subst hc
    omega
  · have hs := k5 r d h hr t
    have hsz := hsize h d
    change Y.at' r t = ((members occ.nP household day h d).map fun p => personaState (active p t) (outForWhat (occ.at' p t) (P.at' p t) (S.at' p t))).sum at hs
    generalize members occ.nP household day h d = M at *
    have hsplit : ∀ M : List Nat, (M.map fun p => personaState (active p t) (outForWhat (occ.at' p t) (P.at' p t) (S.at' p t))).sum = 1 * (M.filter fun p => occ.at' p t && active p t).length +
        7 * (M.filter fun p => !occ.at' p t && decide (∃ s ∈ [P.at' p t, S.at' p t], (200 ≤ s ∧ s < 400) ∨ (900 ≤ s ∧ s ≤ 940))).length +
        49 * (M.filter fun p => !occ.at' p t && decide (¬ ∃ s ∈ [P.at' p t, S.at' p t], (200 ≤ s ∧ s < 400) ∨ (900 ≤ s ∧ s ≤ 940))).length := by
      intro M
      rw [← sum_filter_count, ← sum_filter_count, ← sum_filter_count, ← List.sum_map_add, ← List.sum_map_add]
      congr 1
      apply List.map_congr_left
      intro p _
      obtain ⟨o0, o1, o2⟩ := C92_out (occ.at' p t) (P.at' p t) (S.at' p t)
      by_cases hw : ∃ s ∈ [P.at' p t, S.at' p t], (200 ≤ s ∧ s < 400) ∨ (900 ≤ s ∧ s ≤ 940)
      · cases ho : occ.at' p t
        · rw [ho] at o1
          rw [o1.mpr ⟨rfl, hw⟩]
          simp only [decide_eq_true hw, decide_eq_false (not_not.mpr hw)]
          rfl
        · rw [ho] at o0
          rw [o0.mpr rfl]
          cases active p t <;> simp [personaState]
      · cases ho : occ.at' p t
        · rw [ho] at o2
          rw [o2.mpr ⟨rfl, fun s hs hc => hw ⟨s, hs, hc⟩⟩]
          simp only [decide_eq_false hw, decide_eq_true hw]
          rfl
        · rw [ho] at o0
          rw [o0.mpr rfl]
          cases active p t <;> simp [personaState]
    have hle : ∀ M : List Nat, (M.filter fun p => occ.at' p t && active p t).length +
        (M.filter fun p => !occ.at' p t && decide (∃ s ∈ [P.at' p t, S.at' p t], (200 ≤ s ∧ s < 400) ∨ (900 ≤ s ∧ s ≤ 940))).length +
        (M.filter fun p => !occ.at' p t && decide (¬ ∃ s ∈ [P.at' p t, S.at' p t], (200 ≤ s ∧ s < 400) ∨ (900 ≤ s ∧ s ≤ 940))).length ≤ M.length := by
      intro M
      simp only [decide_not]
      exact three_filters M (fun p => occ.at' p t) (fun p => active p t) fun p => decide (∃ s ∈ [P.at' p t, S.at' p t], (200 ≤ s ∧ s < 400) ∨ (900 ≤ s ∧ s ≤ 940))
    have h1 := hle M
    rw [hsplit M] at hs
    omega

/-- Four persons of one household: one active at home, one asleep, one at work, one on a walk. -/
example : ∃ Y, groupHouseholds ⟨4, 1, fun p _ => personaState (decide (p ≠ 1)) (outForWhat (decide (p < 2)) ([120, 110, 210, 622].getD p 0) 0)⟩ [5, 5, 5, 5] [2, 2, 2, 2] = .ok Y ∧ Y.nP = 1 ∧ Y.at' 0 0 = 1 + 7 + 49 :=
  ⟨_, rfl, by decide +kernel, by decide +kernel⟩

/-- The active occupancy of the selected diaries is the number of persons that are at home and active. -/
theorem C93_active_occupancy (occ : Diaries Bool) (act : Nat → Nat → Nat) (hact : ∀ p t, act p t = 0 ∨ act p t = 1) (household day : List Nat) (hh : household.length = occ.nP) (hd : day.length = occ.nP) :
    ∃ f, activeOccupancyTotal occ act household day = .ok f ∧ ∀ t, f t = ((List.range occ.nP).filter fun p => occ.at' p t && decide (act p t = 1)).length := by
  obtain ⟨Y, keys, e, -⟩ := C93_group ⟨occ.nP, occ.nT, fun p t => (if occ.at' p t then 1 else 0) * act p t⟩ household day hh hd
  refine ⟨fun t => ((List.range Y.nP).map fun r => Y.at' r t).sum, by unfold activeOccupancyTotal; rw [e]; rfl, fun t => ?_⟩
  beta_reduce
  rw [C93_conserves _ Y household day e t]
  have := sum_filter_count (List.range occ.nP) (fun p => occ.at' p t && decide (act p t = 1)) 1
  rw [Nat.one_mul] at this
  rw [← this]
  congr 1
  apply List.map_congr_left
  intro p _
  change (if occ.at' p t then 1 else 0) * act p t = _
  rcases hact p t with ha | ha <;> cases occ.at' p t <;> simp [ha]

/-- In the four states model the smaller of the two digits is taken as the active occupancy: with one person asleep at home and one awake elsewhere it is 1 although nobody is active at home. -/
theorem C93_four_states_counterexample : ∃ Y f, groupHouseholds4 (fourStates ⟨2, 1, fun p _ => decide (p = 0)⟩ fun p _ => p) [1, 1] [1, 1] = .ok Y ∧ min (Y.at' 0 0 % 10) (Y.at' 0 0 / 10) = 1 ∧
    activeOccupancyTotal ⟨2, 1, fun p _ => decide (p = 0)⟩ (fun p _ => p) [1, 1] [1, 1] = .ok f ∧ f 0 = 0 :=
  ⟨_, _, rfl, by decide +kernel, rfl, by decide +kernel⟩

end Demod
