import Verif.Lemmas.CrestSim

/-! # C113: the 4-states simulator -/

namespace Demod

/-- **C113 (partial).** `Crest4StatesModel` for `n` households, of which `sample_population` puts `counts` in the subgroups, which have from 1 to 6 residents, from any start at a multiple of ten minutes: it can be made and
run. After any number of steps the clock is that many steps after the start, all getters have one value per household, the households are those of the subgroups in order, each with the number of residents of its subgroup, and each
household has followed the chain of its number of residents alone: from midnight before the start on, a starting state and transitions drawn from the workbook with its own draws; its label, occupancy,
active occupancy and thermal gains are those of its state. Missing: the transition of a period uses the slot and the type of day of this period (`C113_full`). It uses the type of day of the period before, and until the first change of
the type of day the slot that follows. -/
theorem C113_run_partial (B : CrestBook) (groups : List Subgroup) (pdf : List Rat) (n : Nat) (hn : 0 < n) (algo : PopAlgo) (halgo : ∀ us, algo = .monteCarlo us → us.length = n) (counts : List Nat)
    (hc : samplePopulation n pdf algo = .ok counts) (hl : counts.length = groups.length) (hg : ∀ g ∈ groups, ∃ r : Nat, g.at kNResidents = some (.int r) ∧ 1 ≤ r ∧ r ≤ 6 ∧ BookHas B r)
    (start : Int) (hs : start % 600000000 = 0) (us : List Rat) (hu : Draws n us) (e : Nat → List Rat) (he : ∀ k, Draws n (e k)) (T : Int) (hT : T = start - start % 86400000000)
    (n0 : Nat) (hn0 : (n0 : Int) * 600000000 = start - T) :
    ∃ s0, CrestSim.create (crestLoadTpm B) groups pdf 0 n algo false start us e = .ok s0 ∧
      ∀ uss, (∀ us ∈ uss, Draws n us) → ∃ s labels occ act gains, s0.run (crestLoadTpm B) 0 uss = .ok s ∧ s.time = start + uss.length * 600000000 ∧
        s.statesLabeled = .ok labels ∧ s.occupancy = .ok occ ∧ s.activeOccupancy = .ok act ∧ s.thermalGains = .ok gains ∧ s.residents.length = n ∧ labels.length = n ∧ occ.length = n ∧ act.length = n ∧ gains.length = n ∧
        (∀ h < n, ∃ k, InSubgroup counts h k ∧ k < groups.length) ∧
        ∀ (h k : Nat) g (r : Nat), InSubgroup counts h k → groups[k]? = some g → g.at kNResidents = some (.int r) →
          s.residents[h]? = some r ∧
          ∃ traj, CrestCourse B r T (us.getD h 0) (((List.range n0).map e ++ uss).map fun us => us.getD h 0) (crestSlot T) (crestWeekend T) traj ∧
            ∃ m a, IsState r (traj (n0 + uss.length)) m a ∧ labels[h]? = some (10 * m + a) ∧ occ[h]? = some m ∧ act[h]? = some (min m a) ∧ gains[h]? = some (84 * max ((m : Int) - a) 0 + 147 * (min m a : Nat)) := by
  have hw : OnWeekend start ↔ OnWeekend T := by
    unfold OnWeekend
    have : start / 86400000000 = T / 86400000000 := by omega
    rw [this]
  obtain ⟨s0, c1, c2⟩ := CrestSim.sim_spec (CrestSim.bookData B) 0 (by decide) (by decide) (by decide) groups pdf n hn algo halgo counts hc hl (fun g hgm => by
    obtain ⟨r, q1, q2, q3, q4⟩ := hg g hgm
    exact ⟨r, q1, by omega, CrestSim.book_has B r q2 q3 q4⟩) start hs us hu e he T (by rw [hT, sub_zero]) n0 hn0
  refine ⟨s0, c1, fun uss huss => ?_⟩
  obtain ⟨s, labels, occ, act, gains, g1, g2, g3, g4, g5, g6, g7, g8, g9, g10, g11, g12, g13⟩ := c2 uss huss
  refine ⟨s, labels, occ, act, gains, g1, g2, g3, g4, g5, g6, g7, g8, g9, g10, g11, g12, fun h k g r hin hgk hgr => ?_⟩
  obtain ⟨k1, traj, ⟨k2, k3⟩, k4⟩ := g13 h k g r hin hgk hgr
  refine ⟨k1, traj, ⟨?_, fun j u hj => ?_⟩, k4⟩
  · simp only [hw] at k2
    exact k2
  · have := k3 j u hj
    rw [(CrestSim.used_same start T hw j).1, (CrestSim.used_same start T hw j).2] at this
    exact this

/-- **C113 (refusals).** It cannot be made for no household (`ValueError`), with a subgroup without a number of residents (`KeyError`), with a step size (`ValueError`), with another number of probabilities than subgroups (`IndexError`), or if `sample_population` puts households in a subgroup of no
or more than six residents (`ValueError`). -/
theorem C113_refuses (B : CrestBook) (groups : List Subgroup) (pdf : List Rat) (n : Nat) (algo : PopAlgo) (halgo : ∀ us, algo = .monteCarlo us → us.length = n) (counts : List Nat)
    (hc : samplePopulation n pdf algo = .ok counts) (start : Int) (us : List Rat) (hu : Draws n us) (e : Nat → List Rat) (refresh : Int) (stepGiven : Bool) :
    ((∃ g ∈ groups, g.at kNResidents = none) → (∀ g ∈ groups, ∀ v, g.at kNResidents = some v → ∃ r : Nat, v = .int r) → CrestSim.create (crestLoadTpm B) groups pdf refresh n algo stepGiven start us e = .error .keyError) ∧
    ((∀ g ∈ groups, ∃ r : Nat, g.at kNResidents = some (.int r) ∧ (1 ≤ r → r ≤ 6 → BookHas B r)) →
      (counts.length ≠ groups.length → CrestSim.create (crestLoadTpm B) groups pdf refresh n algo stepGiven start us e = .error .indexError) ∧
      (counts.length = groups.length → n = 0 → CrestSim.create (crestLoadTpm B) groups pdf refresh n algo stepGiven start us e = .error .valueError) ∧
      (counts.length = groups.length → stepGiven = true → CrestSim.create (crestLoadTpm B) groups pdf refresh n algo stepGiven start us e = .error .valueError) ∧
      ∀ (k : Nat) g (r : Nat), counts.length = groups.length → groups[k]? = some g → g.at kNResidents = some (.int r) → r = 0 ∨ 6 < r → counts.getD k 0 ≠ 0 → CrestSim.create (crestLoadTpm B) groups pdf refresh n algo stepGiven start us e = .error .valueError) := by
  constructor
  · rintro ⟨g, hg, hnone⟩ hint
    have : groups.mapM CrestSim.residentsOf = .error .keyError := by
      apply mapM_error
      · intro a ha
        unfold CrestSim.residentsOf
        cases hv : lookupA a kNResidents with
        | none => exact .inl rfl
        | some v =>
          obtain ⟨r, rfl⟩ := hint a ha v hv
          exact .inr ⟨_, rfl⟩
      · refine ⟨g, hg, ?_⟩
        unfold CrestSim.residentsOf
        have : lookupA g kNResidents = none := hnone
        rw [this]
    unfold CrestSim.create
    rw [this]
    rfl
  · intro hg
    have hsum := C12_counts_sum n pdf algo counts halgo hc
    obtain ⟨rs, r1, r2, r3⟩ := mapM_rel CrestSim.residentsOf (fun g r => g.at kNResidents = some (.int (r : Nat)) ∧ (1 ≤ r → r ≤ 6 → BookHas B r)) groups (by
      intro g hgm
      obtain ⟨r, q1, q2⟩ := hg g hgm
      refine ⟨r, ?_, q1, q2⟩
      unfold CrestSim.residentsOf
      have : lookupA g kNResidents = some (.int r) := q1
      rw [this]
      rfl)
    by_cases hl : counts.length = groups.length
    swap
    · refine ⟨fun _ => ?_, fun h => absurd h hl, fun h => absurd h hl, fun _ _ _ h => absurd h hl⟩
      unfold CrestSim.create
      simp only [r1, hc, bind, Except.bind]
      rw [if_pos (by rw [r2]; exact hl)]
    have hrl : counts.length = rs.length := by rw [r2, hl]
    have hmem : ∀ r ∈ rs, 1 ≤ r → r ≤ 6 → BookHas B r := by
      intro r hr
      obtain ⟨k, hk⟩ := List.mem_iff_getElem?.1 hr
      have hkl := (List.getElem?_eq_some_iff.1 hk).1
      obtain ⟨y, y1, y2⟩ := r3 k (groups[k]'(by omega)) (List.getElem?_eq_getElem (by omega))
      rw [hk, Option.some.injEq] at y1
      rw [y1]
      exact y2.2
    obtain ⟨a1, a2⟩ := CrestSim.createSubs_any B (start - start % 86400000000) (CrestSim.sizesOf rs counts) (by
      intro g hgm
      unfold CrestSim.sizesOf at hgm
      rw [List.mem_filter] at hgm
      exact ⟨by simpa using hgm.2, hmem g.1 (List.of_mem_zip hgm.1).1⟩) us (by
      unfold CrestSim.sizesOf
      rw [CrestSim.rsOf_filter, (CrestSim.rsOf_zip rs counts hrl.symm).1, hsum]
      exact hu)
    rw [← CrestSim.weekday_T] at a1 a2
    unfold CrestSim.sizesOf at a1 a2
    refine ⟨fun h => absurd hl h, fun _ h0 => ?_, fun _ hst => ?_, fun k g r _ hk hgr hr hck => ?_⟩
    all_goals
      unfold CrestSim.create
      simp only [r1, hc, bind, Except.bind]
      rw [if_neg (by simpa using hrl)]
    · rcases a1 with ⟨subs, e1⟩ | e1
      · rw [e1]
        simp only
        split
        · rfl
        · rw [if_pos (by omega)]
      · rw [e1]
    · rcases a1 with ⟨subs, e1⟩ | e1
      · rw [e1]
        simp only
        rw [if_pos hst]
      · rw [e1]
    · rw [a2 ?_]
      obtain ⟨r', y1, y2, -⟩ := r3 k g hk
      rw [hgr, Option.some.injEq, SubVal.int.injEq] at y2
      have hrr : r = r' := by exact_mod_cast y2
      subst hrr
      have hkl : k < counts.length := by rw [hl]; exact (List.getElem?_eq_some_iff.1 hk).1
      refine ⟨(r, counts[k]), List.mem_filter.2 ⟨List.mem_iff_getElem?.2 ⟨k, ?_⟩, ?_⟩, hr⟩
      · rw [List.getElem?_zip_eq_some]
        exact ⟨y1, List.getElem?_eq_getElem hkl⟩
      · rw [List.getD_eq_getElem?_getD, List.getElem?_eq_getElem hkl, Option.getD_some] at hck
        simpa using Nat.pos_of_ne_zero hck

/-- A workbook: on weekdays the households go to the first state, on week-ends to the last one. -/
def demoCrestBook : CrestBook :=
  ⟨fun n weekend => List.replicate (144 * (n + 1) ^ 2) (if weekend then List.replicate ((n + 1) ^ 2 - 1) 0 ++ [1] else 1 :: List.replicate ((n + 1) ^ 2 - 1) 0),
   fun _ => (List.range 7).map fun n => (n, 1 :: List.replicate 48 0), fun _ => (List.range 7).flatMap fun m => (List.range 7).map fun k => 10 * m + k, fun _ => [], []⟩

theorem demoCrestBook_row (n : Nat) (w : Bool) (t i : Nat) (ht : t < 144) (hi : i < (n + 1) ^ 2) :
    sheetRow (demoCrestBook.tpm n w) ((n + 1) ^ 2) t i = if w then List.replicate ((n + 1) ^ 2 - 1) 0 ++ [1] else 1 :: List.replicate ((n + 1) ^ 2 - 1) 0 := by
  have hlt := sheet_lt ht hi
  have : 0 < (n + 1) ^ 2 := by positivity
  unfold sheetRow demoCrestBook
  simp only
  rw [List.getD_eq_getElem?_getD, List.getElem?_replicate, if_pos hlt, Option.getD_some]
  apply List.take_of_length_le
  split
  · rw [List.length_append, List.length_replicate, List.length_singleton]; omega
  · rw [List.length_cons, List.length_replicate]; omega

theorem demoCrestBook_has (n : Nat) (h6 : n ≤ 6) : BookHas demoCrestBook n := by
  intro w
  have hN : 0 < (n + 1) ^ 2 := by positivity
  have hrow : ∀ row ∈ demoCrestBook.tpm n w, row = if w then List.replicate ((n + 1) ^ 2 - 1) 0 ++ [1] else 1 :: List.replicate ((n + 1) ^ 2 - 1) 0 := by
    intro row hr
    exact (List.mem_replicate.1 hr).2
  refine ⟨⟨by simp [demoCrestBook], ?_, ?_⟩, by cases w <;> decide, by cases w <;> decide +kernel, 1 :: List.replicate 48 0, ?_, by decide, by decide +kernel, ?_⟩
  · intro row hr
    rw [hrow row hr]
    split
    · refine ⟨by simp; omega, fun x hx => ?_⟩
      have := List.mem_of_mem_take hx
      rw [List.mem_append, List.mem_replicate, List.mem_singleton] at this
      rcases this with ⟨-, rfl⟩ | rfl <;> decide
    · refine ⟨by simp; omega, fun x hx => ?_⟩
      have := List.mem_of_mem_take hx
      rw [List.mem_cons, List.mem_replicate] at this
      rcases this with rfl | ⟨-, rfl⟩ <;> decide
  · intro t ht i hi
    right
    rw [demoCrestBook_row n w t i ht hi]
    split <;> norm_num
  · have : ∀ n ≤ 6, lookupA (demoCrestBook.starts w) n = some (1 :: List.replicate 48 0) := by
      show ∀ n ≤ 6, lookupA ((List.range 7).map fun n => (n, (1 : Rat) :: List.replicate 48 0)) n = some (1 :: List.replicate 48 0)
      decide +kernel
    exact this n h6
  · have : ∀ n ≤ 6, (startDist (1 :: List.replicate 48 0) n).sum = 1 := by decide +kernel
    exact this n h6

/-- Households of one and of two residents: the hypotheses of `C113_run_partial` are met for three households from Saturday 00:10. -/
example : samplePopulation 3 [1 / 3, 2 / 3] .realPopulation = .ok [1, 2] ∧ (∀ g ∈ ([[(kNResidents, .int 1)], [(kNResidents, .int 2)]] : List Subgroup), ∃ r : Nat, g.at kNResidents = some (.int r) ∧ 1 ≤ r ∧ r ≤ 6 ∧ BookHas demoCrestBook r) ∧
    (5 * 86400000000 + 600000000 : Int) % 600000000 = 0 ∧ Draws 3 [0, 1 / 2, 3 / 4] ∧ InSubgroup [1, 2] 2 1 ∧ OnWeekend (5 * 86400000000 + 600000000) := by
  refine ⟨by decide +kernel, ?_, by decide, ⟨rfl, by decide +kernel⟩, ⟨by decide, by decide⟩, by decide⟩
  intro g hg
  simp only [List.mem_cons, List.not_mem_nil, or_false] at hg
  rcases hg with rfl | rfl
  · exact ⟨1, rfl, by decide, by decide, demoCrestBook_has 1 (by decide)⟩
  · exact ⟨2, rfl, by decide, by decide, demoCrestBook_has 2 (by decide)⟩

/-- With subgroups of one and of seven residents, the hypotheses of the last refusal of `C113_refuses` are met. -/
example : samplePopulation 3 [1 / 3, 2 / 3] .realPopulation = .ok [1, 2] ∧ (∀ g ∈ ([[(kNResidents, .int 1)], [(kNResidents, .int 7)]] : List Subgroup), ∃ r : Nat, g.at kNResidents = some (.int r) ∧ (1 ≤ r → r ≤ 6 → BookHas demoCrestBook r)) ∧
    ([1, 2] : List Nat).getD 1 0 ≠ 0 ∧ Draws 3 [0, 1 / 2, 3 / 4] := by
  refine ⟨by decide +kernel, ?_, by decide, ⟨rfl, by decide +kernel⟩⟩
  intro g hg
  simp only [List.mem_cons, List.not_mem_nil, or_false] at hg
  rcases hg with rfl | rfl
  · exact ⟨1, rfl, fun _ _ => demoCrestBook_has 1 (by decide)⟩
  · exact ⟨7, rfl, fun _ h => absurd h (by decide)⟩

/-- The full property: with a fixed shift of the slots, the transition of each period uses the slot of this period, and the sheet of the type of day of this period. -/
def C113_full : Prop :=
  ∃ c : Nat, ∀ (B : CrestBook) (groups : List Subgroup) (pdf : List Rat) (n : Nat) (counts : List Nat), 0 < n → samplePopulation n pdf .realPopulation = .ok counts → counts.length = groups.length →
    (∀ g ∈ groups, ∃ r : Nat, g.at kNResidents = some (.int r) ∧ 1 ≤ r ∧ r ≤ 6 ∧ BookHas B r) →
    ∀ (T : Int), T % 86400000000 = 0 → ∀ (n0 : Nat), n0 < 144 → ∀ us, Draws n us → ∀ e : Nat → List Rat, (∀ k, Draws n (e k)) → ∀ uss, (∀ us ∈ uss, Draws n us) →
    ∃ s0 s labels, CrestSim.create (crestLoadTpm B) groups pdf 0 n .realPopulation false (T + n0 * 600000000) us e = .ok s0 ∧ s0.run (crestLoadTpm B) 0 uss = .ok s ∧ s.statesLabeled = .ok labels ∧
      ∀ (h k : Nat) g (r : Nat), InSubgroup counts h k → groups[k]? = some g → g.at kNResidents = some (.int r) →
        ∃ traj, CrestCourse B r T (us.getD h 0) (((List.range n0).map e ++ uss).map fun us => us.getD h 0) (fun j => (j + c) % 144) (fun j => decide (OnWeekend (T + j * 600000000))) traj ∧
          ∃ m a, IsState r (traj (n0 + uss.length)) m a ∧ labels[h]? = some (10 * m + a)

theorem sheetDist_length (sheet : List (List Rat)) (N t i : Nat) : (sheetDist sheet N t i).length ≤ N := by
  unfold sheetDist
  split
  · simp
  · rw [List.length_map]
    unfold sheetRow
    rw [List.length_take]
    omega

theorem demoCrestBook_dist (w : Bool) (t i : Nat) (ht : t < 144) (hi : i < (1 + 1) ^ 2) : sheetDist (demoCrestBook.tpm 1 w) ((1 + 1) ^ 2) t i = if w then [0, 0, 0, 1] else [1, 0, 0, 0] := by
  unfold sheetDist
  rw [demoCrestBook_row 1 w t i ht hi]
  generalize (List.range ((1 + 1) ^ 2)).map (fun j => if i = j then (1 : Rat) else 0) = l
  cases w
  · rw [if_neg (by decide +kernel)]
    decide +kernel
  · rw [if_neg (by decide +kernel)]
    decide +kernel

/-- **C113 (counterexample).** From Friday 23:50, the transition that begins on Saturday at 00:00 is drawn from the sheet of weekdays. -/
theorem C113_counterexample : ¬ C113_full := by
  rintro ⟨c, hf⟩
  have hd : Draws 1 [1 / 2] := ⟨rfl, by decide +kernel⟩
  have hg : ∀ g ∈ ([[(kNResidents, .int 1)]] : List Subgroup), ∃ r : Nat, g.at kNResidents = some (.int r) ∧ 1 ≤ r ∧ r ≤ 6 ∧ BookHas demoCrestBook r := by
    intro g hg
    rw [List.mem_singleton] at hg
    subst hg
    exact ⟨1, rfl, by decide, by decide, demoCrestBook_has 1 (by decide)⟩
  have hc : samplePopulation 1 [1] .realPopulation = .ok [1] := by decide +kernel
  have huss : ∀ us ∈ [[1 / 2], [1 / 2]], Draws 1 us := by
    intro us hus
    simp only [List.mem_cons, List.not_mem_nil, or_false, or_self] at hus
    rw [hus]
    exact hd
  have hin : InSubgroup [1] 0 0 := ⟨by decide, by decide⟩
  obtain ⟨s0, s, labels, f1, f2, f3, f4⟩ := hf demoCrestBook [[(kNResidents, .int 1)]] [1] 1 [1] (by decide) hc rfl hg (4 * 86400000000) (by decide) 143 (by decide) [1 / 2] hd (fun _ => [1 / 2]) (fun _ => hd) [[1 / 2], [1 / 2]] huss
  obtain ⟨traj, ⟨-, t2⟩, m, a, hm, hlab⟩ := f4 0 0 _ 1 hin rfl rfl
  obtain ⟨s0', p1, p2⟩ := C113_run_partial demoCrestBook [[(kNResidents, .int 1)]] [1] 1 (by decide) .realPopulation (fun us h => by cases h) [1] hc rfl hg (4 * 86400000000 + 143 * 600000000) (by decide) [1 / 2] hd (fun _ => [1 / 2]) (fun _ => hd)
    (4 * 86400000000) (by decide) 143 (by decide)
  obtain ⟨s', labels', occ, act, gains, q1, -, q3, -, -, -, -, -, -, -, -, -, q4⟩ := p2 [[1 / 2], [1 / 2]] huss
  obtain ⟨-, traj', ⟨-, t2'⟩, m', a', hm', hlab', -⟩ := q4 0 0 _ 1 hin rfl rfl
  have e0 : s0' = s0 := Except.ok.inj (p1.symm.trans f1)
  subst e0
  have e1 : s' = s := Except.ok.inj (q1.symm.trans f2)
  subst e1
  have e2 : labels' = labels := Except.ok.inj (q3.symm.trans f3)
  subst e2
  have hlen : ((List.range 143).map fun _ => ([1 / 2] : List Rat)).length = 143 := by simp
  have hdr : ∀ j, 143 ≤ j → j < 145 → (((List.range 143).map (fun _ => ([1 / 2] : List Rat)) ++ [[1 / 2], [1 / 2]]).map fun us : List Rat => us.getD 0 0)[j]? = some (1 / 2) := by
    intro j h1 h2
    rw [List.getElem?_map, List.getElem?_append_right (by rw [hlen]; exact h1), hlen]
    have : j = 143 ∨ j = 144 := by omega
    rcases this with rfl | rfl <;> rfl
  have b : traj 144 < (1 + 1) ^ 2 := lt_of_lt_of_le (t2 143 _ (hdr 143 (by decide) (by decide))).1 (sheetDist_length _ _ _ _)
  have b' : traj' 144 < (1 + 1) ^ 2 := lt_of_lt_of_le (t2' 143 _ (hdr 143 (by decide) (by decide))).1 (sheetDist_length _ _ _ _)
  have v := t2 144 _ (hdr 144 (by decide) (by decide))
  have v' := t2' 144 _ (hdr 144 (by decide) (by decide))
  rw [demoCrestBook_dist _ _ _ (Nat.mod_lt _ (by decide)) b, if_pos (by decide)] at v
  rw [demoCrestBook_dist _ _ _ (CrestSim.slot_lt _ _) b', if_neg (by decide)] at v'
  have w : traj 145 = 3 := by
    obtain ⟨v1, v2, v3⟩ := v
    have : traj (144 + 1) < 4 := v1
    have hh : ∀ i < 4, (1 / 2 : Rat) < (([0, 0, 0, 1] : List Rat).take i).sum + ([0, 0, 0, 1] : List Rat).getD i 0 → i = 3 := by decide +kernel
    exact hh _ this v3
  have w' : traj' 145 = 0 := by
    obtain ⟨v1, v2, v3⟩ := v'
    have : traj' (144 + 1) < 4 := v1
    have hh : ∀ i < 4, (([1, 0, 0, 0] : List Rat).take i).sum ≤ (1 / 2 : Rat) → i = 0 := by decide +kernel
    exact hh _ this v2
  obtain ⟨h1, h2, h3⟩ := hm
  obtain ⟨h1', h2', h3'⟩ := hm'
  rw [hlab, Option.some.injEq] at hlab'
  have h3 : traj 145 = m * (1 + 1) + a := h3
  have h3' : traj' 145 = m' * (1 + 1) + a' := h3'
  omega

end Demod
