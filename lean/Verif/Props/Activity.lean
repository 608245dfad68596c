import Verif.Lemmas.Activity

/-!
# Properties C41-C44, C71, C72: activity simulators

`households groups` (one entry per household: the list of its persons), `Simulate` and `personsDoing` are defined in `Spec/Activity.lean`.
-/

namespace Demod

/-! ## C41: individuals -/
section individuals
variable {P L : Type} [DecidableEq P] [DecidableEq L]

omit [DecidableEq L] in
theorem simulate_total (sims : List (Markov L)) : (personLabels sims).length = (sims.map fun m => m.states.length).sum := by
  unfold personLabels
  rw [List.length_flatMap]
  congr 1
  apply List.map_congr_left
  intro m _; simp

theorem masks_eq (sims : List (Markov L)) (counts : List Nat) (labels : List L) (hs : Simulate sims counts labels) (a : L) (ha : a ∈ labels) :
    ∃ masks, sims.mapM (fun m => m.nDoingActivity a) = .ok masks ∧ masks.flatten = (personLabels sims).map fun l => decide (l = some a) := by
  refine ⟨sims.map fun m => m.states.map fun s => decide (m.labels[s]? = some a), ?_, ?_⟩
  · rw [mapM_ok_iff]
    refine ⟨by simp, ?_⟩
    intro k h h'
    obtain ⟨h1, h2, h3⟩ := hs.2 sims[k] (List.getElem_mem h)
    rw [nDoing_mask _ h1 h3 a ((h2 a).2 ha)]
    simp
  · unfold personLabels
    rw [List.map_flatMap, ← List.flatMap_def]
    congr 1
    funext m
    rw [List.map_map]
    rfl

theorem nDoing_spec (groups : List (List P × Nat)) (sims : List (Markov L)) (labels : List L)
    (hs : Simulate sims (parseSubgroups groups).2.1 labels) (res : List Int) (a : L) (ha : a ∈ labels) :
    ({ sims := sims, hhOfPersons := (parseSubgroups groups).2.2, nHouseholds := (groups.map (·.2)).sum, nResidents := res, activityLabels := labels } : Individuals L).nDoing a =
      .ok ((List.range (groups.map (·.2)).sum).map fun h => personsDoing (parseSubgroups groups).2.2 sims h a) := by
  obtain ⟨masks, h1, h2⟩ := masks_eq sims _ labels hs a ha
  have hl : (personLabels sims).length = (parseSubgroups groups).2.2.length := by rw [simulate_total, hs.1, parse_total]
  unfold Individuals.nDoing
  simp only
  rw [h1]
  show (if masks.flatten.length ≠ (parseSubgroups groups).2.2.length then Except.error PyErr.indexError
    else if ((gather masks.flatten (parseSubgroups groups).2.2).all fun h => decide (h < (groups.map (·.2)).sum)) = true
      then Except.ok ((List.range (groups.map (·.2)).sum).map fun h => (gather masks.flatten (parseSubgroups groups).2.2).count h)
      else Except.error PyErr.indexError) = _
  rw [h2, if_neg (by rw [List.length_map, hl]; simp), if_pos]
  · congr 1
    apply List.map_congr_left
    intro h _
    exact gather_count _ _ _ _ hl
  · rw [List.all_eq_true]
    intro h hh
    rw [decide_eq_true_eq]
    exact parse_lt groups h (gather_mem _ _ _ hh)

/-- **C41 (individuals).** `SubgroupsIndividualsActivitySimulator` for subgroups of households given by the list of their persons and their
number, with sub-simulators in any reachable state, and as many residents as persons. `get_activity_states`,
`get_occupancy` and `get_active_occupancy` succeed; the entry for an activity counts, for each household, its persons whose label
is that activity; the numbers over all the activities sum to the residents; and `0 ≤ active occupancy ≤ occupancy ≤ residents`. -/
theorem C41_individuals (groups : List (List P × Nat)) (sims : List (Markov L)) (labels : List L) (hn : labels.Nodup)
    (hs : Simulate sims (parseSubgroups groups).2.1 labels) (away sleeping : L) (ha : away ∈ labels) (hsl : sleeping ∈ labels) (hne : away ≠ sleeping)
    (s : Individuals L) (hsim : s.sims = sims) (hhh : s.hhOfPersons = (parseSubgroups groups).2.2) (hN : s.nHouseholds = (groups.map (·.2)).sum)
    (hres : s.nResidents = (households groups).map fun ps => (ps.length : Int)) (hlab : s.activityLabels = labels) :
    ∃ (states : List (L × List Nat)) (occ act : List Int), s.activityStates away sleeping = .ok (states, act) ∧ s.getOccupancy away sleeping = .ok occ ∧
      states.map (·.1) = labels ∧ occ.length = s.nHouseholds ∧ act.length = s.nHouseholds ∧
      (∀ q ∈ states, q.2.length = s.nHouseholds ∧ ∀ h < s.nHouseholds, q.2.getD h 0 = personsDoing s.hhOfPersons sims h q.1) ∧
      ∀ h < s.nHouseholds,
        (states.map fun q => q.2.getD h 0).sum = ((households groups).getD h []).length ∧
        occ.getD h 0 = ((households groups).getD h []).length - personsDoing s.hhOfPersons sims h away ∧
        act.getD h 0 = occ.getD h 0 - personsDoing s.hhOfPersons sims h sleeping ∧
        0 ≤ act.getD h 0 ∧ act.getD h 0 ≤ occ.getD h 0 ∧ occ.getD h 0 ≤ ((households groups).getD h []).length := by
  obtain ⟨ssims, shh, sN, sres, slab⟩ := s
  simp only at hsim hhh hN hres hlab
  subst hsim hhh hN hres hlab
  generalize hNd : (groups.map (·.2)).sum = N at *
  generalize hHd : (parseSubgroups groups).2.2 = HH at *
  have hHlen : (households groups).length = N := by
    unfold households
    rw [List.length_flatMap, ← hNd]
    congr 1
    apply List.map_congr_left
    intro g _; simp
  have hnd := nDoing_spec groups ssims slab hs ((households groups).map fun ps => (ps.length : Int))
  rw [hNd, hHd] at hnd
  obtain ⟨st, hst⟩ : ∃ st : List (L × List Nat), st = slab.map fun a => (a, (List.range N).map fun h => personsDoing HH ssims h a) := ⟨_, rfl⟩
  have hls : ({ sims := ssims, hhOfPersons := HH, nHouseholds := N, nResidents := (households groups).map fun ps => (ps.length : Int), activityLabels := slab } : Individuals L).labelStates = .ok st := by
    unfold Individuals.labelStates
    rw [mapM_ok_iff, hst]
    refine ⟨by simp, ?_⟩
    intro k h h'
    rw [hnd _ (List.getElem_mem h)]
    simp [Except.map]
  have hlook : ∀ a ∈ slab, lookupA st a = some ((List.range N).map fun h => personsDoing HH ssims h a) := by
    intro a hm
    rw [hst]
    exact lookupA_map _ _ _ hm
  have hD : ∀ a, ((List.range N).map fun h => personsDoing HH ssims h a).length = N := by intro a; simp
  have hget : ∀ a h, h < N → ((List.range N).map fun h => personsDoing HH ssims h a).getD h 0 = personsDoing HH ssims h a := by
    intro a h hh
    rw [getD_eq _ _ _ (by simpa using hh)]; simp
  obtain ⟨occ, hocc⟩ : ∃ occ : List Int, occ = List.zipWith (fun r (n : Nat) => r - (n : Int)) ((households groups).map fun ps => (ps.length : Int))
    ((List.range N).map fun h => personsDoing HH ssims h away) := ⟨_, rfl⟩
  obtain ⟨act, hact⟩ : ∃ act : List Int, act = List.zipWith (fun r (n : Nat) => r - (n : Int)) occ
    ((List.range N).map fun h => personsDoing HH ssims h sleeping) := ⟨_, rfl⟩
  have hoccl : occ.length = N := by rw [hocc, List.length_zipWith, List.length_map, hHlen, hD, Nat.min_self]
  have hactl : act.length = N := by rw [hact, List.length_zipWith, hoccl, hD, Nat.min_self]
  have ho1 : ({ sims := ssims, hhOfPersons := HH, nHouseholds := N, nResidents := (households groups).map fun ps => (ps.length : Int), activityLabels := slab } : Individuals L).occupancy st away = .ok occ := by
    unfold Individuals.occupancy
    rw [hlook _ ha]
    simp only
    rw [if_neg (by rw [hD, List.length_map, hHlen]; simp), hocc]
  have ho2 : ({ sims := ssims, hhOfPersons := HH, nHouseholds := N, nResidents := (households groups).map fun ps => (ps.length : Int), activityLabels := slab } : Individuals L).activeOccupancy st away sleeping = .ok act := by
    unfold Individuals.activeOccupancy
    rw [ho1, hlook _ hsl]
    show (if ((List.range N).map fun h => personsDoing HH ssims h sleeping).length ≠ occ.length then _ else _) = _
    rw [if_neg (by rw [hD, hoccl]; simp), hact]
  have ho3 : ({ sims := ssims, hhOfPersons := HH, nHouseholds := N, nResidents := (households groups).map fun ps => (ps.length : Int), activityLabels := slab } : Individuals L).activityStates away sleeping = .ok (st, act) := by
    unfold Individuals.activityStates
    rw [hls]
    show (do let act ← Individuals.activeOccupancy _ st away sleeping; Except.ok (st, act)) = _
    rw [ho2]; rfl
  refine ⟨st, occ, act, ho3, ?_, by rw [hst, List.map_map]; exact List.map_id slab, hoccl, hactl, ?_, ?_⟩
  · unfold Individuals.getOccupancy
    rw [ho3]; exact ho1
  · intro q hq
    rw [hst] at hq
    obtain ⟨a, _, rfl⟩ := List.mem_map.1 hq
    exact ⟨hD a, hget a⟩
  · intro h hh
    simp only at hh ⊢
    have hl : (personLabels ssims).length = HH.length := by rw [simulate_total, hs.1, ← hHd, parse_total]
    have hsum : (slab.map fun a => personsDoing HH ssims h a).sum = ((households groups).getD h []).length := by
      unfold personsDoing
      rw [sum_filter_labels _ slab hn h, List.map_fst_zip (by omega), ← hHd, parse_count]
      intro x hx
      obtain ⟨-, h2⟩ := List.of_mem_zip hx
      unfold personLabels at h2
      obtain ⟨m, hm, h2⟩ := List.mem_flatMap.1 h2
      obtain ⟨s, hsm, h2⟩ := List.mem_map.1 h2
      obtain ⟨-, e1, e2⟩ := hs.2 m hm
      have := e2 s hsm
      rw [List.getElem?_eq_getElem this] at h2
      exact ⟨m.labels[s], (e1 _).1 (List.getElem_mem _), h2.symm⟩
    have htwo := two_le_sum slab (fun a => personsDoing HH ssims h a) away sleeping ha hsl hne
    rw [hsum] at htwo
    have e0 : occ.getD h 0 = (((households groups).getD h []).length : Int) - personsDoing HH ssims h away := by
      rw [getD_eq _ _ _ (by omega), getD_eq _ _ _ (by omega)]
      simp only [hocc, List.getElem_zipWith, List.getElem_map, List.getElem_range]
    have e1 : act.getD h 0 = occ.getD h 0 - personsDoing HH ssims h sleeping := by
      rw [getD_eq _ _ _ (by omega), getD_eq occ _ _ (by omega)]
      simp only [hact, List.getElem_zipWith, List.getElem_map, List.getElem_range]
    refine ⟨?_, e0, e1, ?_, ?_, ?_⟩
    · rw [← hsum, hst, List.map_map]
      congr 1
      apply List.map_congr_left
      intro a _
      exact hget a h hh
    · rw [e1, e0]; omega
    · rw [e1]; omega
    · rw [e0]; omega

/-- Two households of two persons ("p", "q") and one of one person ("p"), with the activities "away", "sleeping" and "other". -/
def exampleIndividuals : Individuals String :=
  { sims := [{ nHouseholds := 3, nStates := 3, tpms := ⟨3, 3, []⟩, labels := ["away", "sleeping", "other"], cdfs := [], pos := 1, states := [0, 1, 2] },
      { nHouseholds := 2, nStates := 3, tpms := ⟨3, 3, []⟩, labels := ["away", "sleeping", "other"], cdfs := [], pos := 1, states := [0, 2] }]
    hhOfPersons := (parseSubgroups [(["p", "q"], 2), (["p"], 1)]).2.2, nHouseholds := 3, nResidents := [2, 2, 1], activityLabels := ["away", "sleeping", "other"] }

example : Simulate exampleIndividuals.sims (parseSubgroups [(["p", "q"], 2), (["p"], 1)]).2.1 ["away", "sleeping", "other"] := by
  refine ⟨by decide +kernel, ?_⟩
  intro m hm
  simp only [exampleIndividuals, List.mem_cons, List.not_mem_nil, or_false] at hm
  rcases hm with rfl | rfl <;> exact ⟨by decide, fun _ => Iff.rfl, by decide⟩

example : exampleIndividuals.activityStates "away" "sleeping" =
      .ok ([("away", [2, 0, 0]), ("sleeping", [0, 1, 0]), ("other", [0, 1, 1])], [0, 1, 1]) ∧
    exampleIndividuals.getOccupancy "away" "sleeping" = .ok [0, 2, 1] := by decide +kernel

/-- **C41 (counterexample).** The numbers do not sum to the residents when the subgroup is inconsistent: a "couple" with three residents is accepted
and simulated as two persons, so that three residents are at home when nobody is away. -/
theorem C41_counterexample :
    ∃ persons, toPersons [(kNResidents, .int 3), (kHouseholdType, .int 2)] = .ok persons ∧
      ∃ s : Individuals String, s.hhOfPersons = (parseSubgroups [(persons, 1)]).2.2 ∧ Simulate s.sims (parseSubgroups [(persons, 1)]).2.1 ["away", "sleeping", "other"] ∧
        s.nResidents = [3] ∧ s.activityStates "away" "sleeping" = .ok ([("away", [0]), ("sleeping", [0]), ("other", [2])], [3]) := by
  refine ⟨[[(kPosition, .int 1)], [(kPosition, .int 2)]], by decide +kernel,
    { sims := [{ nHouseholds := 1, nStates := 3, tpms := ⟨3, 3, []⟩, labels := ["away", "sleeping", "other"], cdfs := [], pos := 1, states := [2] },
        { nHouseholds := 1, nStates := 3, tpms := ⟨3, 3, []⟩, labels := ["away", "sleeping", "other"], cdfs := [], pos := 1, states := [2] }]
      hhOfPersons := [0, 0], nHouseholds := 1, nResidents := [3], activityLabels := ["away", "sleeping", "other"] }, by decide +kernel, ⟨by decide +kernel, ?_⟩, rfl, by decide +kernel⟩
  intro m hm
  simp only [List.mem_cons, List.not_mem_nil, or_false] at hm
  rcases hm with rfl | rfl <;> exact ⟨by decide, fun _ => Iff.rfl, by decide⟩

end individuals

/-! ## C42: packed labels -/

/-- The packed label of the numbers of persons doing activity 0, 1, 2, … -/
def packLabel : List Nat → Nat
  | [] => 0
  | c :: cs => c + 7 * packLabel cs

theorem unpack_pack (cs : List Nat) (hc : ∀ c ∈ cs, c < 7) (k : Nat) : unpack (packLabel cs) k = cs.getD k 0 := by
  have hu : ∀ l k, unpack l (k + 1) = unpack (l / 7) k := by
    intro l k
    unfold unpack maxPeople
    rw [Nat.pow_succ 7 (k + 1), Nat.pow_succ 7 k, Nat.mul_comm _ 7, Nat.mul_comm _ 7, Nat.mod_mul, ← Nat.div_div_eq_div_mul]
    congr 1
    have : (l % 7 + 7 * (l / 7 % 7 ^ (k + 1))) / 7 = l / 7 % 7 ^ (k + 1) := by omega
    rw [Nat.pow_succ 7 k, Nat.mul_comm _ 7] at this
    exact this
  induction cs generalizing k with
  | nil =>
    simp [packLabel, unpack]
  | cons c cs ih =>
    have hc0 := hc c List.mem_cons_self
    cases k with
    | zero =>
      simp only [packLabel, unpack, maxPeople, List.getD_cons_zero]
      omega
    | succ k =>
      rw [hu, packLabel]
      have : (c + 7 * packLabel cs) / 7 = packLabel cs := by omega
      rw [this, ih (fun x hx => hc x (List.mem_cons_of_mem _ hx))]
      simp

/-- **C42.** A simulator whose households have the packed labels of the vectors `counts h` (entries below 7): `get_n_doing_state(k)` returns, for every
`k`, the `k`-th number of each household (0 beyond the vector), and so does `get_n_doing_state` with the name of the `k`-th activity. -/
theorem C42_unpack (s : SparseSim) (counts : List (List Nat)) (hc : ∀ cs ∈ counts, ∀ c ∈ cs, c < 7)
    (hlen : counts.length = s.states.length)
    (hl : ∀ (h st : Nat) cs, s.states[h]? = some st → counts[h]? = some cs → s.labels[st]? = some (packLabel cs)) :
    (∀ k, s.nDoingNumber k = .ok (counts.map fun cs => cs.getD k 0)) ∧
    (s.activityLabels.Nodup → ∀ k a, s.activityLabels[k]? = some a → s.nDoing a = .ok (counts.map fun cs => cs.getD k 0)) := by
  have hmap : s.states.mapM (pyGet s.labels) = .ok (counts.map packLabel) := by
    rw [mapM_ok_iff]
    refine ⟨by simp [hlen], ?_⟩
    intro k h h'
    have hk : k < counts.length := by omega
    have := hl k s.states[k] counts[k] (List.getElem?_eq_getElem h) (List.getElem?_eq_getElem hk)
    unfold pyGet
    rw [this]
    simp
  have hnum : ∀ k, s.nDoingNumber k = .ok (counts.map fun cs => cs.getD k 0) := by
    intro k
    unfold SparseSim.nDoingNumber
    rw [hmap]
    show Except.ok _ = _
    congr 1
    rw [List.map_map]
    apply List.map_congr_left
    intro cs hcs
    exact unpack_pack cs (hc cs hcs) k
  refine ⟨hnum, ?_⟩
  intro hnd k a hk
  unfold SparseSim.nDoing
  have hklt := (List.getElem?_eq_some_iff.1 hk).1
  have hp : Markov.positionsOf a s.activityLabels = [k] := by
    unfold Markov.positionsOf
    have hu : ∀ j, s.activityLabels[j]? = some a ↔ j = k := by
      intro j
      constructor
      · intro hj
        have hjlt := (List.getElem?_eq_some_iff.1 hj).1
        exact (List.Nodup.getElem_inj_iff hnd (hi := hjlt) (hj := hklt)).1 (by
          rw [(List.getElem?_eq_some_iff.1 hj).2, (List.getElem?_eq_some_iff.1 hk).2])
      · rintro rfl; exact hk
    have : ((List.range s.activityLabels.length).filter fun j => decide (s.activityLabels[j]? = some a)) =
        (List.range s.activityLabels.length).filter (fun j => j == k) := by
      apply List.filter_congr
      intro j _
      rw [decide_eq_decide.2 (hu j)]
      rfl
    rw [this, List.filter_beq, List.count_eq_one_of_mem List.nodup_range (List.mem_range.2 hklt)]
    rfl
  rw [hp]
  exact hnum k

/-- **C42 (unknown names).** An unknown activity is rejected. -/
theorem C42_unknown (s : SparseSim) (a : Str) (h : a ∉ s.activityLabels) : s.nDoing a = .error .valueError := by
  unfold SparseSim.nDoing
  have : Markov.positionsOf a s.activityLabels = [] := by
    unfold Markov.positionsOf
    rw [List.filter_eq_nil_iff]
    intro j _ hj
    exact h (List.mem_of_getElem? (of_decide_eq_true hj))
  rw [this]

/-- An empty matrix. -/
def exampleTpm : SparseTPM := { times := [], indsFrom := [], indsTo := [], values := [], nStates := 3, nTimes := 144, iterCount := 0, dead := none }

/-- Two persons; activities "active", "HWH", "HOH". -/
def exampleSparse : SparseSim :=
  { tpm := exampleTpm, labels := [0, packLabel [1, 0, 1], packLabel [2, 1, 0]], states := [2, 1], timeStep := 0, aware := true, time := 0, nDays := 2,
    useQuarters := false, dayClass := none, nResidents := 2, activityLabels := ["active".toList, "HWH".toList, "HOH".toList] }

example : exampleSparse.nDoing "active".toList = .ok [2, 1] ∧ exampleSparse.nDoing "HWH".toList = .ok [1, 0] ∧ exampleSparse.nDoing "HOH".toList = .ok [0, 1] := by
  decide +kernel

/-! ## C41: packed labels and CREST -/

/-- **C41 (packed labels).** With the same hypotheses as `C42_unpack`, the activities "active", "HWH" and "HOH" at three positions and no household with more
persons away than residents: `0 ≤ active occupancy ≤ occupancy ≤ residents`, and the thermal gains are 147 W per active and 84 W per inactive
occupant. -/
theorem C41_sparse (s : SparseSim) (counts : List (List Nat)) (hc : ∀ cs ∈ counts, ∀ c ∈ cs, c < 7) (hlen : counts.length = s.states.length)
    (hl : ∀ (h st : Nat) cs, s.states[h]? = some st → counts[h]? = some cs → s.labels[st]? = some (packLabel cs))
    (w o a : Nat) (hw : s.activityLabels[w]? = some "HWH".toList) (ho : s.activityLabels[o]? = some "HOH".toList)
    (ha : s.activityLabels[a]? = some "active".toList) (hnd : s.activityLabels.Nodup) (hres : ∀ cs ∈ counts, ((cs.getD w 0 + cs.getD o 0 : Nat) : Int) ≤ s.nResidents) :
    ∃ occ act gains : List Int, s.occupancy = .ok occ ∧ s.activeOccupancy = .ok act ∧ s.thermalGains = .ok gains ∧
      occ = counts.map (fun cs => s.nResidents - (cs.getD w 0 : Int) - (cs.getD o 0 : Int)) ∧
      act = counts.map (fun cs => min (s.nResidents - (cs.getD w 0 : Int) - (cs.getD o 0 : Int)) (cs.getD a 0)) ∧
      gains.length = counts.length ∧
      ∀ h < counts.length, 0 ≤ act.getD h 0 ∧ act.getD h 0 ≤ occ.getD h 0 ∧ occ.getD h 0 ≤ s.nResidents ∧
        gains.getD h 0 = 84 * (occ.getD h 0 - act.getD h 0) + 147 * act.getD h 0 := by
  obtain ⟨-, hn⟩ := C42_unpack s counts hc hlen hl
  have e1 := hn hnd w _ hw
  have e2 := hn hnd o _ ho
  have e3 := hn hnd a _ ha
  obtain ⟨occ, hocc⟩ : ∃ occ : List Int, occ = counts.map (fun cs => s.nResidents - (cs.getD w 0 : Int) - (cs.getD o 0 : Int)) := ⟨_, rfl⟩
  obtain ⟨act, hact⟩ : ∃ act : List Int, act = counts.map (fun cs => min (s.nResidents - (cs.getD w 0 : Int) - (cs.getD o 0 : Int)) (cs.getD a 0)) := ⟨_, rfl⟩
  have zw : ∀ {α β γ : Type} (g : α → β → γ) (f1 : List Nat → α) (f2 : List Nat → β), List.zipWith g (counts.map f1) (counts.map f2) = counts.map fun cs => g (f1 cs) (f2 cs) := by
    intro α β γ g f1 f2
    rw [List.zipWith_map, List.zipWith_self]
  have h1 : s.occupancy = .ok occ := by
    unfold SparseSim.occupancy
    rw [e1, e2]
    show Except.ok ((List.zipWith (· + ·) (counts.map fun cs => cs.getD w 0) (counts.map fun cs => cs.getD o 0)).map fun (n : Nat) => s.nResidents - (n : Int)) = _
    rw [zw, List.map_map, hocc]
    congr 1
    apply List.map_congr_left
    intro cs _
    simp only [Function.comp]
    push_cast
    omega
  have h2 : s.activeOccupancy = .ok act := by
    unfold SparseSim.activeOccupancy
    rw [h1, e3]
    show Except.ok (List.zipWith (fun o (a : Nat) => min o (a : Int)) occ (counts.map fun cs => cs.getD a 0)) = _
    rw [hocc, zw, hact]
  have h3 : s.thermalGains = .ok (counts.map fun cs =>
      84 * (s.nResidents - (cs.getD o 0 : Int) - (cs.getD w 0 : Int) - min (s.nResidents - (cs.getD w 0 : Int) - (cs.getD o 0 : Int)) (cs.getD a 0)) +
      147 * min (s.nResidents - (cs.getD w 0 : Int) - (cs.getD o 0 : Int)) (cs.getD a 0)) := by
    unfold SparseSim.thermalGains
    rw [h2, e2, e1]
    show Except.ok (List.zipWith (fun d a => 84 * d + 147 * a) (List.zipWith (fun (q : Nat × Nat) (a : Int) => s.nResidents - (q.1 : Int) - (q.2 : Int) - (a : Int))
      ((counts.map fun cs => cs.getD o 0).zip (counts.map fun cs => cs.getD w 0)) act) act) = _
    rw [hact, List.zip, zw, zw, zw]
  refine ⟨occ, act, _, h1, h2, h3, hocc, hact, by simp, ?_⟩
  intro h hh
  have g1 : occ.getD h 0 = s.nResidents - (counts[h].getD w 0 : Int) - (counts[h].getD o 0 : Int) := by
    rw [getD_eq _ _ _ (by rw [hocc]; simpa using hh)]; simp only [hocc, List.getElem_map]
  have g2 : act.getD h 0 = min (s.nResidents - (counts[h].getD w 0 : Int) - (counts[h].getD o 0 : Int)) (counts[h].getD a 0) := by
    rw [getD_eq _ _ _ (by rw [hact]; simpa using hh)]; simp only [hact, List.getElem_map]
  have hr := hres counts[h] (List.getElem_mem hh)
  rw [g1, g2, getD_eq (counts.map _) h 0 (by simpa using hh)]
  simp only [List.getElem_map]
  push_cast at hr
  generalize (counts[h].getD w 0) = W at *
  generalize (counts[h].getD o 0) = O at *
  generalize (counts[h].getD a 0) = A at *
  refine ⟨by omega, by omega, by omega, by omega⟩

example : exampleSparse.occupancy = .ok [1, 1] ∧ exampleSparse.activeOccupancy = .ok [1, 1] := by decide +kernel

/-- **C41 (CREST).** With labels `10·occupancy + active` of which the first digit is at most the number of residents:
`active occupancy ≤ occupancy ≤ residents`, and the thermal gains are 147 W per active and 84 W per inactive occupant. -/
theorem C41_crest (m : Markov Nat) (nRes : Nat) (hv : ∀ s ∈ m.states, s < m.labels.length) (hl : ∀ l ∈ m.labels, l / 10 ≤ nRes) :
    ∃ (occ act : List Nat) (gains : List Int), m.crestOccupancy = .ok occ ∧ m.crestActive = .ok act ∧ m.crestGains = .ok gains ∧
      occ.length = m.states.length ∧ act.length = m.states.length ∧ gains.length = m.states.length ∧
      ∀ (h s l : Nat), m.states[h]? = some s → m.labels[s]? = some l →
        occ.getD h 0 = l / 10 ∧ act.getD h 0 = min (l / 10) (l % 10) ∧ act.getD h 0 ≤ occ.getD h 0 ∧ occ.getD h 0 ≤ nRes ∧
        gains.getD h 0 = 84 * (((occ.getD h 0 : Nat) : Int) - (act.getD h 0 : Nat)) + 147 * (act.getD h 0 : Nat) := by
  obtain ⟨ls, c1, c2, c3⟩ := mapM_rel (pyGet m.labels) (fun s lab => m.labels[s]? = some lab) m.states (by
    intro s hs
    exact ⟨m.labels[s]'(hv s hs), pyGet_ok _ _ (hv s hs), List.getElem?_eq_getElem (hv s hs)⟩)
  have e0 : m.currentLabels = .ok ls := c1
  have e1 : m.crestActive = .ok (ls.map fun l => min (l / 10) (l % 10)) := by unfold Markov.crestActive; rw [e0]; rfl
  refine ⟨ls.map fun l => l / 10, ls.map fun l => min (l / 10) (l % 10),
    ls.map fun l => 84 * max (((l / 10 : Nat) : Int) - ((l % 10 : Nat) : Int)) 0 + 147 * ((min (l / 10) (l % 10) : Nat) : Int), ?_, e1, ?_, by simp [c2], by simp [c2], by simp [c2], ?_⟩
  · unfold Markov.crestOccupancy; rw [e0]; rfl
  · unfold Markov.crestGains
    rw [e0, e1]
    show Except.ok (List.zipWith (fun d (a : Nat) => 84 * d + 147 * (a : Int)) (ls.map fun l => max (((l / 10 : Nat) : Int) - ((l % 10 : Nat) : Int)) 0) (ls.map fun l => min (l / 10) (l % 10))) = _
    rw [List.zipWith_map, List.zipWith_self]
  · intro h s l hs hlab
    obtain ⟨l', hl', e⟩ := c3 h s hs
    rw [hlab] at e
    injection e with e
    subst e
    have g : ∀ {β : Type} (f : Nat → β) (d : β), (ls.map f).getD h d = f l := by
      intro β f d
      rw [List.getD_eq_getElem?_getD, List.getElem?_map, hl']; rfl
    rw [g, g, g]
    have := hl l (List.mem_of_getElem? hlab)
    refine ⟨rfl, rfl, by omega, this, ?_⟩
    omega

example : (Markov.crestActive { nHouseholds := 2, nStates := 4, tpms := ⟨4, 4, []⟩, labels := [0, 1, 10, 11], cdfs := [], pos := 1, states := [3, 1] }) = .ok [1, 0] := by
  decide +kernel

/-! ## C43: day changes -/

/-- **C43.** `update_new_day`: if the new labels are distinct, every household whose label is among them keeps its label; a
household whose label is lost is put at the position given by the first label. -/
theorem C43_new_day (s : SparseSim) (load : Option DayClass → Except PyErr (SparseTPM × List Nat)) (tpm : SparseTPM) (labels : List Nat)
    (hload : load (SparseSim.dayClassOf s.nDays s.useQuarters s.dayClass s.time) = .ok (tpm, labels)) (hn : labels.Nodup) (hne : labels ≠ [])
    (hlen : labels.length = tpm.nStates) (hv : ∀ st ∈ s.states, st < s.labels.length) :
    ∃ s', s.updateNewDay load = .ok s' ∧ s'.labels = labels ∧ s'.states.length = s.states.length ∧
      s'.dayClass = SparseSim.dayClassOf s.nDays s.useQuarters s.dayClass s.time ∧ s'.time = s.time ∧ s'.timeStep = s.timeStep ∧
      s'.tpm = { tpm with dead := some 0 } ∧ s'.aware = s.aware ∧ s'.nDays = s.nDays ∧ s'.useQuarters = s.useQuarters ∧
      ∀ (h st lab : Nat), s.states[h]? = some st → s.labels[st]? = some lab →
        ∃ st', s'.states[h]? = some st' ∧ (lab ∈ labels → s'.labels[st']? = some lab) ∧ (lab ∉ labels → st' = labels.getD 0 0) := by
  obtain ⟨first, rest, rfl⟩ := List.exists_cons_of_ne_nil hne
  obtain ⟨old, o1, o2, o3⟩ := mapM_rel (pyGet s.labels) (fun st lab => s.labels[st]? = some lab) s.states (by
    intro st hs
    exact ⟨s.labels[st]'(hv st hs), pyGet_ok _ _ (hv st hs), List.getElem?_eq_getElem (hv st hs)⟩)
  obtain ⟨pos, hpos⟩ : ∃ pos : List Nat, pos = (old.eraseDups.map fun lab =>
      match Markov.positionsOf lab (first :: rest) with | [i] => (i : Int) | _ => -1).map fun p => if p = -1 then first else p.toNat := ⟨_, rfl⟩
  obtain ⟨st, s1, s2, s3⟩ := mapM_rel (pyGet pos) (fun i p => pos[i]? = some p) (old.map fun l => old.eraseDups.idxOf l) (by
      intro i hi
      obtain ⟨l, hl, rfl⟩ := List.mem_map.1 hi
      have hlt : old.eraseDups.idxOf l < pos.length := by
        rw [hpos, List.length_map, List.length_map]
        exact List.idxOf_lt_length_of_mem (List.mem_eraseDups.2 hl)
      exact ⟨_, pyGet_ok _ _ hlt, List.getElem?_eq_getElem hlt⟩)
  refine ⟨{ s with states := st, dayClass := SparseSim.dayClassOf s.nDays s.useQuarters s.dayClass s.time, tpm := { tpm with dead := some 0 }, labels := first :: rest },
    ?_, rfl, ?_, rfl, rfl, rfl, rfl, rfl, rfl, rfl, ?_⟩
  · unfold SparseSim.updateNewDay
    simp only [hload]
    show (do
      let old ← s.states.mapM (pyGet s.labels)
      let states ← (old.map fun l => old.eraseDups.idxOf l).mapM (pyGet ((old.eraseDups.map fun lab =>
        match Markov.positionsOf lab (first :: rest) with | [i] => (i : Int) | _ => -1).map fun p => if p = -1 then first else p.toNat))
      SparseSim.assignTpm { s with states := states, dayClass := SparseSim.dayClassOf s.nDays s.useQuarters s.dayClass s.time } { tpm with dead := some 0 } (first :: rest)) = _
    rw [o1]
    show (do
      let states ← (old.map fun l => old.eraseDups.idxOf l).mapM (pyGet ((old.eraseDups.map fun lab =>
        match Markov.positionsOf lab (first :: rest) with | [i] => (i : Int) | _ => -1).map fun p => if p = -1 then first else p.toNat))
      SparseSim.assignTpm { s with states := states, dayClass := SparseSim.dayClassOf s.nDays s.useQuarters s.dayClass s.time } { tpm with dead := some 0 } (first :: rest)) = _
    rw [← hpos, s1]
    show SparseSim.assignTpm _ _ _ = _
    unfold SparseSim.assignTpm
    rw [if_neg (by simpa using hlen)]
  · simp only; rw [s2, List.length_map, o2]
  · intro h st0 lab hs hlab
    obtain ⟨lab', hl', e⟩ := o3 h st0 hs
    rw [hlab] at e
    injection e with e
    subst e
    obtain ⟨p, hp, hpp⟩ := s3 h (old.eraseDups.idxOf lab) (by rw [List.getElem?_map, hl']; rfl)
    have hmem : lab ∈ old.eraseDups := List.mem_eraseDups.2 (List.mem_of_getElem? hl')
    rw [hpos, List.getElem?_map, List.getElem?_map, Markov.idxOf_get _ _ hmem] at hpp
    simp only [Option.map_some, Option.some.injEq] at hpp
    refine ⟨p, hp, ?_, ?_⟩
    · intro hm
      have hc := List.count_eq_one_of_mem hn hm
      rw [← Markov.positionsOf_length] at hc
      obtain ⟨i, hi⟩ := List.length_eq_one_iff.1 hc
      rw [hi] at hpp
      simp only at hpp
      rw [if_neg (by omega)] at hpp
      have : i ∈ Markov.positionsOf lab (first :: rest) := by rw [hi]; simp
      unfold Markov.positionsOf at this
      rw [List.mem_filter, decide_eq_true_eq] at this
      rw [← hpp]; simpa using this.2
    · intro hm
      have hc := List.count_eq_zero.2 hm
      rw [← Markov.positionsOf_length, List.length_eq_zero_iff] at hc
      rw [hc] at hpp
      simpa using hpp.symm

/-- The states 0 and 2 of `exampleSparse` on a new day: the label of the first household is lost and, the first label being 0, the household gets position 0. -/
example : (exampleSparse.updateNewDay fun _ => .ok (exampleTpm, [0, 5, packLabel [1, 0, 1]])).map (·.states) = .ok [0, 2] := by decide +kernel

/-- **C43 (counterexample for lost labels).** The first label is used as a position: a household whose label is lost gets a position that does not
exist when the first label is not 0. -/
theorem C43_lost_label_counterexample :
    ∃ (s s' : SparseSim) (labels : List Nat), s.updateNewDay (fun _ => .ok ({ exampleTpm with nStates := 2 }, labels)) = .ok s' ∧ labels.Nodup ∧
      s'.states = [7] ∧ s'.labels.length = 2 ∧ s'.nDoingNumber 0 = .error .indexError := by
  refine ⟨{ exampleSparse with states := [2] }, _, [7, 8], rfl, by decide, by decide +kernel, rfl, by decide +kernel⟩

/-! ## C44: time slots -/

/-- **C44.** The start time step of a datetime (microseconds) is the number of whole ten minutes since the last 4 am: it is in 0..143, it is 0 exactly from 04:00 to
04:10, and ten minutes later it is one more, modulo 144. -/
theorem C44_time_slot (t : Int) :
    startTimeStep t = (t - 4 * HOUR) % DAY / 600000000 ∧ 0 ≤ startTimeStep t ∧ startTimeStep t < 144 ∧
    (startTimeStep t = 0 ↔ 4 * HOUR ≤ t % DAY ∧ t % DAY < 4 * HOUR + 600000000) ∧
    startTimeStep (t + 600000000) = (startTimeStep t + 1) % 144 := by
  have key : ∀ t : Int, startTimeStep t = (t - 4 * HOUR) % DAY / 600000000 := by
    intro t
    unfold startTimeStep hourOf timeOfDay HOUR DAY
    simp only
    split <;> omega
  rw [key, key]
  refine ⟨rfl, ?_, ?_, ?_, ?_⟩
  all_goals (unfold HOUR DAY; omega)

example : startTimeStep (4 * HOUR) = 0 ∧ startTimeStep (3 * HOUR + 59 * 60000000) = 143 ∧ startTimeStep (12 * HOUR) = 48 := by decide +kernel

end Demod
