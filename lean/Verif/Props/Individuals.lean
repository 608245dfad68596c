import Verif.Lemmas.Individuals

/-!
# Property C99: individuals grouped into households, from the constructor on

`ValidData`, `ValidGroups`, `personTypes` and `allHouseholds` are defined in `Spec/Individuals.lean`.
-/

namespace Demod
variable {L : Type} [DecidableEq L]

/-- **C99 (runs).** The simulator of individuals, constructed for any subgroups of households with any start, and stepped any number of times, with valid data for all the
persons and days. The constructor ends at the start, each step takes 10 minutes, nothing is raised. The activities partition the residents of each household and
`0 ≤ active occupancy ≤ occupancy ≤ residents`. Each sub-simulator simulates the persons of one type: as many as there are in each household. -/
theorem C99_individuals (load : TpmLoader L) (f : DayFlags) (hf : f.Valid) (refresh : Int) (hr : 0 ≤ refresh ∧ refresh < DAY) (groups : List (Subgroup × Nat)) (persons : List (List Subgroup)) (hg : ValidGroups groups persons)
    (labels : List L) (hdata : ValidData load f labels persons.flatten) (start : Int) (d : Nat → Nat → List Rat) (hd : ∀ k, DrawsForTypes groups persons (d k))
    (uss : List (Nat → List Rat)) (hu : ∀ us ∈ uss, DrawsForTypes groups persons us) (away sleeping : L) (ha : away ∈ labels) (hsl : sleeping ∈ labels) (hne : away ≠ sleeping) :
    ∃ s0 s, IndividualsSim.create load f refresh groups start 600000000 d = .ok s0 ∧ s0.time = start ∧ s0.run load f refresh uss = .ok s ∧ s.time = start + uss.length * 600000000 ∧
      (∃ (states : List (L × List Nat)) (occ act : List Int), s.ind.activityStates away sleeping = .ok (states, act) ∧ s.ind.getOccupancy away sleeping = .ok occ ∧
        (states.map fun q => q.1).Nodup ∧ (∀ a, a ∈ states.map (fun q => q.1) ↔ a ∈ labels) ∧
        ∀ h < (allHouseholds groups persons).length,
          (states.map fun q => q.2.getD h 0).sum = ((allHouseholds groups persons).getD h []).length ∧
          (∀ q ∈ states, q.2.getD h 0 = personsDoing s.ind.hhOfPersons s.ind.sims h q.1) ∧
          occ.getD h 0 = ((allHouseholds groups persons).getD h []).length - personsDoing s.ind.hhOfPersons s.ind.sims h away ∧
          act.getD h 0 = occ.getD h 0 - personsDoing s.ind.hhOfPersons s.ind.sims h sleeping ∧
          0 ≤ act.getD h 0 ∧ act.getD h 0 ≤ occ.getD h 0 ∧ occ.getD h 0 ≤ ((allHouseholds groups persons).getD h []).length) ∧
      ∃ blocks : List (List Nat), s.ind.hhOfPersons = blocks.flatten ∧ blocks.length = s.ind.sims.length ∧ (personTypes persons).length = s.ind.sims.length ∧
        ∀ (i : Nat) b m p, blocks[i]? = some b → s.ind.sims[i]? = some m → (personTypes persons)[i]? = some p →
          m.states.length = b.length ∧ ∀ h, b.count h = timesIn p ((allHouseholds groups persons).getD h []) := by
  obtain ⟨asked, h1, h2, h3⟩ := hdata
  obtain ⟨s0, s, i0, e, e2, -, inv2, t, t2, hhh, hN, hR, hl1, hl2, -, -⟩ := reach_inv load f hf refresh hr groups persons hg labels asked h1 h2 h3 start d hd uss hu
  obtain ⟨blocks, b1, b2, b3, b4, b5, b6⟩ := parse_blocks (persons.zip (groups.map fun g => g.2))
  have huniq := unique_types groups persons hg.2.1
  have hcounts : s.ind.sims.map (fun m => m.states.length) = (parseSubgroups (persons.zip (groups.map fun g => g.2))).2.1 := by
    apply List.ext_getElem (by rw [List.length_map]; exact inv2.nsims)
    intro i k1 k2
    rw [List.length_map] at k1
    obtain ⟨⟨mats, g⟩, -, -⟩ := inv2.ok i _ _ (List.getElem?_eq_getElem k1) (List.getElem?_eq_getElem k2)
    rw [List.getElem_map]
    exact g.len
  have hsim : Simulate s.ind.sims (parseSubgroups (persons.zip (groups.map fun g => g.2))).2.1 s.ind.activityLabels := by
    refine ⟨hcounts, ?_⟩
    intro m hm
    obtain ⟨i, hi⟩ := List.mem_iff_getElem?.1 hm
    have hic : i < (parseSubgroups (persons.zip (groups.map fun g => g.2))).2.1.length := by rw [← inv2.nsims]; exact (List.getElem?_eq_some_iff.1 hi).1
    obtain ⟨⟨mats, g⟩, n1, n2⟩ := inv2.ok i m _ hi (List.getElem?_eq_getElem hic)
    exact ⟨n1, fun a => (n2 a).trans (hl2 a).symm, g.valid⟩
  have hsnd : (persons.zip (groups.map fun g => g.2)).map (fun q => q.2) = groups.map fun g => g.2 := List.map_snd_zip (by rw [List.length_map, hg.2.1])
  have hhN : (allHouseholds groups persons).length = s.ind.nHouseholds := by
    rw [hN, ← hsnd]
    unfold allHouseholds households
    rw [List.length_flatMap]
    congr 1
    apply List.map_congr_left
    intro q _; simp
  obtain ⟨states, occ, act, c1, c2, c3, c4, c5, c6, c7⟩ := C41_individuals (persons.zip (groups.map fun (g : Subgroup × Nat) => g.2)) s.ind.sims s.ind.activityLabels hl1 hsim away sleeping
    ((hl2 _).2 ha) ((hl2 _).2 hsl) hne s.ind rfl hhh (by rw [hsnd]; exact hN) hR rfl
  refine ⟨s0, s, e, t, e2, t2, ⟨states, occ, act, c1, c2, by rw [c3]; exact hl1, by intro a; rw [c3]; exact hl2 a, ?_⟩, blocks, ?_, ?_, ?_, ?_⟩
  · intro h hh
    rw [hhN] at hh
    obtain ⟨d1, d2, d3, d4, d5, d6⟩ := c7 h hh
    exact ⟨d1, fun q hq => (c6 q hq).2 h hh, d2, d3, d4, d5, d6⟩
  · exact hhh.trans b1
  · rw [inv2.nsims, ← b2, List.length_map]
  · rw [inv2.nsims, ← huniq, ← b3, ← b2, List.length_map]
  · intro i b m p hb hm hp
    refine ⟨?_, (b6 i p b (by rw [huniq]; exact hp) hb).2⟩
    have e1 : (s.ind.sims.map fun m => m.states.length)[i]? = (blocks.map List.length)[i]? := by rw [hcounts, b2]
    rw [List.getElem?_map, List.getElem?_map, hm, hb] at e1
    simpa using e1

/-- **C99 (new day).** When the data of a new day are loaded, in any state reached from the constructor, every person keeps the current activity, even if the new labels are in
another order. -/
theorem C99_new_day (load : TpmLoader L) (f : DayFlags) (hf : f.Valid) (refresh : Int) (hr : 0 ≤ refresh ∧ refresh < DAY) (groups : List (Subgroup × Nat)) (persons : List (List Subgroup)) (hg : ValidGroups groups persons)
    (labels : List L) (hdata : ValidData load f labels persons.flatten) (start : Int) (d : Nat → Nat → List Rat) (hd : ∀ k, DrawsForTypes groups persons (d k))
    (uss : List (Nat → List Rat)) (hu : ∀ us ∈ uss, DrawsForTypes groups persons us) (s0 s : IndividualsSim L)
    (h0 : IndividualsSim.create load f refresh groups start 600000000 d = .ok s0) (h1 : s0.run load f refresh uss = .ok s) :
    ∃ s', s.refreshDay load f = .ok s' ∧ personLabels s'.ind.sims = personLabels s.ind.sims ∧ s'.time = s.time ∧ s'.ind.hhOfPersons = s.ind.hhOfPersons ∧
      s'.ind.activityLabels = s.ind.activityLabels := by
  obtain ⟨asked, a1, a2, a3⟩ := hdata
  obtain ⟨s0', s1, i0, e, e2, -, inv2, -⟩ := reach_inv load f hf refresh hr groups persons hg labels asked a1 a2 a3 start d hd uss hu
  rw [h0] at e
  obtain rfl := Except.ok.inj e
  rw [h1] at e2
  obtain rfl := Except.ok.inj e2
  obtain ⟨s', r1, i1, r3, r4, r5, -, -, -⟩ := refresh_inv load f hf labels _ _ asked a2 a3 s inv2
  refine ⟨s', r1, ?_, r4, by rw [r5], by rw [r5]⟩
  apply personLabels_congr _ _ (i1.nsims.trans inv2.nsims.symm)
  intro i x y hx hy
  obtain ⟨m', z1, z2⟩ := r3 i y hy
  rw [hx] at z1
  rw [Option.some.inj z1]
  exact z2

/-- **C99 (initial states).** The constructor draws the activity of every person from the initial distribution of the data of the person, at the last refresh time before the start
(plus the remainder of the division by 10 minutes), and steps to the start. -/
theorem C99_initial (load : TpmLoader L) (f : DayFlags) (hf : f.Valid) (refresh : Int) (hr : 0 ≤ refresh ∧ refresh < DAY) (groups : List (Subgroup × Nat)) (persons : List (List Subgroup)) (hg : ValidGroups groups persons)
    (labels : List L) (hdata : ValidData load f labels persons.flatten) (start : Int) (d : Nat → Nat → List Rat) (hd : ∀ k, DrawsForTypes groups persons (d k)) :
    ∃ (s00 s0 : IndividualsSim L) (n : Nat), IndividualsSim.create load f refresh groups start 600000000 d = .ok s0 ∧ s00.run load f refresh ((List.range n).map fun k => d (k + 1)) = .ok s0 ∧
      s00.time + n * 600000000 = start ∧ n = ((start - refresh) % DAY) / 600000000 ∧ s00.ind.sims.length = (personTypes persons).length ∧
      ∀ (i : Nat) m p, s00.ind.sims[i]? = some m → (personTypes persons)[i]? = some p → m.states.length = timesIn p (allHouseholds groups persons).flatten ∧
        ∃ r, load p = .ok r ∧ m.labels = r.2.1 ∧ ∀ h < m.states.length, Sampled r.2.2 ((d 0 i).getD h 0) (m.states.getD h 0) := by
  obtain ⟨asked, h1, h2, h3⟩ := hdata
  obtain ⟨s0, i0, e, hi0, -, t, -, -, -, -, -, -, -, s00, c1, c2, c3, c4⟩ := create_inv load f hf refresh hr groups persons hg labels asked h1 h2 h3 start d hd
  obtain ⟨i0', hi', l1, l2, l3⟩ := init_le start refresh hr
  rw [hi0] at hi'
  obtain rfl := Except.ok.inj hi'
  unfold DAY at *
  refine ⟨s00, s0, ((start - i0) / 600000000).toNat, e, c2, ?_, ?_, c3, c4⟩
  · rw [c1, Int.toNat_of_nonneg (by omega)]; omega
  · rw [Int.toNat_of_nonneg (by omega)]
    have : (start - refresh) % 86400000000 = start - i0 := by omega
    rw [this]

/-- The matrix that the code uses for a step that begins at `t`: with day types and a start a multiple of 10 minutes after the refresh time, that of the number of steps since the refresh time; otherwise the next one. -/
def slotUsed (f : DayFlags) (refresh start t : Int) : Nat :=
  if f.requested = true ∧ (start - refresh) % 600000000 = 0 then ((t - refresh) % DAY / 600000000).toNat else (((t - refresh) % DAY / 600000000).toNat + 1) % 144

/-- **C99 (transitions).** In any state reached from the constructor, a step moves every person to a new activity drawn from the row of the current activity in the data of that
person's subgroup, for the time of day: `slotUsed`, for 144 matrices a day and after the first step (which follows the initial draw with matrix 1). -/
theorem C99_transitions (load : TpmLoader L) (f : DayFlags) (hf : f.Valid) (refresh : Int) (hr : 0 ≤ refresh ∧ refresh < DAY) (groups : List (Subgroup × Nat)) (persons : List (List Subgroup)) (hg : ValidGroups groups persons)
    (labels : List L) (hdata : ValidData load f labels persons.flatten) (start : Int) (d : Nat → Nat → List Rat) (hd : ∀ k, DrawsForTypes groups persons (d k))
    (uss : List (Nat → List Rat)) (hu : ∀ us ∈ uss, DrawsForTypes groups persons us) (s0 s : IndividualsSim L)
    (h0 : IndividualsSim.create load f refresh groups start 600000000 d = .ok s0) (h1 : s0.run load f refresh uss = .ok s)
    (us : Nat → List Rat) (hus : DrawsForTypes groups persons us) :
    ∃ s' k, s.step load f refresh us = .ok s' ∧ s'.ind.sims.length = (personTypes persons).length ∧
      (k % 144 = if uss = [] ∧ start % DAY = refresh then 1 else slotUsed f refresh start s.time) ∧
      ∀ (i : Nat) p, (personTypes persons)[i]? = some p →
        ∃ m g m' r, s.ind.sims[i]? = some m ∧ s.subgroups[i]? = some g ∧ s'.ind.sims[i]? = some m' ∧ load g = .ok r ∧ m.labels = r.2.1 ∧
          ∀ h < timesIn p (allHouseholds groups persons).flatten, ∃ j, Sampled (rowOf r.1.mats (k % r.1.mats.length) (m.states.getD h 0)) ((us i).getD h 0) j ∧
            m'.labels[m'.states.getD h 0]? = r.2.1[j]? := by
  obtain ⟨asked, a1, a2, a3⟩ := hdata
  obtain ⟨s0', s1, i0, e, e2, hi, inv, -, t2, -, -, -, -, -, hdt, hq⟩ := reach_inv load f hf refresh hr groups persons hg labels asked a1 a2 a3 start d hd uss hu
  rw [h0] at e
  obtain rfl := Except.ok.inj e
  rw [h1] at e2
  obtain rfl := Except.ok.inj e2
  obtain ⟨i0', hi', l1, l2, l3⟩ := init_le start refresh hr
  rw [hi] at hi'
  obtain rfl := Except.ok.inj hi'
  obtain ⟨blocks, b1, b2, b3, b4, b5, b6⟩ := parse_blocks (persons.zip (groups.map fun g => g.2))
  have huniq := unique_types groups persons hg.2.1
  have hcnt : ∀ (i : Nat) c p, (parseSubgroups (persons.zip (groups.map fun g => g.2))).2.1[i]? = some c → (personTypes persons)[i]? = some p → c = timesIn p (allHouseholds groups persons).flatten := by
    intro i c p hc hp
    rw [← b2, List.getElem?_map] at hc
    obtain ⟨b, hb, rfl⟩ := Option.map_eq_some_iff.1 hc
    exact (b6 i p b (by rw [huniq]; exact hp) hb).1
  have hdr : ∀ (i : Nat) c, (parseSubgroups (persons.zip (groups.map fun g => g.2))).2.1[i]? = some c → Draws c (us i) := by
    intro i c hc
    have hi : i < (personTypes persons).length := by rw [inv.ntypes]; exact (List.getElem?_eq_some_iff.1 hc).1
    rw [hcnt i c _ hc (List.getElem?_eq_getElem hi)]
    exact hus i _ (List.getElem?_eq_getElem hi)
  obtain ⟨s', c1, c2, -, -, -, c6⟩ := step_inv load f hf refresh labels _ _ asked a2 a3 s inv us hdr _ hdt
  obtain ⟨-, c7⟩ := c6 _ hq
  refine ⟨s', posAfter f refresh start (posAfter f refresh (i0 + (start - i0) % 600000000) 1 ((start - i0) / 600000000).toNat) uss.length, c1, c2.nsims.trans inv.ntypes.symm, ?_, ?_⟩
  rotate_left
  · intro i p hp
    have hic : i < (parseSubgroups (persons.zip (groups.map fun g => g.2))).2.1.length := by rw [← inv.ntypes]; exact (List.getElem?_eq_some_iff.1 hp).1
    have hm := List.getElem?_eq_getElem (show i < s.ind.sims.length by rw [inv.nsims]; exact hic)
    have hg' := List.getElem?_eq_getElem (show i < s.subgroups.length by rw [inv.nsubs]; exact hic)
    have hc := List.getElem?_eq_getElem hic
    obtain ⟨m', r, y1, y2, y3, y4⟩ := c7 i _ _ _ hm hc hg'
    refine ⟨_, _, m', r, hm, hg', y1, y2, y3, ?_⟩
    intro h hh
    rw [← hcnt i _ p hc hp] at hh
    obtain ⟨j, j1, j2⟩ := y4 h hh
    refine ⟨j, j1, ?_⟩
    obtain ⟨⟨mats, gd⟩, -, -⟩ := c2.ok i m' _ y1 hc
    have hlt : h < m'.states.length := by rw [gd.len]; exact hh
    rw [List.getD_eq_getElem?_getD, List.getElem?_map, List.getElem?_eq_getElem hlt] at j2
    rw [List.getD_eq_getElem?_getD, List.getElem?_eq_getElem hlt]
    exact j2
  · unfold slotUsed DAY at *
    rw [requested_eq]
    rw [t2]
    by_cases hal : f.aware = true ∧ (start - refresh) % 600000000 = 0
    · have hrem : (start - i0) % 600000000 = 0 := by have := hal.2; omega
      have hst : start = i0 + (((start - i0) / 600000000).toNat : Int) * 600000000 := by
        rw [Int.toNat_of_nonneg (by omega)]; omega
      have hcomp : posAfter f refresh start (posAfter f refresh (i0 + (start - i0) % 600000000) 1 ((start - i0) / 600000000).toNat) uss.length =
          posAfter f refresh i0 1 (((start - i0) / 600000000).toNat + uss.length) := by
        rw [posAfter_add, hrem, Int.add_zero, ← hst]
      rw [hcomp, if_pos hal]
      generalize hn0 : ((start - i0) / 600000000).toNat = n0 at *
      by_cases hz : uss = [] ∧ start % 86400000000 = refresh
      · rw [if_pos hz, hz.1]
        have : n0 = 0 := by have := hz.2; omega
        rw [this]; rfl
      · rw [if_neg hz]
        have hpos : 0 < n0 + uss.length := by
          by_contra hc
          have : uss.length = 0 := by omega
          exact hz ⟨List.length_eq_zero_iff.1 this, by omega⟩
        obtain ⟨n, hn⟩ := Nat.exists_eq_succ_of_ne_zero (Nat.pos_iff_ne_zero.1 hpos)
        rw [hn, posAfter_aligned f hal.1 refresh i0 l3]
        omega
    · have hnev : ∀ t : Int, (t - i0) % 600000000 = (start - i0) % 600000000 → f.aware = true → ∀ k : Nat, (t + k * 600000000) % 86400000000 ≠ refresh := by
        intro t ht hw k hc
        exact hal ⟨hw, by omega⟩
      rw [posAfter_never f refresh start _ _ (hnev start rfl), posAfter_never f refresh _ _ _ (hnev _ (by omega)), if_neg hal]
      generalize hn0 : ((start - i0) / 600000000).toNat = n0 at *
      by_cases hz : uss = [] ∧ start % 86400000000 = refresh
      · rw [if_pos hz, hz.1]
        have : n0 = 0 := by have := hz.2; omega
        rw [this]; rfl
      · rw [if_neg hz]
        omega

/-- The data are those of the persons on the day that began at the last refresh time before `t` (the day of ten minutes after it). -/
def DataOfDay (f : DayFlags) (refresh : Int) (persons : List (List Subgroup)) (subgroups : List Subgroup) (t : Int) : Prop :=
  ∃ r : Int, r % DAY = refresh ∧ r < t ∧ t ≤ r + DAY ∧ subgroups.length = (personTypes persons).length ∧
    ∀ (i : Nat) g p, subgroups[i]? = some g → (personTypes persons)[i]? = some p →
      ∃ day, addTime p (r + 600000000) f.weekEndsDays f.weekSatSun f.sevenDays f.quarters = .ok day ∧ ∀ k, g.at k = day.at k

/-- The full property: after the first step, whatever the start, the data are those of the current day. -/
def C99_full : Prop :=
  ∀ (load : TpmLoader Nat) (f : DayFlags) (refresh : Int) (groups : List (Subgroup × Nat)) (persons : List (List Subgroup)) (labels : List Nat) (start : Int) (d : Nat → Nat → List Rat)
    (uss : List (Nat → List Rat)) (s0 s : IndividualsSim Nat), f.Valid → f.requested = true → 0 ≤ refresh ∧ refresh < DAY → ValidGroups groups persons → ValidData load f labels persons.flatten →
    (∀ k, DrawsForTypes groups persons (d k)) → (∀ us ∈ uss, DrawsForTypes groups persons us) → uss ≠ [] →
    IndividualsSim.create load f refresh groups start 600000000 d = .ok s0 → s0.run load f refresh uss = .ok s → DataOfDay f refresh persons s.subgroups s.time

/-- **C99 (day, partial).** With a start a multiple of 10 minutes after the refresh time, the data in use are those of the current day, from the first step after a refresh time on.
Missing: other starts. -/
theorem C99_day_partial (load : TpmLoader L) (f : DayFlags) (hf : f.Valid) (ha : f.requested = true) (refresh : Int) (hr : 0 ≤ refresh ∧ refresh < DAY) (groups : List (Subgroup × Nat)) (persons : List (List Subgroup))
    (hg : ValidGroups groups persons) (labels : List L) (hdata : ValidData load f labels persons.flatten) (start : Int) (hstart : (start - refresh) % 600000000 = 0)
    (d : Nat → Nat → List Rat) (hd : ∀ k, DrawsForTypes groups persons (d k)) (uss : List (Nat → List Rat)) (hu : ∀ us ∈ uss, DrawsForTypes groups persons us)
    (hsome : uss ≠ [] ∨ start % DAY ≠ refresh) (s0 s : IndividualsSim L) (h0 : IndividualsSim.create load f refresh groups start 600000000 d = .ok s0) (h1 : s0.run load f refresh uss = .ok s) :
    DataOfDay f refresh persons s.subgroups s.time := by
  rw [requested_eq] at ha
  obtain ⟨asked, a1, a2, a3⟩ := hdata
  obtain ⟨s0', s1, i0, e, e2, hi, inv2, -, t2, -, -, -, -, -, hdt, -⟩ := reach_inv load f hf refresh hr groups persons hg labels asked a1 a2 a3 start d hd uss hu
  rw [h0] at e
  obtain rfl := Except.ok.inj e
  rw [h1] at e2
  obtain rfl := Except.ok.inj e2
  obtain ⟨i0', hi', l1, l2, l3⟩ := init_le start refresh hr
  rw [hi] at hi'
  obtain rfl := Except.ok.inj hi'
  unfold DAY at *
  have hrem : (start - i0) % 600000000 = 0 := by omega
  have hst : start = i0 + (((start - i0) / 600000000).toNat : Int) * 600000000 := by
    rw [Int.toNat_of_nonneg (by omega)]; omega
  have hcomp : datedAfter f refresh start (datedAfter f refresh (i0 + (start - i0) % 600000000) none ((start - i0) / 600000000).toNat) uss.length =
      datedAfter f refresh i0 none (((start - i0) / 600000000).toNat + uss.length) := by
    rw [datedAfter_add, hrem, Int.add_zero, ← hst]
  rw [hcomp] at hdt
  have hpos : 0 < ((start - i0) / 600000000).toNat + uss.length := by
    rcases hsome with h | h
    · have := List.length_pos_iff.2 h; omega
    · omega
  obtain ⟨n, hn⟩ := Nat.exists_eq_succ_of_ne_zero (Nat.pos_iff_ne_zero.1 hpos)
  rw [hn] at hdt
  obtain ⟨r, er, r1, r2, r3⟩ := datedAfter_aligned f ha refresh i0 l3 n
  rw [er] at hdt
  have htime : s.time = i0 + ((n + 1 : Nat) : Int) * 600000000 := by rw [t2]; push_cast; omega
  exact ⟨r, r1, by rw [htime]; exact r2, by unfold DAY; rw [htime]; exact r3, inv2.nsubs.trans inv2.ntypes.symm, hdt⟩

/-- **C99 (data never updated).** With a start that is not a multiple of 10 minutes after the refresh time (or no day type requested), the data remain those of the persons without
attributes of the day, whatever the number of steps. -/
theorem C99_never_updated (load : TpmLoader L) (f : DayFlags) (hf : f.Valid) (refresh : Int) (hr : 0 ≤ refresh ∧ refresh < DAY) (groups : List (Subgroup × Nat)) (persons : List (List Subgroup))
    (hg : ValidGroups groups persons) (labels : List L) (hdata : ValidData load f labels persons.flatten) (start : Int) (hstart : (start - refresh) % 600000000 ≠ 0 ∨ f.requested = false)
    (d : Nat → Nat → List Rat) (hd : ∀ k, DrawsForTypes groups persons (d k)) (uss : List (Nat → List Rat)) (hu : ∀ us ∈ uss, DrawsForTypes groups persons us)
    (s0 s : IndividualsSim L) (h0 : IndividualsSim.create load f refresh groups start 600000000 d = .ok s0) (h1 : s0.run load f refresh uss = .ok s) :
    s.subgroups = personTypes persons := by
  rw [requested_eq] at hstart
  obtain ⟨asked, a1, a2, a3⟩ := hdata
  obtain ⟨s0', s1, i0, e, e2, hi, inv2, -, t2, -, -, -, -, -, hdt, -⟩ := reach_inv load f hf refresh hr groups persons hg labels asked a1 a2 a3 start d hd uss hu
  rw [h0] at e
  obtain rfl := Except.ok.inj e
  rw [h1] at e2
  obtain rfl := Except.ok.inj e2
  obtain ⟨i0', hi', l1, l2, l3⟩ := init_le start refresh hr
  rw [hi] at hi'
  obtain rfl := Except.ok.inj hi'
  unfold DAY at *
  rw [datedAfter_none _ _ (i0 + _), datedAfter_none] at hdt
  · exact hdt
  · intro hw k
    rcases hstart with h | h
    · omega
    · rw [hw] at h; exact absurd h (by decide)
  · intro hw k
    rcases hstart with h | h
    · omega
    · rw [hw] at h; exact absurd h (by decide)

/-! ### A concrete case: two couples and one person alone, with labels "away", "sleeping" and "other" numbered 0, 1, 2 -/

/-- The same data for everyone, with the labels in another order at the week-end. -/
def demoLoader : TpmLoader Nat := fun g =>
  let half : List Rat := [1 / 2, 1 / 4, 1 / 4]
  .ok (⟨3, 3, [[half, half, half]]⟩, if g.at kWeekday = some (.list [6, 7]) then [2, 0, 1] else [0, 1, 2], half)

/-- Week-ends and other days. -/
def demoFlags : DayFlags := { weekEndsDays := true, weekSatSun := false, sevenDays := false, quarters := false }

/-- Two couples and one person alone. -/
def demoGroups : List (Subgroup × Nat) := [([(kNResidents, .int 2), (kHouseholdType, .int 2)], 2), ([(kNResidents, .int 1)], 1)]

/-- Their persons. -/
def demoPersons : List (List Subgroup) := [[[(kPosition, .int 1)], [(kPosition, .int 2)]], [[]]]

theorem demo_groups : ValidGroups demoGroups demoPersons := by
  refine ⟨by decide, by decide, ?_⟩
  intro i g ps hg hp
  match i with
  | 0 =>
    obtain rfl := Option.some.inj hg
    obtain rfl := Option.some.inj hp
    decide +kernel
  | 1 =>
    obtain rfl := Option.some.inj hg
    obtain rfl := Option.some.inj hp
    decide +kernel
  | k + 2 => exact absurd hg (by simp [demoGroups])

theorem demo_data : ValidData demoLoader demoFlags [0, 1, 2] demoPersons.flatten := by
  refine ⟨fun _ => True, fun _ _ => trivial, fun _ _ _ _ _ => trivial, ?_⟩
  intro g _
  refine ⟨_, rfl, ?_⟩
  have ht : IsTpms 3 [[[1 / 2, 1 / 4, 1 / 4], [1 / 2, 1 / 4, 1 / 4], [1 / 2, 1 / 4, 1 / 4]]] := by
    unfold IsTpms IsDist
    decide +kernel
  have hi : IsDist [1 / 2, 1 / 4, 1 / 4] := by unfold IsDist; decide +kernel
  unfold ValidLoad
  dsimp only
  split
  · exact ⟨by decide, by intro a; simp; omega, rfl, rfl, ht, hi, rfl⟩
  · exact ⟨by decide, by intro a; simp, rfl, rfl, ht, hi, rfl⟩

/-- Draws: two persons of the first two types, one of the third. -/
def demoDraw (k i : Nat) : List Rat := if i < 2 then [((k % 4 : Nat) : Rat) / 4, 1 / 3] else [((k % 3 : Nat) : Rat) / 3]

theorem demo_draws (k : Nat) : DrawsForTypes demoGroups demoPersons (demoDraw k) := by
  have h4 : (0 : Rat) ≤ ((k % 4 : Nat) : Rat) / 4 ∧ ((k % 4 : Nat) : Rat) / 4 < 1 := by
    have : k % 4 < 4 := Nat.mod_lt _ (by decide)
    generalize k % 4 = j at *
    constructor
    · positivity
    · rw [div_lt_one (by norm_num)]; exact_mod_cast this
  have h3 : (0 : Rat) ≤ ((k % 3 : Nat) : Rat) / 3 ∧ ((k % 3 : Nat) : Rat) / 3 < 1 := by
    have : k % 3 < 3 := Nat.mod_lt _ (by decide)
    generalize k % 3 = j at *
    constructor
    · positivity
    · rw [div_lt_one (by norm_num)]; exact_mod_cast this
  have hp : personTypes demoPersons = [[(kPosition, .int 1)], [(kPosition, .int 2)], []] := by decide +kernel
  intro i p hi
  rw [hp] at hi
  match i with
  | 0 =>
    obtain rfl := Option.some.inj hi
    refine ⟨Eq.trans rfl (by decide +kernel : 2 = timesIn _ (allHouseholds demoGroups demoPersons).flatten), ?_⟩
    intro u hu
    simp only [demoDraw, Nat.zero_lt_two, if_true, List.mem_cons, List.not_mem_nil, or_false] at hu
    rcases hu with rfl | rfl
    · exact h4
    · norm_num
  | 1 =>
    obtain rfl := Option.some.inj hi
    refine ⟨Eq.trans rfl (by decide +kernel : 2 = timesIn _ (allHouseholds demoGroups demoPersons).flatten), ?_⟩
    intro u hu
    simp only [demoDraw, Nat.one_lt_two, if_true, List.mem_cons, List.not_mem_nil, or_false] at hu
    rcases hu with rfl | rfl
    · exact h4
    · norm_num
  | 2 =>
    obtain rfl := Option.some.inj hi
    refine ⟨Eq.trans rfl (by decide +kernel : 1 = timesIn _ (allHouseholds demoGroups demoPersons).flatten), ?_⟩
    intro u hu
    simp only [demoDraw, Nat.lt_irrefl, if_false, List.mem_cons, List.not_mem_nil, or_false] at hu
    rw [hu]
    exact h3
  | k + 3 => exact absurd hi (by simp)

/-- Started on a Sunday at 03:50, with refresh at 04:00, and simulated until 04:20 of the Sunday: the data of the Saturday, then those of the Sunday are loaded. -/
example (uss : List (Nat → List Rat)) (hu : uss = [demoDraw 1, demoDraw 2, demoDraw 3]) :
    ∃ s0 s, IndividualsSim.create demoLoader demoFlags (4 * HOUR) demoGroups (6 * DAY + 4 * HOUR - 600000000) 600000000 demoDraw = .ok s0 ∧
      s0.run demoLoader demoFlags (4 * HOUR) uss = .ok s ∧ s.time = 6 * DAY + 4 * HOUR + 1200000000 ∧ DataOfDay demoFlags (4 * HOUR) demoPersons s.subgroups s.time := by
  have hus : ∀ us ∈ uss, DrawsForTypes demoGroups demoPersons us := by
    intro us h
    rw [hu] at h
    simp only [List.mem_cons, List.not_mem_nil, or_false] at h
    rcases h with rfl | rfl | rfl <;> exact demo_draws _
  obtain ⟨s0, s, a, b, c, t, -⟩ := C99_individuals demoLoader demoFlags rfl (4 * HOUR) (by decide) demoGroups demoPersons demo_groups [0, 1, 2] demo_data
    (6 * DAY + 4 * HOUR - 600000000) demoDraw demo_draws uss hus 0 1 (by decide) (by decide) (by decide)
  refine ⟨s0, s, a, c, ?_, ?_⟩
  · rw [t, hu]; decide
  · exact C99_day_partial demoLoader demoFlags rfl (by decide) (4 * HOUR) (by decide) demoGroups demoPersons demo_groups [0, 1, 2] demo_data
      (6 * DAY + 4 * HOUR - 600000000) (by decide) demoDraw demo_draws uss hus (Or.inl (by rw [hu]; simp)) s0 s a c

/-- The full property fails: started five minutes after the refresh time, no data of any day are ever loaded. -/
theorem C99_full_fails : ¬ C99_full := by
  intro hall
  have hus : ∀ us ∈ [demoDraw 1], DrawsForTypes demoGroups demoPersons us := by
    intro us h
    rw [List.mem_singleton] at h
    rw [h]; exact demo_draws _
  obtain ⟨s0, s, a, b, c, t, -⟩ := C99_individuals demoLoader demoFlags rfl (4 * HOUR) (by decide) demoGroups demoPersons demo_groups [0, 1, 2] demo_data
    (4 * HOUR + 300000000) demoDraw demo_draws [demoDraw 1] hus 0 1 (by decide) (by decide) (by decide)
  obtain ⟨r, -, -, -, hl, hday⟩ := hall demoLoader demoFlags (4 * HOUR) demoGroups demoPersons [0, 1, 2] (4 * HOUR + 300000000) demoDraw [demoDraw 1] s0 s rfl (by decide) (by decide) demo_groups demo_data
    demo_draws hus (by simp) a c
  have hsub := C99_never_updated demoLoader demoFlags rfl (4 * HOUR) (by decide) demoGroups demoPersons demo_groups [0, 1, 2] demo_data (4 * HOUR + 300000000) (Or.inl (by decide)) demoDraw demo_draws
    [demoDraw 1] hus s0 s a c
  have hp : personTypes demoPersons = [[(kPosition, .int 1)], [(kPosition, .int 2)], []] := by decide +kernel
  obtain ⟨day, e, k⟩ := hday 2 [] [] (by rw [hsub, hp]; rfl) (by rw [hp]; rfl)
  have hw := k kWeekday
  have : day.at kWeekday ≠ none := by
    unfold addTime demoFlags at e
    simp only [Bool.false_eq_true, if_false, if_true, Nat.zero_add, Nat.add_zero, gt_iff_lt, Nat.lt_irrefl] at e
    obtain rfl := Except.ok.inj e
    unfold Subgroup.at
    split <;> (rw [lookup_popKey, if_neg (by decide), lookup_setKey, if_pos rfl]; simp)
  rw [← hw] at this
  exact this rfl

/-! ### Wrong arguments -/

/-- **C99 (step size).** Only steps of 10 minutes are accepted. -/
theorem C99_step_size (load : TpmLoader L) (f : DayFlags) (refresh : Int) (groups : List (Subgroup × Nat)) (start stepSize : Int) (hs : stepSize ≠ 600000000) (d : Nat → Nat → List Rat) (s : IndividualsSim L) :
    IndividualsSim.create load f refresh groups start stepSize d ≠ .ok s := by
  unfold IndividualsSim.create
  intro h
  cases h1 : groups.mapM (fun g => toPersons g.1) with
  | error e => rw [h1] at h; exact absurd h (by simp [bind, Except.bind])
  | ok persons =>
    cases h2 : groups.mapM IndividualsSim.residents with
    | error e => rw [h1, h2] at h; exact absurd h (by simp [bind, Except.bind])
    | ok res =>
      rw [h1, h2] at h
      simp only [bind, Except.bind] at h
      split at h
      · exact absurd h (by simp)
      · split at h
        · exact absurd h (by simp)
        · split at h
          · exact absurd h (by simp)
          · simp at h

/-- **C99 (counterexample: two day types).** Two ways to distinguish the days are accepted by the constructor at the refresh time; the first step raises `ValueError`. -/
theorem C99_two_schemes_counterexample :
    ∃ s0, IndividualsSim.create demoLoader { demoFlags with sevenDays := true } (4 * HOUR) demoGroups (4 * HOUR) 600000000 demoDraw = .ok s0 ∧
      (s0.step demoLoader { demoFlags with sevenDays := true } (4 * HOUR) (demoDraw 1)).map (fun _ => ()) = .error .valueError := by
  have h : (match IndividualsSim.create demoLoader { demoFlags with sevenDays := true } (4 * HOUR) demoGroups (4 * HOUR) 600000000 demoDraw with
      | .ok s0 => decide ((s0.step demoLoader { demoFlags with sevenDays := true } (4 * HOUR) (demoDraw 1)).map (fun _ => ()) = .error .valueError)
      | .error _ => false) = true := by decide +kernel
  split at h
  · exact ⟨_, by assumption, of_decide_eq_true h⟩
  · exact absurd h (by decide)

/-- Another set of labels for the second person of the couple. -/
def demoOtherLabels : TpmLoader Nat := fun g =>
  (demoLoader g).map fun r => if g = [(kPosition, .int 2)] then (r.1, [0, 1, 3], r.2.2) else r

/-- **C99 (counterexample: labels).** If the persons have different sets of labels, the constructor succeeds and `get_activity_states` raises `ValueError`. -/
theorem C99_labels_counterexample :
    ∃ s0, IndividualsSim.create demoOtherLabels demoFlags (4 * HOUR) demoGroups (4 * HOUR) 600000000 demoDraw = .ok s0 ∧ s0.ind.activityStates 0 1 = .error .valueError := by
  have h : (match IndividualsSim.create demoOtherLabels demoFlags (4 * HOUR) demoGroups (4 * HOUR) 600000000 demoDraw with
      | .ok s0 => decide (s0.ind.activityStates 0 1 = .error .valueError)
      | .error _ => false) = true := by decide +kernel
  split at h
  · exact ⟨_, by assumption, of_decide_eq_true h⟩
  · exact absurd h (by decide)

/-- **C99 (counterexample: no household).** A subgroup with no household is rejected if nobody else is of the same type as its persons, and accepted otherwise. -/
theorem C99_no_household_counterexample :
    (IndividualsSim.create demoLoader demoFlags (4 * HOUR) [([(kNResidents, .int 2), (kHouseholdType, .int 2)], 2), ([(kNResidents, .int 1)], 0)] (4 * HOUR) 600000000 demoDraw).map (fun _ => ()) = .error .valueError ∧
    (IndividualsSim.create demoLoader demoFlags (4 * HOUR) [([(kNResidents, .int 1)], 2), ([(kNResidents, .int 1)], 0)] (4 * HOUR) 600000000 demoDraw).map (fun _ => ()) = .ok () := by
  decide +kernel

end Demod
