import Verif.Lemmas.SurveySparse
import Verif.Props.SparseAct

/-!
# C119: the transit-states simulation of the German time use survey follows the recorded households
-/

namespace Demod

/-- The data of a subgroup: the labels are the situations of the recorded households, in increasing order; the starting probabilities and the matrices are the frequencies of the situations at the start of the days and of their changes, those of the last slot leading to the start of the same day. -/
theorem C119_data_partial (V : SurveyRaw) (hV : ValidSurvey V) (a : SubgroupArgs) (ha : UsableGroup V a) :
    ∃ tpm labels pdf, sparse9States V a = .ok (tpm, labels, ["active".toList, "HWH".toList, "HOH".toList], pdf) ∧ tpm.nTimes = 144 ∧ labels.length = tpm.nStates ∧ pdf.length = tpm.nStates ∧ IsDist pdf ∧
      labels.Pairwise (· < ·) ∧ (∀ y, y ∈ labels ↔ ∃ h d t, V.Recorded a h d ∧ t < 144 ∧ packed (V.situation a h d t) = y) ∧
      (∀ h d t, V.Recorded a h d → t < 144 → (V.situation a h d t).1 < 7 ∧ (V.situation a h d t).2.1 < 7 ∧ (V.situation a h d t).2.2 < 7) ∧
      (∀ (i : Nat) y, labels[i]? = some y →
        pdf[i]? = some (({x : Nat × Nat | V.Recorded a x.1 x.2 ∧ packed (V.situation a x.1 x.2 0) = y}.ncard : Rat) / ({x : Nat × Nat | V.Recorded a x.1 x.2}.ncard : Rat))) ∧
      ∀ t : Nat, t < 144 → ∃ M, tpm.getItem (t : Int) = .ok M ∧ ∀ (i j : Nat) y z, labels[i]? = some y → labels[j]? = some z →
        (M.getD i []).getD j 0 = if {x : Nat × Nat | V.Recorded a x.1 x.2 ∧ packed (V.situation a x.1 x.2 t) = y}.ncard = 0 then 0 else
          ({x : Nat × Nat | V.Recorded a x.1 x.2 ∧ packed (V.situation a x.1 x.2 t) = y ∧ packed (V.situation a x.1 x.2 ((t + 1) % 144)) = z}.ncard : Rat) /
            ({x : Nat × Nat | V.Recorded a x.1 x.2 ∧ packed (V.situation a x.1 x.2 t) = y}.ncard : Rat) := by
  obtain ⟨tpm, labels, pdf, F⟩ := day_facts V hV a ha
  exact ⟨tpm, labels, pdf, F.load, F.nTimes, F.size, by rw [F.pdfLength, F.size], F.pdfDist, F.sorted, F.mem, F.small, F.starts, F.matrix⟩

/-- The members of a recorded household are at home or out. -/
theorem situation_members (V : SurveyRaw) (a : SubgroupArgs) (h d t : Nat) :
    {p | V.Member a h d p}.ncard = {p | V.Member a h d p ∧ V.AtHome p t}.ncard + (V.situation a h d t).2.1 + (V.situation a h d t).2.2 ∧
      (V.situation a h d t).1 = {p | V.Member a h d p ∧ V.AtHome p t ∧ V.Awake p t}.ncard ∧ (V.situation a h d t).1 ≤ {p | V.Member a h d p ∧ V.AtHome p t}.ncard := by
  have hfin : {p | V.Member a h d p}.Finite := by
    apply Set.Finite.subset (Set.finite_lt_nat V.tables.rows.length)
    rintro p ⟨r, hr, -⟩
    exact (List.getElem?_eq_some_iff.1 hr).1
  have hf : ∀ Q : Nat → Prop, {p | V.Member a h d p ∧ Q p}.Finite := fun Q => hfin.subset fun p hp => hp.1
  refine ⟨?_, rfl, Set.ncard_le_ncard (fun p hp => ⟨hp.1, hp.2.1⟩) (hf _)⟩
  have e1 : {p | V.Member a h d p} = {p | V.Member a h d p ∧ V.AtHome p t} ∪ ({p | V.Member a h d p ∧ ¬ V.AtHome p t ∧ V.ForWork p t} ∪ {p | V.Member a h d p ∧ ¬ V.AtHome p t ∧ ¬ V.ForWork p t}) := by
    ext p
    simp only [Set.mem_ofPred_eq, Set.mem_union]
    by_cases h1 : V.AtHome p t <;> by_cases h2 : V.ForWork p t <;> simp [h1, h2]
  rw [e1, Set.ncard_union_eq _ (hf _) ((hf _).union (hf _)), Set.ncard_union_eq _ (hf _) (hf _), ← Nat.add_assoc]
  · rfl
  · rw [Set.disjoint_left]
    rintro p ⟨-, -, h1⟩ ⟨-, -, h2⟩
    exact h2 h1
  · rw [Set.disjoint_left]
    rintro p ⟨-, h1⟩ (⟨-, h2, -⟩ | ⟨-, h2, -⟩)
    · exact h2 h1
    · exact h2 h1

/-- The simulation with the data of the survey. Each household goes through situations that change as recorded by a household of the subgroup and of the class of the day, at the same time of the day; at the start of a day, if nobody
recorded its situation, it continues as a household all asleep at home. The numbers of occupants and of active occupants and the gains are those of the situation. If the recorded households have the number of members that is asked for,
the occupants and the active occupants are the members at home, and awake at home, of a recorded household. -/
theorem C119_run_partial (V : SurveyRaw) (hV : ValidSurvey V) (groups : List Subgroup) (counts : List Nat) (hl : counts.length = groups.length) (hn : 0 < counts.sum) (a : SparseArgs) (start : Int) (ha : a.start = some start)
    (fuel : Nat) (hf : 2 ≤ fuel) (n ty r : Subgroup → Int)
    (hG : ∀ (k : Nat) g c, groups[k]? = some g → counts[k]? = some c → 0 < c → SurveyGroup V g (n g) (ty g) (r g) (.of a.sevenDays a.weekEnds) a.quarters)
    (us : List Rat) (hu : Draws counts.sum us) (e : Nat → List Rat) (he : ∀ k, PosDraws counts.sum (e k)) (n0 : Nat) (hn0 : (n0 : Int) = (start - 4 * 3600000000) % 86400000000 / 600000000) :
    ∃ m0, SparseMulti.create (surveyLoad V) fuel groups counts a us e = .ok m0 ∧
      ∀ uss, (∀ us ∈ uss, PosDraws counts.sum us) → ∃ (m : SparseMulti) (occ act gains : List Int), SparseMulti.run (surveyLoad V) fuel m0 uss = .ok m ∧ m.occupancy = .ok occ ∧ m.activeOccupancy = .ok act ∧ m.thermalGains = .ok gains ∧
        m.residents.length = counts.sum ∧ occ.length = counts.sum ∧ act.length = counts.sum ∧ gains.length = counts.sum ∧ (∀ h < counts.sum, ∃ k, InSubgroup counts h k ∧ k < groups.length) ∧
        ∀ (h k : Nat) g, InSubgroup counts h k → groups[k]? = some g → m.residents[h]? = some (r g) ∧
          ∃ path : Nat → Nat × Nat × Nat,
            (path 0 = (0, 0, 0) ∨ ∃ h d, V.Recorded (householdArgs (n g) (ty g)) h d ∧ V.situation (householdArgs (n g) (ty g)) h d 0 = path 0) ∧
            (∀ j < n0 + uss.length, SurveyMove V (dayArgs (n g) (ty g) (.of a.sevenDays a.weekEnds) a.quarters (loadTime start j)) j (path j) (path (j + 1))) ∧
            (∀ w o c, path (n0 + uss.length) = (c, w, o) →
              occ[h]? = some (r g - w - o) ∧ act[h]? = some (min (r g - w - o) c) ∧ gains[h]? = some (84 * (r g - w - o - min (r g - w - o) c) + 147 * min (r g - w - o) c)) ∧
            ∀ j, j + 1 = n0 + uss.length → ∀ b, b = dayArgs (n g) (ty g) (.of a.sevenDays a.weekEnds) a.quarters (loadTime start j) → (∀ h d, V.Recorded b h d → ({p | V.Member b h d p}.ncard : Int) = r g) →
              ∃ h' d, V.Recorded b h' d ∧ occ[h]? = some ({p | V.Member b h' d p ∧ V.AtHome p ((j + 1) % 144)}.ncard : Int) ∧
                act[h]? = some ({p | V.Member b h' d p ∧ V.AtHome p ((j + 1) % 144) ∧ V.Awake p ((j + 1) % 144)}.ncard : Int) := by
  classical
  have hex : ∀ g : Subgroup, ∃ x : List Nat × List Rat × DayData, ∀ (k : Nat) c, groups[k]? = some g → counts[k]? = some c → 0 < c →
      SparseData (surveyLoad V) g x.1 ["active".toList, "HWH".toList, "HOH".toList] x.2.1 (.of a.sevenDays a.weekEnds) a.quarters x.2.2 ∧
      (∃ tpm, DayFacts V (householdArgs (n g) (ty g)) tpm x.1 x.2.1) ∧ ∀ t, ∃ p, DayFacts V (dayArgs (n g) (ty g) (.of a.sevenDays a.weekEnds) a.quarters t) (x.2.2 (dayOf (.of a.sevenDays a.weekEnds) a.quarters t)).1 (x.2.2 (dayOf (.of a.sevenDays a.weekEnds) a.quarters t)).2 p := by
    intro g
    by_cases hg : ∃ (k : Nat) (c : Nat), groups[k]? = some g ∧ counts[k]? = some c ∧ 0 < c
    · obtain ⟨k, c, h1, h2, h3⟩ := hg
      obtain ⟨l0, p, D, g1, g2, g3⟩ := survey_data V hV g _ _ _ _ _ (hG k g c h1 h2 h3)
      exact ⟨(l0, p, D), fun _ _ _ _ _ => ⟨g1, g2, g3⟩⟩
    · exact ⟨([], [], fun _ => (⟨[], [], [], [], 0, 0, none, 0⟩, [])), fun k c h1 h2 h3 => absurd ⟨k, c, h1, h2, h3⟩ hg⟩
  choose X hX using hex
  obtain ⟨m0, c1, c2⟩ := C117_run_partial (surveyLoad V) groups counts hl hn a start ha fuel hf (fun g => (X g).1) (fun _ => ["active".toList, "HWH".toList, "HOH".toList]) (fun g => (X g).2.1) (fun g => (X g).2.2) r
    (fun k g c h1 h2 h3 => ⟨(hX g k c h1 h2 h3).1, (hG k g c h1 h2 h3).residents⟩) us hu e he n0 hn0
  refine ⟨m0, c1, fun uss huss => ?_⟩
  obtain ⟨m, occ, act, gains, d1, d2, d3, d4, d5, d6, d7, d8, d9, d10⟩ := c2 uss huss
  refine ⟨m, occ, act, gains, d1, d2, d3, d4, d5, d6, d7, d8, d9, fun h k g hin hg => ?_⟩
  obtain ⟨f1, t, f2, f3, -⟩ := d10 h k g hin hg
  obtain ⟨c, hc, hc0⟩ : ∃ c, counts[k]? = some c ∧ 0 < c := by
    obtain ⟨i1, i2⟩ := hin
    rw [List.take_add_one, List.sum_append] at i2
    cases hc : counts[k]? with
    | none =>
      rw [hc] at i2
      simp at i2
      omega
    | some c =>
      rw [hc] at i2
      simp at i2
      exact ⟨c, rfl, by omega⟩
  obtain ⟨-, ⟨tpm0, F0⟩, FD⟩ := hX g k c hg hc hc0
  have G := hG k g c hg hc hc0
  obtain ⟨p0, pj, pk⟩ := course_survey V (n g) (ty g) _ _ _ _ tpm0 F0 _ (fun t => (G.days t).2) FD start _ _ t f2
  rw [List.length_map, List.length_append, List.length_map, List.length_range] at pj pk
  have hpk := pk _ (le_refl _)
  have hfin : ∀ w o c, unpacked (t (n0 + uss.length)) = (c, w, o) →
      occ[h]? = some (r g - w - o) ∧ act[h]? = some (min (r g - w - o) c) ∧ gains[h]? = some (84 * (r g - w - o - min (r g - w - o) c) + 147 * min (r g - w - o) c) := by
    intro w o c hp
    obtain ⟨⟨y1, y2, y3⟩, l1, l2, l3, hy⟩ := hpk
    simp only at l1 l2 l3
    rw [hy, unpacked_packed ⟨l1, l2, l3⟩] at hp
    obtain ⟨rfl, rfl, rfl⟩ : y1 = c ∧ y2 = w ∧ y3 = o := by simpa using hp
    refine f3 y2 y3 y1 ⟨1, rfl, ?_⟩ ⟨2, rfl, ?_⟩ ⟨0, rfl, ?_⟩ <;> rw [hy] <;> simp only [packed] <;> omega
  refine ⟨f1, fun j => unpacked (t j), p0.imp id id, fun j hj => pj j hj, hfin, ?_⟩
  rintro j hj b rfl hfull
  obtain ⟨h', d, hr, e1, -⟩ := pj j (by omega)
  obtain ⟨s1, s2, s3⟩ := situation_members V (dayArgs (n g) (ty g) (.of a.sevenDays a.weekEnds) a.quarters (loadTime start j)) h' d ((j + 1) % 144)
  have hm := hfull h' d hr
  rw [e1] at s1 s2 s3
  obtain ⟨q1, q2, -⟩ := hfin _ _ _ (show unpacked (t (n0 + uss.length)) = ((unpacked (t (j + 1))).1, (unpacked (t (j + 1))).2.1, (unpacked (t (j + 1))).2.2) by rw [hj])
  refine ⟨h', d, hr, ?_, ?_⟩
  · rw [q1, Option.some.injEq]
    omega
  · rw [q2, Option.some.injEq, ← s2]
    omega

/-- Household 1 has two members who write a diary in summer: the first sleeps until 2 pm and cooks for the rest of the day, the second sleeps. -/
def demoNight : SurveyRaw where
  tables := { rows := [⟨1, 1, 0, 1, 3, 1, 8, 1, 1, 70, 1, 1⟩, ⟨1, 1, 0, 1, 3, 1, 8, 1, 2, 68, 1, 2⟩], hhIds := [1], hh := fun _ => ⟨2, 2, 1, 2, 3, 69⟩, persons := [(1, 8), (1, 8)] }
  primary := ⟨2, 144, fun p t => if p = 0 ∧ 60 ≤ t then 411 else 110⟩
  secondary := ⟨2, 144, fun p t => if p = 0 ∧ 60 ≤ t then 411 else 110⟩
  initial := fun _ => 1
  final := fun _ => 1
  home := fun _ => some 0
  energy := fun s => some (if s = 110 then "not active".toList else "cooking".toList)

theorem demoNight_valid : ValidSurvey demoNight where
  nP := ⟨rfl, rfl⟩
  nT := ⟨rfl, rfl⟩
  rated := ⟨fun _ _ _ _ => ⟨0, rfl⟩, fun _ _ _ _ => ⟨0, rfl⟩⟩
  energy := fun _ _ _ _ => ⟨⟨_, rfl⟩, ⟨_, rfl⟩⟩
  missing := ⟨[], by decide⟩
  persons := by
    intro h hh _
    rw [List.mem_singleton.1 hh]
    decide
  days := by decide

/-- Both diaries belong to the subgroup of two residents. -/
theorem demoNight_belongs : ∀ r ∈ demoNight.tables.rows, BelongsTo demoNight.tables (householdArgs 2 0) r := by
  intro r hr
  have hr' := hr
  change r ∈ [_, _] at hr
  simp only [List.mem_cons, List.not_mem_nil, or_false] at hr
  have hm : ∀ q ∈ demoNight.tables.rows, q.missing = 0 := by decide
  rcases hr with rfl | rfl
  all_goals exact ⟨fun _ => ⟨List.mem_singleton.2 rfl, rfl⟩, fun _ q hq h => absurd (hm q hq) h, fun _ => .inl rfl, .inl rfl, .inl rfl, .inr rfl, (by intro w h; cases h), .inl rfl, .inl rfl, .inl rfl, .inl rfl, .inl rfl, trivial, trivial, .inl rfl, .inl rfl⟩

theorem demoNight_member (h d p : Nat) : demoNight.Member (householdArgs 2 0) h d p ↔ h = 1 ∧ d = 1 ∧ p < 2 := by
  constructor
  · rintro ⟨r, hr, -, rfl, hd⟩
    have hp := (List.getElem?_eq_some_iff.1 hr).1
    have hm := List.mem_of_getElem? hr
    have hall : ∀ r ∈ demoNight.tables.rows, r.hh = 1 ∧ r.day = 1 := by decide
    have := hall r hm
    exact ⟨this.1, by omega, hp⟩
  · rintro ⟨rfl, rfl, hp⟩
    obtain ⟨r, hr⟩ : ∃ r, demoNight.tables.rows[p]? = some r := ⟨_, List.getElem?_eq_getElem (show p < demoNight.tables.rows.length from hp)⟩
    have hm := List.mem_of_getElem? hr
    have hall : ∀ r ∈ demoNight.tables.rows, r.hh = 1 ∧ r.day = 1 := by decide
    exact ⟨r, hr, demoNight_belongs r hm, (hall r hm).1, by rw [(hall r hm).2]; rfl⟩

theorem demoNight_recorded (h d : Nat) : demoNight.Recorded (householdArgs 2 0) h d ↔ h = 1 ∧ d = 1 := by
  constructor
  · rintro ⟨p, hp⟩
    have := (demoNight_member h d p).1 hp
    exact ⟨this.1, this.2.1⟩
  · rintro ⟨rfl, rfl⟩
    exact ⟨0, (demoNight_member 1 1 0).2 ⟨rfl, rfl, by omega⟩⟩

theorem demoNight_home (p t : Nat) : demoNight.AtHome p t := by
  refine .inl ⟨fun j _ h => ?_, .inl rfl⟩
  have : ∀ x : Int, (x = 411 ∨ x = 110) → ¬ Travelling x := by
    rintro x (rfl | rfl) <;> decide
  have hx : demoNight.primary.at' p j = 411 ∨ demoNight.primary.at' p j = 110 := by
    change (if _ then (411 : Int) else 110) = 411 ∨ (if _ then (411 : Int) else 110) = 110
    split <;> simp
  rcases h with h | h
  · exact this _ hx h
  · exact this _ hx h

theorem demoNight_awake (p t : Nat) : demoNight.Awake p t ↔ p = 0 ∧ 60 ≤ t := by
  have e : ∀ D, D = demoNight.primary ∨ D = demoNight.secondary → (demoNight.energy (D.at' p t) ≠ some "not active".toList ↔ p = 0 ∧ 60 ≤ t) := by
    intro D hD
    have : D.at' p t = if p = 0 ∧ 60 ≤ t then 411 else 110 := by rcases hD with rfl | rfl <;> rfl
    rw [this]
    by_cases h : p = 0 ∧ 60 ≤ t
    · rw [if_pos h]
      exact ⟨fun _ => h, fun _ => by decide⟩
    · rw [if_neg h]
      exact ⟨fun h' => absurd rfl h', fun h' => absurd h' h⟩
  exact ⟨fun h => (e _ (.inl rfl)).1 h.1, fun h => ⟨(e _ (.inl rfl)).2 h, (e _ (.inr rfl)).2 h⟩⟩

theorem demoNight_situation (t : Nat) : demoNight.situation (householdArgs 2 0) 1 1 t = (if 60 ≤ t then 1 else 0, 0, 0) := by
  unfold SurveyRaw.situation
  refine Prod.ext ?_ (Prod.ext ?_ ?_)
  · simp only
    by_cases h : 60 ≤ t
    · rw [if_pos h, show {p | demoNight.Member (householdArgs 2 0) 1 1 p ∧ demoNight.AtHome p t ∧ demoNight.Awake p t} = {0} from by
        ext p
        simp only [Set.mem_ofPred_eq, demoNight_member, demoNight_awake, demoNight_home, Set.mem_singleton_iff, true_and]
        omega, Set.ncard_singleton]
    · rw [if_neg h, show {p | demoNight.Member (householdArgs 2 0) 1 1 p ∧ demoNight.AtHome p t ∧ demoNight.Awake p t} = ∅ from by
        ext p
        simp only [Set.mem_ofPred_eq, demoNight_awake, Set.mem_empty_iff_false, iff_false]
        omega, Set.ncard_empty]
  · simp only [demoNight_home, not_true_eq_false, false_and, and_false]
    exact Set.ncard_empty _
  · simp only [demoNight_home, not_true_eq_false, false_and, and_false]
    exact Set.ncard_empty _

theorem demoNight_usable : UsableGroup demoNight (householdArgs 2 0) where
  accepted := { accepted_default with residents := .inr ⟨by decide, by decide⟩ }
  filters := ⟨rfl, rfl, rfl⟩
  some := ⟨1, 1, (demoNight_recorded 1 1).2 ⟨rfl, rfl⟩⟩
  six := by
    intro h d
    have : {p | demoNight.Member (householdArgs 2 0) h d p} ⊆ (({0, 1} : Finset Nat) : Set Nat) := by
      intro p hp
      have := ((demoNight_member h d p).1 hp).2.2
      simp
      omega
    have h1 := Set.ncard_le_ncard this (Finset.finite_toSet _)
    rw [Set.ncard_coe_finset] at h1
    exact le_trans h1 (by decide)

/-- The hypotheses of both theorems are met: two households of two residents, simulated without conditions on the days; the recorded household has the two members. -/
example : ValidSurvey demoNight ∧ SurveyGroup demoNight [(kNResidents, .int 2)] 2 0 2 (.of false false) false ∧
    ∀ t h d, demoNight.Recorded (dayArgs 2 0 (.of false false) false t) h d → ({p | demoNight.Member (dayArgs 2 0 (.of false false) false t) h d p}.ncard : Int) = 2 := by
  refine ⟨demoNight_valid, ⟨.inr (.inl ⟨rfl, rfl⟩), .inl (by decide), demoNight_usable, fun t => ⟨demoNight_usable, 1, 1, (demoNight_recorded 1 1).2 ⟨rfl, rfl⟩, demoNight_situation 0⟩⟩, fun t h d hr => ?_⟩
  obtain ⟨rfl, rfl⟩ := (demoNight_recorded h d).1 hr
  have : {p | demoNight.Member (dayArgs 2 0 (.of false false) false t) 1 1 p} = (({0, 1} : Finset Nat) : Set Nat) := by
    ext p
    refine (demoNight_member 1 1 p).trans ?_
    simp
    omega
  rw [this, Set.ncard_coe_finset]
  rfl

/-- The whole claim: every possible change of situation was recorded from one slot of a day to the next one, and the data of a day are those of diaries of its quarter. -/
def C119_full : Prop :=
  (∀ (V : SurveyRaw) (a : SubgroupArgs) (tpm : SparseTPM) (labels : List Nat) (acts : List Str) (pdf : List Rat), ValidSurvey V → UsableGroup V a → sparse9States V a = .ok (tpm, labels, acts, pdf) →
    ∀ (t : Nat) M i j y z, t < 144 → tpm.getItem (t : Int) = .ok M → labels[i]? = some y → labels[j]? = some z → (M.getD i []).getD j 0 ≠ 0 →
      ∃ h d s, V.Recorded a h d ∧ s + 1 < 144 ∧ packed (V.situation a h d s) = y ∧ packed (V.situation a h d (s + 1)) = z) ∧
  ∀ (V : SurveyRaw) (n ty : Int) (split : DaySplit) (t : Int) (h d p : Nat) r, ValidSurvey V → V.Member (dayArgs n ty split true t) h d p → V.tables.rows[p]? = some r → r.quarter = (((dateAt t).month : Int) - 1) / 3 + 1

/-- The matrix of the last slot leads to the start of the same day: the household with a member who cooks until 4 am falls asleep at 4 am, which nobody ever recorded. -/
theorem C119_wrap_counterexample : ∃ tpm labels acts pdf M i j, sparse9States demoNight (householdArgs 2 0) = .ok (tpm, labels, acts, pdf) ∧ tpm.getItem 143 = .ok M ∧ labels[i]? = some 1 ∧ labels[j]? = some 0 ∧ (M.getD i []).getD j 0 = 1 ∧
    ∀ h d s, demoNight.Recorded (householdArgs 2 0) h d → packed (demoNight.situation (householdArgs 2 0) h d s) = 1 → packed (demoNight.situation (householdArgs 2 0) h d (s + 1)) = 1 := by
  obtain ⟨tpm, labels, pdf, h1, -, -, -, -, -, hm, -, -, hM⟩ := C119_data_partial demoNight demoNight_valid _ demoNight_usable
  obtain ⟨M, m1, m2⟩ := hM 143 (by omega)
  obtain ⟨i, hi⟩ := List.mem_iff_getElem?.1 ((hm 1).2 ⟨1, 1, 143, (demoNight_recorded 1 1).2 ⟨rfl, rfl⟩, by omega, by rw [demoNight_situation]; rfl⟩)
  obtain ⟨j, hj⟩ := List.mem_iff_getElem?.1 ((hm 0).2 ⟨1, 1, 0, (demoNight_recorded 1 1).2 ⟨rfl, rfl⟩, by omega, by rw [demoNight_situation]; rfl⟩)
  refine ⟨tpm, labels, _, pdf, M, i, j, h1, m1, hi, hj, ?_, ?_⟩
  · rw [m2 i j 1 0 hi hj]
    have e1 : {x : Nat × Nat | demoNight.Recorded (householdArgs 2 0) x.1 x.2 ∧ packed (demoNight.situation (householdArgs 2 0) x.1 x.2 143) = 1} = {(1, 1)} := by
      ext ⟨h, d⟩
      simp only [Set.mem_ofPred_eq, demoNight_recorded, Set.mem_singleton_iff, Prod.mk.injEq]
      refine ⟨fun h => h.1, ?_⟩
      rintro ⟨rfl, rfl⟩
      exact ⟨⟨rfl, rfl⟩, by rw [demoNight_situation]; rfl⟩
    have e2 : {x : Nat × Nat | demoNight.Recorded (householdArgs 2 0) x.1 x.2 ∧ packed (demoNight.situation (householdArgs 2 0) x.1 x.2 143) = 1 ∧ packed (demoNight.situation (householdArgs 2 0) x.1 x.2 ((143 + 1) % 144)) = 0} = {(1, 1)} := by
      ext ⟨h, d⟩
      simp only [Set.mem_ofPred_eq, demoNight_recorded, Set.mem_singleton_iff, Prod.mk.injEq]
      refine ⟨fun h => h.1, ?_⟩
      rintro ⟨rfl, rfl⟩
      exact ⟨⟨rfl, rfl⟩, by rw [demoNight_situation]; rfl, by rw [demoNight_situation]; rfl⟩
    rw [e1, e2, Set.ncard_singleton]
    norm_num
  · intro h d s hr hs
    obtain ⟨rfl, rfl⟩ := (demoNight_recorded h d).1 hr
    rw [demoNight_situation] at hs ⊢
    by_cases h60 : 60 ≤ s
    · rw [if_pos (by omega)]; rfl
    · rw [if_neg h60] at hs
      exact absurd hs (by decide)

/-- The quarter is counted from 0 by the simulator and from 1 by the survey, for which 0 is no condition: the diaries of the summer are used in January. -/
theorem C119_quarter_counterexample : (dateAt 0).month = 1 ∧ demoNight.Member (dayArgs 2 0 .none true 0) 1 1 0 ∧ (demoNight.tables.rows[0]?.map (·.quarter)) = some 3 := by
  refine ⟨by decide +kernel, ?_, rfl⟩
  have : dayArgs 2 0 .none true 0 = householdArgs 2 0 := by
    have hm : (dateAt 0).month = 1 := by decide +kernel
    simp [dayArgs, householdArgs, hm]
  rw [this]
  exact (demoNight_member 1 1 0).2 ⟨rfl, rfl, by omega⟩

/-- The whole claim is false. -/
theorem C119_full_fails : ¬ C119_full := by
  rintro ⟨h, -⟩
  obtain ⟨tpm, labels, acts, pdf, M, i, j, h1, h2, h3, h4, h5, h6⟩ := C119_wrap_counterexample
  obtain ⟨h', d, s, g1, -, g2, g3⟩ := h demoNight _ tpm labels acts pdf demoNight_valid demoNight_usable h1 143 M i j 1 0 (by omega) h2 h3 h4 (by rw [h5]; norm_num)
  have := h6 h' d s g1 g2
  omega

end Demod
