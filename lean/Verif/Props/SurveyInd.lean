import Verif.Lemmas.SurveyInd
import Verif.Props.Individuals

/-!
# C122: the simulation of individuals with the German time use survey follows the diaries
-/

namespace Demod

/-- The rows are the shares. -/
theorem PersonFacts.row {V : SurveyRaw} {dict : List (Int × Str)} {a : SubgroupArgs} {r : Tpms × List Str × List Rat} (F : PersonFacts V dict a r) (t : Nat) (ht : t < 144) (i : Nat) (b : Str) (hb : r.2.1[i]? = some b) :
    rowOf r.1.mats t i = r.2.1.map (V.changeShare dict a (slotsOf t).1 (slotsOf t).2 b) := by
  have hi := (List.getElem?_eq_some_iff.1 hb).1
  have hlen : (rowOf r.1.mats t i).length = r.2.1.length := by
    unfold rowOf
    have h1 : t < r.1.mats.length := by rw [F.size]; exact ht
    rw [List.getD_eq_getElem?_getD, List.getD_eq_getElem?_getD, List.getElem?_eq_getElem h1, Option.getD_some]
    have hm := F.tpms.2 _ (List.getElem_mem h1)
    rw [List.getElem?_eq_getElem (by rw [hm.1]; exact hi), Option.getD_some]
    exact (hm.2 _ (List.getElem_mem _)).1
  apply List.ext_getElem?
  intro j
  rw [List.getElem?_map]
  cases hc : r.2.1[j]? with
  | none =>
    rw [List.getElem?_eq_none_iff] at hc
    rw [Option.map_none, List.getElem?_eq_none_iff]
    omega
  | some c => exact F.matrix t ht i j b c hb hc

theorem PersonFacts.initial {V : SurveyRaw} {dict : List (Int × Str)} {a : SubgroupArgs} {r : Tpms × List Str × List Rat} (F : PersonFacts V dict a r) : r.2.2 = r.2.1.map (V.startShare dict a) := by
  apply List.ext_getElem?
  intro j
  rw [List.getElem?_map]
  cases hc : r.2.1[j]? with
  | none =>
    rw [List.getElem?_eq_none_iff] at hc
    rw [Option.map_none, List.getElem?_eq_none_iff]
    have := F.initialSize
    omega
  | some c => exact F.starts j c hc

/-- The data that are loaded for a person: the labels are the activities, each once; the initial probabilities and the rows of the matrices are the shares of the diaries. The matrix of a slot has the changes from the previous slot; the first one is that of the last slot. -/
theorem C122_data_partial (V : SurveyRaw) (hV : ValidSurvey V) (dict : List (Int × Str)) (hD : ActivityDict V dict) (g : Subgroup) (hg : PersonGroup g) (hU : UsablePersons V dict (personArgs g)) :
    ∃ tpm labels initial, surveyTpm V dict g = .ok (tpm, labels, initial) ∧ labels.Nodup ∧ (∀ b, b ∈ labels ↔ ∃ k, Coded dict k b) ∧ tpm.mats.length = 144 ∧ IsTpms labels.length tpm.mats ∧ IsDist initial ∧
      initial = labels.map (V.startShare dict (personArgs g)) ∧
      ∀ t < 144, ∀ (i : Nat) b, labels[i]? = some b → rowOf tpm.mats t i = labels.map (V.changeShare dict (personArgs g) (if t = 0 then 142 else t - 1) (if t = 0 then 143 else t) b) := by
  obtain ⟨r, e, F⟩ := person_facts V hV dict hD g hg hU
  refine ⟨r.1, r.2.1, r.2.2, e, F.nodup, F.mem, F.size, F.tpms, F.dist, F.initial, fun t ht i b hb => ?_⟩
  rw [F.row t ht i b hb]
  unfold slotsOf
  by_cases h : t = 0 <;> simp [h]

theorem personArgs_congr (g g' : Subgroup) (h : ∀ k, g.at k = g'.at k) : personArgs g = personArgs g' := by
  unfold personArgs numberOf valuesOf
  simp only [h]

/-- The subgroups that are asked for. -/
def AskedPerson (V : SurveyRaw) (dict : List (Int × Str)) (f : DayFlags) (persons : List Subgroup) (g : Subgroup) : Prop :=
  PersonGroup g ∧ UsablePersons V dict (personArgs g) ∧ ∃ p ∈ persons, ∀ t, personDay f (personArgs g) t = personDay f (personArgs p) t

theorem asked_closed (V : SurveyRaw) (dict : List (Int × Str)) (f : DayFlags) (persons : List Subgroup) (hS : SurveyPersons V dict f persons) (g : Subgroup) (t : Int) (g' : Subgroup) (h : AskedPerson V dict f persons g)
    (e : addTime g t f.weekEndsDays f.weekSatSun f.sevenDays f.quarters = .ok g') : AskedPerson V dict f persons g' := by
  obtain ⟨h1, -, p, hp, h3⟩ := h
  obtain ⟨e1, e2⟩ := addTime_args f g h1 t g' e
  have e3 : personArgs g' = personDay f (personArgs p) t := by rw [e2, h3]
  refine ⟨e1, by rw [e3]; exact hS.days p hp t, p, hp, fun t' => ?_⟩
  rw [e3]
  rfl

theorem survey_valid (V : SurveyRaw) (hV : ValidSurvey V) (dict : List (Int × Str)) (hD : ActivityDict V dict) (f : DayFlags) (persons : List Subgroup) (hS : SurveyPersons V dict f persons) (labels : List Str)
    (hl : ∀ b, b ∈ labels ↔ ∃ k, Coded dict k b) : ValidData (surveyTpm V dict) f labels persons := by
  refine ⟨AskedPerson V dict f persons, fun p hp => ⟨hS.group p hp, hS.given p hp, p, hp, fun _ => rfl⟩, fun g t g' h e => asked_closed V dict f persons hS g t g' h e, fun g h => ?_⟩
  obtain ⟨r, e, F⟩ := person_facts V hV dict hD g h.1 h.2.1
  exact ⟨r, e, F.valid labels hl⟩

theorem mem_of_personTypes {P : Type} [DecidableEq P] (persons : List (List P)) (p : P) (h : p ∈ personTypes persons) : p ∈ persons.flatten := by
  unfold personTypes at h
  exact List.mem_eraseDups.1 h

/-- All the activities. -/
def activityList (dict : List (Int × Str)) : List Str := "away".toList :: (dict.filter fun q => decide (q.1 ≠ 0)).map (·.2)

theorem mem_activityList (dict : List (Int × Str)) (b : Str) : b ∈ activityList dict ↔ ∃ k, Coded dict k b := by
  unfold activityList Coded
  rw [List.mem_cons, List.mem_map]
  constructor
  · rintro (h | ⟨⟨k, b'⟩, h, rfl⟩)
    · exact ⟨0, .inl ⟨rfl, h⟩⟩
    · rw [List.mem_filter, decide_eq_true_eq] at h
      exact ⟨k, .inr ⟨h.2, h.1⟩⟩
  · rintro ⟨k, ⟨-, h⟩ | ⟨h1, h2⟩⟩
    · exact .inl h
    · exact .inr ⟨(k, b), by rw [List.mem_filter, decide_eq_true_eq]; exact ⟨h2, h1⟩, rfl⟩

/-- The simulation with the data of the survey is possible, and the activities of the members of a household add up: those who are not away are its occupants, and those who neither are away nor sleep its active occupants. -/
theorem C122_households_partial (V : SurveyRaw) (hV : ValidSurvey V) (dict : List (Int × Str)) (hD : ActivityDict V dict) (f : DayFlags) (hf : f.Valid) (refresh : Int) (hr : 0 ≤ refresh ∧ refresh < DAY) (groups : List (Subgroup × Nat))
    (persons : List (List Subgroup)) (hg : ValidGroups groups persons) (hS : SurveyPersons V dict f persons.flatten) (start : Int) (d : Nat → Nat → List Rat) (hd : ∀ k, DrawsForTypes groups persons (d k))
    (uss : List (Nat → List Rat)) (hu : ∀ us ∈ uss, DrawsForTypes groups persons us) (sleeping : Str) (hsl : ∃ k, Coded dict k sleeping) (hne : sleeping ≠ "away".toList) :
    ∃ s0 s, IndividualsSim.create (surveyTpm V dict) f refresh groups start 600000000 d = .ok s0 ∧ s0.time = start ∧ s0.run (surveyTpm V dict) f refresh uss = .ok s ∧ s.time = start + uss.length * 600000000 ∧
      ∃ (states : List (Str × List Nat)) (occ act : List Int), s.ind.activityStates "away".toList sleeping = .ok (states, act) ∧ s.ind.getOccupancy "away".toList sleeping = .ok occ ∧
        (states.map fun q => q.1).Nodup ∧ (∀ a, a ∈ states.map (fun q => q.1) ↔ ∃ k, Coded dict k a) ∧
        ∀ h < (allHouseholds groups persons).length,
          (states.map fun q => q.2.getD h 0).sum = ((allHouseholds groups persons).getD h []).length ∧
          (∀ n, ("away".toList, n) ∈ states → occ.getD h 0 = ((allHouseholds groups persons).getD h []).length - n.getD h 0) ∧
          ∀ n, (sleeping, n) ∈ states → act.getD h 0 = occ.getD h 0 - n.getD h 0 := by
  obtain ⟨s0, s, h1, h2, h3, h4, ⟨states, occ, act, k1, k2, k3, k4, k5⟩, -⟩ := C99_individuals (surveyTpm V dict) f hf refresh hr groups persons hg (activityList dict)
    (survey_valid V hV dict hD f _ hS _ (mem_activityList dict)) start d hd uss hu "away".toList sleeping ((mem_activityList dict _).2 ⟨0, .inl ⟨rfl, rfl⟩⟩) ((mem_activityList dict _).2 hsl) (Ne.symm hne)
  refine ⟨s0, s, h1, h2, h3, h4, states, occ, act, k1, k2, k3, fun a => by rw [k4, mem_activityList], fun h hh => ?_⟩
  obtain ⟨q1, q2, q3, q4, -⟩ := k5 h hh
  refine ⟨q1, fun n hn => ?_, fun n hn => ?_⟩
  · rw [q3, q2 _ hn]
  · rw [q4, q2 _ hn]

/-- The first activity of each person is drawn from the shares of the diaries of such persons, at 4 am or the refresh time before the start. -/
theorem C122_initial (V : SurveyRaw) (hV : ValidSurvey V) (dict : List (Int × Str)) (hD : ActivityDict V dict) (f : DayFlags) (hf : f.Valid) (refresh : Int) (hr : 0 ≤ refresh ∧ refresh < DAY) (groups : List (Subgroup × Nat))
    (persons : List (List Subgroup)) (hg : ValidGroups groups persons) (hS : SurveyPersons V dict f persons.flatten) (start : Int) (d : Nat → Nat → List Rat) (hd : ∀ k, DrawsForTypes groups persons (d k)) :
    ∃ (s00 s0 : IndividualsSim Str) (n : Nat), IndividualsSim.create (surveyTpm V dict) f refresh groups start 600000000 d = .ok s0 ∧ s00.run (surveyTpm V dict) f refresh ((List.range n).map fun k => d (k + 1)) = .ok s0 ∧
      s00.time + n * 600000000 = start ∧ n = ((start - refresh) % DAY) / 600000000 ∧ s00.ind.sims.length = (personTypes persons).length ∧
      ∀ (i : Nat) m p, s00.ind.sims[i]? = some m → (personTypes persons)[i]? = some p → m.states.length = timesIn p (allHouseholds groups persons).flatten ∧
        ∀ h < m.states.length, ∃ b, m.labels[m.states.getD h 0]? = some b ∧ DrawnBy dict (V.startShare dict (personArgs p)) ((d 0 i).getD h 0) b := by
  obtain ⟨s00, s0, n, h1, h2, h3, h4, h5, h6⟩ := C99_initial (surveyTpm V dict) f hf refresh hr groups persons hg (activityList dict) (survey_valid V hV dict hD f _ hS _ (mem_activityList dict)) start d hd
  refine ⟨s00, s0, n, h1, h2, h3, h4, h5, fun i m p hm hp => ?_⟩
  obtain ⟨k1, r, k2, k3, k4⟩ := h6 i m p hm hp
  refine ⟨k1, fun h hh => ?_⟩
  have hpm : p ∈ persons.flatten := mem_of_personTypes persons p (List.mem_of_getElem? hp)
  obtain ⟨r', e, F⟩ := person_facts V hV dict hD p (hS.group p hpm) (hS.given p hpm)
  rw [k2] at e
  obtain rfl := Except.ok.inj e
  have hs := k4 h hh
  have hlt : m.states.getD h 0 < r.2.1.length := by
    have := hs.1
    rw [F.initialSize] at this
    exact this
  refine ⟨r.2.1[m.states.getD h 0], by rw [k3]; exact List.getElem?_eq_getElem hlt, r.2.1, m.states.getD h 0, F.nodup, F.mem, List.getElem?_eq_getElem hlt, ?_⟩
  rw [← F.initial]
  exact hs

/-- Every step of every person follows the diaries: from the activity `b` the person comes to an activity drawn from the shares of the diaries of such persons, on days like the current one if day types are requested and the start is a multiple
of 10 minutes after the refresh time. So somebody recorded this change, unless nobody recorded `b`, which is kept. -/
theorem C122_step_partial (V : SurveyRaw) (hV : ValidSurvey V) (dict : List (Int × Str)) (hD : ActivityDict V dict) (f : DayFlags) (hf : f.Valid) (refresh : Int) (hr : 0 ≤ refresh ∧ refresh < DAY) (groups : List (Subgroup × Nat))
    (persons : List (List Subgroup)) (hg : ValidGroups groups persons) (hS : SurveyPersons V dict f persons.flatten) (start : Int) (d : Nat → Nat → List Rat) (hd : ∀ k, DrawsForTypes groups persons (d k))
    (uss : List (Nat → List Rat)) (hu : ∀ us ∈ uss, DrawsForTypes groups persons us) (us : Nat → List Rat) (hus : DrawsForTypes groups persons us) (first : Bool) (hfirst : first = true ↔ uss = [] ∧ start % DAY = refresh)
    (before now : Nat) (hbn : (before, now) = changesUsed f refresh start (start + uss.length * 600000000) first) :
    ∃ s0 s s', IndividualsSim.create (surveyTpm V dict) f refresh groups start 600000000 d = .ok s0 ∧ s0.run (surveyTpm V dict) f refresh uss = .ok s ∧ s.time = start + uss.length * 600000000 ∧ s.step (surveyTpm V dict) f refresh us = .ok s' ∧
      ∀ (i : Nat) p, (personTypes persons)[i]? = some p → ∃ m m' a, s.ind.sims[i]? = some m ∧ s'.ind.sims[i]? = some m' ∧
        (first = true ∨ ¬ (f.requested = true ∧ (start - refresh) % 600000000 = 0) → a = personArgs p) ∧
        (first = false → f.requested = true → (start - refresh) % 600000000 = 0 → ∃ r, r % DAY = refresh ∧ r < s.time ∧ s.time ≤ r + DAY ∧ a = personDay f (personArgs p) (r + 600000000)) ∧
        ∀ h < timesIn p (allHouseholds groups persons).flatten, ∃ b c, m.labels[m.states.getD h 0]? = some b ∧ m'.labels[m'.states.getD h 0]? = some c ∧
          DrawnBy dict (V.changeShare dict a before now b) ((us i).getD h 0) c ∧
          ((∃ q, V.Diary a q ∧ V.Does dict q before b ∧ V.Does dict q now c) ∨ ((∀ q, V.Diary a q → ¬ V.Does dict q before b) ∧ c = b)) := by
  have hval := survey_valid V hV dict hD f _ hS _ (mem_activityList dict)
  obtain ⟨s0, s, i0, e, e2, hi, inv, t0, t2, -, -, -, -, -, hdt, -⟩ := reach_inv (surveyTpm V dict) f hf refresh hr groups persons hg (activityList dict) (AskedPerson V dict f persons.flatten)
    (fun p hp => ⟨hS.group p hp, hS.given p hp, p, hp, fun _ => rfl⟩) (fun g t g' h e => asked_closed V dict f persons.flatten hS g t g' h e)
    (fun g h => by
      obtain ⟨r, e, F⟩ := person_facts V hV dict hD g h.1 h.2.1
      exact ⟨r, e, F.valid _ (mem_activityList dict)⟩) start d hd uss hu
  obtain ⟨s', k, st, -, hk, htr⟩ := C99_transitions (surveyTpm V dict) f hf refresh hr groups persons hg (activityList dict) hval start d hd uss hu s0 s e e2 us hus
  refine ⟨s0, s, s', e, e2, t2, st, fun i p hp => ?_⟩
  obtain ⟨m, g, m', r, m1, g1, m2, l1, l2, l3⟩ := htr i p hp
  have hpm := mem_of_personTypes persons p (List.mem_of_getElem? hp)
  obtain ⟨hgp, hgu, -⟩ := inv.asked g (List.mem_of_getElem? g1)
  obtain ⟨r', e', F⟩ := person_facts V hV dict hD g hgp hgu
  rw [l1] at e'
  obtain rfl := Except.ok.inj e'
  -- the subgroup in use
  have hgiven : first = true ∨ ¬ (f.requested = true ∧ (start - refresh) % 600000000 = 0) → personArgs g = personArgs p := by
    rintro (hc | hc)
    · obtain ⟨rfl, hst⟩ := hfirst.1 hc
      obtain ⟨i0', hi', b1, b2, b3⟩ := init_le start refresh hr
      rw [hi] at hi'
      obtain rfl := Except.ok.inj hi'
      unfold DAY at hst
      have hz : ((start - i0) / 600000000).toNat = 0 := by omega
      rw [hz] at hdt
      have hs : s.subgroups = personTypes persons := hdt
      rw [hs, hp] at g1
      rw [Option.some.inj g1]
    · have hs := C99_never_updated (surveyTpm V dict) f hf refresh hr groups persons hg (activityList dict) hval start (by
        by_cases h : f.requested = true
        · exact .inl fun h' => hc ⟨h, h'⟩
        · exact .inr (by simpa using h)) d hd uss hu s0 s e e2
      rw [hs, hp] at g1
      rw [Option.some.inj g1]
  have hdated : first = false → f.requested = true → (start - refresh) % 600000000 = 0 → ∃ r, r % DAY = refresh ∧ r < s.time ∧ s.time ≤ r + DAY ∧ personArgs g = personDay f (personArgs p) (r + 600000000) := by
    intro h1 h2 h3
    obtain ⟨r, q1, q2, q3, -, q5⟩ := C99_day_partial (surveyTpm V dict) f hf h2 refresh hr groups persons hg (activityList dict) hval start h3 d hd uss hu (by
      by_contra hc
      push Not at hc
      rw [hfirst.2 hc] at h1
      cases h1) s0 s e e2
    obtain ⟨day, d1, d2⟩ := q5 i g p g1 hp
    refine ⟨r, q1, q2, q3, ?_⟩
    rw [personArgs_congr g day d2]
    exact (addTime_args f p (hS.group p hpm) _ day d1).2
  refine ⟨m, m', personArgs g, m1, m2, hgiven, hdated, fun h hh => ?_⟩
  obtain ⟨j, j1, j2⟩ := l3 h hh
  rw [F.size] at j1
  have hK : k % 144 < 144 := Nat.mod_lt _ (by omega)
  have hslots : slotsOf (k % 144) = (before, now) := by
    rw [hbn, hk, t2]
    unfold changesUsed slotUsed
    obtain ⟨T, hT⟩ : ∃ T : Nat, T = ((start + uss.length * 600000000 - refresh) % DAY / 600000000).toNat := ⟨_, rfl⟩
    have hTlt : T < 144 := by
      unfold DAY at hT
      omega
    simp only [← hT]
    by_cases hc : uss = [] ∧ start % DAY = refresh
    · have h0 : T = 0 := by
        rw [hT, hc.1]
        have := hc.2
        unfold DAY at *
        simp only [List.length_nil]
        omega
      rw [if_pos hc, if_pos (.inl (hfirst.2 hc)), h0]
      rfl
    · have hff : first ≠ true := fun h => hc (hfirst.1 h)
      rw [if_neg hc]
      by_cases ha : f.requested = true ∧ (start - refresh) % 600000000 = 0
      · rw [if_pos ha, if_neg (by rintro (h | h) <;> contradiction)]
        rfl
      · rw [if_neg ha, if_pos (.inr ha)]
        unfold slotsOf
        by_cases h143 : T = 143
        · simp [h143]
        · rw [if_neg (by omega), if_neg h143, Nat.mod_eq_of_lt (by omega)]
          rfl
  have hstate : m.states.getD h 0 < r.2.1.length := by
    by_contra hc
    have : rowOf r.1.mats (k % 144) (m.states.getD h 0) = [] := by
      unfold rowOf
      have h1 : k % 144 < r.1.mats.length := by rw [F.size]; exact hK
      rw [List.getD_eq_getElem?_getD, List.getD_eq_getElem?_getD, List.getElem?_eq_getElem h1, Option.getD_some, List.getElem?_eq_none_iff.2 (by rw [(F.tpms.2 _ (List.getElem_mem h1)).1]; omega)]
      rfl
    rw [this] at j1
    exact absurd j1.1 (by simp)
  have hb := List.getElem?_eq_getElem hstate
  rw [F.row _ hK _ _ hb, hslots] at j1
  have hj : j < r.2.1.length := by simpa using j1.1
  have hc := List.getElem?_eq_getElem hj
  refine ⟨_, r.2.1[j], by rw [l2]; exact hb, by rw [j2]; exact hc, ⟨r.2.1, j, F.nodup, F.mem, hc, j1⟩, ?_⟩
  obtain ⟨-, p1, p2⟩ := j1
  have hpos : 0 < V.changeShare dict (personArgs g) before now r.2.1[m.states.getD h 0] r.2.1[j] := by
    have e : ∀ F : Str → Rat, (r.2.1.map F).getD j 0 = F r.2.1[j] := by
      intro F
      rw [List.getD_eq_getElem?_getD, List.getElem?_map, hc, Option.map_some, Option.getD_some]
    rw [e] at p2
    exact pos_of_lt_add_right (lt_of_le_of_lt p1 p2)
  have hfin : ∀ Q : Nat → Prop, {q | V.Diary (personArgs g) q ∧ Q q}.Finite := by
    intro Q
    apply Set.Finite.subset (Set.finite_lt_nat V.tables.rows.length)
    rintro q ⟨⟨x, hx, -⟩, -⟩
    exact (List.getElem?_eq_some_iff.1 hx).1
  unfold SurveyRaw.changeShare at hpos
  split at hpos
  · rename_i hz
    rw [Set.ncard_eq_zero (hfin _)] at hz
    refine .inr ⟨fun q q1 q2 => ?_, ?_⟩
    · have : q ∈ (∅ : Set Nat) := by rw [← hz]; exact ⟨q1, q2⟩
      exact this
    · split at hpos
      · assumption
      · exact absurd hpos (by norm_num)
  · left
    have hne : {q | V.Diary (personArgs g) q ∧ V.Does dict q before r.2.1[m.states.getD h 0] ∧ V.Does dict q now r.2.1[j]}.ncard ≠ 0 := by
      intro h0
      simp only [h0] at hpos
      norm_num at hpos
    obtain ⟨q, hq⟩ := Set.nonempty_of_ncard_ne_zero hne
    exact ⟨q, hq⟩

/-- Somebody who lives alone: on a Monday asleep except for the slot from 4:10 to 4:20, on a Saturday cooking the whole day. -/
def demoAlone : SurveyRaw where
  tables := { rows := [⟨1, 1, 0, 1, 3, 1, 8, 1, 1, 70, 1, 1⟩, ⟨1, 2, 0, 1, 3, 6, 8, 1, 1, 70, 1, 1⟩], hhIds := [1], hh := fun _ => ⟨1, 1, 1, 1, 3, 70⟩, persons := [(1, 8)] }
  primary := ⟨2, 144, fun p t => if p = 0 then (if t = 1 then 830 else 110) else 411⟩
  secondary := ⟨2, 144, fun _ _ => 0⟩
  initial := fun _ => 1
  final := fun _ => 1
  home := fun _ => some 0
  energy := fun s => some (if s = 110 then "not active".toList else "other".toList)

/-- Each activity with one code, and cooking with two of them. -/
def demoOnce : List (Int × Str) := [(110, "sleeping".toList), (411, "cooking".toList), (830, "watching_tv".toList)]
def demoTwice : List (Int × Str) := [(110, "sleeping".toList), (411, "cooking".toList), (412, "cooking".toList), (830, "watching_tv".toList)]

/-- Week-ends are distinguished. -/
def demoWeekEnds : DayFlags := ⟨true, false, false, false⟩

theorem demoAlone_valid : ValidSurvey demoAlone where
  nP := ⟨rfl, rfl⟩
  nT := ⟨rfl, rfl⟩
  rated := ⟨fun _ _ _ _ => ⟨0, rfl⟩, fun _ _ _ _ => ⟨0, rfl⟩⟩
  energy := fun _ _ _ _ => ⟨⟨_, rfl⟩, ⟨_, rfl⟩⟩
  missing := ⟨[], by decide⟩
  persons := by
    intro h hh h2
    exact absurd h2 (by show ¬ ((1 : Int) = 2); decide)
  days := by decide

theorem demoAlone_code (p t : Nat) : demoAlone.primary.at' p t = if p = 0 then (if t = 1 then 830 else 110) else 411 := rfl

theorem demoAlone_home (p t : Nat) : demoAlone.AtHome p t := by
  refine .inl ⟨fun j _ h => ?_, .inl rfl⟩
  have : ∀ x : Int, (x = 411 ∨ x = 110 ∨ x = 830 ∨ x = 0) → ¬ Travelling x := by
    rintro x (rfl | rfl | rfl | rfl) <;> decide
  rcases h with h | h
  · refine this _ ?_ h
    rw [demoAlone_code]
    split
    · split <;> simp
    · simp
  · exact this _ (.inr (.inr (.inr rfl))) h

theorem demoAlone_dict (dict : List (Int × Str)) (h : dict = demoOnce ∨ dict = demoTwice) : ActivityDict demoAlone dict where
  codes := by rcases h with rfl | rfl <;> decide
  known := by
    intro p t _ _
    rw [demoAlone_code]
    split
    · split
      · exact ⟨"watching_tv".toList, by rcases h with rfl | rfl <;> decide⟩
      · exact ⟨"sleeping".toList, by rcases h with rfl | rfl <;> decide⟩
    · exact ⟨"cooking".toList, by rcases h with rfl | rfl <;> decide⟩
  noDash := by rcases h with rfl | rfl <;> decide

theorem demoAlone_belongs (w : OneOf) (r : DiaryRow) (hr : r ∈ demoAlone.tables.rows) (hw : MeetsOne w r.weekday) : BelongsTo demoAlone.tables { weekday := w } r := by
  have hm : ∀ q ∈ demoAlone.tables.rows, q.missing = 0 := by decide
  have hs : ∀ q ∈ demoAlone.tables.rows, q.same = 1 ∧ q.hh = 1 := by decide
  exact ⟨fun _ => ⟨by rw [(hs r hr).2]; exact List.mem_singleton.2 rfl, rfl⟩, fun _ q hq h => absurd (hm q hq) h, fun _ => .inl (hs r hr).1, .inl rfl, hw, .inl rfl, (by intro w h; cases h), .inl rfl, .inl rfl, .inl rfl, .inl rfl, .inl rfl, trivial, trivial, .inl rfl, .inl rfl⟩

theorem demoAlone_day (t : Int) : personDay demoWeekEnds (personArgs []) t = { weekday := if t / DAY % 7 < 5 then .list [1, 2, 3, 4, 5] else .list [6, 7] } := rfl

/-- There are diaries of the week and of the week-end. -/
theorem demoAlone_given : AcceptedArgs (personArgs []) ∧ ∃ p, demoAlone.Diary (personArgs []) p :=
  ⟨accepted_default, 0, _, rfl, demoAlone_belongs (.one 0) _ (by decide) (.inl rfl)⟩

theorem demoAlone_days (t : Int) : AcceptedArgs (personDay demoWeekEnds (personArgs []) t) ∧ ∃ p, demoAlone.Diary (personDay demoWeekEnds (personArgs []) t) p := by
  rw [demoAlone_day]
  split
  · refine ⟨{ accepted_default with weekday := ?_ }, 0, _, rfl, demoAlone_belongs _ _ (by decide) (.inr ⟨1, by decide, .inr rfl⟩)⟩
    intro v hv
    have hv' : v ∈ ([1, 2, 3, 4, 5] : List Int) := hv
    right
    simp only [List.mem_cons, List.not_mem_nil, or_false] at hv'
    omega
  · refine ⟨{ accepted_default with weekday := ?_ }, 1, _, rfl, demoAlone_belongs _ _ (by decide) (.inr ⟨6, by decide, .inr rfl⟩)⟩
    intro v hv
    have hv' : v ∈ ([6, 7] : List Int) := hv
    right
    simp only [List.mem_cons, List.not_mem_nil, or_false] at hv'
    omega

theorem demoOnce_codes (b : Str) (k k' : Int) (h : Coded demoOnce k b) (h' : Coded demoOnce k' b) : k = k' := by
  have key : ∀ q ∈ demoOnce, ∀ q' ∈ demoOnce, q.2 = q'.2 → q.1 = q'.1 := by decide
  have noaway : ∀ q ∈ demoOnce, q.2 ≠ "away".toList := by decide
  rcases h with ⟨rfl, rfl⟩ | ⟨-, h⟩
  · rcases h' with ⟨rfl, -⟩ | ⟨-, h'⟩
    · rfl
    · exact absurd rfl (noaway _ h')
  · rcases h' with ⟨rfl, rfl⟩ | ⟨-, h'⟩
    · exact absurd rfl (noaway _ h)
    · exact key _ h _ h' rfl

/-- The hypotheses of the theorems are met by two households of one person, with week-ends distinguished. -/
example : ValidSurvey demoAlone ∧ ActivityDict demoAlone demoOnce ∧ demoWeekEnds.Valid ∧ ValidGroups [([(kNResidents, .int 1)], 2)] [[[]]] ∧ SurveyPersons demoAlone demoOnce demoWeekEnds [[([] : Subgroup)]].flatten ∧
    PersonGroup [] ∧ UsablePersons demoAlone demoOnce (personArgs []) ∧ ∃ k, Coded demoOnce k "sleeping".toList := by
  have hgrp : PersonGroup [] := ⟨by simp, by simp, by simp⟩
  have hu : ∀ a : SubgroupArgs, AcceptedArgs a ∧ (∃ p, demoAlone.Diary a p) → (a.full = true ∧ a.removeMissing = true ∧ a.identical = true) → UsablePersons demoAlone demoOnce a := by
    intro a h hf
    exact ⟨h.1, hf, h.2, fun b k k' h1 h2 hne => absurd (demoOnce_codes b k k' h1 h2) hne⟩
  refine ⟨demoAlone_valid, demoAlone_dict _ (.inl rfl), rfl, ⟨by decide, rfl, ?_⟩, ⟨?_, ?_, ?_⟩, hgrp, hu _ demoAlone_given ⟨rfl, rfl, rfl⟩, 110, .inr ⟨by decide, by decide⟩⟩
  · intro i g ps h1 h2
    cases i with
    | zero =>
      obtain rfl := Option.some.inj h1
      obtain rfl := Option.some.inj h2
      exact ⟨by decide, by simp, by decide, by decide⟩
    | succ i => cases h1
  · intro p hp
    obtain rfl : p = [] := by simpa using hp
    exact hgrp
  · intro p hp
    obtain rfl : p = [] := by simpa using hp
    exact hu _ demoAlone_given ⟨rfl, rfl, rfl⟩
  · intro p hp t
    obtain rfl : p = [] := by simpa using hp
    exact hu _ (demoAlone_days t) ⟨rfl, rfl, rfl⟩

/-- The whole claim: with diaries for all the persons and days, a step takes a person from one activity to the next as one of the diaries does in these slots. -/
def C122_full : Prop :=
  ∀ (V : SurveyRaw) (dict : List (Int × Str)) (f : DayFlags) (groups : List (Subgroup × Nat)) (persons : List (List Subgroup)) (start : Int) (d : Nat → Nat → List Rat) (us : Nat → List Rat) (s0 s' : IndividualsSim Str),
    ValidSurvey V → ActivityDict V dict → f.Valid → ValidGroups groups persons →
    (∀ p ∈ persons.flatten, PersonGroup p ∧ (AcceptedArgs (personArgs p) ∧ ∃ q, V.Diary (personArgs p) q) ∧ ∀ t, AcceptedArgs (personDay f (personArgs p) t) ∧ ∃ q, V.Diary (personDay f (personArgs p) t) q) →
    (∀ k, DrawsForTypes groups persons (d k)) → DrawsForTypes groups persons us →
    IndividualsSim.create (surveyTpm V dict) f (4 * HOUR) groups start 600000000 d = .ok s0 → s0.step (surveyTpm V dict) f (4 * HOUR) us = .ok s' →
    ∀ (i h : Nat) p m m' b c, (personTypes persons)[i]? = some p → s0.ind.sims[i]? = some m → s'.ind.sims[i]? = some m' → h < m.states.length → m.labels[m.states.getD h 0]? = some b → m'.labels[m'.states.getD h 0]? = some c →
      ∀ slot : Nat, (slot : Int) = (start - 4 * HOUR) % DAY / 600000000 → slot < 143 → ∃ q, V.Diary (personArgs p) q ∧ V.Does dict q slot b ∧ V.Does dict q (slot + 1) c

/-- An activity with two codes that nobody does on such a day: somebody who is cooking at 4 am on a Monday suddenly sleeps, as no diary does. -/
theorem C122_codes_counterexample : ∃ s0 s', IndividualsSim.create (surveyTpm demoAlone demoTwice) demoWeekEnds (4 * HOUR) [([(kNResidents, .int 1)], 1)] (4 * HOUR) 600000000 (fun _ _ => [0]) = .ok s0 ∧
    s0.step (surveyTpm demoAlone demoTwice) demoWeekEnds (4 * HOUR) (fun _ => [0]) = .ok s' ∧
    (s0.ind.sims.map fun m => m.states.map fun k => m.labels[k]?) = [[some "cooking".toList]] ∧ (s'.ind.sims.map fun m => m.states.map fun k => m.labels[k]?) = [[some "sleeping".toList]] := by
  have h : (match IndividualsSim.create (surveyTpm demoAlone demoTwice) demoWeekEnds (4 * HOUR) [([(kNResidents, .int 1)], 1)] (4 * HOUR) 600000000 (fun _ _ => [0]) with
      | .ok s0 => match s0.step (surveyTpm demoAlone demoTwice) demoWeekEnds (4 * HOUR) (fun _ => [0]) with
        | .ok s' => decide ((s0.ind.sims.map fun m => m.states.map fun k => m.labels[k]?) = [[some "cooking".toList]] ∧ (s'.ind.sims.map fun m => m.states.map fun k => m.labels[k]?) = [[some "sleeping".toList]])
        | .error _ => false
      | .error _ => false) = true := by decide +kernel
  split at h
  · rename_i s0 h0
    split at h
    · rename_i s' h1
      exact ⟨s0, s', h0, h1, of_decide_eq_true h⟩
    · cases h
  · cases h

/-- The changes lag behind by a slot: somebody who watches TV from 4:10 to 4:20, as on Mondays, goes on doing so until 4:30, as no diary does. -/
theorem C122_lag_counterexample : ∃ s0 s', IndividualsSim.create (surveyTpm demoAlone demoOnce) demoWeekEnds (4 * HOUR) [([(kNResidents, .int 1)], 1)] (4 * HOUR + 600000000) 600000000 (fun _ _ => [3 / 5]) = .ok s0 ∧
    s0.step (surveyTpm demoAlone demoOnce) demoWeekEnds (4 * HOUR) (fun _ => [3 / 5]) = .ok s' ∧
    (s0.ind.sims.map fun m => m.states.map fun k => m.labels[k]?) = [[some "watching_tv".toList]] ∧ (s'.ind.sims.map fun m => m.states.map fun k => m.labels[k]?) = [[some "watching_tv".toList]] := by
  have h : (match IndividualsSim.create (surveyTpm demoAlone demoOnce) demoWeekEnds (4 * HOUR) [([(kNResidents, .int 1)], 1)] (4 * HOUR + 600000000) 600000000 (fun _ _ => [3 / 5]) with
      | .ok s0 => match s0.step (surveyTpm demoAlone demoOnce) demoWeekEnds (4 * HOUR) (fun _ => [3 / 5]) with
        | .ok s' => decide ((s0.ind.sims.map fun m => m.states.map fun k => m.labels[k]?) = [[some "watching_tv".toList]] ∧ (s'.ind.sims.map fun m => m.states.map fun k => m.labels[k]?) = [[some "watching_tv".toList]])
        | .error _ => false
      | .error _ => false) = true := by decide +kernel
  split at h
  · rename_i s0 h0
    split at h
    · rename_i s' h1
      exact ⟨s0, s', h0, h1, of_decide_eq_true h⟩
    · cases h
  · cases h

/-- The whole claim is false of the code. -/
theorem C122_full_fails : ¬ C122_full := by
  intro h
  obtain ⟨s0, s', h0, h1, e0, e1⟩ := C122_lag_counterexample
  have hgrp : ∀ p ∈ [[([] : Subgroup)]].flatten, p = [] := by simp
  have hdraw : ∀ d : Rat, 0 ≤ d → d < 1 → DrawsForTypes [([(kNResidents, .int 1)], 1)] [[[]]] (fun _ => [d]) := by
    intro d hd0 hd1 i p hp
    refine ⟨?_, ?_⟩
    · cases i with
      | zero =>
        obtain rfl := Option.some.inj hp
        rfl
      | succ i => cases hp
    · intro u hu
      obtain rfl := List.mem_singleton.1 hu
      exact ⟨hd0, hd1⟩
  have key := h demoAlone demoOnce demoWeekEnds [([(kNResidents, .int 1)], 1)] [[[]]] (4 * HOUR + 600000000) _ _ s0 s' demoAlone_valid (demoAlone_dict _ (.inl rfl)) rfl
    ⟨by decide, rfl, by
      intro i g ps h1 h2
      cases i with
      | zero =>
        obtain rfl := Option.some.inj h1
        obtain rfl := Option.some.inj h2
        exact ⟨by decide, by simp, by decide, by decide⟩
      | succ i => cases h1⟩
    (fun p hp => by
      obtain rfl := hgrp p hp
      exact ⟨⟨by simp, by simp, by simp⟩, demoAlone_given, demoAlone_days⟩)
    (fun _ => hdraw _ (by norm_num) (by norm_num)) (hdraw _ (by norm_num) (by norm_num)) h0 h1
  have one : ∀ (l : List (Markov Str)) (b : Str), (l.map fun m => m.states.map fun k => m.labels[k]?) = [[some b]] → ∃ m, l[0]? = some m ∧ 0 < m.states.length ∧ m.labels[m.states.getD 0 0]? = some b := by
    intro l b hl
    obtain ⟨m, rfl, hm⟩ := List.map_eq_singleton_iff.1 hl
    obtain ⟨k, hk, hb⟩ := List.map_eq_singleton_iff.1 hm
    exact ⟨m, rfl, by rw [hk]; simp, by rw [hk]; exact hb⟩
  obtain ⟨m, hm, hn, hb⟩ := one _ _ e0
  obtain ⟨m', hm', -, hc⟩ := one _ _ e1
  obtain ⟨q, -, -, hq⟩ := key 0 0 [] m m' _ _ rfl hm hm' hn hb hc 1 (by decide) (by decide)
  have hk : ∀ k, k = 110 ∨ k = 411 → ¬ Coded demoOnce k "watching_tv".toList := by
    rintro k (rfl | rfl) (⟨hc, -⟩ | ⟨-, hc⟩) <;> revert hc <;> decide
  rcases hq with ⟨hq, -⟩ | ⟨-, hq⟩
  · exact hq (demoAlone_home q 2)
  · refine hk _ ?_ hq
    rw [demoAlone_code]
    by_cases hz : q = 0
    · rw [if_pos hz]
      exact .inl rfl
    · rw [if_neg hz]
      exact .inr rfl

end Demod
