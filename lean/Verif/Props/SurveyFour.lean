import Verif.Lemmas.SurveyFour
import Verif.Props.SurveySparse

/-! # C125: the 4-states simulator with the data of the time use survey -/

namespace Demod

theorem inOrder_length (n : Nat) (f : Nat × Nat → Rat) : (inOrder n f).length = (n + 1) ^ 2 := by
  unfold inOrder
  simp [List.length_flatMap, pow_two]

theorem inOrder_get (n : Nat) (f : Nat × Nat → Rat) (m k : Nat) (hm : m ≤ n) (hk : k ≤ n) : (inOrder n f).getD (m * (n + 1) + k) 0 = f (m, k) := by
  have hlt : m * (n + 1) + k < (n + 1) ^ 2 := by nlinarith
  have : ∀ (l : List Nat) (m : Nat), m < l.length → (l.flatMap fun m => (List.range (n + 1)).map fun k => f (m, k))[m * (n + 1) + k]? = some (f (l.getD m 0, k)) := by
    intro l
    induction l with
    | nil => intro m h; simp at h
    | cons x l ih =>
      intro m h
      rw [List.flatMap_cons]
      cases m with
      | zero =>
        rw [List.getElem?_append_left (by simp; omega), zero_mul, zero_add, List.getElem?_map, List.getElem?_range (by omega)]
        rfl
      | succ m =>
        rw [List.getElem?_append_right (by simp; nlinarith), List.length_map, List.length_range, show (m + 1) * (n + 1) + k - (n + 1) = m * (n + 1) + k by rw [add_mul]; omega, ih m (by simpa using h)]
        rfl
  unfold inOrder
  rw [List.getD_eq_getElem?_getD, this _ m (by simp; omega), Option.getD_some, List.getD_eq_getElem?_getD, List.getElem?_range (by omega), Option.getD_some]

/-- The slots of the matrix that the simulator uses. -/
theorem slots_used (start T : Int) (j : Nat) : slotsOf (crestSlotFrom start T j) = fourSlots start T j := by
  unfold slotsOf crestSlotFrom fourSlots
  split
  · split <;> rfl
  · split
    · rw [if_pos (by omega)]
    · rw [if_neg (by omega)]
      refine Prod.ext ?_ ?_ <;> simp only <;> omega

/-- **C125 (partial).** `Crest4StatesModel` with the data of the time use survey, for `n` households, of which `sample_population` puts `counts` in the subgroups of households of some number of residents, from any start at a multiple of ten
minutes: if all the situations of the households of these sizes were recorded on weekdays and on week-ends, it can be made and run. After any number of steps the clock is that many steps after the start, and each household has followed the
recorded households with its number of residents: from four o'clock before the start on, its first situation is drawn with the shares of the situations at the start of the recorded days, and each next one with the shares of the recorded
changes. The occupancy is the number of persons at home, the active occupancy the number of persons that are up, at most the occupancy. Missing: the changes of a period are those recorded in this period of the day, on days of
the same type (`C125_full`). -/
theorem C125_run_partial (V : SurveyRaw) (hV : ValidSurvey V) (known : List Int) (hk : ∀ p t, p < V.tables.rows.length → t < 144 → V.primary.at' p t ∈ known)
    (groups : List Subgroup) (pdf : List Rat) (n : Nat) (hn : 0 < n) (algo : PopAlgo) (halgo : ∀ us, algo = .monteCarlo us → us.length = n) (counts : List Nat)
    (hc : samplePopulation n pdf algo = .ok counts) (hl : counts.length = groups.length) (hg : ∀ g ∈ groups, ∃ r : Nat, g.at kNResidents = some (.int r) ∧ FourGroup V r)
    (start : Int) (hs : start % 600000000 = 0) (us : List Rat) (hu : Draws n us) (e : Nat → List Rat) (he : ∀ k, Draws n (e k)) (T : Int) (hT : T = start - (start - 14400000000) % 86400000000)
    (n0 : Nat) (hn0 : (n0 : Int) * 600000000 = start - T) :
    ∃ s0, CrestSim.create (surveyFour V known) groups pdf 14400000000 n algo false start us e = .ok s0 ∧
      ∀ uss, (∀ us ∈ uss, Draws n us) → ∃ s labels occ act gains, s0.run (surveyFour V known) 14400000000 uss = .ok s ∧ s.time = start + uss.length * 600000000 ∧
        s.statesLabeled = .ok labels ∧ s.occupancy = .ok occ ∧ s.activeOccupancy = .ok act ∧ s.thermalGains = .ok gains ∧ s.residents.length = n ∧ labels.length = n ∧ occ.length = n ∧ act.length = n ∧ gains.length = n ∧
        (∀ h < n, ∃ k, InSubgroup counts h k ∧ k < groups.length) ∧
        ∀ (h k : Nat) g (r : Nat), InSubgroup counts h k → groups[k]? = some g → g.at kNResidents = some (.int r) →
          s.residents[h]? = some r ∧
          ∃ path, FourCourse V r start (us.getD h 0) (((List.range n0).map e ++ uss).map fun us => us.getD h 0) (fourSlots start T) (crestWeekendFrom start T) path ∧
            ∃ m a, path (n0 + uss.length) = (m, a) ∧ labels[h]? = some (10 * m + a) ∧ occ[h]? = some m ∧ act[h]? = some (min m a) ∧ gains[h]? = some (84 * max ((m : Int) - a) 0 + 147 * (min m a : Nat)) := by
  obtain ⟨s0, c1, c2⟩ := CrestSim.sim_spec (fourData V known) 14400000000 (by decide) (by decide) (by decide) groups pdf n hn algo halgo counts hc hl (fun g hgm => by
    obtain ⟨r, q1, q2⟩ := hg g hgm
    have : r ≤ 6 := by
      have := (q2.accepted true).residents
      change Accepted (r : Int) 6 at this
      unfold Accepted at this
      omega
    exact ⟨r, q1, by omega, four_has V hV known hk r (by omega) q2⟩) start hs us hu e he T hT n0 hn0
  refine ⟨s0, c1, fun uss huss => ?_⟩
  obtain ⟨s, labels, occ, act, gains, g1, g2, g3, g4, g5, g6, g7, g8, g9, g10, g11, g12, g13⟩ := c2 uss huss
  refine ⟨s, labels, occ, act, gains, g1, g2, g3, g4, g5, g6, g7, g8, g9, g10, g11, g12, fun h k g r hin hgk hgr => ?_⟩
  obtain ⟨k1, traj, ⟨k2, k3⟩, m, a, ⟨km, ka, ke⟩, k5⟩ := g13 h k g r hin hgk hgr
  have hdraw : ∀ (f : Nat × Nat → Rat) (u : Rat) (i : Nat), Sampled (inOrder r f) u i → DrawnSituation r f u (i / (r + 1), i % (r + 1)) := by
    intro f u i hi
    have h1 := hi.1
    rw [inOrder_length, pow_two] at h1
    have h2 : i / (r + 1) < r + 1 := Nat.div_lt_of_lt_mul h1
    have h3 : i % (r + 1) < r + 1 := Nat.mod_lt _ (by omega)
    refine ⟨by simp only; omega, by simp only; omega, ?_⟩
    simp only
    rw [mul_comm, Nat.div_add_mod]
    exact hi
  refine ⟨k1, fun j => (traj j / (r + 1), traj j % (r + 1)), ⟨hdraw _ _ _ k2, fun j u hj => ?_⟩, m, a, ?_, k5⟩
  · have := hdraw _ _ _ (k3 j u hj)
    rw [slots_used] at this
    exact this
  · obtain ⟨d1, d2⟩ := grid_code r m a ka
    simp only [ke, d1, d2]

/-- The sub-simulator of a number of residents for which a situation was not recorded cannot be made. -/
theorem four_missing (V : SurveyRaw) (hV : ValidSurvey V) (known : List Int) (hk : ∀ p t, p < V.tables.rows.length → t < 144 → V.primary.at' p t ∈ known) (r : Nat) (w : Bool) (hacc : AcceptedArgs (fourArgs r w))
    (hmem : ∀ h d, {p | V.Member (fourArgs r w) h d p}.ncard ≤ r) (hsome : ∃ h d, V.Recorded (fourArgs r w) h d)
    (hmiss : ∃ m ≤ r, ∃ k ≤ r, ∀ h d t, V.Recorded (fourArgs r w) h d → t < 144 → V.homeUp (fourArgs r w) h d t ≠ (m, k)) (c : Nat) (us : List Rat) : CrestSim.createSub (surveyFour V known) c r (!w) us = .error .valueError := by
  have h6 : r ≤ 6 := by
    have := hacc.residents
    change Accepted (r : Int) 6 at this
    unfold Accepted at this
    omega
  obtain ⟨C, keys, labels, N, tpm, e1, e2, nd, hkeys, cP, cpos, cT, clt, call, hlab, hsmall, hsort, hmemlab⟩ := four_spec V hV known hk r (by omega) w hacc hmem hsome
  have hlen : labels.length ≠ (r + 1) ^ 2 := by
    intro hlen
    obtain ⟨m, hm, k, hk', hno⟩ := hmiss
    have hL : ∀ y, y ∈ CrestSim.labelsOf r ↔ ∃ m ≤ r, ∃ k ≤ r, 10 * m + k = y := by
      intro y
      unfold CrestSim.labelsOf
      simp only [List.mem_flatMap, List.mem_range, List.mem_map]
      constructor
      · rintro ⟨m, h1, k, h2, e⟩; exact ⟨m, by omega, k, by omega, e⟩
      · rintro ⟨m, h1, k, h2, e⟩; exact ⟨m, by omega, k, by omega, e⟩
    have hsub : labels ⊆ CrestSim.labelsOf r := by
      intro y hy
      obtain ⟨h, d, t, hr, ht, e⟩ := (hmemlab y).1 hy
      exact (hL y).2 ⟨_, (hsmall h d t hr ht).1, _, (hsmall h d t hr ht).2, e⟩
    have hnd : labels.Nodup := hsort.imp fun h => Nat.ne_of_lt h
    have hperm := (List.subperm_of_subset hnd hsub).perm_of_length_le (by rw [CrestSim.labelsOf_length, hlen])
    have hin : 10 * m + k ∈ labels := hperm.mem_iff.2 ((hL _).2 ⟨m, hm, k, hk', rfl⟩)
    obtain ⟨h, d, t, hr, ht, e⟩ := (hmemlab _).1 hin
    obtain ⟨b1, b2⟩ := hsmall h d t hr ht
    exact hno h d t hr ht (Prod.ext (by simp only; omega) (by simp only; omega))
  have hcr : ∀ mats, Markov.create c ((r + 1) ^ 2) ⟨N, N, mats⟩ labels = .error .valueError := by
    intro mats
    unfold Markov.create
    rw [if_pos hlen]
    split_ifs <;> rfl
  unfold CrestSim.createSub
  rw [e1]
  simp only [bind, Except.bind, hcr]

/-- **C125 (refusal).** If a subgroup gets households, and nobody recorded one of the situations of its number of residents on days of the type of the day of the start, the simulator cannot be made (`ValueError`). -/
theorem C125_refuses (V : SurveyRaw) (hV : ValidSurvey V) (known : List Int) (hk : ∀ p t, p < V.tables.rows.length → t < 144 → V.primary.at' p t ∈ known)
    (groups : List Subgroup) (pdf : List Rat) (n : Nat) (algo : PopAlgo) (halgo : ∀ us, algo = .monteCarlo us → us.length = n) (counts : List Nat)
    (hc : samplePopulation n pdf algo = .ok counts) (hl : counts.length = groups.length) (start : Int) (us : List Rat) (hu : Draws n us) (e : Nat → List Rat) (refresh : Int) (stepGiven : Bool)
    (hg : ∀ g ∈ groups, ∃ r : Nat, g.at kNResidents = some (.int r) ∧ (FourGroup V r ∨ LacksSituation V r (decide (OnWeekend start))))
    (k : Nat) (g : Subgroup) (r : Nat) (hkg : groups[k]? = some g) (hr : g.at kNResidents = some (.int r)) (hck : counts.getD k 0 ≠ 0) (hlack : LacksSituation V r (decide (OnWeekend start))) :
    CrestSim.create (surveyFour V known) groups pdf refresh n algo stepGiven start us e = .error .valueError := by
  have hsum := C12_counts_sum n pdf algo counts halgo hc
  have hw0 : crestWeekend start 0 = decide (OnWeekend start) := by
    unfold crestWeekend
    simp
  obtain ⟨rs, r1, r2, r3⟩ := mapM_rel CrestSim.residentsOf (fun g r => g.at kNResidents = some (.int (r : Nat)) ∧ (FourGroup V r ∨ LacksSituation V r (decide (OnWeekend start)))) groups (by
    intro g hgm
    obtain ⟨r, q1, q2⟩ := hg g hgm
    refine ⟨r, ?_, q1, q2⟩
    unfold CrestSim.residentsOf
    have : lookupA g kNResidents = some (.int r) := q1
    rw [this]
    rfl)
  have hrl : counts.length = rs.length := by rw [r2, hl]
  have hmem : ∀ r ∈ rs, FourGroup V r ∨ LacksSituation V r (decide (OnWeekend start)) := by
    intro r hr
    obtain ⟨k, hk⟩ := List.mem_iff_getElem?.1 hr
    have hkl := (List.getElem?_eq_some_iff.1 hk).1
    obtain ⟨y, y1, y2⟩ := r3 k (groups[k]'(by omega)) (List.getElem?_eq_getElem (by omega))
    rw [hk, Option.some.injEq] at y1
    rw [y1]
    exact y2.2
  have hall : ∀ (sizes : List (Nat × Nat)), (∀ q ∈ sizes, 0 < q.2 ∧ (FourGroup V q.1 ∨ LacksSituation V q.1 (decide (OnWeekend start)))) → (∃ q ∈ sizes, LacksSituation V q.1 (decide (OnWeekend start))) → ∀ us, Draws (CrestSim.rsOf sizes).length us →
      CrestSim.createSubs (surveyFour V known) (!decide (OnWeekend start)) sizes us = .error .valueError := by
    intro sizes
    induction sizes with
    | nil => rintro - ⟨q, hq, -⟩; simp at hq
    | cons q l ih =>
      intro h1 h2 us hu
      rw [CrestSim.rsOf_cons, List.length_append, List.length_replicate] at hu
      obtain ⟨hu1, hu2⟩ := CrestSim.draws_take hu
      rcases (h1 q List.mem_cons_self).2 with hF | hL
      · obtain ⟨q', hq'⟩ : ∃ q', CrestSim.createSub (surveyFour V known) q.2 q.1 (!crestWeekend start 0) (us.take q.2) = .ok q' := by
          have h6 : q.1 ≤ 6 := by
            have := (hF.accepted true).residents
            change Accepted (q.1 : Int) 6 at this
            unfold Accepted at this
            omega
          exact CrestSim.createSub_ok (fourData V known) start q (by omega) (four_has V hV known hk q.1 (by omega) hF) (h1 q List.mem_cons_self).1 _ hu1
        rw [hw0] at hq'
        by_cases hq2 : LacksSituation V q.1 (decide (OnWeekend start))
        · obtain ⟨a1, a2, a3, a4⟩ := hq2
          simp only [CrestSim.createSubs, four_missing V hV known hk q.1 _ a1 a2 a3 a4, bind, Except.bind]
        · have := ih (fun q hq => h1 q (List.mem_cons_of_mem _ hq)) (by
            obtain ⟨q1, h3, h4⟩ := h2
            rw [List.mem_cons] at h3
            rcases h3 with rfl | h3
            · exact absurd h4 hq2
            · exact ⟨q1, h3, h4⟩) _ hu2
          simp only [CrestSim.createSubs, hq', this, bind, Except.bind]
      · obtain ⟨a1, a2, a3, a4⟩ := hL
        simp only [CrestSim.createSubs, four_missing V hV known hk q.1 _ a1 a2 a3 a4, bind, Except.bind]
  have hfin := hall (CrestSim.sizesOf rs counts) (by
    intro q hq
    unfold CrestSim.sizesOf at hq
    rw [List.mem_filter] at hq
    exact ⟨by simpa using hq.2, hmem q.1 (List.of_mem_zip hq.1).1⟩) (by
    obtain ⟨r', y1, y2, -⟩ := r3 k g hkg
    rw [hr, Option.some.injEq, SubVal.int.injEq] at y2
    have hrr : r = r' := by exact_mod_cast y2
    subst hrr
    have hkl : k < counts.length := by rw [hl]; exact (List.getElem?_eq_some_iff.1 hkg).1
    refine ⟨(r, counts[k]), List.mem_filter.2 ⟨List.mem_iff_getElem?.2 ⟨k, ?_⟩, ?_⟩, hlack⟩
    · rw [List.getElem?_zip_eq_some]
      exact ⟨y1, List.getElem?_eq_getElem hkl⟩
    · rw [List.getD_eq_getElem?_getD, List.getElem?_eq_getElem hkl, Option.getD_some] at hck
      simpa using Nat.pos_of_ne_zero hck) us (by
    unfold CrestSim.sizesOf
    rw [CrestSim.rsOf_filter, (CrestSim.rsOf_zip rs counts hrl.symm).1, hsum]
    exact hu)
  unfold CrestSim.create
  simp only [r1, hc, bind, Except.bind]
  rw [if_neg (by simpa using hrl), CrestSim.weekday_iff]
  unfold CrestSim.sizesOf at hfin
  rw [hfin]

/-! ## A survey with all the situations -/

/-- A person who lives alone writes the diaries of a Monday and of a Saturday: they sleep until 14:00, are up at home until 19:00, travel, sleep elsewhere, travel back, and sleep at home from 24:00 on. -/
def demoFour : SurveyRaw where
  tables := { rows := [⟨1, 1, 0, 1, 3, 1, 8, 1, 1, 70, 1, 1⟩, ⟨1, 2, 0, 1, 3, 6, 8, 1, 1, 70, 1, 1⟩], hhIds := [1], hh := fun _ => ⟨1, 1, 1, 1, 3, 70⟩, persons := [(1, 8)] }
  primary := ⟨2, 144, fun _ t => if t < 60 then 110 else if t < 90 then 411 else if t < 100 then 900 else if t < 110 then 110 else if t < 120 then 900 else 110⟩
  secondary := ⟨2, 144, fun _ _ => 110⟩
  initial := fun _ => 1
  final := fun _ => 1
  home := fun _ => some 0
  energy := fun s => some (if s = 110 then "not active".toList else "cooking".toList)

/-- The situation of this person. -/
def demoFourAt (t : Nat) : Nat × Nat := if t < 60 then (1, 0) else if t < 90 then (1, 1) else if t < 100 then (0, 1) else if t < 110 then (0, 0) else if t < 120 then (0, 1) else (1, 0)

theorem demoFour_valid : ValidSurvey demoFour where
  nP := ⟨rfl, rfl⟩
  nT := ⟨rfl, rfl⟩
  rated := ⟨fun _ _ _ _ => ⟨0, rfl⟩, fun _ _ _ _ => ⟨0, rfl⟩⟩
  energy := fun _ _ _ _ => ⟨⟨_, rfl⟩, ⟨_, rfl⟩⟩
  missing := ⟨[], by decide⟩
  persons := by
    intro h hh h2
    have : (1 : Int) = 2 := h2
    omega
  days := by decide

theorem demoFour_known (p t : Nat) : demoFour.primary.at' p t ∈ ([110, 411, 900] : List Int) := by
  change (if t < 60 then (110 : Int) else if t < 90 then 411 else if t < 100 then 900 else if t < 110 then 110 else if t < 120 then 900 else 110) ∈ _
  split_ifs <;> decide

theorem demoFour_member (w : Bool) (h d p : Nat) : demoFour.Member (fourArgs 1 w) h d p ↔ h = 1 ∧ d = (if w then 2 else 1) ∧ p = if w then 1 else 0 := by
  have hm : ∀ q ∈ demoFour.tables.rows, q.missing = 0 := by decide
  constructor
  · rintro ⟨r, hr, hb, rfl, hd⟩
    have hw := hb.weekday
    have hp : p < 2 := (List.getElem?_eq_some_iff.1 hr).1
    have hp : p = 0 ∨ p = 1 := by omega
    rcases hp with rfl | rfl
    · cases hr
      cases w
      · exact ⟨rfl, by have : (1 : Int) = d := hd; simp; omega, rfl⟩
      · exfalso
        rcases hw with hw | ⟨v, hv, hv'⟩
        · cases hw
        · simp only [List.mem_cons, List.not_mem_nil, or_false] at hv
          rcases hv with rfl | rfl <;> rcases hv' with h | h <;> cases h
    · cases hr
      cases w
      · exfalso
        rcases hw with hw | ⟨v, hv, hv'⟩
        · cases hw
        · simp only [List.mem_cons, List.not_mem_nil, or_false] at hv
          rcases hv with rfl | rfl | rfl | rfl | rfl <;> rcases hv' with h | h <;> cases h
      · exact ⟨rfl, by have : (2 : Int) = d := hd; simp; omega, rfl⟩
  · rintro ⟨rfl, rfl, rfl⟩
    cases w
    · exact ⟨_, rfl, ⟨fun _ => ⟨List.mem_singleton.2 rfl, rfl⟩, fun _ q hq h => absurd (hm q hq) h, fun _ => .inl rfl, .inl rfl, .inr ⟨1, by decide, .inr rfl⟩, .inr rfl, (by intro w h; cases h), .inl rfl, .inl rfl, .inl rfl, .inl rfl, .inl rfl, trivial, trivial,
        .inl rfl, .inl rfl⟩, rfl, rfl⟩
    · exact ⟨_, rfl, ⟨fun _ => ⟨List.mem_singleton.2 rfl, rfl⟩, fun _ q hq h => absurd (hm q hq) h, fun _ => .inl rfl, .inl rfl, .inr ⟨6, by decide, .inr rfl⟩, .inr rfl, (by intro w h; cases h), .inl rfl, .inl rfl, .inl rfl, .inl rfl, .inl rfl, trivial, trivial,
        .inl rfl, .inl rfl⟩, rfl, rfl⟩

theorem demoFour_recorded (w : Bool) (h d : Nat) : demoFour.Recorded (fourArgs 1 w) h d ↔ h = 1 ∧ d = if w then 2 else 1 := by
  constructor
  · rintro ⟨p, hp⟩
    have := (demoFour_member w h d p).1 hp
    exact ⟨this.1, this.2.1⟩
  · rintro ⟨rfl, rfl⟩
    exact ⟨_, (demoFour_member w 1 _ _).2 ⟨rfl, rfl, rfl⟩⟩

theorem demoFour_onTheWay (p t : Nat) : OnTheWay demoFour.primary demoFour.secondary p t ↔ (90 ≤ t ∧ t < 100) ∨ (110 ≤ t ∧ t < 120) := by
  unfold OnTheWay
  have h2 : ¬ Travelling (demoFour.secondary.at' p t) := by change ¬ Travelling 110; decide
  have h1 : Travelling (demoFour.primary.at' p t) ↔ (90 ≤ t ∧ t < 100) ∨ (110 ≤ t ∧ t < 120) := by
    change Travelling (if t < 60 then (110 : Int) else if t < 90 then 411 else if t < 100 then 900 else if t < 110 then 110 else if t < 120 then 900 else 110) ↔ _
    have a1 : ¬ Travelling 110 := by decide
    have a2 : ¬ Travelling 411 := by decide
    have a3 : Travelling 900 := by decide
    split_ifs <;> simp only [a1, a2, a3, true_iff, false_iff] <;> omega
  simp only [h1, h2, or_false]

theorem demoFour_home (p t : Nat) (ht : t < 144) : demoFour.AtHome p t ↔ t < 90 ∨ 120 ≤ t := by
  unfold SurveyRaw.AtHome
  simp only [demoFour_onTheWay]
  constructor
  · rintro (⟨h, -⟩ | ⟨-, h, -⟩)
    · by_contra hlt
      exact h 90 (by omega) (by omega)
    · by_contra hlt
      exact h (max t 110) (by omega) (by omega) (by omega)
  · rintro (h | h)
    · exact .inl ⟨fun j hj => by omega, .inl rfl⟩
    · exact .inr ⟨⟨90, by omega, by omega⟩, fun j h1 h2 => by omega, .inl rfl⟩

theorem demoFour_up (p t : Nat) : demoFour.Up p t ↔ (60 ≤ t ∧ t < 100) ∨ (110 ≤ t ∧ t < 120) := by
  unfold SurveyRaw.Up
  change ((if t < 60 then (110 : Int) else if t < 90 then 411 else if t < 100 then 900 else if t < 110 then 110 else if t < 120 then 900 else 110) ≠ 110 ∧
    (if t < 60 then (110 : Int) else if t < 90 then 411 else if t < 100 then 900 else if t < 110 then 110 else if t < 120 then 900 else 110) ≠ 132) ↔ _
  split_ifs <;> simp <;> omega

theorem demoFour_homeUp (w : Bool) (h d t : Nat) (hr : demoFour.Recorded (fourArgs 1 w) h d) (ht : t < 144) : demoFour.homeUp (fourArgs 1 w) h d t = demoFourAt t := by
  obtain ⟨rfl, rfl⟩ := (demoFour_recorded w h d).1 hr
  have hone : ∀ (P : Nat → Prop) [Decidable (P (if w then 1 else 0))], {p | demoFour.Member (fourArgs 1 w) 1 (if w then 2 else 1) p ∧ P p}.ncard = if P (if w then 1 else 0) then 1 else 0 := by
    intro P _
    by_cases hP : P (if w then 1 else 0)
    · rw [if_pos hP, show {p | demoFour.Member (fourArgs 1 w) 1 (if w then 2 else 1) p ∧ P p} = {if w then 1 else 0} from by
        ext p
        simp only [Set.mem_ofPred_eq, demoFour_member, true_and, Set.mem_singleton_iff]
        exact ⟨fun h => h.1, fun h => ⟨h, h ▸ hP⟩⟩, Set.ncard_singleton]
    · rw [if_neg hP, show {p | demoFour.Member (fourArgs 1 w) 1 (if w then 2 else 1) p ∧ P p} = ∅ from by
        ext p
        simp only [Set.mem_ofPred_eq, demoFour_member, true_and, Set.mem_empty_iff_false, iff_false]
        rintro ⟨h1, h2⟩
        exact hP (h1 ▸ h2), Set.ncard_empty]
  unfold SurveyRaw.homeUp
  classical
  rw [hone fun p => demoFour.AtHome p t, hone fun p => demoFour.Up p t]
  simp only [demoFour_home _ t ht, demoFour_up]
  unfold demoFourAt
  split_ifs <;> first | rfl | (exfalso; omega)

theorem demoFour_group : FourGroup demoFour 1 where
  accepted := by
    intro w
    cases w
    · exact { accepted_default with residents := .inr ⟨by decide, by decide⟩, weekday := fun v hv => .inr (by revert v; decide) }
    · exact { accepted_default with residents := .inr ⟨by decide, by decide⟩, weekday := fun v hv => .inr (by revert v; decide) }
  members := by
    intro w h d
    have : {p | demoFour.Member (fourArgs 1 w) h d p} ⊆ {if w then 1 else 0} := by
      intro p hp
      exact ((demoFour_member w h d p).1 hp).2.2
    exact le_trans (Set.ncard_le_ncard this (Set.finite_singleton _)) (by rw [Set.ncard_singleton])
  every := by
    intro w m hm k hk
    obtain ⟨t, ht, e⟩ : ∃ t < 144, demoFourAt t = (m, k) := by
      have hm : m = 0 ∨ m = 1 := by omega
      have hk : k = 0 ∨ k = 1 := by omega
      rcases hm with rfl | rfl <;> rcases hk with rfl | rfl
      · exact ⟨100, by decide, rfl⟩
      · exact ⟨90, by decide, rfl⟩
      · exact ⟨0, by decide, rfl⟩
      · exact ⟨60, by decide, rfl⟩
    have hr : demoFour.Recorded (fourArgs 1 w) 1 (if w then 2 else 1) := (demoFour_recorded w 1 _).2 ⟨rfl, rfl⟩
    exact ⟨1, _, t, hr, ht, by rw [demoFour_homeUp w 1 _ t hr ht, e]⟩

/-- The hypotheses of `C125_run_partial` are met: two households, from Saturday 00:10, that is on the diary day of Friday. -/
example : ValidSurvey demoFour ∧ (∀ p t, p < demoFour.tables.rows.length → t < 144 → demoFour.primary.at' p t ∈ ([110, 411, 900] : List Int)) ∧ samplePopulation 2 [1] .realPopulation = .ok [2] ∧
    (∀ g ∈ ([[(kNResidents, .int 1)]] : List Subgroup), ∃ r : Nat, g.at kNResidents = some (.int r) ∧ FourGroup demoFour r) ∧
    (5 * 86400000000 + 600000000 : Int) % 600000000 = 0 ∧ Draws 2 [0, 1 / 2] ∧ ((121 : Nat) : Int) * 600000000 = (5 * 86400000000 + 600000000) - (4 * 86400000000 + 14400000000) ∧
    (4 * 86400000000 + 14400000000 : Int) = (5 * 86400000000 + 600000000) - ((5 * 86400000000 + 600000000) - 14400000000) % 86400000000 ∧ ¬ (OnWeekend (5 * 86400000000 + 600000000) ↔ OnWeekend (4 * 86400000000 + 14400000000)) := by
  refine ⟨demoFour_valid, fun p t _ _ => demoFour_known p t, by decide +kernel, ?_, by decide, ⟨rfl, by decide +kernel⟩, by decide, by decide, by decide⟩
  intro g hg
  rw [List.mem_singleton.1 hg]
  exact ⟨1, rfl, demoFour_group⟩

/-- The diaries of `demoNight` are of Mondays. -/
theorem demoNight_four (h d p : Nat) : demoNight.Member (fourArgs 2 false) h d p ↔ h = 1 ∧ d = 1 ∧ p < 2 := by
  rw [← demoNight_member]
  have hm : ∀ q ∈ demoNight.tables.rows, q.weekday = 1 := by decide
  constructor
  · rintro ⟨r, hr, hb, h1, h2⟩
    exact ⟨r, hr, { hb with weekday := .inl rfl, quarter := .inl rfl, residents := hb.residents, work := hb.work, type := hb.type }, h1, h2⟩
  · rintro ⟨r, hr, hb, h1, h2⟩
    exact ⟨r, hr, { hb with weekday := .inr ⟨1, by decide, .inr (hm r (List.mem_of_getElem? hr))⟩ }, h1, h2⟩

/-- The hypotheses of `C125_refuses` are met: the members of the household of `demoNight` were never out, so that a simulation of households of two residents cannot start on a Monday. -/
example : ValidSurvey demoNight ∧ (∀ p t, p < demoNight.tables.rows.length → t < 144 → demoNight.primary.at' p t ∈ ([110, 411] : List Int)) ∧ samplePopulation 2 [1] .realPopulation = .ok [2] ∧
    (∀ g ∈ ([[(kNResidents, .int 2)]] : List Subgroup), ∃ r : Nat, g.at kNResidents = some (.int r) ∧ (FourGroup demoNight r ∨ LacksSituation demoNight r (decide (OnWeekend 0)))) ∧ Draws 2 [0, 1 / 2] ∧
    ([2] : List Nat).getD 0 0 ≠ 0 ∧ LacksSituation demoNight 2 (decide (OnWeekend 0)) := by
  have hw : decide (OnWeekend 0) = false := by decide
  have hl : LacksSituation demoNight 2 (decide (OnWeekend 0)) := by
    rw [hw]
    refine ⟨{ accepted_default with residents := .inr ⟨by decide, by decide⟩, weekday := fun v hv => .inr (by revert v; decide) }, ?_, ⟨1, 1, 0, (demoNight_four 1 1 0).2 ⟨rfl, rfl, by decide⟩⟩, 0, by decide, 0, by decide, ?_⟩
    · intro h d
      have : {p | demoNight.Member (fourArgs 2 false) h d p} ⊆ (({0, 1} : Finset Nat) : Set Nat) := by
        intro p hp
        have := ((demoNight_four h d p).1 hp).2.2
        simp
        omega
      have h1 := Set.ncard_le_ncard this (Finset.finite_toSet _)
      rw [Set.ncard_coe_finset] at h1
      exact le_trans h1 (by decide)
    · rintro h d t ⟨p, hp⟩ _ he
      have h0 : {p | demoNight.Member (fourArgs 2 false) h d p ∧ demoNight.AtHome p t}.ncard = 0 := congrArg Prod.fst he
      have hfin : {p | demoNight.Member (fourArgs 2 false) h d p ∧ demoNight.AtHome p t}.Finite := by
        refine Set.Finite.subset (Set.finite_lt_nat 2) fun q hq => ?_
        exact ((demoNight_four h d q).1 hq.1).2.2
      rw [Set.ncard_eq_zero hfin] at h0
      exact Set.notMem_empty p (h0 ▸ (⟨hp, demoNight_home p t⟩ : p ∈ {p | demoNight.Member (fourArgs 2 false) h d p ∧ demoNight.AtHome p t}))
  refine ⟨demoNight_valid, fun p t _ _ => ?_, by decide +kernel, ?_, ⟨rfl, by decide +kernel⟩, by decide, hl⟩
  · change (if _ then (411 : Int) else 110) ∈ _
    split <;> decide
  · intro g hg
    rw [List.mem_singleton.1 hg]
    exact ⟨2, rfl, .inr hl⟩

/-- The full property: in each period the changes recorded in this period of the diary day are used, those of week-ends if the diary day is one. -/
def C125_full : Prop :=
  ∀ (V : SurveyRaw) (known : List Int), ValidSurvey V → (∀ p t, p < V.tables.rows.length → t < 144 → V.primary.at' p t ∈ known) →
    ∀ (groups : List Subgroup) (pdf : List Rat) (n : Nat) (counts : List Nat), 0 < n → samplePopulation n pdf .realPopulation = .ok counts → counts.length = groups.length → (∀ g ∈ groups, ∃ r : Nat, g.at kNResidents = some (.int r) ∧ FourGroup V r) →
    ∀ (T : Int), T % 86400000000 = 14400000000 → ∀ (n0 : Nat), n0 < 144 → ∀ us, Draws n us → ∀ e : Nat → List Rat, (∀ k, Draws n (e k)) → ∀ uss, (∀ us ∈ uss, Draws n us) →
    ∃ s0 s labels, CrestSim.create (surveyFour V known) groups pdf 14400000000 n .realPopulation false (T + n0 * 600000000) us e = .ok s0 ∧ s0.run (surveyFour V known) 14400000000 uss = .ok s ∧ s.statesLabeled = .ok labels ∧
      ∀ (h k : Nat) g (r : Nat), InSubgroup counts h k → groups[k]? = some g → g.at kNResidents = some (.int r) →
        ∃ path, FourCourse V r T (us.getD h 0) (((List.range n0).map e ++ uss).map fun us => us.getD h 0) (fun j => (j % 144, (j + 1) % 144)) (fun j => decide (OnWeekend (T + (j / 144 : Nat) * 86400000000))) path ∧
          ∃ m a, path (n0 + uss.length) = (m, a) ∧ labels[h]? = some (10 * m + a)

/-- A drawn situation has a share. -/
theorem drawn_pos (n : Nat) (f : Nat × Nat → Rat) (u : Rat) (x : Nat × Nat) (h : DrawnSituation n f u x) : 0 < f x := by
  obtain ⟨h1, h2, h3, h4, h5⟩ := h
  rw [inOrder_get n f x.1 x.2 h1 h2] at h5
  linarith

/-- In this survey the next situation is the one of the diary, or the situation is kept. -/
theorem demoFour_next (w : Bool) (b c : Nat) (hb : b < 144) (hc : c < 144) (u : Rat) (x y : Nat × Nat) (h : DrawnSituation 1 (demoFour.fourChange (fourArgs 1 w) b c x) u y) : y = if demoFourAt b = x then demoFourAt c else x := by
  have hp := drawn_pos _ _ _ _ h
  unfold SurveyRaw.fourChange at hp
  have hr : demoFour.Recorded (fourArgs 1 w) 1 (if w then 2 else 1) := (demoFour_recorded w 1 _).2 ⟨rfl, rfl⟩
  by_cases hx : demoFourAt b = x
  · rw [if_pos hx]
    split at hp
    · rename_i h0
      exfalso
      rw [show {q : Nat × Nat | demoFour.Recorded (fourArgs 1 w) q.1 q.2 ∧ demoFour.homeUp (fourArgs 1 w) q.1 q.2 b = x} = {(1, if w then 2 else 1)} from by
        ext q
        simp only [Set.mem_ofPred_eq, Set.mem_singleton_iff]
        constructor
        · rintro ⟨h1, -⟩
          obtain ⟨e1, e2⟩ := (demoFour_recorded w q.1 q.2).1 h1
          exact Prod.ext e1 e2
        · rintro rfl
          exact ⟨hr, by rw [demoFour_homeUp w _ _ b hr hb, hx]⟩, Set.ncard_singleton] at h0
      cases h0
    · by_contra hne
      rw [show {q : Nat × Nat | demoFour.Recorded (fourArgs 1 w) q.1 q.2 ∧ demoFour.homeUp (fourArgs 1 w) q.1 q.2 b = x ∧ demoFour.homeUp (fourArgs 1 w) q.1 q.2 c = y} = ∅ from by
        ext q
        simp only [Set.mem_ofPred_eq, Set.mem_empty_iff_false, iff_false]
        rintro ⟨h1, -, h3⟩
        rw [demoFour_homeUp w _ _ c h1 hc] at h3
        exact hne h3.symm, Set.ncard_empty] at hp
      simp at hp
  · rw [if_neg hx]
    rw [show {q : Nat × Nat | demoFour.Recorded (fourArgs 1 w) q.1 q.2 ∧ demoFour.homeUp (fourArgs 1 w) q.1 q.2 b = x} = ∅ from by
      ext q
      simp only [Set.mem_ofPred_eq, Set.mem_empty_iff_false, iff_false]
      rintro ⟨h1, h2⟩
      rw [demoFour_homeUp w _ _ b h1 hb] at h2
      exact hx h2, Set.ncard_empty, if_pos rfl] at hp
    by_contra hne
    rw [if_neg hne] at hp
    exact absurd hp (lt_irrefl _)

/-- The situations of the person of this survey after some periods. -/
def demoFourChain (slots : Nat → Nat × Nat) : Nat → Nat × Nat
  | 0 => (1, 0)
  | j + 1 => if demoFourAt (slots j).1 = demoFourChain slots j then demoFourAt (slots j).2 else demoFourChain slots j

theorem demoFour_course (start : Int) (u0 : Rat) (us : List Rat) (slots : Nat → Nat × Nat) (hs : ∀ j, (slots j).1 < 144 ∧ (slots j).2 < 144) (weekend : Nat → Bool) (path : Nat → Nat × Nat) (h : FourCourse demoFour 1 start u0 us slots weekend path) :
    ∀ j ≤ us.length, path j = demoFourChain slots j := by
  intro j
  induction j with
  | zero =>
    intro _
    have hp := drawn_pos _ _ _ _ h.1
    unfold SurveyRaw.fourStart at hp
    by_contra hne
    rw [show {q : Nat × Nat | demoFour.Recorded (fourArgs 1 (decide (OnWeekend start))) q.1 q.2 ∧ demoFour.homeUp (fourArgs 1 (decide (OnWeekend start))) q.1 q.2 0 = path 0} = ∅ from by
      ext q
      simp only [Set.mem_ofPred_eq, Set.mem_empty_iff_false, iff_false]
      rintro ⟨h1, h2⟩
      rw [demoFour_homeUp _ _ _ 0 h1 (by decide)] at h2
      exact hne h2.symm, Set.ncard_empty] at hp
    simp at hp
  | succ j ih =>
    intro hj
    have := demoFour_next _ _ _ (hs j).1 (hs j).2 _ _ _ (h.2 j _ (List.getElem?_eq_getElem (by omega)))
    rw [this, ih (by omega)]
    rfl

/-- **C125 (counterexample).** After the first change of the type of day the changes come ten minutes late: the person who got up at 14:00 on all recorded days gets up at 14:10 on the Saturday of a simulation from Friday 04:00 on. -/
theorem C125_counterexample : ¬ C125_full := by
  intro hf
  have hd : Draws 1 [1 / 2] := ⟨rfl, by decide +kernel⟩
  have hg : ∀ g ∈ ([[(kNResidents, .int 1)]] : List Subgroup), ∃ r : Nat, g.at kNResidents = some (.int r) ∧ FourGroup demoFour r := by
    intro g hg
    rw [List.mem_singleton.1 hg]
    exact ⟨1, rfl, demoFour_group⟩
  have hc : samplePopulation 1 [1] .realPopulation = .ok [1] := by decide +kernel
  have huss : ∀ us ∈ List.replicate 204 [(1 / 2 : Rat)], Draws 1 us := by
    intro us hus
    rw [(List.mem_replicate.1 hus).2]
    exact hd
  have hin : InSubgroup [1] 0 0 := ⟨by decide, by decide⟩
  have hkn : ∀ p t, p < demoFour.tables.rows.length → t < 144 → demoFour.primary.at' p t ∈ ([110, 411, 900] : List Int) := fun p t _ _ => demoFour_known p t
  obtain ⟨s0, s, labels, f1, f2, f3, f4⟩ := hf demoFour [110, 411, 900] demoFour_valid hkn [[(kNResidents, .int 1)]] [1] 1 [1] (by decide) hc rfl hg (4 * 86400000000 + 14400000000) (by decide) 0 (by decide) [1 / 2] hd (fun _ => [1 / 2]) (fun _ => hd) _ huss
  obtain ⟨path, t2, m, a, hm, hlab⟩ := f4 0 0 _ 1 hin rfl rfl
  obtain ⟨s0', p1, p2⟩ := C125_run_partial demoFour demoFour_valid [110, 411, 900] hkn [[(kNResidents, .int 1)]] [1] 1 (by decide) .realPopulation (fun us h => by cases h) [1] hc rfl hg (4 * 86400000000 + 14400000000 + (0 : Nat) * 600000000) (by decide) [1 / 2] hd (fun _ => [1 / 2]) (fun _ => hd)
    (4 * 86400000000 + 14400000000) (by decide) 0 (by decide)
  obtain ⟨s', labels', occ, act, gains, q1, -, q3, -, -, -, -, -, -, -, -, -, q4⟩ := p2 _ huss
  obtain ⟨-, path', t2', m', a', hm', hlab', -⟩ := q4 0 0 _ 1 hin rfl rfl
  have e0 : s0' = s0 := Except.ok.inj (p1.symm.trans f1)
  subst e0
  have e1 : s' = s := Except.ok.inj (q1.symm.trans f2)
  subst e1
  have e2 : labels' = labels := Except.ok.inj (q3.symm.trans f3)
  subst e2
  have hlen : (((List.range 0).map (fun _ => ([1 / 2] : List Rat)) ++ List.replicate 204 [(1 / 2 : Rat)]).map fun us : List Rat => us.getD 0 0).length = 204 := by rw [List.length_map, List.length_append, List.length_map, List.length_range, List.length_replicate]
  have c1 := demoFour_course _ _ _ _ (fun j => ⟨Nat.mod_lt _ (by decide), Nat.mod_lt _ (by decide)⟩) _ _ t2 204 (by rw [hlen])
  have c2 := demoFour_course _ _ _ _ (fun j => by unfold fourSlots; split_ifs <;> constructor <;> simp only <;> omega) _ _ t2' 204 (by rw [hlen])
  rw [show 0 + (List.replicate 204 [(1 / 2 : Rat)]).length = 204 by rw [List.length_replicate]] at hm hm'
  rw [hm, show demoFourChain (fun j => (j % 144, (j + 1) % 144)) 204 = (1, 1) by decide +kernel] at c1
  rw [hm', show demoFourChain (fourSlots (4 * 86400000000 + 14400000000 + (0 : Nat) * 600000000) (4 * 86400000000 + 14400000000)) 204 = (1, 0) by decide +kernel] at c2
  obtain ⟨rfl, rfl⟩ : m = 1 ∧ a = 1 := by simpa using c1
  obtain ⟨rfl, rfl⟩ : m' = 1 ∧ a' = 0 := by simpa using c2
  rw [hlab] at hlab'
  cases hlab'

end Demod
