import Verif.Lemmas.Clock
import Verif.Props.Activity

/-!
# Properties C68, C71, C72: which matrix is used when

The documented convention is that matrix `i` of a day is for the transition into slot `i`
(`activity_simulators.py:223-224`: "the tpms start with transitions from t-1 to t").
-/

namespace Demod
variable {L : Type} [DecidableEq L]

/-- A simulator in the state where `initialize_starting_state` leaves it: valid states, matrices `mats`, of which the first was skipped. -/
structure Initialised (m : Markov L) (N n : Nat) (mats : List (List (List Rat))) (labels : List L) : Prop where
  tpms : IsTpms n mats
  cdfs : m.cdfs = mats.map fun mat => mat.map cumsum
  pos : m.pos = 1
  nPersons : m.states.length = N
  valid : ∀ s ∈ m.states, s < n
  labs : m.labels = labels
  distinct : labels.Nodup
  nLabels : labels.length = n

/-- **C71 (partial).** A time-aware person simulator started at the refresh time, with steps of ten minutes, matrices `day t` of the day of the time `t` and the same
labels on all days: nothing fails; the step from the start uses matrix 1; and step `k ≥ 1` uses matrix `k mod 144` of the
matrices loaded ten minutes after the last refresh. The step over the refresh time of a later day (`k` a multiple of 144) thus uses
matrix 0 of the matrices of the day before. -/
theorem C71_time_aware_partial (m : Markov L) (N n : Nat) (mats : List (List (List Rat))) (labels : List L) (hi : Initialised m N n mats labels)
    (hlen : mats.length = 144) (day : Int → List (List (List Rat))) (hd : ∀ t, IsTpms n (day t) ∧ (day t).length = 144) (refresh t0 : Int) (h0 : t0 % DAY = refresh)
    (uss : List (List Rat)) (hu : ∀ us ∈ uss, Draws N us) (k : Nat) (us : List Rat) (hk : uss[k]? = some us) :
    ∃ a b : Markov L, Markov.timedRun true (fun t => (day t, labels)) refresh 600000000 t0 m (uss.take k) = .ok a ∧
      Markov.timedRun true (fun t => (day t, labels)) refresh 600000000 t0 m (uss.take (k + 1)) = .ok b ∧ b.labels = labels ∧ b.states.length = N ∧
      (k = 0 → ∀ h < N, Sampled (rowOf mats 1 (a.states.getD h 0)) (us.getD h 0) (b.states.getD h 0)) ∧
      (k ≠ 0 → ∀ h < N, Sampled (rowOf (day (t0 + ((k - 1) / 144 : Nat) * DAY + 600000000)) (k % 144) (a.states.getD h 0)) (us.getD h 0) (b.states.getD h 0)) := by
  have g : Markov.Good m N n mats := ⟨hi.tpms, hi.cdfs, hi.nPersons, hi.valid⟩
  have hkl : k < uss.length := (List.getElem?_eq_some_iff.1 hk).1
  obtain ⟨a, ra, la, ga, pa⟩ := Markov.timed_state g hi.pos labels hi.labs hi.distinct hi.nLabels day (fun t => (hd t).1) refresh t0 h0 uss hu k (by omega)
  obtain ⟨b, rb, lb, gb, pb⟩ := Markov.timed_state g hi.pos labels hi.labs hi.distinct hi.nLabels day (fun t => (hd t).1) refresh t0 h0 uss hu (k + 1) (by omega)
  obtain ⟨b', rb', gb', pb', lb', -, hs⟩ := Markov.good_step ga us (hu us (List.mem_of_getElem? hk))
  have hst : b.states = b'.states := by
    have hrun : Markov.timedRun true (fun t => (day t, labels)) refresh 600000000 t0 m (uss.take (k + 1)) =
        Markov.timedStep true (fun t => (day t, labels)) refresh 600000000 (t0 + k * 600000000) a us := by
      rw [List.take_add_one, hk, Markov.timedRun_append, ra]
      show Markov.timedRun _ _ _ _ _ a [us] = _
      rw [List.length_take, Nat.min_eq_left (by omega)]
      simp only [Markov.timedRun]
      cases Markov.timedStep true (fun t => (day t, labels)) refresh 600000000 (t0 + k * 600000000) a us <;> rfl
    rw [hrun] at rb
    unfold Markov.timedStep at rb
    rw [rb'] at rb
    simp only [bind, Except.bind] at rb
    split at rb
    · obtain ⟨m', s1, s2, s3, s4, s5⟩ := Markov.set_good gb' labels (by rw [lb', la]) hi.distinct hi.nLabels _ (hd (t0 + k * 600000000 + 600000000)).1
      rw [s1] at rb
      injection rb with rb
      rw [← rb, s5]
    · injection rb with rb
      rw [rb]
  rw [← hst] at hs
  refine ⟨a, b, ra, rb, lb, by rw [hst, gb'.len], ?_, ?_⟩
  · rintro rfl
    simp only [if_true] at hs pa
    rw [pa, hlen] at hs
    exact hs
  · intro h0
    simp only [if_neg h0] at hs pa
    rw [pa, (hd _).2] at hs
    have : ((k - 1) % 144 + 1) % 144 = k % 144 := by omega
    rw [this] at hs
    exact hs

/-- **C71 (not time-aware).** Without the update of the matrices, step `k` uses matrix `(k + 1) mod 144`: the convention of the class. -/
theorem C71_not_time_aware (m : Markov L) (N n : Nat) (mats : List (List (List Rat))) (labels : List L) (hi : Initialised m N n mats labels)
    (hlen : mats.length = 144) (load : Int → List (List (List Rat)) × List L) (refresh t0 : Int)
    (uss : List (List Rat)) (hu : ∀ us ∈ uss, Draws N us) (k : Nat) (us : List Rat) (hk : uss[k]? = some us) :
    ∃ a b : Markov L, Markov.timedRun false load refresh 600000000 t0 m (uss.take k) = .ok a ∧
      Markov.timedRun false load refresh 600000000 t0 m (uss.take (k + 1)) = .ok b ∧ b.labels = labels ∧ b.states.length = N ∧
      ∀ h < N, Sampled (rowOf mats ((k + 1) % 144) (a.states.getD h 0)) (us.getD h 0) (b.states.getD h 0) := by
  have g : Markov.Good m N n mats := ⟨hi.tpms, hi.cdfs, hi.nPersons, hi.valid⟩
  have hkl : k < uss.length := (List.getElem?_eq_some_iff.1 hk).1
  have hrun : ∀ (t : Int) (m : Markov L) uss, Markov.timedRun false load refresh 600000000 t m uss = m.run uss := by
    intro t m uss
    induction uss generalizing t m with
    | nil => rfl
    | cons u us ih =>
      have hst : Markov.timedStep false load refresh 600000000 t m u = m.step u := by
        unfold Markov.timedStep
        cases m.step u <;> rfl
      simp only [Markov.timedRun, Markov.run, hst, ih]
  obtain ⟨a, ra, ga, pa, la, -⟩ := Markov.good_run g (uss.take k) fun x hx => hu x (List.mem_of_mem_take hx)
  obtain ⟨b, rb, gb, pb, lb, -, sb⟩ := Markov.good_step ga us (hu us (List.mem_of_getElem? hk))
  refine ⟨a, b, by rw [hrun, ra], ?_, by rw [lb, la, hi.labs], gb.len, ?_⟩
  · rw [hrun, List.take_add_one, hk, Markov.run_append, ra]
    show Markov.run a [us] = _
    rw [Markov.run, rb]; rfl
  · have hpk : a.pos = k + 1 := by rw [pa, hi.pos, List.length_take]; omega
    rw [hpk, hlen] at sb
    exact sb

/-- Two states; matrix 1 moves everybody to state 0, matrix 2 to state 1, and the others keep the state. -/
def exampleDay : List (List (List Rat)) :=
  (List.range 144).map fun i => if i = 1 then [[1, 0], [1, 0]] else if i = 2 then [[0, 1], [0, 1]] else [[1, 0], [0, 1]]

/-- One person in state 0, at the start of the day. -/
def exampleTimed : Markov String :=
  { nHouseholds := 1, nStates := 2, tpms := ⟨2, 2, exampleDay⟩, labels := ["home", "away"], cdfs := exampleDay.map fun mat => mat.map cumsum, pos := 1, states := [0] }

theorem exampleTimed_initialised : Initialised exampleTimed 1 2 exampleDay ["home", "away"] := by
  refine ⟨⟨by decide +kernel, ?_⟩, rfl, rfl, rfl, by decide, rfl, by decide, rfl⟩
  intro mat hm
  obtain ⟨i, -, rfl⟩ := List.mem_map.1 hm
  split
  all_goals try split
  all_goals
    refine ⟨rfl, ?_⟩
    intro row hr
    simp only [List.mem_cons, List.not_mem_nil, or_false] at hr
    rcases hr with rfl | rfl
    all_goals exact ⟨rfl, by simp, by norm_num⟩

/-- **C71 (counterexample).** With the same matrices on all days, keeping track of the time changes the matrices used: after two steps
from 04:00 (to 04:20), the simulator that is not time-aware has used the matrix 2 of the transition into slot 2 and the person is in state 1; the time-aware one
has used matrix 1 twice and the person is in state 0. -/
theorem C71_shift_counterexample :
    ∃ a b : Markov String, Markov.timedRun false (fun _ => (exampleDay, ["home", "away"])) (4 * HOUR) 600000000 (4 * HOUR) exampleTimed [[1 / 2], [1 / 2]] = .ok a ∧
      Markov.timedRun true (fun _ => (exampleDay, ["home", "away"])) (4 * HOUR) 600000000 (4 * HOUR) exampleTimed [[1 / 2], [1 / 2]] = .ok b ∧
      a.states = [1] ∧ b.states = [0] := by
  refine ⟨{ exampleTimed with states := [1], pos := 3 }, { exampleTimed with states := [0], pos := 2 }, by decide +kernel, by decide +kernel, rfl, rfl⟩

/-! ## C68: CREST day types -/

/-- Monday to Friday. -/
def onWeekday (t : Int) : Prop := weekday t < 5

instance (t : Int) : Decidable (onWeekday t) := inferInstanceAs (Decidable (weekday t < 5))

/-- The transition matrices of the type of day. -/
def matsFor (weekdayMats weekendMats : List (List (List Rat))) (t : Int) : List (List (List Rat)) :=
  if onWeekday t then weekdayMats else weekendMats

/-- **C68 (partial).** `Crest4StatesModel` from midnight `t0`, with the matrices of the type of that day: nothing fails; the labels
are kept; step `k` uses the weekday matrices iff the day of the end of step `k-1` is from Monday to Friday: the right type of day for all
transitions, except the first after midnight, which still uses the day before. The matrix is `k mod 144` once the type of day has changed, and `(k+1) mod
144` before. -/
theorem C68_day_types_partial (m : Markov Nat) (N n : Nat) (wd we : List (List (List Rat))) (labels : List Nat) (t0 : Int)
    (hi : Initialised m N n (matsFor wd we t0) labels) (hwd : IsTpms n wd ∧ wd.length = 144) (hwe : IsTpms n we ∧ we.length = 144) (h0 : t0 % DAY = 0)
    (uss : List (List Rat)) (hu : ∀ us ∈ uss, Draws N us) (k : Nat) (us : List Rat) (hk : uss[k]? = some us) :
    ∃ (a b : Markov Nat) (da db : Bool) (i : Nat),
      Markov.crestRun (fun d => (if d then wd else we, labels)) 0 600000000 t0 (decide (onWeekday t0), m) (uss.take k) = .ok (da, a) ∧
      Markov.crestRun (fun d => (if d then wd else we, labels)) 0 600000000 t0 (decide (onWeekday t0), m) (uss.take (k + 1)) = .ok (db, b) ∧
      b.labels = labels ∧ b.states.length = N ∧
      (∀ h < N, Sampled (rowOf (matsFor wd we (t0 + ((k - 1) / 144 : Nat) * DAY)) i (a.states.getD h 0)) (us.getD h 0) (b.states.getD h 0)) ∧
      ((∀ d ≤ (k - 1) / 144, (onWeekday (t0 + (d : Nat) * DAY) ↔ onWeekday t0)) → i = (k + 1) % 144) ∧
      ((∃ d ≤ (k - 1) / 144, ¬ (onWeekday (t0 + (d : Nat) * DAY) ↔ onWeekday t0)) → i = k % 144) := by
  have hw : ∀ t, Markov.crestWeekday t = decide (onWeekday t) := by
    intro t
    unfold Markov.crestWeekday onWeekday isoWeekday weekday
    apply decide_eq_decide.2
    omega
  have hm : ∀ t, (if Markov.crestWeekday t = true then wd else we) = matsFor wd we t := by
    intro t
    rw [hw]
    unfold matsFor
    simp only [decide_eq_true_eq]
  have hch : ∀ d, Markov.changed t0 d ↔ ∃ d' ≤ d, ¬ (onWeekday (t0 + (d' : Nat) * DAY) ↔ onWeekday t0) := by
    intro d
    unfold Markov.changed
    refine exists_congr fun d' => and_congr_right fun _ => ?_
    rw [hw, hw, Ne, decide_eq_decide]
  have g : Markov.Good m N n (if Markov.crestWeekday t0 = true then wd else we) := by
    rw [hm]; exact ⟨hi.tpms, hi.cdfs, hi.nPersons, hi.valid⟩
  have hkl : k < uss.length := (List.getElem?_eq_some_iff.1 hk).1
  have hd : ∀ d : Bool, IsTpms n (if d = true then wd else we) := by
    intro d; cases d
    · exact hwe.1
    · exact hwd.1
  have hmlen : ∀ t, (matsFor wd we t).length = 144 := by
    intro t; unfold matsFor; split
    · exact hwd.2
    · exact hwe.2
  obtain ⟨a, ra, la, ga, pa, pa'⟩ := Markov.crest_state labels hi.labs hi.distinct hi.nLabels (fun d => if d = true then wd else we) hd t0 h0 g hi.pos uss hu k (by omega)
  obtain ⟨b, rb, lb, gb, pb, pb''⟩ := Markov.crest_state labels hi.labs hi.distinct hi.nLabels (fun d => if d = true then wd else we) hd t0 h0 g hi.pos uss hu (k + 1) (by omega)
  obtain ⟨b', rb', gb', pb', lb', -, hs⟩ := Markov.good_step ga us (hu us (List.mem_of_getElem? hk))
  have hst : b.states = b'.states := by
    have hrun : Markov.crestRun (fun d => (if d = true then wd else we, labels)) 0 600000000 t0 (Markov.crestWeekday t0, m) (uss.take (k + 1)) =
        Markov.crestStep (fun d => (if d = true then wd else we, labels)) 0 600000000 (t0 + k * 600000000) (Markov.crestWeekday (t0 + ((k - 1) / 144 : Nat) * DAY), a) us := by
      rw [List.take_add_one, hk, Markov.crestRun_append, ra]
      show Markov.crestRun _ _ _ _ _ [us] = _
      rw [List.length_take, Nat.min_eq_left (by omega)]
      simp only [Markov.crestRun]
      cases Markov.crestStep (fun d => (if d = true then wd else we, labels)) 0 600000000 (t0 + k * 600000000) (Markov.crestWeekday (t0 + ((k - 1) / 144 : Nat) * DAY), a) us <;> rfl
    rw [hrun] at rb
    unfold Markov.crestStep at rb
    simp only [rb', bind, Except.bind] at rb
    split at rb
    · split at rb
      · obtain ⟨m', s1, s2, s3, s4, s5⟩ := Markov.set_good gb' labels (by rw [lb', la]) hi.distinct hi.nLabels _ (hd (Markov.crestWeekday (t0 + k * 600000000 + 600000000)))
        rw [s1] at rb
        injection rb with rb
        rw [Prod.mk.injEq] at rb
        rw [← rb.2, s5]
      · injection rb with rb
        rw [Prod.mk.injEq] at rb
        rw [← rb.2]
    · injection rb with rb
      rw [Prod.mk.injEq] at rb
      rw [← rb.2]
  rw [← hw]
  refine ⟨a, b, _, _, a.pos % 144, ra, rb, lb, by rw [hst, gb'.len], ?_, ?_, ?_⟩
  · rw [hst]
    simp only [hm, hmlen] at hs
    exact hs
  · intro h
    rw [pa (by rw [hch]; rintro ⟨d, h1, h2⟩; exact h2 (h d h1))]
  · intro h
    exact pa' ((hch _).2 h)

/-- All transitions except the first after midnight use the matrices of the right type of day. -/
theorem C68_right_type (t0 : Int) (h0 : t0 % DAY = 0) (k : Nat) (hk : k % 144 ≠ 0) :
    onWeekday (t0 + ((k - 1) / 144 : Nat) * DAY) ↔ onWeekday (t0 + k * 600000000) := by
  unfold onWeekday weekday dayNumber
  have : (t0 + ((k - 1) / 144 : Nat) * DAY) / DAY = (t0 + k * 600000000) / DAY := by unfold DAY at *; omega
  rw [this]

/-- **C68 (counterexample).** The transition from Saturday 00:00 uses the weekday matrices: day 0 being a Monday, step 720 from Monday 00:00. -/
theorem C68_midnight_counterexample : onWeekday (0 + ((720 - 1) / 144 : Nat) * DAY) ∧ ¬ onWeekday (0 + (720 : Nat) * 600000000) ∧ (0 + ((720 : Nat) : Int) * 600000000) % DAY = 0 := by
  decide +kernel

/-! ## C72: the clock of the sparse simulators -/

/-- **C72 (partial).** A time-aware sparse simulator with start time `t0`, initialised and stepped `n` times: its clock is ahead of `t0 + n` steps by
the slot of the start time (the steps made in the initialisation), although the households are in the slot of `t0 + n` steps. -/
theorem C72_clock_partial (load : Option DayClass → Except PyErr (SparseTPM × List Nat)) (fuel : Nat) (s s0 s' : SparseSim) (uss0 uss : List (List Rat))
    (ha : s.aware = true) (hu : uss0.length = (startTimeStep s.time).toNat) (h0 : s.initialise load fuel uss0 = .ok s0) (h1 : s0.run load fuel uss = .ok s') :
    s'.time = s.time + uss.length * 600000000 + startTimeStep s.time * 600000000 ∧
    ((s'.timeStep % 144 : Nat) : Int) = startTimeStep (s.time + uss.length * 600000000) := by
  obtain ⟨k1, k2, k3, -, -⟩ := C44_time_slot s.time
  unfold SparseSim.initialise at h0
  simp only [if_pos ha] at h0
  cases hd : s.updateNewDay load with
  | error e => rw [hd] at h0; cases h0
  | ok s1 =>
    rw [hd] at h0
    obtain ⟨u1, u2, u3, u4, u5, -⟩ := SparseSim.updateNewDay_clock load s s1 hd
    have h0' : SparseSim.run load fuel ({ s1 with timeStep := 0 } : SparseSim) (uss0.take (startTimeStep s.time).toNat) = .ok s0 := by
      simp only [bind, Except.bind, u3, ha, if_true, u1] at h0
      simp only [u3, ha, u1]
      exact h0
    rw [List.take_of_length_le (by omega)] at h0'
    obtain ⟨r1, r2, r3, -, -⟩ := SparseSim.run_clock load fuel _ _ _ (by simp only [u3, ha]) h0'
    obtain ⟨q1, q2, q3, -, -⟩ := SparseSim.run_clock load fuel _ _ _ r3 h1
    simp only [u1] at r1
    have hlen : ((uss0.length : Nat) : Int) = startTimeStep s.time := by rw [hu]; omega
    refine ⟨by rw [q1, r1, hlen]; ring, ?_⟩
    have hslot : ∀ j : Nat, startTimeStep (s.time + j * 600000000) = (startTimeStep s.time + j) % 144 := by
      intro j
      induction j with
      | zero => simp; omega
      | succ j ih =>
        have := (C44_time_slot (s.time + j * 600000000)).2.2.2.2
        have e : s.time + ((j + 1 : Nat) : Int) * 600000000 = s.time + j * 600000000 + 600000000 := by push_cast; ring
        rw [e, this, ih]; push_cast; omega
    rw [hslot, q2, r2]
    push_cast
    rw [hlen]
    simp

/-- **C72 (partial, the day).** Under the hypotheses of `C72_clock_partial`, when the next step is at 4 am of the simulated time, it loads the matrices of some
day `d`; `d` is the simulated day iff the start time is between 04:00 and 23:50; for the other start times it is the day
after. -/
theorem C72_day_partial (load : Option DayClass → Except PyErr (SparseTPM × List Nat)) (fuel : Nat) (s s0 s' s'' : SparseSim) (uss0 uss : List (List Rat)) (us : List Rat)
    (ha : s.aware = true) (hu : uss0.length = (startTimeStep s.time).toNat) (h0 : s.initialise load fuel uss0 = .ok s0) (h1 : s0.run load fuel uss = .ok s')
    (h2 : s'.step load fuel us = .ok s'') (h4 : 4 * HOUR ≤ (s.time + uss.length * 600000000) % DAY ∧ (s.time + uss.length * 600000000) % DAY < 4 * HOUR + 600000000) :
    ∃ t, s''.dayClass = SparseSim.dayClassOf s'.nDays s'.useQuarters s'.dayClass t ∧
      ((4 * HOUR ≤ s.time % DAY ∧ s.time % DAY < 24 * HOUR - 600000000) → dayNumber t = dayNumber (s.time + uss.length * 600000000)) ∧
      (¬ (4 * HOUR ≤ s.time % DAY ∧ s.time % DAY < 24 * HOUR - 600000000) → dayNumber t = dayNumber (s.time + uss.length * 600000000) + 1) := by
  obtain ⟨c1, c2⟩ := C72_clock_partial load fuel s s0 s' uss0 uss ha hu h0 h1
  obtain ⟨k1, k2, k3, -, -⟩ := C44_time_slot s.time
  have hz := (C44_time_slot (s.time + uss.length * 600000000)).2.2.2.1.2 h4
  rw [hz] at c2
  have hmod : s'.timeStep % 144 = 0 := by omega
  have haw : s'.aware = true := by
    unfold SparseSim.initialise at h0
    simp only [if_pos ha] at h0
    cases hd : s.updateNewDay load with
    | error e => rw [hd] at h0; cases h0
    | ok s1 =>
      rw [hd] at h0
      obtain ⟨u1, u2, u3, u4, u5, -⟩ := SparseSim.updateNewDay_clock load s s1 hd
      have h0' : SparseSim.run load fuel ({ s1 with timeStep := 0 } : SparseSim) (uss0.take (startTimeStep s.time).toNat) = .ok s0 := by
        simp only [bind, Except.bind, u3, ha, if_true, u1] at h0
        simp only [u3, ha, u1]
        exact h0
      obtain ⟨r1, r2, r3, -, -⟩ := SparseSim.run_clock load fuel _ _ _ (by simp only [u3, ha]) h0'
      exact (SparseSim.run_clock load fuel _ _ _ r3 h1).2.2.1
  obtain ⟨-, -, -, -, -, d⟩ := SparseSim.step_clock load fuel s' s'' us haw h2
  rw [if_pos hmod] at d
  refine ⟨s'.time + 600000000, d, ?_, ?_⟩
  · intro h
    rw [c1, k1]
    unfold dayNumber HOUR DAY at *
    omega
  · intro h
    rw [c1, k1]
    unfold dayNumber HOUR DAY at *
    omega

/-- An example: a start on Sunday (day 6) at 03:50: after one step it is Sunday 04:00, and the next step loads the matrices of Monday. -/
example : (do
      let s ← ({ exampleSparse with states := [], time := 6 * DAY + 3 * HOUR + 3000000000 } : SparseSim).initialise (fun _ => .ok (exampleTpm, [0, 5, 8])) 1 (List.replicate 143 [])
      let s ← s.run (fun _ => .ok (exampleTpm, [0, 5, 8])) 1 [[]]
      let s ← s.step (fun _ => .ok (exampleTpm, [0, 5, 8])) 1 []
      Except.ok (s.dayClass, startTimeStep s.time)) = .ok (some { weekday := .list [1, 2, 3, 4, 5], quarter := none }, 0) := by decide +kernel

/-- **C72 (counterexample).** For a start on Sunday at 03:50, the matrices used from Sunday 04:00 are those of the weekdays, not those of the weekend. -/
theorem C72_wrong_day_counterexample :
    ∃ t : Int, isoWeekday (t + 600000000) = 7 ∧ startTimeStep (t + 600000000) = 0 ∧
      SparseSim.dayClassOf 2 false none (t + 600000000 + startTimeStep t * 600000000 + 600000000) = some { weekday := .list [1, 2, 3, 4, 5], quarter := none } ∧
      SparseSim.dayClassOf 2 false none (t + 600000000) = some { weekday := .list [6, 7], quarter := none } :=
  ⟨6 * DAY + 3 * HOUR + 3000000000, by decide +kernel⟩

/-- **C72 (the day class).** The matrices loaded for a time: with weekend days, those of the weekdays (`[1, 2, 3, 4, 5]`) from Monday to Friday and of the weekend (`[6, 7]`)
on Saturday and Sunday; with seven days, those of the day of the week (1 for Monday); without, no distinction (0). Day number 0 is a Monday. -/
theorem C72_day_class (useQuarters : Bool) (old : Option DayClass) (t : Int) :
    (∃ q, SparseSim.dayClassOf 0 useQuarters old t = some ⟨.int 0, q⟩) ∧
    (t / 86400000000 % 7 ∈ ([0, 1, 2, 3, 4] : List Int) → ∃ q, SparseSim.dayClassOf 2 useQuarters old t = some ⟨.list [1, 2, 3, 4, 5], q⟩) ∧
    (t / 86400000000 % 7 ∈ ([5, 6] : List Int) → ∃ q, SparseSim.dayClassOf 2 useQuarters old t = some ⟨.list [6, 7], q⟩) ∧
    (∃ q, SparseSim.dayClassOf 7 useQuarters old t = some ⟨.int (t / 86400000000 % 7 + 1), q⟩) := by
  have e : (isoWeekday t : Int) = t / 86400000000 % 7 + 1 := by
    unfold isoWeekday dayNumber DAY
    omega
  refine ⟨⟨_, rfl⟩, fun h => ?_, fun h => ?_, ?_⟩
  · simp only [List.mem_cons, List.not_mem_nil, or_false] at h
    have h5 : isoWeekday t ≤ 5 := by omega
    simp [SparseSim.dayClassOf, h5]
  · simp only [List.mem_cons, List.not_mem_nil, or_false] at h
    have h5 : ¬ isoWeekday t ≤ 5 := by omega
    simp [SparseSim.dayClassOf, h5]
  · simp [SparseSim.dayClassOf, e]

/-- **C72 (the quarter, partial).** With quarters, the quarter loaded in month `m` is `q` with `3 q < m ≤ 3 q + 3`: one less than the documented quarter (1 to 4). Missing: the
documented quarter. -/
theorem C72_quarter_partial (nDays : Nat) (old : Option DayClass) (t : Int) (c : DayClass) (h : SparseSim.dayClassOf nDays true old t = some c) :
    ∃ q, c.quarter = some q ∧ 3 * q < (dateAt t).month ∧ ((dateAt t).month : Int) ≤ 3 * q + 3 := by
  unfold SparseSim.dayClassOf at h
  obtain ⟨w, -, hw⟩ := Option.map_eq_some_iff.1 h
  refine ⟨(((dateAt t).month : Int) - 1) / 3, by rw [← hw]; rfl, ?_, ?_⟩ <;> omega

/-- **C72 (counterexample, the quarter).** In April (the second quarter) the matrices of quarter 1 are loaded, in January those of "quarter 0". -/
theorem C72_quarter_counterexample :
    (dateAt (100 * 86400000000)).month = 4 ∧ SparseSim.dayClassOf 0 true none (100 * 86400000000) = some ⟨.int 0, some 1⟩ ∧
    (dateAt 0).month = 1 ∧ SparseSim.dayClassOf 0 true none 0 = some ⟨.int 0, some 0⟩ := by decide +kernel

end Demod
