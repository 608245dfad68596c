import Verif.Lemmas.Time
import Verif.Lemmas.Calendar

/-!
# C03, C06, C07: the simulated clock and the callbacks
-/

namespace Demod
variable {σ ι V : Type}

/-! ## C03 -/

/-- A python `datetime.time` lies within a day. -/
def InitTime.Valid : InitTime → Prop
  | .time tod => 0 ≤ tod ∧ tod < DAY
  | _ => True

/-- **C03 (initialization time).** A time of day is resolved to the latest instant with
that time of day not after the start; a datetime is taken as it is and rejected with a
`ValueError` exactly if it is after the start; by default the start itself is used;
other types are rejected. -/
theorem C03_initialization_time (current : Int) :
    (∀ tod, 0 ≤ tod → tod < DAY → ∃ d, initDatetime current (.time tod) = .ok d ∧
      timeOfDay d = tod ∧ d ≤ current ∧ ∀ d', timeOfDay d' = tod → d' ≤ current → d' ≤ d) ∧
    (∀ t, t ≤ current → initDatetime current (.datetime t) = .ok t) ∧
    (∀ t, current < t → initDatetime current (.datetime t) = .error .valueError) ∧
    initDatetime current .none = .ok current ∧
    initDatetime current .other = .error .notImplementedError := by
  refine ⟨?_, ?_, ?_, rfl, rfl⟩
  · intro tod h0 h1
    by_cases h : dayNumber current * DAY + tod > current
    · refine ⟨dayNumber current * DAY + tod - DAY, by simp [initDatetime, h], ?_⟩
      unfold timeOfDay dayNumber DAY at *
      refine ⟨by omega, by omega, ?_⟩
      intro d' h2 h3; omega
    · refine ⟨dayNumber current * DAY + tod, by simp [initDatetime, h], ?_⟩
      unfold timeOfDay dayNumber DAY at *
      refine ⟨by omega, by omega, ?_⟩
      intro d' h2 h3; omega
  · intro t h; simp [initDatetime]; omega
  · intro t h; simp [initDatetime]; omega

theorem initDatetime_le {current d : Int} {init : InitTime} (hv : init.Valid)
    (h : initDatetime current init = .ok d) : d ≤ current := by
  have key := C03_initialization_time current
  cases init with
  | none => cases h; simp
  | other => cases h
  | datetime t =>
    by_cases ht : t ≤ current
    · rw [key.2.1 t ht] at h; cases h; exact ht
    · rw [key.2.2.1 t (by omega)] at h; cases h
  | time tod =>
    obtain ⟨d', h1, _, h3, _⟩ := key.1 tod hv.1 hv.2
    rw [h1] at h; cases h; exact h3

/-- **C03 (clock).** For every time-aware simulator (any derived class `C`), positive
step size, initialization time and logger: if the initialisation succeeds, the clock
shows the start time again, the warm-up made exactly as many whole steps as fit between
the initialization time and the start, and after any further steps the clock shows
`start + n * step_size`. -/
theorem C03_clock (C : SimClass σ ι V) (ofTime : Int → V) (step : Int) (hstep : 0 < step)
    (s s1 : SimState (σ × Int) V) (init : InitTime) (hv : init.Valid) (arg : ι)
    (h : taInitialise (timeAware C ofTime step) step s init arg = .ok s1) :
    s1.own.2 = s.own.2 ∧
    (∃ d, initDatetime s.own.2 init = .ok d ∧
      d + s1.timeStep * step ≤ s.own.2 ∧ s.own.2 < d + (s1.timeStep + 1) * step) ∧
    ∀ inputs s2, (timeAware C ofTime step).run s1 inputs = .ok s2 →
      s2.own.2 = s.own.2 + inputs.length * step ∧ s2.timeStep = s1.timeStep + inputs.length := by
  unfold taInitialise at h
  cases hd : initDatetime s.own.2 init with
  | error e => simp only [hd] at h; cases h
  | ok d =>
    simp only [hd, bind, Except.bind, if_neg (show step ≠ 0 by omega)] at h
    obtain ⟨hn, ho, ht⟩ := initialise_own _ h
    have hle := initDatetime_le hv hd
    have hnn : 0 ≤ s.own.2 - d := by omega
    rw [Int.tdiv_eq_ediv_of_nonneg hnn] at ho ht hn
    rw [Int.fmod_eq_emod_of_nonneg _ (by omega)] at ho
    rw [ownAfter_time] at ho
    have h1 : s1.own.2 = s.own.2 := by
      rw [ho]
      simp only [List.length_replicate]
      rw [Int.toNat_of_nonneg hn]
      have := Int.ediv_mul_add_emod (s.own.2 - d) step
      omega
    have hts : (s1.timeStep : Int) = (s.own.2 - d) / step := by rw [ht]; exact Int.toNat_of_nonneg hn
    refine ⟨h1, ⟨d, rfl, ?_, ?_⟩, ?_⟩
    · rw [hts]
      have := Int.ediv_mul_add_emod (s.own.2 - d) step
      have := Int.emod_nonneg (s.own.2 - d) (show step ≠ 0 by omega)
      omega
    · rw [hts, Int.add_mul]
      have := Int.ediv_mul_add_emod (s.own.2 - d) step
      have := Int.emod_lt_of_pos (s.own.2 - d) hstep
      omega
    · intro inputs s2 hr
      obtain ⟨h2, h3⟩ := run_own _ _ hr
      rw [ownAfter_time] at h2
      exact ⟨by rw [h2]; simp [h1], h3⟩

/-- **C03 (no spurious failure).** Without a logger, a positive step size and an
initialization time not after the start, the initialisation and all later steps succeed. -/
theorem C03_no_failure (C : SimClass σ ι V) (ofTime : Int → V) (step : Int) (hstep : 0 < step)
    (s : SimState (σ × Int) V) (hl : s.logger = none) (init : InitTime) (hv : init.Valid) (arg : ι)
    (d : Int) (hd : initDatetime s.own.2 init = .ok d) (inputs : List ι) :
    ∃ s1 s2, taInitialise (timeAware C ofTime step) step s init arg = .ok s1 ∧
      (timeAware C ofTime step).run s1 inputs = .ok s2 := by
  have hle := initDatetime_le hv hd
  have hnn : 0 ≤ s.own.2 - d := by omega
  have hq : 0 ≤ (s.own.2 - d).tdiv step := Int.tdiv_nonneg hnn (by omega)
  obtain ⟨s1, h1, h2⟩ := run_ok_nolog (timeAware C ofTime step)
    (List.replicate ((s.own.2 - d).tdiv step).toNat arg)
    { own := (s.own.1, d + (s.own.2 - d).fmod step), timeStep := 0, cache := s.cache, logger := s.logger } hl
  obtain ⟨s2, h3, _⟩ := run_ok_nolog (timeAware C ofTime step) inputs s1 h2
  refine ⟨s1, s2, ?_, h3⟩
  unfold taInitialise
  simp only [hd, bind, Except.bind, if_neg (show step ≠ 0 by omega), SimClass.initialise]
  rw [if_neg (by omega), h1]
  cases s1
  simp_all [SimClass.visit]

/-- A derived class that counts its steps. -/
def stepCounter : SimClass Nat Nat Nat :=
  { attr := fun _ => none, cached := fun _ => false, sum := id, before := fun i s => s + i, after := fun _ s => s }

/-- Non-vacuity for C03: initialised for 04:00, started at 06:30, steps of one hour: two
warm-up steps, the clock is back at 06:30, and at 09:30 three steps later. -/
example : ∃ s1 s2 : SimState (Nat × Int) Nat,
    taInitialise (timeAware stepCounter (fun _ => 0) HOUR) HOUR
      { own := (0, 6 * HOUR + HOUR / 2), timeStep := 0, cache := Dict.empty, logger := none }
      (.time (4 * HOUR)) 1 = .ok s1 ∧ s1.own = (2, 6 * HOUR + HOUR / 2) ∧
    (timeAware stepCounter (fun _ => 0) HOUR).run s1 [1, 1, 1] = .ok s2 ∧
    s2.own = (5, 9 * HOUR + HOUR / 2) := ⟨_, _, rfl, by decide, rfl, by decide⟩

/-! ## C06 -/

/-- **C06 (calendar).** The dates by which the callbacks detect a new day are those of the Gregorian
calendar: during the whole day that is `daysBefore y m d` days after 0001-01-01 the date is
`y-m-d`. -/
theorem C06_calendar (y m d : Nat) (hy : 1 ≤ y) (hm : 1 ≤ m ∧ m ≤ 12) (hd : 1 ≤ d ∧ d ≤ monthLength y m)
    (t : Int) (h1 : (daysBefore y m d : Int) * DAY ≤ t) (h2 : t < ((daysBefore y m d : Int) + 1) * DAY) :
    dateAt t = ⟨y, m, d⟩ := by
  have : dayNumber t = daysBefore y m d := by
    unfold dayNumber; unfold DAY at *; omega
  unfold dateAt
  rw [this]
  exact dateOf_daysBefore y m d hy hm hd

/-- 2000-02-29 and 2000-03-01; python's `date(2000, 3, 1).toordinal()` is 730180. -/
example : daysBefore 2000 2 29 = 730178 ∧ daysBefore 2000 3 1 = 730179 ∧ monthLength 2000 2 = 29 ∧ monthLength 1900 2 = 28 := by decide

/-- A step from `t` of size `step` reaches or passes a midnight. -/
def CrossesMidnight (t step : Int) : Prop := ∃ m : Int, t < m * DAY ∧ m * DAY ≤ t + step

theorem crosses_iff (t step : Int) :
    CrossesMidnight t step ↔ dayNumber t < dayNumber (t + step) := by
  unfold CrossesMidnight dayNumber DAY
  constructor
  · rintro ⟨m, h1, h2⟩; omega
  · intro h; exact ⟨t / 86400000000 + 1, by omega, by omega⟩

/-- **C06 (after).** With steps shorter than a day, `on_after_next_day` is called exactly
in the steps that reach or pass a midnight, at every date. -/
theorem C06_after_next_day (t step : Int) (ht : 0 ≤ t) (h0 : 0 < step) (h1 : step < DAY) :
    firesAfterNextDay t step = true ↔ CrossesMidnight t step := by
  rw [crosses_iff t step]
  rcases dayNumber_add t step h0 h1 with h | h
  · simp [firesAfterNextDay, dateAt_same h, h]
  · have hne : (dateAt (t + step)).day ≠ (dateAt t).day := by
      rw [dateAt_next ht h]
      have hval := dateOf_valid (dayNumber t).toNat
      have h28 := daysInMonth_ge (dateAt t).year (dateAt t).month
      unfold Date.next
      split
      · simp
      · rename_i hlt
        split <;> simp only [dateAt] at * <;> omega
    simp [firesAfterNextDay, hne, h]

/-- **C06 (after, counting).** Over any number of steps the number of calls is the
number of midnights passed. -/
theorem C06_after_next_day_count (t step : Int) (ht : 0 ≤ t) (h0 : 0 < step) (h1 : step < DAY)
    (n : Nat) :
    (countFires firesAfterNextDay step t n : Int) = dayNumber (t + n * step) - dayNumber t := by
  induction n generalizing t with
  | zero => simp [countFires]
  | succ n ih =>
    have hih := ih (t + step) (by omega)
    have hf := C06_after_next_day t step ht h0 h1
    rw [crosses_iff t step] at hf
    have he : t + ((n + 1 : Nat) : Int) * step = t + step + n * step := by
      rw [Int.natCast_add, Int.add_mul]; simp; omega
    rw [he]
    simp only [countFires, Int.natCast_add, hih]
    rcases dayNumber_add t step h0 h1 with h | h
    · have : firesAfterNextDay t step = false := by
        cases hb : firesAfterNextDay t step with
        | false => rfl
        | true => have := hf.1 hb; omega
      simp [this]; omega
    · have : firesAfterNextDay t step = true := hf.2 (by omega)
      simp [this]; omega

/-- Full property C06 for `before_next_day`: it fires exactly at midnight crossings.
It is **false** (see `C06_before_next_day_counterexample`). -/
def C06_before_full : Prop :=
  ∀ t step, 0 ≤ t → 0 < step → step < DAY →
    (firesBeforeNextDay t step = true ↔ CrossesMidnight t step)

/-- **C06 (before), partial.** `on_before_next_day` is called exactly in the steps that
cross a midnight that is not the end of a month.  Missing: the month ends, where the
code does not call it. -/
theorem C06_before_next_day_partial (t step : Int) (ht : 0 ≤ t) (h0 : 0 < step) (h1 : step < DAY) :
    firesBeforeNextDay t step = true ↔
      CrossesMidnight t step ∧ (dateAt t).day < daysInMonth (dateAt t).year (dateAt t).month := by
  rw [crosses_iff t step]
  rcases dayNumber_add t step h0 h1 with h | h
  · simp [firesBeforeNextDay, dateAt_same h, h]
  · have hval := dateOf_valid (dayNumber t).toNat
    simp only [firesBeforeNextDay, dateAt_next ht h, h, decide_eq_true_eq]
    have hvd : 1 ≤ (dateAt t).day := hval.1
    unfold Date.next
    split
    · rename_i hlt
      constructor
      · intro _; exact ⟨by omega, hlt⟩
      · intro _; simp
    · rename_i hlt
      split <;> (constructor <;> intro hx <;> (try simp only at hx) <;> omega)

/-- **C06 (before), every month end is missed.** -/
theorem C06_before_next_day_misses_month_end (t step : Int) (ht : 0 ≤ t) (h0 : 0 < step)
    (h1 : step < DAY) (hm : (dateAt t).day = daysInMonth (dateAt t).year (dateAt t).month) :
    firesBeforeNextDay t step = false := by
  cases hb : firesBeforeNextDay t step with
  | false => rfl
  | true => have := (C06_before_next_day_partial t step ht h0 h1).1 hb; omega

/-- **C06 (before), negation of the full property**: 31 January, 23:59, steps of a minute. -/
theorem C06_before_next_day_counterexample : ¬ C06_before_full := by
  intro h
  have h1 := h (31 * DAY - 60000000) 60000000 (by decide) (by decide) (by decide)
  have h2 : CrossesMidnight (31 * DAY - 60000000) 60000000 := ⟨31, by decide, by decide⟩
  have hd : dayNumber (31 * DAY - 60000000) = 30 := by decide
  have h3 : firesBeforeNextDay (31 * DAY - 60000000) 60000000 = false :=
    C06_before_next_day_misses_month_end _ _ (by decide) (by decide) (by decide)
      (by simp only [dateAt, hd]; decide +kernel)
  rw [h3] at h1
  exact absurd (h1.2 h2) (by decide)

/-- Non-vacuity for C06: 23:59 on 2 January crosses midnight in a one-minute step, and both
callbacks fire. -/
example : CrossesMidnight (2 * DAY - 60000000) 60000000 ∧
    firesAfterNextDay (2 * DAY - 60000000) 60000000 = true ∧
    firesBeforeNextDay (2 * DAY - 60000000) 60000000 = true :=
  ⟨⟨2, by decide, by decide⟩, by decide, by decide⟩

/-! ## C07 -/

/-- A step from `t` of size `step` reaches or passes a 4 am. -/
def Crosses4am (t step : Int) : Prop := ∃ m : Int, t < m * DAY + 4 * HOUR ∧ m * DAY + 4 * HOUR ≤ t + step

/-- **C07 (4 am).** With steps of at most one hour the 4 am callbacks (before and after)
are called exactly in the steps that reach or pass 4 am. -/
theorem C07_4am (t step : Int) (h0 : 0 < step) (h1 : step ≤ HOUR) :
    (firesBeforeNextDay4am t step = true ↔ Crosses4am t step) ∧
    (firesAfterNextDay4am t step = true ↔ Crosses4am t step) := by
  have hcr : Crosses4am t step ↔ (t - 4 * HOUR) / DAY < (t + step - 4 * HOUR) / DAY := by
    unfold Crosses4am DAY HOUR
    constructor
    · rintro ⟨m, h2, h3⟩; omega
    · intro h; exact ⟨(t - 4 * 3600000000) / 86400000000 + 1, by omega, by omega⟩
  have key : (hourOf (t + step) = 4 ∧ hourOf t ≠ 4) ↔ (t - 4 * HOUR) / DAY < (t + step - 4 * HOUR) / DAY := by
    unfold hourOf timeOfDay DAY HOUR at *
    omega
  rw [hcr, ← key]
  simp [firesBeforeNextDay4am, firesAfterNextDay4am]

/-- **C07 (4 am, counting).** Over any number of steps of at most one hour, the number of
calls is the number of 4 am instants passed: exactly one per day. -/
theorem C07_4am_count (t step : Int) (h0 : 0 < step) (h1 : step ≤ HOUR) (n : Nat) :
    (countFires firesBeforeNextDay4am step t n : Int)
      = (t + n * step - 4 * HOUR) / DAY - (t - 4 * HOUR) / DAY ∧
    countFires firesAfterNextDay4am step t n = countFires firesBeforeNextDay4am step t n := by
  induction n generalizing t with
  | zero => simp [countFires]
  | succ n ih =>
    obtain ⟨hih, hih2⟩ := ih (t + step)
    have he : t + ((n + 1 : Nat) : Int) * step = t + step + n * step := by
      rw [Int.natCast_add, Int.add_mul]; simp; omega
    have hsame : firesAfterNextDay4am t step = firesBeforeNextDay4am t step := rfl
    refine ⟨?_, by simp only [countFires, hsame, hih2]⟩
    rw [he]
    simp only [countFires, Int.natCast_add, hih]
    generalize ht' : (t + step + (n : Int) * step - 4 * HOUR) / DAY = x
    have hf := (C07_4am t step h0 h1).1
    cases hb : firesBeforeNextDay4am t step with
    | true =>
      obtain ⟨m, h2, h3⟩ := hf.1 hb
      unfold DAY HOUR at *
      simp; omega
    | false =>
      have hn : ¬ Crosses4am t step := by
        intro hc; rw [hf.2 hc] at hb; cases hb
      have : (t - 4 * HOUR) / DAY = (t + step - 4 * HOUR) / DAY := by
        by_cases h : (t - 4 * HOUR) / DAY < (t + step - 4 * HOUR) / DAY
        · exfalso; apply hn
          unfold DAY HOUR at *
          exact ⟨(t - 4 * 3600000000) / 86400000000 + 1, by unfold DAY HOUR; omega, by unfold DAY HOUR; omega⟩
        · unfold DAY HOUR at *; omega
      simp; omega

/-- **C07 (4 am), larger steps.** With steps above one hour the 4 am callback can be missed
(3:30 → 5:30), and with steps of one day it is never called. -/
theorem C07_4am_large_steps :
    (Crosses4am (3 * HOUR + HOUR / 2) (2 * HOUR) ∧
      firesBeforeNextDay4am (3 * HOUR + HOUR / 2) (2 * HOUR) = false) ∧
    (∀ t n, countFires firesBeforeNextDay4am DAY t n = 0) := by
  refine ⟨⟨⟨0, by decide, by decide⟩, by decide⟩, ?_⟩
  intro t n
  induction n generalizing t with
  | zero => rfl
  | succ n ih =>
    have : firesBeforeNextDay4am t DAY = false := by
      have : hourOf (t + DAY) = hourOf t := by unfold hourOf timeOfDay DAY HOUR; omega
      simp only [firesBeforeNextDay4am, this]
      cases h : (hourOf t == 4) <;> simp_all
    simp [countFires, this, ih]

/-- **C07 (refresh time).** The refresh callbacks are called exactly in the steps that start
at the refresh time of day. -/
theorem C07_refresh (refresh t step : Int) :
    (firesBeforeRefresh refresh t step = true ↔ timeOfDay t = refresh) ∧
    (firesAfterRefresh refresh t step = true ↔ timeOfDay t = refresh) := by
  simp [firesBeforeRefresh, firesAfterRefresh]

/-- **C07 (refresh time, counting).** If the clock meets the refresh time (`t - refresh` is a
multiple of the step) and the step divides the day, then over any number of steps the
number of calls is the number of refresh instants in `[t, t + n * step)`: exactly one
per day. -/
theorem C07_refresh_count (refresh t step : Int) (hr0 : 0 ≤ refresh) (hr1 : refresh < DAY)
    (h0 : 0 < step) (hdiv : step ∣ DAY) (hal : step ∣ t - refresh) (n : Nat) :
    (countFires (firesBeforeRefresh refresh) step t n : Int)
      = (t + n * step - refresh - 1) / DAY - (t - refresh - 1) / DAY := by
  induction n generalizing t with
  | zero => simp [countFires]
  | succ n ih =>
    have hal' : step ∣ t + step - refresh := by
      have : t + step - refresh = (t - refresh) + step := by omega
      rw [this]; exact Int.dvd_add hal (Int.dvd_refl _)
    have hih := ih (t + step) hal'
    have he : t + ((n + 1 : Nat) : Int) * step = t + step + n * step := by
      rw [Int.natCast_add, Int.add_mul]; simp; omega
    rw [he]
    simp only [countFires, Int.natCast_add, hih]
    generalize (t + step + (n : Int) * step - refresh - 1) / DAY = x
    -- the next refresh instant is not strictly inside the step
    obtain ⟨k, hk⟩ := hal
    obtain ⟨q, hq⟩ := hdiv
    have hstep : (t + step - refresh - 1) / DAY = (t - refresh - 1) / DAY + (if timeOfDay t = refresh then 1 else 0) := by
      have hmod : (t - refresh) % DAY = step * (k % q) := by
        rw [hk, hq, Int.mul_emod_mul_of_pos _ _ h0]
      have hqpos : 0 < q := by
        by_cases hqn : q ≤ 0
        · have := Int.mul_nonpos_of_nonneg_of_nonpos (show (0:Int) ≤ step by omega) hqn
          unfold DAY at hq; omega
        · omega
      have hkq0 := Int.emod_nonneg k (show q ≠ 0 by omega)
      have hkq1 := Int.emod_lt_of_pos k hqpos
      have hle : step * (k % q) + step ≤ DAY := by
        have h5 : step * (k % q + 1) ≤ step * q := Int.mul_le_mul_of_nonneg_left (by omega) (by omega)
        rw [Int.mul_add, ← hq] at h5; omega
      have hge : k % q ≠ 0 → step ≤ step * (k % q) := by
        intro hne
        have h5 : step * 1 ≤ step * (k % q) := Int.mul_le_mul_of_nonneg_left (by omega) (by omega)
        omega
      have htod : timeOfDay t = refresh ↔ k % q = 0 := by
        constructor
        · intro h
          by_cases hz : k % q = 0
          · exact hz
          · have := hge hz
            unfold timeOfDay DAY at *; omega
        · intro hz
          rw [hz] at hmod
          unfold timeOfDay DAY at *; omega
      by_cases hz : k % q = 0
      · rw [if_pos (htod.2 hz)]
        rw [hz] at hmod hle
        unfold DAY at *; omega
      · rw [if_neg (fun h => hz (htod.1 h))]
        have := hge hz
        unfold DAY at *; omega
    rw [hstep]
    by_cases hb : timeOfDay t = refresh
    · have : firesBeforeRefresh refresh t step = true := (C07_refresh refresh t step).1.2 hb
      simp [this, hb]; omega
    · have : firesBeforeRefresh refresh t step = false := by
        cases h : firesBeforeRefresh refresh t step with
        | false => rfl
        | true => exact absurd ((C07_refresh refresh t step).1.1 h) hb
      simp [this, hb]

/-- **C07 (refresh time never met).** If the step divides the day but the clock is not
aligned with the refresh time, the callback is never called. -/
theorem C07_refresh_misaligned (refresh t step : Int)
    (hdiv : step ∣ DAY) (hal : ¬ step ∣ t - refresh) (n : Nat) :
    countFires (firesBeforeRefresh refresh) step t n = 0 := by
  induction n generalizing t with
  | zero => rfl
  | succ n ih =>
    have h1 : ¬ step ∣ t + step - refresh := by
      intro h
      have h2 : t - refresh = (t + step - refresh) - step := by omega
      exact hal (h2 ▸ Int.dvd_sub h (Int.dvd_refl _))
    have h2 : firesBeforeRefresh refresh t step = false := by
      cases h : firesBeforeRefresh refresh t step with
      | false => rfl
      | true =>
        exfalso; apply hal
        have h3 := (C07_refresh refresh t step).1.1 h
        have h4 : t - refresh = DAY * (t / DAY) := by
          have := Int.mul_ediv_add_emod t DAY
          unfold timeOfDay at h3; omega
        rw [h4]; exact Int.dvd_trans hdiv (Int.dvd_mul_right _ _)
    simp [countFires, h2, ih _ h1]

/-- Non-vacuity for C07: 10-minute steps from 03:50, refresh at 04:00, two days: two calls. -/
example : (600000000 : Int) ∣ DAY ∧ (600000000 : Int) ∣ (4 * HOUR - 600000000) - 4 * HOUR ∧
    firesBeforeRefresh (4 * HOUR) (4 * HOUR) 600000000 = true ∧
    Crosses4am (4 * HOUR - 600000000) 600000000 ∧
    ((4 * HOUR - 600000000) + 288 * 600000000 - 4 * HOUR - 1) / DAY
      - ((4 * HOUR - 600000000) - 4 * HOUR - 1) / DAY = 2 :=
  ⟨by decide, by decide, by decide, ⟨0, by decide, by decide⟩, by decide⟩

end Demod
