import Verif.Lemmas.Climate

/-!
# Properties of the climate simulators: C62, C63, C80
-/

namespace Demod

section Crest

variable {S V A : Type}

/-- **C62, partial.** A CREST climate simulator created at any start can be stepped minute after minute as long as the month does not change, provided that the temperatures of each day can be computed from the irradiances of the day (C82: there is daylight): there is always an irradiance and a
temperature, and the clock advances. Missing: the ends of the months (`C62_month_end_counterexample`). -/
theorem C62_within_a_month_partial (C : ClimateOps S V A) (start : Int) (hs : 0 ≤ start) (irr : S) (arma : A)
    (hday : ∀ (a : A) (d : Nat), ∃ ts, C.stepDay a ((List.range 1440).map fun k => C.irradiance (C.irrStep^[1440 * d + k] irr)) ((List.range 1440).map fun k => C.clearness (C.irrStep^[1440 * d + k] irr)) = .ok ts ∧ ts.length = 1440) (n : Nat)
    (hmonth : ∀ k : Nat, k < n → (dateAt (start + (k + 1) * MINUTE)).month = (dateAt (start + k * MINUTE)).month) :
    ∃ s s', C.create start irr arma = .ok s ∧ s.clock = start ∧ C.run n s = .ok s' ∧ s'.clock = start + n * MINUTE ∧
      s'.irradiance.isSome ∧ s'.temperature.isSome := by
  obtain ⟨s, h1, hinv⟩ := climate_create hday hs arma
  have hb : 0 ≤ dayNumber start * DAY + start % MINUTE := by unfold dayNumber DAY MINUTE; omega
  have hb' : (dayNumber start * DAY + start % MINUTE) % DAY < MINUTE := by unfold dayNumber DAY MINUTE; omega
  have hstart : dayNumber start * DAY + start % MINUTE + ((start % DAY / MINUTE).toNat : Int) * MINUTE = start := by unfold dayNumber DAY MINUTE; omega
  obtain ⟨s', h2, hinv'⟩ := climate_run_ok hday hb hb' n _ s hinv (fun k hk => by
    have := hmonth k hk
    have e : dayNumber start * DAY + start % MINUTE + (((start % DAY / MINUTE).toNat + k : Nat) : Int) * MINUTE = start + k * MINUTE := by
      push_cast; linarith
    rw [e, show start + k * MINUTE + MINUTE = start + (k + 1) * MINUTE by ring]
    exact this)
  refine ⟨s, s', h1, by rw [hinv.1, hstart], h2, ?_, by rw [hinv'.2.2.2.2.1]; rfl, hinv'.2.2.2.2.2⟩
  rw [hinv'.1]; push_cast; linarith

/-- The full statement of C62: the same without the condition on the months. -/
def C62_full : Prop :=
  ∀ (S V A : Type) (C : ClimateOps S V A),
    ∀ (start : Int), 0 ≤ start → ∀ (irr : S) (arma : A),
    (∀ (a : A) (d : Nat), ∃ ts, C.stepDay a ((List.range 1440).map fun k => C.irradiance (C.irrStep^[1440 * d + k] irr)) ((List.range 1440).map fun k => C.clearness (C.irrStep^[1440 * d + k] irr)) = .ok ts ∧ ts.length = 1440) → ∀ (n : Nat), ∃ s s', C.create start irr arma = .ok s ∧ C.run n s = .ok s'

/-- **C62, every end of a month.** Whatever the data, a simulation in which the month changes ends with `StopIteration`: `on_before_next_day` is not called then (C06). -/
theorem C62_month_end (C : ClimateOps S V A) (start : Int) (hs : 0 ≤ start) (irr : S) (arma : A)
    (hday : ∀ (a : A) (d : Nat), ∃ ts, C.stepDay a ((List.range 1440).map fun k => C.irradiance (C.irrStep^[1440 * d + k] irr)) ((List.range 1440).map fun k => C.clearness (C.irrStep^[1440 * d + k] irr)) = .ok ts ∧ ts.length = 1440) (n : Nat)
    (hmonth : ∃ k : Nat, k < n ∧ (dateAt (start + (k + 1) * MINUTE)).month ≠ (dateAt (start + k * MINUTE)).month) :
    ∃ s, C.create start irr arma = .ok s ∧ C.run n s = .error .stopIteration := by
  obtain ⟨s, h1, hinv⟩ := climate_create hday hs arma
  refine ⟨s, h1, ?_⟩
  have hb : 0 ≤ dayNumber start * DAY + start % MINUTE := by unfold dayNumber DAY MINUTE; omega
  have hb' : (dayNumber start * DAY + start % MINUTE) % DAY < MINUTE := by unfold dayNumber DAY MINUTE; omega
  have hstart : dayNumber start * DAY + start % MINUTE + ((start % DAY / MINUTE).toNat : Int) * MINUTE = start := by unfold dayNumber DAY MINUTE; omega
  classical
  obtain ⟨k, ⟨hk, hkm⟩, hmin⟩ : ∃ k : Nat, (k < n ∧ (dateAt (start + (k + 1) * MINUTE)).month ≠ (dateAt (start + k * MINUTE)).month) ∧
      ∀ k' < k, ¬ (k' < n ∧ (dateAt (start + (k' + 1) * MINUTE)).month ≠ (dateAt (start + k' * MINUTE)).month) :=
    ⟨Nat.find hmonth, Nat.find_spec hmonth, fun k' h => Nat.find_min hmonth h⟩
  obtain ⟨s', h2, hinv'⟩ := climate_run_ok hday hb hb' k _ s hinv (fun k' hk' => by
    have := hmin k' hk'
    have e : dayNumber start * DAY + start % MINUTE + (((start % DAY / MINUTE).toNat + k' : Nat) : Int) * MINUTE = start + k' * MINUTE := by
      push_cast; linarith
    rw [e, show start + k' * MINUTE + MINUTE = start + (k' + 1) * MINUTE by ring]
    by_contra hne
    exact this ⟨by omega, hne⟩)
  have hclock : s'.clock = start + k * MINUTE := by rw [hinv'.1]; push_cast; linarith
  have herr := climate_step_error hb hb' hinv' (by rw [hclock, show start + k * MINUTE + MINUTE = start + (k + 1) * MINUTE by ring]; exact hkm)
  obtain ⟨m, rfl⟩ : ∃ m, n = k + (m + 1) := ⟨n - k - 1, by omega⟩
  rw [climate_run_append, h2]
  change ClimateOps.run C (m + 1) s' = _
  simp only [ClimateOps.run, herr]
  rfl

/-- A climate without weather. -/
def demoClimate : ClimateOps Int Int Unit where
  irrStep := fun t => t + MINUTE
  irradiance := id
  clearness := fun _ => 1
  newDay := fun _ a => a
  stepDay := fun _ irrs _ => .ok irrs

theorem demoClimate_ok (x : Int) : ∀ (a : Unit) (d : Nat), ∃ ts, demoClimate.stepDay a ((List.range 1440).map fun k => demoClimate.irradiance (demoClimate.irrStep^[1440 * d + k] x))
    ((List.range 1440).map fun k => demoClimate.clearness (demoClimate.irrStep^[1440 * d + k] x)) = .ok ts ∧ ts.length = 1440 :=
  fun _ _ => ⟨_, rfl, by rw [List.length_map, List.length_range]⟩

/-- The hypotheses of `C62_within_a_month_partial` hold of three days of January 0001. -/
example : ∀ k : Nat, k < 4320 → (dateAt (14400000000 + (k + 1) * MINUTE)).month = (dateAt (14400000000 + k * MINUTE)).month := by
  intro k hk
  have h : ∀ t : Int, 0 ≤ t → t < 5 * DAY → (dateAt t).month = 1 := by
    intro t h0 h1
    clear hk
    have : dayNumber t = 0 ∨ dayNumber t = 1 ∨ dayNumber t = 2 ∨ dayNumber t = 3 ∨ dayNumber t = 4 := by unfold dayNumber DAY at *; omega
    unfold dateAt
    rcases this with h | h | h | h | h <;> rw [h] <;> decide
  rw [h _ (by unfold MINUTE; omega) (by unfold MINUTE DAY; omega), h _ (by unfold MINUTE; omega) (by unfold MINUTE DAY; omega)]

theorem C62_month_end_counterexample : ¬ C62_full := by
  intro h
  obtain ⟨s, s', h1, h2⟩ := h Int Int Unit demoClimate (31 * DAY - MINUTE) (by decide) 0 () (demoClimate_ok 0) 1
  obtain ⟨s1, h1', h2'⟩ := C62_month_end demoClimate (31 * DAY - MINUTE) (by decide) 0 () (demoClimate_ok 0) 1 ⟨0, by omega, by
    have e1 : dayNumber (31 * DAY - MINUTE + ((0 : Nat) + 1) * MINUTE) = 31 := by decide
    have e2 : dayNumber (31 * DAY - MINUTE + (0 : Nat) * MINUTE) = 30 := by decide
    unfold dateAt
    rw [e1, e2]; decide +kernel⟩
  rw [h1] at h1'
  cases h1'
  rw [h2] at h2'
  cases h2'

/-- **C80, in general.** The irradiance that the climate simulator returns is the one that its irradiance simulator has when that simulator's clock, which also started at `start`, is ahead by the time of the day (in whole minutes) at which the simulation started. -/
theorem C80_shift (C : ClimateOps S V A) (clockOf : S → Int) (hclock : ∀ s, clockOf (C.irrStep s) = clockOf s + MINUTE)
    (start : Int) (hs : 0 ≤ start) (irr : S) (h0 : clockOf irr = start) (arma : A)
    (hday : ∀ (a : A) (d : Nat), ∃ ts, C.stepDay a ((List.range 1440).map fun k => C.irradiance (C.irrStep^[1440 * d + k] irr)) ((List.range 1440).map fun k => C.clearness (C.irrStep^[1440 * d + k] irr)) = .ok ts ∧ ts.length = 1440) (n : Nat)
    (hmonth : ∀ k : Nat, k < n → (dateAt (start + (k + 1) * MINUTE)).month = (dateAt (start + k * MINUTE)).month) :
    ∃ s s' x, C.create start irr arma = .ok s ∧ C.run n s = .ok s' ∧ s'.irradiance = some (C.irradiance x) ∧ (∃ j : Nat, x = C.irrStep^[j] irr) ∧
      clockOf x = s'.clock + start % DAY / MINUTE * MINUTE := by
  obtain ⟨s, h1, hinv⟩ := climate_create hday hs arma
  have hb : 0 ≤ dayNumber start * DAY + start % MINUTE := by unfold dayNumber DAY MINUTE; omega
  have hb' : (dayNumber start * DAY + start % MINUTE) % DAY < MINUTE := by unfold dayNumber DAY MINUTE; omega
  have hstart : dayNumber start * DAY + start % MINUTE + ((start % DAY / MINUTE).toNat : Int) * MINUTE = start := by unfold dayNumber DAY MINUTE; omega
  obtain ⟨s', h2, hinv'⟩ := climate_run_ok hday hb hb' n _ s hinv (fun k hk => by
    have := hmonth k hk
    have e : dayNumber start * DAY + start % MINUTE + (((start % DAY / MINUTE).toNat + k : Nat) : Int) * MINUTE = start + k * MINUTE := by
      push_cast; linarith
    rw [e, show start + k * MINUTE + MINUTE = start + (k + 1) * MINUTE by ring]
    exact this)
  refine ⟨s, s', _, h1, h2, hinv'.2.2.2.2.1, ⟨_, rfl⟩, ?_⟩
  have hit : ∀ (j : Nat) (x : S), clockOf (C.irrStep^[j] x) = clockOf x + j * MINUTE := by
    intro j
    induction j with
    | zero => intro x; simp
    | succ j ih => intro x; rw [Function.iterate_succ_apply, ih, hclock]; push_cast; ring
  rw [hit, h0, hinv'.1]
  have hnn : ((start % DAY / MINUTE).toNat : Int) = start % DAY / MINUTE := by
    unfold DAY MINUTE; omega
  push_cast
  rw [hnn] at hstart ⊢
  linarith

/-- **C80, partial.** A simulation that starts at midnight returns at each time the irradiance of that time (as its irradiance simulator computes it). Missing: other starts (`C80_counterexample`). -/
theorem C80_midnight_partial (C : ClimateOps S V A) (clockOf : S → Int) (hclock : ∀ s, clockOf (C.irrStep s) = clockOf s + MINUTE)
    (start : Int) (hs : 0 ≤ start) (hmid : start % DAY = 0) (irr : S) (h0 : clockOf irr = start) (arma : A)
    (hday : ∀ (a : A) (d : Nat), ∃ ts, C.stepDay a ((List.range 1440).map fun k => C.irradiance (C.irrStep^[1440 * d + k] irr)) ((List.range 1440).map fun k => C.clearness (C.irrStep^[1440 * d + k] irr)) = .ok ts ∧ ts.length = 1440) (n : Nat)
    (hmonth : ∀ k : Nat, k < n → (dateAt (start + (k + 1) * MINUTE)).month = (dateAt (start + k * MINUTE)).month) :
    ∃ s s' x, C.create start irr arma = .ok s ∧ C.run n s = .ok s' ∧ s'.irradiance = some (C.irradiance x) ∧ (∃ j : Nat, x = C.irrStep^[j] irr) ∧ clockOf x = s'.clock := by
  obtain ⟨s, s', x, h1, h2, h3, h4, h5⟩ := C80_shift C clockOf hclock start hs irr h0 arma hday n hmonth
  refine ⟨s, s', x, h1, h2, h3, h4, ?_⟩
  rw [h5, hmid]; simp

/-- The full statement of C80: the irradiance is always that of the current time. -/
def C80_full : Prop :=
  ∀ (S V A : Type) (C : ClimateOps S V A),
    ∀ (clockOf : S → Int), (∀ s, clockOf (C.irrStep s) = clockOf s + MINUTE) →
    ∀ (start : Int), 0 ≤ start → ∀ (irr : S), clockOf irr = start → ∀ (arma : A),
    (∀ (a : A) (d : Nat), ∃ ts, C.stepDay a ((List.range 1440).map fun k => C.irradiance (C.irrStep^[1440 * d + k] irr)) ((List.range 1440).map fun k => C.clearness (C.irrStep^[1440 * d + k] irr)) = .ok ts ∧ ts.length = 1440) → 
    ∃ s x, C.create start irr arma = .ok s ∧ s.irradiance = some (C.irradiance x) ∧ clockOf x = s.clock

/-- **C80, negation.** A simulation that starts at 4:00 (the default of the load simulator) shows the irradiance of 8:00. -/
theorem C80_counterexample : ¬ C80_full := by
  intro h
  obtain ⟨s, x, h1, h2, h3⟩ := h Int Int Unit demoClimate id (fun _ => rfl) (4 * HOUR) (by decide) (4 * HOUR) rfl () (demoClimate_ok _)
  obtain ⟨s1, s', y, h1', h2', h3', -, h5'⟩ := C80_shift demoClimate id (fun _ => rfl) (4 * HOUR) (by decide) (4 * HOUR) rfl () (demoClimate_ok _) 0 (by intro k hk; omega)
  rw [h1] at h1'
  cases h1'
  cases h2'
  rw [h2] at h3'
  have hxy : x = y := by simpa [demoClimate] using h3'
  subst hxy
  rw [h3] at h5'
  unfold HOUR DAY MINUTE at h5'
  omega

end Crest

section Historical

variable {V : Type}

/-- **C63 (loading).** Of data on a regular grid, `load_historical_climate_data` returns what was measured from the last point that is not after the requested start on. -/
theorem C63_load {d0 step start : Int} (hstep : 0 < step) (v : Nat → V) {i N : Nat} (hi : i < N) (h1 : d0 + i * step ≤ start) (h2 : start < d0 + (i + 1) * step)
    (hl : start ≤ d0 + ((N - 1 : Nat) : Int) * step) :
    loadHistory step start (grid d0 step v N) = .ok ((grid d0 step v N).drop i) := by
  rw [load_grid hstep v hi h1 h2 hl]
  refine congrArg Except.ok ?_
  unfold grid
  rw [← List.map_drop]
  obtain ⟨m, rfl⟩ := Nat.exists_eq_add_of_le hi.le
  rw [List.range_add, List.drop_left' (by simp), List.map_map, Nat.add_sub_cancel_left]
  refine List.map_congr_left fun k _ => ?_
  simp only [Function.comp]
  push_cast
  rw [add_mul, add_assoc]

/-- **C63 (loading after the end).** A start after the last point, even within the interval that it stands for, raises `ValueError`. -/
theorem C63_load_end {d0 step start : Int} (v : Nat → V) {N : Nat} (hN : 0 < N) (h : d0 + ((N - 1 : Nat) : Int) * step < start) :
    loadHistory step start (grid d0 step v N) = .error .valueError := by
  have hlast : (grid d0 step v N).getLast? = some (d0 + ((N - 1 : Nat) : Int) * step, v (N - 1)) := by
    obtain ⟨M, rfl⟩ : ∃ M, N = M + 1 := ⟨N - 1, by omega⟩
    simp [grid, List.range_succ]
  unfold loadHistory
  rw [hlast]
  simp only
  rw [if_pos (by omega)]

/-- **C63 (real climate), partial.** For a naive start in the data, after `n` steps the climate simulator has the clock `start + n * step` and returns what was measured last before or at this time; when there is no such point left it raises `StopIteration`.
Missing: starts with a time zone (`C63_time_zone_counterexample`, `C63_time_zone_east`, `C63_time_zone_west`). -/
theorem C63_real_partial {d0 step start : Int} (hstep : 0 < step) (v : Nat → V) {i N : Nat} (hi : i < N) (h1 : d0 + i * step ≤ start) (h2 : start < d0 + (i + 1) * step)
    (hl : start ≤ d0 + ((N - 1 : Nat) : Int) * step) (n : Nat) :
    ∃ s, RealClimate.create step 0 start (grid d0 step v N) = .ok s ∧ s.clock = start ∧
      (i + n < N → ∃ s', RealClimate.run step n s = .ok s' ∧ s'.clock = start + n * step ∧ s'.value = v (i + n) ∧
        d0 + ((i + n : Nat) : Int) * step ≤ s'.clock ∧ s'.clock < d0 + ((i + n + 1 : Nat) : Int) * step) ∧
      (N ≤ i + n → RealClimate.run step n s = .error .stopIteration) := by
  have hc := real_create (off := 0) (d0 := d0) (start := start) hstep v hi (by omega) (by rw [sub_zero]; exact h2) (by omega)
  have e : start - (d0 + i * step) < step := by linarith
  rw [if_neg (by omega), Int.ediv_eq_zero_of_lt (by omega) e, Int.emod_eq_of_lt (by omega) e, show d0 + i * step + (start - (d0 + i * step)) = start by ring] at hc
  refine ⟨_, hc, rfl, fun hn => ?_, fun hn => ?_⟩
  · obtain ⟨s', h3, h4, h5, -⟩ := (real_run step n ⟨start, (List.range (N - i - 1)).map (fun k => v (i + 1 + k)), v i⟩).1 (v (i + n)) (by
      cases n with
      | zero => simp
      | succ n =>
        simp only [List.getElem?_cons_succ, List.getElem?_map]
        rw [List.getElem?_range (by omega)]
        simp; congr 1; omega)
    refine ⟨s', h3, h5, h4, ?_, ?_⟩
    · rw [h5]; push_cast; linarith
    · rw [h5]; push_cast; linarith
  · refine (real_run step n _).2 ?_
    rw [List.getElem?_eq_none]
    simp
    omega

example : (0 : Int) + (1 : Nat) * HOUR ≤ 4000000000 ∧ (4000000000 : Int) < 0 + ((1 : Nat) + 1) * HOUR ∧ (1 : Nat) + 2 < 24 := by decide

/-- The full statement of C63 for a start in a time zone that is `off` ahead of UTC, the time in which the data is: the simulator returns what was measured last before or at the current time. -/
def C63_real_full : Prop :=
  ∀ (off d0 step start : Int), 0 < step → ∀ (v : Nat → Int) (i N : Nat), i < N → d0 + i * step ≤ start - off → start - off < d0 + (i + 1) * step →
    start - off ≤ d0 + ((N - 1 : Nat) : Int) * step → ∃ s, RealClimate.create step off start (grid d0 step v N) = .ok s ∧ s.value = v i

/-- **C63, time zones east of Greenwich.** The data is that of `m` points later when the time zone is `m` points ahead of UTC. -/
theorem C63_time_zone_east {d0 step start : Int} (hstep : 0 < step) (v : Nat → V) {i N m : Nat} (hi : i + m < N) (h1 : d0 + i * step ≤ start - m * step) (h2 : start - m * step < d0 + (i + 1) * step)
    (hl : start - m * step ≤ d0 + ((N - 1 : Nat) : Int) * step) :
    ∃ s, RealClimate.create step (m * step) start (grid d0 step v N) = .ok s ∧ s.clock = start ∧ s.value = v (i + m) := by
  have hm : 0 ≤ (m : Int) * step := by positivity
  have hc := real_create (off := m * step) hstep v (show i < N by omega) h1 h2 hl
  obtain ⟨r, hr⟩ : ∃ r, r = start - m * step - (d0 + i * step) := ⟨_, rfl⟩
  have e : start - (d0 + i * step) = r + m * step := by rw [hr]; ring
  have hr0 : 0 ≤ r := by omega
  have hr1 : r < step := by rw [hr]; linarith
  rw [if_neg (by omega), e, Int.add_mul_ediv_right _ _ hstep.ne', Int.add_mul_emod_self_right, Int.ediv_eq_zero_of_lt hr0 hr1, Int.emod_eq_of_lt hr0 hr1] at hc
  simp only [zero_add, Int.toNat_natCast] at hc
  obtain ⟨s', h3, h4, h5, -⟩ := (real_run step m ⟨d0 + i * step + r, (List.range (N - i - 1)).map (fun k => v (i + 1 + k)), v i⟩).1 (v (i + m)) (by
      cases m with
      | zero => simp
      | succ m =>
        simp only [List.getElem?_cons_succ, List.getElem?_map]
        rw [List.getElem?_range (by omega)]
        simp; congr 1; omega)
  refine ⟨s', hc.trans h3, ?_, h4⟩
  rw [h5, hr]; ring

/-- **C63, time zones west of Greenwich.** A start whose time zone is at least one point behind UTC raises `ValueError`, although there is data. -/
theorem C63_time_zone_west {off d0 step start : Int} (hstep : 0 < step) (hoff : off ≤ -step) (v : Nat → V) {i N : Nat} (hi : i < N) (h1 : d0 + i * step ≤ start - off) (h2 : start - off < d0 + (i + 1) * step)
    (hl : start - off ≤ d0 + ((N - 1 : Nat) : Int) * step) :
    RealClimate.create step off start (grid d0 step v N) = .error .valueError := by
  rw [real_create hstep v hi h1 h2 hl, if_pos]
  linarith

/-- **C63, negation.** At 2:00 in a time zone one hour ahead of UTC, hourly data is that of 2:00 UTC and not that of 1:00 UTC. -/
theorem C63_time_zone_counterexample : ¬ C63_real_full := by
  intro h
  obtain ⟨s, h1, h2⟩ := h HOUR 0 HOUR (2 * HOUR) (by decide) (fun k => k) 1 24 (by decide) (by decide) (by decide) (by decide)
  obtain ⟨s', h3, -, h4⟩ := C63_time_zone_east (d0 := 0) (step := HOUR) (start := 2 * HOUR) (by decide) (fun k => (k : Int)) (i := 1) (N := 24) (m := 1) (by decide) (by decide) (by decide) (by decide)
  rw [show ((1 : Nat) : Int) * HOUR = HOUR by decide, h1] at h3
  cases h3
  rw [h2] at h4
  exact absurd h4 (by decide)

/-- **C63 (interpolation).** Between two successive data points the interpolated value is on the line between them, hence between the two values; at a data point it is the value of this point. -/
theorem C63_interpolation (pts : List (Rat × Rat)) (hs : pts.Pairwise (fun a b => a.1 < b.1)) (k : Nat) (a b : Rat × Rat) (ha : pts[k]? = some a) (hb : pts[k + 1]? = some b)
    (x : Rat) (h1 : a.1 ≤ x) (h2 : x ≤ b.1) :
    ∃ y, interpolate pts x = .ok y ∧ (y - a.2) * (b.1 - a.1) = (b.2 - a.2) * (x - a.1) ∧ min a.2 b.2 ≤ y ∧ y ≤ max a.2 b.2 ∧ (x = a.1 → y = a.2) ∧ (x = b.1 → y = b.2) := by
  have hab : a.1 < b.1 := by
    obtain ⟨hk, hka⟩ := List.getElem?_eq_some_iff.1 ha
    obtain ⟨hk', hkb⟩ := List.getElem?_eq_some_iff.1 hb
    have := List.pairwise_iff_getElem.1 hs k (k + 1) hk hk' (by omega)
    rwa [hka, hkb] at this
  have hne : b.1 - a.1 ≠ 0 := by linarith
  have hpos : 0 < b.1 - a.1 := by linarith
  have hy : a.2 + (b.2 - a.2) / (b.1 - a.1) * (x - a.1) = a.2 + (b.2 - a.2) * ((x - a.1) / (b.1 - a.1)) := by
    rw [div_mul_eq_mul_div, mul_div_assoc]
  have hbet := between a.2 b.2 ((x - a.1) / (b.1 - a.1)) (div_nonneg (by linarith) hpos.le) ((div_le_one₀ hpos).2 (by linarith))
  refine ⟨_, interpolate_spec k pts hs a b ha hb x h1 h2, ?_, ?_, ?_, ?_, ?_⟩
  · rw [add_sub_cancel_left, mul_right_comm, div_mul_cancel₀ _ hne]
  · rw [hy]; exact hbet.1
  · rw [hy]; exact hbet.2
  · intro h; rw [h]; ring
  · intro h; rw [h, div_mul_cancel₀ _ hne]; ring

/-- **C63 (interpolated climate).** For data with a point every `b` minutes and any start (in any time zone `off`) with `d0 + i * step ≤` start, after `n` steps of any size the interpolated climate has the clock `start + n * stepSize` and returns the value on the line between
the two points around this time (whole minutes, in UTC). Missing: starts in time zones west of Greenwich, for which the creation can fail (`C63_interpolated_west_counterexample`). -/
theorem C63_interpolated_partial {off start d0 b stepSize : Int} (hb : 0 < b) (hss : 0 ≤ stepSize) (v : Nat → Rat) {i N : Nat} (hi : i + 1 < N)
    (h1 : d0 * MINUTE + i * (b * MINUTE) ≤ start - off) (h2 : start - off < d0 * MINUTE + (i + 1) * (b * MINUTE)) (hz : d0 * MINUTE + i * (b * MINUTE) ≤ start)
    (n k : Nat) (hk : i + k + 1 < N) (hk1 : d0 * MINUTE + ((i + k : Nat) : Int) * (b * MINUTE) ≤ start - off + n * stepSize)
    (hk2 : start - off + n * stepSize ≤ d0 * MINUTE + ((i + k + 1 : Nat) : Int) * (b * MINUTE)) :
    ∃ s s' y, InterpolatedClimate.create (b * MINUTE) stepSize off start (grid (d0 * MINUTE) (b * MINUTE) v N) = .ok s ∧ s.clock = start ∧
      InterpolatedClimate.run n s = .ok s' ∧ s'.clock = start + n * stepSize ∧ s'.get = .ok y ∧
      (y - v (i + k)) * b = (v (i + k + 1) - v (i + k)) * (((start - off + n * stepSize) / MINUTE - (d0 + ((i + k : Nat) : Int) * b) : Int) : Rat) ∧
      min (v (i + k)) (v (i + k + 1)) ≤ y ∧ y ≤ max (v (i + k)) (v (i + k + 1)) := by
  have hN : ((i + k + 1 : Nat) : Int) ≤ ((N - 1 : Nat) : Int) := by omega
  have hbM : 0 < b * MINUTE := mul_pos hb (by decide)
  have hn : 0 ≤ (n : Int) * stepSize := by positivity
  have hle : ((i + k + 1 : Nat) : Int) * (b * MINUTE) ≤ ((N - 1 : Nat) : Int) * (b * MINUTE) := by nlinarith
  have hc := interp_create hb stepSize v (show i < N by omega) h1 h2 (by omega)
  rw [if_neg (by omega)] at hc
  obtain ⟨s, hs⟩ : ∃ s, s = InterpolatedClimate.mk start off stepSize (d0 + i * b) ((d0 + ((N - 1 : Nat) : Int) * b) * MINUTE) ((List.range (N - i)).map fun (j : Nat) => (((j * b : Int) : Rat), v (i + j))) := ⟨_, rfl⟩
  rw [← hs] at hc
  have hrun := (interp_run n s (by rw [hs]; exact hss)).1 (by
    rw [hs]
    simp only
    rw [add_mul, mul_assoc]
    omega)
  have hbQ : (0 : Rat) < b := by exact_mod_cast hb
  have hd1 : d0 + ((i + k : Nat) : Int) * b ≤ (start - off + n * stepSize) / MINUTE := by
    rw [Int.le_ediv_iff_mul_le (by decide), add_mul, mul_assoc]; exact hk1
  have hd2 : (start - off + n * stepSize) / MINUTE ≤ d0 + ((i + k + 1 : Nat) : Int) * b := by
    have : (start - off + n * stepSize) / MINUTE ≤ ((d0 + ((i + k + 1 : Nat) : Int) * b) * MINUTE) / MINUTE :=
      Int.ediv_le_ediv (by decide) (by rw [add_mul, mul_assoc]; exact hk2)
    rwa [Int.mul_ediv_cancel _ (by decide)] at this
  obtain ⟨y, hy, hy1, hy2, hy3, -, -⟩ := C63_interpolation s.points (by
      rw [hs]
      simp only
      rw [List.pairwise_map]
      refine List.Pairwise.imp ?_ (List.pairwise_lt_range (n := N - i))
      intro p q hpq
      have : (p : Int) < q := by omega
      simp only
      exact_mod_cast mul_lt_mul_of_pos_right this hb) k (((k * b : Int) : Rat), v (i + k)) ((((k + 1 : Nat) * b : Int) : Rat), v (i + (k + 1)))
    (by rw [hs]; simp only [List.getElem?_map]; rw [List.getElem?_range (by omega)]; rfl)
    (by rw [hs]; simp only [List.getElem?_map]; rw [List.getElem?_range (by omega)]; rfl)
    (((start - off + n * stepSize) / MINUTE - (d0 + i * b) : Int) : Rat)
    (by simp only; exact_mod_cast (by push_cast at hd1; linarith : (k : Int) * b ≤ (start - off + n * stepSize) / MINUTE - (d0 + i * b)))
    (by simp only; exact_mod_cast (by push_cast at hd2; push_cast; linarith : (start - off + n * stepSize) / MINUTE - (d0 + i * b) ≤ ((k + 1 : Nat) : Int) * b))
  refine ⟨s, _, y, hc, by rw [hs], hrun, by rw [hs], ?_, ?_, ?_, ?_⟩
  · unfold InterpolatedClimate.get
    rw [← hy]
    congr 2
    rw [hs]
    simp only
    congr 2
    ring
  · simp only at hy1
    rw [show i + k + 1 = i + (k + 1) by omega]
    have e1 : (((k + 1 : Nat) * b : Int) : Rat) - ((k * b : Int) : Rat) = b := by push_cast; ring
    rw [e1] at hy1
    rw [hy1]
    push_cast
    ring
  · exact hy2
  · exact hy3

/-- **C63 (end of the interpolated data).** The step in which the clock passes the last data point raises `ValueError`. -/
theorem C63_interpolated_end {off start d0 b stepSize : Int} (hb : 0 < b) (hss : 0 ≤ stepSize) (v : Nat → Rat) {i N : Nat} (hi : i < N)
    (h1 : d0 * MINUTE + i * (b * MINUTE) ≤ start - off) (h2 : start - off < d0 * MINUTE + (i + 1) * (b * MINUTE)) (hz : d0 * MINUTE + i * (b * MINUTE) ≤ start)
    (hl : start - off ≤ d0 * MINUTE + ((N - 1 : Nat) : Int) * (b * MINUTE)) (n : Nat) (hn : d0 * MINUTE + ((N - 1 : Nat) : Int) * (b * MINUTE) < start - off + n * stepSize) :
    ∃ s, InterpolatedClimate.create (b * MINUTE) stepSize off start (grid (d0 * MINUTE) (b * MINUTE) v N) = .ok s ∧ InterpolatedClimate.run n s = .error .valueError := by
  have hc := interp_create hb stepSize v hi h1 h2 hl
  rw [if_neg (by omega)] at hc
  refine ⟨_, hc, (interp_run n _ hss).2 ?_ ?_⟩
  · simp only; rw [add_mul, mul_assoc]; exact hl
  · simp only; rw [add_mul, mul_assoc]; exact hn

/-- **C63 (interpolated climate), time zones west of Greenwich.** A start whose time zone is at least one point behind UTC raises `ValueError`, although there is data. -/
theorem C63_interpolated_west_counterexample {off start d0 b stepSize : Int} (hb : 0 < b) (hoff : off ≤ -(b * MINUTE)) (v : Nat → Rat) {i N : Nat} (hi : i < N)
    (h1 : d0 * MINUTE + i * (b * MINUTE) ≤ start - off) (h2 : start - off < d0 * MINUTE + (i + 1) * (b * MINUTE))
    (hl : start - off ≤ d0 * MINUTE + ((N - 1 : Nat) : Int) * (b * MINUTE)) :
    InterpolatedClimate.create (b * MINUTE) stepSize off start (grid (d0 * MINUTE) (b * MINUTE) v N) = .error .valueError := by
  have hc := interp_create hb stepSize v hi h1 h2 hl
  rwa [if_pos (by linarith)] at hc

example : (0 : Int) * MINUTE + (1 : Nat) * (60 * MINUTE) ≤ 4000000000 - 0 ∧ (4000000000 : Int) - 0 < 0 * MINUTE + ((1 : Nat) + 1) * (60 * MINUTE) := by decide

end Historical

end Demod
