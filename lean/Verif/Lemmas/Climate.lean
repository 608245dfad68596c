import Verif.Spec.Climate
import Verif.Props.Time
import Mathlib.Tactic.Linarith
import Mathlib.Tactic.Ring

namespace Demod

variable {S V A : Type}

theorem simulate_eq (C : ClimateOps S V A) : ∀ (n : Nat) (s : S),
    C.simulate n s = ((List.range n).map (fun k => C.irradiance (C.irrStep^[k] s)), (List.range n).map (fun k => C.clearness (C.irrStep^[k] s)), C.irrStep^[n] s) := by
  intro n
  induction n with
  | zero => intro s; simp [ClimateOps.simulate]
  | succ n ih =>
    intro s
    simp [ClimateOps.simulate, ih, List.range_succ_eq_map, Function.comp_def]

/-- A step over midnight stays in the month or the month changes. -/
theorem month_changes_iff {t step : Int} (ht : 0 ≤ t) (h0 : 0 < step) (h1 : step < DAY) :
    (CrossesMidnight t step ∧ ¬ (dateAt t).day < daysInMonth (dateAt t).year (dateAt t).month) ↔ (dateAt (t + step)).month ≠ (dateAt t).month := by
  rw [crosses_iff]
  have hv := dateOf_valid (dayNumber t).toNat
  rcases dayNumber_add t step h0 h1 with h | h
  · rw [dateAt_same h]; simp [h]
  · rw [dateAt_next ht h, h]
    change 1 ≤ (dateAt t).day ∧ _ at hv
    constructor
    · rintro ⟨-, hd⟩
      unfold Date.next
      rw [if_neg hd]
      split <;> simp only [] <;> omega
    · intro hm
      refine ⟨by omega, fun hd => hm ?_⟩
      unfold Date.next
      rw [if_pos hd]

/-- The state of the climate simulator `j` minutes after the midnight before its start. -/
def ClimateInv (C : ClimateOps S V A) (s0 : S) (base : Int) (j : Nat) (s : CrestClimate S V A) : Prop :=
  s.clock = base + j * MINUTE ∧ s.irr = C.irrStep^[1440 * (j / 1440 + 1)] s0 ∧
  s.irrIter = (List.range (1439 - j % 1440)).map (fun k => C.irradiance (C.irrStep^[j + 1 + k] s0)) ∧
  s.tempIter.length = 1439 - j % 1440 ∧ s.irradiance = some (C.irradiance (C.irrStep^[j] s0)) ∧ s.temperature.isSome

/-- `_step_day` returns a temperature for each minute of each of the days from `s0` on. -/
def DayOk (C : ClimateOps S V A) (s0 : S) : Prop :=
  ∀ (a : A) (d : Nat), ∃ ts, C.stepDay a ((List.range 1440).map fun k => C.irradiance (C.irrStep^[1440 * d + k] s0)) ((List.range 1440).map fun k => C.clearness (C.irrStep^[1440 * d + k] s0)) = .ok ts ∧
    ts.length = 1440

theorem onBeforeNextDay_spec {C : ClimateOps S V A} {s0 : S} (hC : DayOk C s0) (s : CrestClimate S V A) {d : Nat} (hd : s.irr = C.irrStep^[1440 * d] s0) :
    ∃ s', C.onBeforeNextDay s = .ok s' ∧ s'.clock = s.clock ∧ s'.irr = C.irrStep^[1440] s.irr ∧
      s'.irrIter = (List.range 1440).map (fun k => C.irradiance (C.irrStep^[k] s.irr)) ∧ s'.tempIter.length = 1440 := by
  obtain ⟨ts, hts, hl⟩ := hC (C.newDay s.clock s.arma) d
  have e : ∀ k, C.irrStep^[1440 * d + k] s0 = C.irrStep^[k] s.irr := by
    intro k
    rw [hd, ← Function.iterate_add_apply, Nat.add_comm]
  simp only [e] at hts
  obtain ⟨N, hN⟩ : ∃ N, N = 1440 := ⟨_, rfl⟩
  rw [← hN] at hl hts ⊢
  refine ⟨{ s with irr := C.irrStep^[N] s.irr, arma := C.newDay s.clock s.arma, irrIter := (List.range N).map (fun k => C.irradiance (C.irrStep^[k] s.irr)), tempIter := ts }, ?_, rfl, rfl, rfl, hl⟩
  unfold ClimateOps.onBeforeNextDay
  simp only [simulate_eq, show 24 * 60 = N from hN.symm, hts]
  rfl

theorem iter_congr (f : S → S) (s : S) {a b : Nat} (h : a = b) : f^[a] s = f^[b] s := by rw [h]

theorem map_range_congr {W : Type} {f g : Nat → W} {a b : Nat} (h : a = b) (hf : ∀ k, f k = g k) : (List.range a).map f = (List.range b).map g := by
  rw [h, show f = g from funext hf]

theorem nextValues_spec {s : CrestClimate S V A} {v : V} {vs : List V} (hi : s.irrIter = v :: vs) {n : Nat} (ht : s.tempIter.length = n + 1) :
    ∃ s', ClimateOps.nextValues s = .ok s' ∧ s'.clock = s.clock ∧ s'.irr = s.irr ∧ s'.irrIter = vs ∧ s'.tempIter.length = n ∧ s'.irradiance = some v ∧ s'.temperature.isSome := by
  cases htl : s.tempIter with
  | nil => simp [htl] at ht
  | cons t ts =>
    refine ⟨{ s with irrIter := vs, tempIter := ts, irradiance := some v, temperature := some t }, ?_, rfl, rfl, rfl, by simpa [htl] using ht, rfl, rfl⟩
    unfold ClimateOps.nextValues
    rw [hi, htl]

theorem climate_step_ok {C : ClimateOps S V A} {s0 : S} (hC : DayOk C s0) {base : Int} (hb : 0 ≤ base) (hb' : base % DAY < MINUTE) {j : Nat} {s : CrestClimate S V A}
    (h : ClimateInv C s0 base j s) (hm : (dateAt (s.clock + MINUTE)).month = (dateAt s.clock).month) :
    ∃ s', C.step s = .ok s' ∧ ClimateInv C s0 base (j + 1) s' := by
  obtain ⟨hc, hirr, hit, htl, hv, -⟩ := h
  have hpos : 0 ≤ s.clock := by rw [hc]; unfold MINUTE; omega
  have hfire := C06_before_next_day_partial s.clock MINUTE hpos (by decide) (by decide)
  have hmonth := (month_changes_iff (t := s.clock) (step := MINUTE) hpos (by decide) (by decide)).not.2 (not_not.2 hm)
  have hcross : CrossesMidnight s.clock MINUTE ↔ j % 1440 = 1439 := by
    rw [crosses_iff, hc]
    unfold dayNumber DAY MINUTE at *
    omega
  unfold ClimateOps.step
  by_cases hj : j % 1440 = 1439
  · have hf : firesBeforeNextDay s.clock MINUTE = true := by
      rw [hfire]
      exact ⟨hcross.2 hj, by by_contra hd; exact hmonth ⟨hcross.2 hj, hd⟩⟩
    obtain ⟨s1, h1, hc1, hi1, hit1, ht1⟩ := onBeforeNextDay_spec hC s hirr
    have hit2 : s1.irrIter = C.irradiance s.irr :: (List.range 1439).map (fun k => C.irradiance (C.irrStep^[k + 1] s.irr)) := by
      rw [hit1, show 1440 = 1439 + 1 from rfl, List.range_succ_eq_map]; simp [Function.comp_def]
    obtain ⟨s2, h2, hc2, hi2, hit2', ht2, hv2, hts2⟩ := nextValues_spec hit2 (n := 1439) ht1
    refine ⟨{ s2 with clock := s2.clock + MINUTE }, ?_, ?_, ?_, ?_, ?_, ?_, hts2⟩
    · rw [if_pos hf, h1]
      change (do let s ← ClimateOps.nextValues s1; _) = _
      rw [h2]; rfl
    · simp only [hc2, hc1, hc]; push_cast; ring
    · simp only [hi2, hi1, hirr, ← Function.iterate_add_apply]
      exact iter_congr _ _ (by omega)
    · simp only [hit2', hirr, ← Function.iterate_add_apply]
      exact map_range_congr (by omega) fun k => congrArg _ (iter_congr _ _ (by omega))
    · simp only [ht2]; omega
    · simp only [hv2, hirr]
      exact congrArg some (congrArg _ (iter_congr _ _ (by omega)))
  · have hf : firesBeforeNextDay s.clock MINUTE = false := by
      cases hb : firesBeforeNextDay s.clock MINUTE with
      | false => rfl
      | true => exact absurd (hcross.1 (hfire.1 hb).1) hj
    have hit2 : s.irrIter = C.irradiance (C.irrStep^[j + 1] s0) :: (List.range (1438 - j % 1440)).map (fun k => C.irradiance (C.irrStep^[j + 1 + 1 + k] s0)) := by
      rw [hit, show 1439 - j % 1440 = (1438 - j % 1440) + 1 by omega, List.range_succ_eq_map]
      simp only [List.map_cons, List.map_map, Function.comp_def, Nat.add_zero]
      congr 1
      refine List.map_congr_left fun k _ => ?_
      congr 2; omega
    obtain ⟨s2, h2, hc2, hi2, hit2', ht2, hv2, hts2⟩ := nextValues_spec hit2 (n := 1438 - j % 1440) (by omega)
    refine ⟨{ s2 with clock := s2.clock + MINUTE }, ?_, ?_, ?_, ?_, ?_, ?_, hts2⟩
    · rw [if_neg (by simp [hf])]
      change (do let s ← ClimateOps.nextValues s; _) = _
      rw [h2]; rfl
    · simp only [hc2, hc]; push_cast; ring
    · simp only [hi2, hirr]; exact iter_congr _ _ (by omega)
    · simp only [hit2']; exact map_range_congr (by omega) fun k => rfl
    · simp only [ht2]; omega
    · simp only [hv2]

theorem climate_step_error {C : ClimateOps S V A} {s0 : S} {base : Int} (hb : 0 ≤ base) (hb' : base % DAY < MINUTE) {j : Nat} {s : CrestClimate S V A}
    (h : ClimateInv C s0 base j s) (hm : (dateAt (s.clock + MINUTE)).month ≠ (dateAt s.clock).month) :
    C.step s = .error .stopIteration := by
  obtain ⟨hc, hirr, hit, htl, hv, -⟩ := h
  have hpos : 0 ≤ s.clock := by rw [hc]; unfold MINUTE; omega
  have hfire := C06_before_next_day_partial s.clock MINUTE hpos (by decide) (by decide)
  obtain ⟨hcr, hd⟩ := (month_changes_iff (t := s.clock) (step := MINUTE) hpos (by decide) (by decide)).2 hm
  have hj : j % 1440 = 1439 := by
    rw [crosses_iff, hc] at hcr
    unfold dayNumber DAY MINUTE at *
    omega
  have hf : firesBeforeNextDay s.clock MINUTE = false := by
    cases hb : firesBeforeNextDay s.clock MINUTE with
    | false => rfl
    | true => exact absurd (hfire.1 hb).2 hd
  unfold ClimateOps.step
  rw [if_neg (by simp [hf])]
  change (do let s ← ClimateOps.nextValues s; _) = _
  have : ClimateOps.nextValues s = .error .stopIteration := by
    unfold ClimateOps.nextValues
    rw [hit, hj]; rfl
  rw [this]; rfl

theorem climate_run_ok {C : ClimateOps S V A} {s0 : S} (hC : DayOk C s0) {base : Int} (hb : 0 ≤ base) (hb' : base % DAY < MINUTE) : ∀ (n j : Nat) (s : CrestClimate S V A),
    ClimateInv C s0 base j s → (∀ k < n, (dateAt (base + ((j + k : Nat) : Int) * MINUTE + MINUTE)).month = (dateAt (base + ((j + k : Nat) : Int) * MINUTE)).month) →
    ∃ s', C.run n s = .ok s' ∧ ClimateInv C s0 base (j + n) s' := by
  intro n
  induction n with
  | zero => intro j s h _; exact ⟨s, rfl, h⟩
  | succ n ih =>
    intro j s h hm
    obtain ⟨s1, h1, hi1⟩ := climate_step_ok hC hb hb' h (by rw [h.1]; exact hm 0 (by omega))
    obtain ⟨s2, h2, hi2⟩ := ih (j + 1) s1 hi1 (fun k hk => by
      have := hm (k + 1) (by omega)
      rwa [show j + (k + 1) = j + 1 + k by omega] at this)
    refine ⟨s2, ?_, by rwa [show j + (n + 1) = j + 1 + n by omega]⟩
    simp only [ClimateOps.run, h1]; exact h2

theorem climate_run_append (C : ClimateOps S V A) : ∀ (n m : Nat) (s : CrestClimate S V A),
    C.run (n + m) s = (C.run n s).bind (C.run m) := by
  intro n
  induction n with
  | zero => intro m s; simp [ClimateOps.run, Except.bind]
  | succ n ih =>
    intro m s
    rw [show n + 1 + m = (n + m) + 1 by omega]
    simp only [ClimateOps.run]
    cases C.step s with
    | error e => rfl
    | ok s1 => exact ih m s1

theorem climate_create {C : ClimateOps S V A} {irr : S} (hC : DayOk C irr) {start : Int} (hs : 0 ≤ start) (arma : A) :
    ∃ s, C.create start irr arma = .ok s ∧ ClimateInv C irr (dayNumber start * DAY + start % MINUTE) ((start % DAY / MINUTE).toNat) s := by
  obtain ⟨base, hbase⟩ : ∃ b, b = dayNumber start * DAY + start % MINUTE := ⟨_, rfl⟩
  rw [← hbase]
  have hb : 0 ≤ base := by rw [hbase]; unfold dayNumber DAY MINUTE; omega
  have hb' : base % DAY < MINUTE := by rw [hbase]; unfold dayNumber DAY MINUTE; omega
  obtain ⟨s1, h1, hc1, hi1, hit1, ht1⟩ := onBeforeNextDay_spec hC (⟨start, irr, arma, [], [], none, none⟩ : CrestClimate S V A) (d := 0) rfl
  have hit2 : s1.irrIter = C.irradiance irr :: (List.range 1439).map (fun k => C.irradiance (C.irrStep^[k + 1] irr)) := by
    rw [hit1, show 1440 = 1439 + 1 from rfl, List.range_succ_eq_map]; simp [Function.comp_def]
  obtain ⟨s2, h2, hc2, hi2, hit2', ht2, hv2, hts2⟩ := nextValues_spec hit2 (n := 1439) ht1
  have hinit : initDatetime start (.time 0) = .ok (dayNumber start * DAY) := by
    unfold initDatetime
    simp only [Int.add_zero]
    rw [if_neg (by unfold dayNumber DAY; omega)]
  have hdelta : start - dayNumber start * DAY = start % DAY := by unfold dayNumber DAY; omega
  have hn : ((start - dayNumber start * DAY).tdiv MINUTE).toNat = (start % DAY / MINUTE).toNat := by
    rw [hdelta, Int.tdiv_eq_ediv_of_nonneg (by unfold DAY; omega)]
  have hr : dayNumber start * DAY + (start - dayNumber start * DAY).fmod MINUTE = base := by
    rw [hdelta, Int.fmod_eq_emod_of_nonneg _ (by decide), hbase]
    unfold dayNumber DAY MINUTE; omega
  have hinv : ClimateInv C irr base 0 { s2 with clock := base } := by
    refine ⟨by simp, ?_, ?_, ?_, hv2, hts2⟩
    · simp only [hi2, hi1]
    · simp only [hit2']
      exact map_range_congr (by omega) fun k => congrArg _ (iter_congr _ _ (by omega))
    · simp only [ht2]
  have hday : ∀ k < (start % DAY / MINUTE).toNat, (dateAt (base + ((0 + k : Nat) : Int) * MINUTE + MINUTE)).month = (dateAt (base + ((0 + k : Nat) : Int) * MINUTE)).month := by
    intro k hk
    rw [dateAt_same]
    rw [hbase]
    unfold dayNumber DAY MINUTE at *
    omega
  obtain ⟨s3, h3, hi3⟩ := climate_run_ok hC hb hb' (start % DAY / MINUTE).toNat 0 _ hinv hday
  refine ⟨s3, ?_, by rwa [Nat.zero_add] at hi3⟩
  unfold ClimateOps.create
  simp only [h1]
  change (do let s ← ClimateOps.nextValues s1; _) = _
  simp only [h2, hinit]
  change C.run _ _ = _
  rw [hn, hr]
  exact h3

end Demod

namespace Demod

variable {V : Type}

theorem real_run (step : Int) : ∀ (n : Nat) (s : RealClimate V),
    (∀ w, (s.value :: s.iter)[n]? = some w → ∃ s', RealClimate.run step n s = .ok s' ∧ s'.value = w ∧ s'.clock = s.clock + n * step ∧ s'.iter = s.iter.drop n) ∧
    ((s.value :: s.iter)[n]? = none → RealClimate.run step n s = .error .stopIteration) := by
  intro n
  induction n with
  | zero => intro s; simp [RealClimate.run]
  | succ n ih =>
    intro s
    simp only [RealClimate.run, RealClimate.step, List.getElem?_cons_succ]
    cases hi : s.iter with
    | nil => simp; rfl
    | cons v vs =>
      have := ih ⟨s.clock + step, vs, v⟩
      refine ⟨fun w hw => ?_, fun hn => this.2 hn⟩
      obtain ⟨s', h1, h2, h3, h4⟩ := this.1 w hw
      refine ⟨s', h1, h2, ?_, by simpa using h4⟩
      rw [h3]; push_cast; ring

theorem real_run_append (step : Int) : ∀ (n m : Nat) (s : RealClimate V),
    RealClimate.run step (n + m) s = (RealClimate.run step n s).bind (RealClimate.run step m) := by
  intro n
  induction n with
  | zero => intro m s; simp [RealClimate.run, Except.bind]
  | succ n ih =>
    intro m s
    rw [show n + 1 + m = (n + m) + 1 by omega]
    simp only [RealClimate.run]
    cases RealClimate.step step s with
    | error e => rfl
    | ok s1 => exact ih m s1

theorem filter_range (p : Nat → Bool) (i N : Nat) (hi : i ≤ N) (h : ∀ k, p k = true ↔ i ≤ k) : (List.range N).filter p = (List.range (N - i)).map (i + ·) := by
  obtain ⟨m, rfl⟩ := Nat.exists_eq_add_of_le hi
  rw [List.range_add, List.filter_append, List.filter_eq_nil_iff.2, List.nil_append, List.filter_eq_self.2]
  · simp
  · intro a ha
    simp only [List.mem_map] at ha
    obtain ⟨x, -, rfl⟩ := ha
    rw [h]; omega
  · intro a ha
    rw [List.mem_range] at ha
    rw [h]; omega

theorem load_grid {d0 step start : Int} (hstep : 0 < step) (v : Nat → V) {i N : Nat} (hi : i < N) (h1 : d0 + i * step ≤ start) (h2 : start < d0 + (i + 1) * step)
    (hl : start ≤ d0 + ((N - 1 : Nat) : Int) * step) :
    loadHistory step start (grid d0 step v N) = .ok (grid (d0 + i * step) step (fun k => v (i + k)) (N - i)) := by
  have hlast : (grid d0 step v N).getLast? = some (d0 + ((N - 1 : Nat) : Int) * step, v (N - 1)) := by
    obtain ⟨M, rfl⟩ : ∃ M, N = M + 1 := ⟨N - 1, by omega⟩
    simp [grid, List.range_succ]
  unfold loadHistory
  rw [hlast]
  simp only
  rw [if_neg (by omega)]
  unfold grid
  rw [List.filter_map, filter_range _ i N hi.le]
  · rw [List.map_map]
    refine congrArg Except.ok (List.map_congr_left fun k _ => ?_)
    simp only [Function.comp]
    push_cast
    rw [add_mul, add_assoc]
  · intro k
    simp only [Function.comp, decide_eq_true_eq]
    constructor
    · intro h
      by_contra hk
      have : (k : Int) + 1 ≤ i := by omega
      nlinarith
    · intro h
      have : (i : Int) ≤ k := by omega
      nlinarith

theorem real_create {off d0 step start : Int} (hstep : 0 < step) (v : Nat → V) {i N : Nat} (hi : i < N) (h1 : d0 + i * step ≤ start - off) (h2 : start - off < d0 + (i + 1) * step)
    (hl : start - off ≤ d0 + ((N - 1 : Nat) : Int) * step) :
    RealClimate.create step off start (grid d0 step v N) = if d0 + i * step > start then .error .valueError else
      RealClimate.run step ((start - (d0 + i * step)) / step).toNat
        { clock := d0 + i * step + (start - (d0 + i * step)) % step, iter := (List.range (N - i - 1)).map (fun k => v (i + 1 + k)), value := v i } := by
  unfold RealClimate.create
  rw [load_grid hstep v hi h1 h2 hl]
  have hg : grid (d0 + i * step) step (fun k => v (i + k)) (N - i) = (d0 + i * step, v i) :: grid (d0 + i * step + step) step (fun k => v (i + 1 + k)) (N - i - 1) := by
    obtain ⟨M, hM⟩ : ∃ M, N - i = M + 1 := ⟨N - i - 1, by omega⟩
    unfold grid
    rw [hM, List.range_succ_eq_map]
    simp only [List.map_cons, List.map_map, Nat.cast_zero, zero_mul, add_zero, Nat.add_sub_cancel]
    congr 1
    refine List.map_congr_left fun k _ => ?_
    simp only [Function.comp]
    rw [show i + (k + 1) = i + 1 + k by omega]
    congr 1
    push_cast; ring
  change (match grid (d0 + i * step) step (fun k => v (i + k)) (N - i) with
    | [] => _
    | (t0, w) :: rest => _) = _
  rw [hg]
  simp only
  by_cases hgt : d0 + i * step > start
  · rw [if_pos hgt, if_pos hgt]; rfl
  · rw [if_neg hgt, if_neg hgt]
    have hinit : initDatetime start (.datetime (d0 + i * step)) = .ok (d0 + i * step) := by
      simp only [initDatetime]; rw [if_neg hgt]
    simp only [hinit]
    change RealClimate.run _ _ _ = _
    rw [Int.tdiv_eq_ediv_of_nonneg (by omega), Int.fmod_eq_emod_of_nonneg _ hstep.le]
    congr 2
    simp [grid, Function.comp_def]

end Demod

namespace Demod

theorem interpolate_spec : ∀ (k : Nat) (pts : List (Rat × Rat)), pts.Pairwise (fun a b => a.1 < b.1) → ∀ (a b : Rat × Rat), pts[k]? = some a → pts[k + 1]? = some b → ∀ x, a.1 ≤ x → x ≤ b.1 →
    interpolate pts x = .ok (a.2 + (b.2 - a.2) / (b.1 - a.1) * (x - a.1)) := by
  intro k
  induction k with
  | zero =>
    intro pts hs a b ha hb x h1 h2
    match pts, ha, hb with
    | p :: q :: rest, ha, hb =>
      simp only [List.getElem?_cons_zero, Option.some.injEq, List.getElem?_cons_succ] at ha hb
      subst ha; subst hb
      unfold interpolate
      rw [if_neg (not_lt.2 h1), if_pos h2]
  | succ k ih =>
    intro pts hs a b ha hb x h1 h2
    match pts, hs, ha, hb with
    | p :: q :: rest, hs, ha, hb =>
      rw [List.getElem?_cons_succ] at ha hb
      rw [List.pairwise_cons] at hs
      have hpq : p.1 < q.1 := hs.1 q (by simp)
      have hmem : a ∈ q :: rest := List.mem_of_getElem? ha
      have hqa : q.1 ≤ a.1 := by
        rcases List.mem_cons.1 hmem with h | h
        · rw [h]
        · exact ((List.pairwise_cons.1 hs.2).1 a h).le
      have hab : a.1 < b.1 := by
        obtain ⟨hk, hka⟩ := List.getElem?_eq_some_iff.1 ha
        obtain ⟨hk', hkb⟩ := List.getElem?_eq_some_iff.1 hb
        have := List.pairwise_iff_getElem.1 hs.2 k (k + 1) hk hk' (by omega)
        rwa [hka, hkb] at this
      have hrec := ih (q :: rest) hs.2 a b ha hb x h1 h2
      unfold interpolate
      rw [if_neg (not_lt.2 (hpq.le.trans (hqa.trans h1)))]
      split
      · rename_i hx
        have hxq : x = q.1 := le_antisymm hx (hqa.trans h1)
        have haq : a = q := by
          cases k with
          | zero => simpa using ha.symm
          | succ k =>
            exfalso
            rw [List.getElem?_cons_succ] at ha
            have := (List.pairwise_cons.1 hs.2).1 a (List.mem_of_getElem? ha)
            linarith
        subst haq
        rw [hxq]
        have : a.1 - p.1 ≠ 0 := by linarith
        refine congrArg Except.ok ?_
        rw [sub_self, mul_zero, add_zero, div_mul_cancel₀ _ this]
        ring
      · exact hrec

theorem between (y0 y1 r : Rat) (h0 : 0 ≤ r) (h1 : r ≤ 1) : min y0 y1 ≤ y0 + (y1 - y0) * r ∧ y0 + (y1 - y0) * r ≤ max y0 y1 := by
  rcases le_total y0 y1 with h | h
  · rw [min_eq_left h, max_eq_right h]
    constructor <;> nlinarith
  · rw [min_eq_right h, max_eq_left h]
    constructor <;> nlinarith

theorem interp_run : ∀ (n : Nat) (s : InterpolatedClimate), 0 ≤ s.stepSize →
    (s.clock - s.off + n * s.stepSize ≤ s.last → InterpolatedClimate.run n s = .ok { s with clock := s.clock + n * s.stepSize }) ∧
    (s.clock - s.off ≤ s.last → s.last < s.clock - s.off + n * s.stepSize → InterpolatedClimate.run n s = .error .valueError) := by
  intro n
  induction n with
  | zero => intro s h; simp [InterpolatedClimate.run]
  | succ n ih =>
    intro s h
    have := ih { s with clock := s.clock + s.stepSize } h
    have e : ((n + 1 : Nat) : Int) * s.stepSize = s.stepSize + n * s.stepSize := by push_cast; ring
    have hn : 0 ≤ (n : Int) * s.stepSize := by positivity
    simp only at this
    rw [e]
    simp only [InterpolatedClimate.run, InterpolatedClimate.step]
    constructor
    · intro hl
      rw [if_neg (by omega)]
      change InterpolatedClimate.run n _ = _
      rw [this.1 (by omega), add_assoc]
    · intro h0 hl
      split
      · rfl
      · change InterpolatedClimate.run n _ = _
        exact this.2 (by omega) (by omega)

end Demod

namespace Demod

theorem interp_create {off start d0 b : Int} (hb : 0 < b) (stepSize : Int) (v : Nat → Rat) {i N : Nat} (hi : i < N)
    (h1 : d0 * MINUTE + i * (b * MINUTE) ≤ start - off) (h2 : start - off < d0 * MINUTE + (i + 1) * (b * MINUTE))
    (hl : start - off ≤ d0 * MINUTE + ((N - 1 : Nat) : Int) * (b * MINUTE)) :
    InterpolatedClimate.create (b * MINUTE) stepSize off start (grid (d0 * MINUTE) (b * MINUTE) v N) =
      if d0 * MINUTE + i * (b * MINUTE) > start then .error .valueError else
      .ok ⟨start, off, stepSize, d0 + i * b, (d0 + ((N - 1 : Nat) : Int) * b) * MINUTE, (List.range (N - i)).map fun (j : Nat) => (((j * b : Int) : Rat), v (i + j))⟩ := by
  unfold InterpolatedClimate.create
  rw [load_grid (mul_pos hb (by decide)) v hi h1 h2 hl]
  obtain ⟨g, hg⟩ : ∃ g, g = grid (d0 * MINUTE + i * (b * MINUTE)) (b * MINUTE) (fun k => v (i + k)) (N - i) := ⟨_, rfl⟩
  rw [← hg]
  have hhead : g.head? = some (d0 * MINUTE + i * (b * MINUTE), v i) := by
    obtain ⟨M, hM⟩ : ∃ M, N - i = M + 1 := ⟨N - i - 1, by omega⟩
    rw [hg, grid, hM, List.range_succ_eq_map]
    simp
  have hlast : g.getLast? = some (d0 * MINUTE + ((N - 1 : Nat) : Int) * (b * MINUTE), v (N - 1)) := by
    obtain ⟨M, hM⟩ : ∃ M, N = i + M + 1 := ⟨N - i - 1, by omega⟩
    rw [hg, grid, hM, show i + M + 1 - i = M + 1 by omega, List.range_succ]
    simp
    ring
  cases g with
  | nil => cases hhead
  | cons x rest =>
    simp only [List.head?_cons, Option.some.injEq] at hhead
    rw [List.getLast?_eq_some_getLast (by simp), Option.some.injEq] at hlast
    have hfirst : x.1 / MINUTE = d0 + i * b := by
      rw [hhead]
      simp only
      rw [← mul_assoc, ← add_mul, Int.mul_ediv_cancel _ (by decide)]
    have hpts : ((x :: rest).map fun x => (((x.1 / MINUTE - (d0 + i * b) : Int) : Rat), x.2)) = (List.range (N - i)).map fun (j : Nat) => (((j * b : Int) : Rat), v (i + j)) := by
      rw [hg, grid, List.map_map]
      refine List.map_congr_left fun k _ => ?_
      simp only [Function.comp]
      rw [← mul_assoc, ← mul_assoc, ← add_mul, ← add_mul, Int.mul_ediv_cancel _ (by decide)]
      congr 2
      ring
    change (if x.1 / MINUTE * MINUTE > start then _ else _) = _
    have hx : x.1 / MINUTE * MINUTE = d0 * MINUTE + i * (b * MINUTE) := by rw [hfirst, add_mul, mul_assoc]
    rw [hx]
    by_cases hgt : d0 * MINUTE + i * (b * MINUTE) > start
    · rw [if_pos hgt, if_pos hgt]; rfl
    · rw [if_neg hgt, if_neg hgt]
      simp only [hfirst, hlast, hpts]
      rw [← mul_assoc, ← add_mul, Int.mul_ediv_cancel _ (by decide)]
      rfl

end Demod
