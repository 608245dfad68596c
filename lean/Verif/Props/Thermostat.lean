import Verif.Model.Thermostat
import Mathlib.Tactic.Linarith
import Mathlib.Tactic.NormNum
import Mathlib.Tactic.Ring
import Mathlib.Data.List.Induction

/-! # Property C60: occupant thermostats -/

namespace Demod

open VarThermostat

/-! ## Specification -/

/-- The temperatures of a pattern. -/
def inBand : HeatPattern → Rat → Prop
  | .coolConservers, t => t = 16 ∨ (17 ≤ t ∧ t ≤ 37 / 2)
  | .fluctuators, t => t = 16 ∨ (20 ≤ t ∧ t ≤ 22)
  | .sizzlers, t => t = 16 ∨ (23 ≤ t ∧ t ≤ 25)
  | .onOffSwitchers, t => t = 16 ∨ t = 20
  | .steadyAndSavvy, t => t = 35 / 2 ∨ t = 37 / 2 ∨ t = 39 / 2
  | .toastyCruisers, t => t = 20 ∨ t = 21 ∨ t = 22

/-- The number of half degrees that `randint` can return for a pattern. -/
def maxIncrease : HeatPattern → Nat
  | .coolConservers => 3
  | .fluctuators => 4
  | .sizzlers => 4
  | _ => 0

/-- The patterns that follow the occupants. -/
def follows (p : HeatPattern) : Prop := p = .coolConservers ∨ p = .fluctuators ∨ p = .sizzlers

/-- The patterns with fixed times. -/
def fixedTimes (p : HeatPattern) : Prop := p = .steadyAndSavvy ∨ p = .toastyCruisers

/-- The high temperature of a pattern. -/
def highT : HeatPattern → Rat
  | .coolConservers => 37 / 2
  | .fluctuators => 22
  | .sizzlers => 25
  | .onOffSwitchers => 20
  | .steadyAndSavvy => 39 / 2
  | .toastyCruisers => 22

/-- The medium temperature of a pattern. -/
def mediumT : HeatPattern → Rat
  | .coolConservers => 17
  | .fluctuators => 20
  | .sizzlers => 23
  | .onOffSwitchers => 20
  | .steadyAndSavvy => 37 / 2
  | .toastyCruisers => 21

/-- The low temperature of the patterns with fixed times. -/
def lowT : HeatPattern → Rat
  | .steadyAndSavvy => 35 / 2
  | .toastyCruisers => 20
  | _ => 16

/-- The clock shows `hour:minute` at `t` (seconds do not matter). -/
def showsTime (t : Int) (hour minute : Nat) : Prop := t % 86400000000 / 60000000 = 60 * hour + minute

/-! ## Theorems -/

theorem run_append (s : VarThermostat) (is : List VarInput) (i : VarInput) : s.run (is ++ [i]) = (s.run is).step i := by
  induction is generalizing s with
  | nil => rfl
  | cons j is ih => exact ih (s.step j)

theorem run_pattern (s : VarThermostat) (is : List VarInput) : (s.run is).pattern = s.pattern ∧ (s.run is).fixed = s.fixed ∧ (s.run is).time = s.time + is.length * 600000000 := by
  induction is generalizing s with
  | nil => simp [VarThermostat.run]
  | cons j is ih =>
    obtain ⟨h1, h2, h3⟩ := ih (s.step j)
    refine ⟨h1, h2, ?_⟩
    show ((s.step j).run is).time = _
    rw [h3]
    simp only [VarThermostat.step, List.length_cons]
    push_cast
    ring

/-- **C60.** On-off switchers are at 20 °C after every step with an occupant and at 16 °C after every other step. -/
theorem C60_switchers (d : FixedDraws) (start : Int) (o a : Nat) (is : List VarInput) (i : VarInput) :
    ((create .onOffSwitchers d start o a).run (is ++ [i])).temperature = if 0 < i.occupancy then 20 else 16 := by
  rw [run_append]
  obtain ⟨h, -, -⟩ := run_pattern (create .onOffSwitchers d start o a) is
  have h' : ((create .onOffSwitchers d start o a).run is).pattern = .onOffSwitchers := h
  unfold VarThermostat.step
  simp only [h', updateSwitcher, LOW_T, HeatPattern.meanT, gt_iff_lt]

/-- **C60.** At all times, the temperature of every thermostat is in the band of its pattern, for all occupants and draws. -/
theorem C60_band (p : HeatPattern) (d : FixedDraws) (start : Int) (o a : Nat) (is : List VarInput) (hinc : ∀ i ∈ is, i.increase ≤ maxIncrease p) :
    inBand p ((create p d start o a).run is).temperature := by
  have key : ∀ (is : List VarInput) (s : VarThermostat), s.pattern = p → inBand p s.temperature → (∀ i ∈ is, i.increase ≤ maxIncrease p) → inBand p (s.run is).temperature := by
    intro is
    induction is with
    | nil => intro s _ h _; exact h
    | cons i is ih =>
      intro s hp h hi
      refine ih (s.step i) hp ?_ fun x hx => hi x (List.mem_cons_of_mem _ hx)
      have h0 := hi i List.mem_cons_self
      have hc : (0 : Rat) ≤ (i.increase : Rat) := by exact_mod_cast Nat.zero_le _
      have h0' : (i.increase : Rat) ≤ (maxIncrease p : Rat) := by exact_mod_cast h0
      unfold VarThermostat.step
      cases p <;> simp only [hp, updateFluctuator, updateSwitcher, updateConstant, HeatPattern.meanT, HeatPattern.maxDeviation, LOW_T, maxIncrease] at h h0' ⊢
      all_goals split_ifs
      all_goals first
        | exact h
        | (unfold inBand; norm_num; done)
        | (unfold inBand; right; push_cast at h0'; constructor <;> linarith)
  refine key is _ rfl ?_ hinc
  cases p <;> simp [create, inBand, HeatPattern.meanT] <;> norm_num

/-- **C60.** Households that follow their occupants: after the last occupant left, the thermostat is at 16 °C, and stays there as long as nobody is at home. -/
theorem C60_away (p : HeatPattern) (hp : follows p) (d : FixedDraws) (start : Int) (o a : Nat) (before : List VarInput) (present leave : VarInput) (away : List VarInput)
    (h1 : 0 < present.occupancy) (h2 : leave.occupancy = 0 ∧ leave.active = 0) (h3 : ∀ i ∈ away, i.occupancy = 0 ∧ i.active = 0) :
    ((create p d start o a).run (before ++ [present, leave] ++ away)).temperature = 16 := by
  have happ : ∀ (xs ys : List VarInput) (s : VarThermostat), s.run (xs ++ ys) = (s.run xs).run ys := by
    intro xs ys
    induction xs with
    | nil => intro s; rfl
    | cons x xs ih => intro s; exact ih (s.step x)
  have stay : ∀ (away : List VarInput) (s : VarThermostat), follows s.pattern → s.temperature = 16 → s.lastOccupancy = 0 → s.lastActive = 0 →
      (∀ i ∈ away, i.occupancy = 0 ∧ i.active = 0) → (s.run away).temperature = 16 := by
    intro away
    induction away with
    | nil => intro s _ h _ _ _; exact h
    | cons i is ih =>
      intro s hp ht hl hla hall
      obtain ⟨e1, e2⟩ := hall i List.mem_cons_self
      refine ih (s.step i) hp ?_ e1 e2 fun x hx => hall x (List.mem_cons_of_mem _ hx)
      unfold VarThermostat.step
      rcases hp with hp | hp | hp <;> simp [hp, updateFluctuator, e1, e2, hl, hla, ht]
  rw [happ, happ]
  obtain ⟨hpat, -, -⟩ := run_pattern (create p d start o a) before
  obtain ⟨s, hs⟩ : ∃ s, s = (create p d start o a).run before := ⟨_, rfl⟩
  rw [← hs] at hpat ⊢
  have hp' : s.pattern = p := hpat
  obtain ⟨e1, e2⟩ := h2
  refine stay away _ (by show follows s.pattern; rw [hp']; exact hp) ?_ e1 e2 h3
  show ((s.step present).step leave).temperature = 16
  have hpp : (s.step present).pattern = p := hp'
  have hlo : (s.step present).lastOccupancy = present.occupancy := rfl
  have hla : (s.step present).lastActive = present.active := rfl
  obtain ⟨s2, hs2⟩ : ∃ s2, s2 = s.step present := ⟨_, rfl⟩
  rw [← hs2] at hpp hlo hla ⊢
  unfold VarThermostat.step
  rcases hp with hp | hp | hp <;> simp [hpp, hp, updateFluctuator, e1, e2, hlo, h1, LOW_T]

/-- **C60.** When the first occupant arrives, the thermostat is set to the high temperature of the pattern, unless the comfort is changed in the same step: then it is at least the medium temperature. -/
theorem C60_arrival (p : HeatPattern) (hp : follows p) (d : FixedDraws) (start : Int) (o a : Nat) (before : List VarInput) (empty arrive : VarInput)
    (h1 : empty.occupancy = 0) (h2 : 0 < arrive.occupancy) :
    (¬ (0 < arrive.active ∧ arrive.change = true) → ((create p d start o a).run (before ++ [empty] ++ [arrive])).temperature = highT p) ∧
    mediumT p ≤ ((create p d start o a).run (before ++ [empty] ++ [arrive])).temperature := by
  rw [run_append, run_append]
  obtain ⟨hpat, -, -⟩ := run_pattern (create p d start o a) before
  obtain ⟨s, hs⟩ : ∃ s, s = (create p d start o a).run before := ⟨_, rfl⟩
  rw [← hs] at hpat ⊢
  have hpp : (s.step empty).pattern = p := hpat
  have hlo : (s.step empty).lastOccupancy = 0 := h1
  obtain ⟨s2, hs2⟩ : ∃ s2, s2 = s.step empty := ⟨_, rfl⟩
  rw [← hs2] at hpp hlo ⊢
  have hc : (0 : Rat) ≤ (arrive.increase : Rat) := by exact_mod_cast Nat.zero_le _
  have hne : arrive.occupancy ≠ 0 := h2.ne'
  unfold VarThermostat.step
  rcases hp with hp | hp | hp <;> subst hp <;>
    simp only [hpp, updateFluctuator, hlo, h2, hne, highT, mediumT, HeatPattern.meanT, HeatPattern.maxDeviation, Bool.and_eq_true, decide_eq_true_eq, gt_iff_lt, if_true, decide_true,
      decide_false, Bool.and_false, Bool.not_true, Bool.false_eq_true, if_false, Bool.and_true, lt_irrefl, Bool.not_false]
  all_goals
    constructor
    · intro h
      rw [if_neg h]
      norm_num
    · split_ifs
      · linarith
      · norm_num

instance (t : Int) (h m : Nat) : Decidable (showsTime t h m) := inferInstanceAs (Decidable (_ = _))

theorem shows_iff (t : Int) (h m : Nat) (hm : m < 60) :
    ((decide ((h : Int) = hourOf t) && decide ((m : Int) = minuteOf t)) = true) ↔ showsTime t h m := by
  rw [Bool.and_eq_true, decide_eq_true_eq, decide_eq_true_eq]
  unfold hourOf minuteOf timeOfDay showsTime DAY HOUR
  omega

/-- **C60.** The fixed times of a household: wake up between 6:00 and 9:50, leave 30 to 220 minutes after, return 240 to 430 minutes after leaving, go to bed
between 20:00 and 0:50, all at multiples of ten minutes. -/
theorem C60_schedule (d : FixedDraws) :
    let f := FixedPattern.create d
    (f.wakeHour < 24 ∧ f.leavingHour < 24 ∧ f.returningHour < 24 ∧ f.bedHour < 24) ∧
    (f.wakeMinute < 60 ∧ f.leavingMinute < 60 ∧ f.returningMinute < 60 ∧ f.bedMinute < 60) ∧
    (10 ∣ f.wakeMinute ∧ 10 ∣ f.leavingMinute ∧ 10 ∣ f.returningMinute ∧ 10 ∣ f.bedMinute) ∧
    (6 ≤ f.wakeHour ∧ f.wakeHour ≤ 9) ∧
    (∃ k, 30 ≤ k ∧ k ≤ 220 ∧ 60 * f.leavingHour + f.leavingMinute = 60 * f.wakeHour + f.wakeMinute + k) ∧
    (∃ k, 240 ≤ k ∧ k ≤ 430 ∧ 60 * f.returningHour + f.returningMinute = 60 * f.leavingHour + f.leavingMinute + k) ∧
    (20 ≤ f.bedHour ∨ f.bedHour = 0) := by
  obtain ⟨⟨w, hw⟩, ⟨wm, hwm⟩, _, ⟨l, hl⟩, ⟨r, hr⟩, ⟨b, hb⟩, ⟨bm, hbm⟩⟩ := d
  simp only [FixedPattern.create]
  refine ⟨by omega, by omega, by omega, by omega, ⟨30 + 10 * l, by omega, by omega, by omega⟩, ⟨240 + 10 * r, by omega, by omega, by omega⟩, by omega⟩

/-- **C60.** Patterns with fixed times: at the wake-up time the thermostat is set to high; otherwise at bed time to medium; otherwise at the time of return to high; otherwise, for households that change
during the day, at the time of leaving to low; at all other times it does not change. -/
theorem C60_fixed_times (p : HeatPattern) (hp : fixedTimes p) (d : FixedDraws) (start : Int) (o a : Nat) (is : List VarInput) (i : VarInput) :
    let f := FixedPattern.create d
    let t := start + (is.length + 1) * 600000000
    let T := ((create p d start o a).run (is ++ [i])).temperature
    (showsTime t f.wakeHour f.wakeMinute → T = highT p) ∧
    (¬ showsTime t f.wakeHour f.wakeMinute → showsTime t f.bedHour f.bedMinute → T = mediumT p) ∧
    (¬ showsTime t f.wakeHour f.wakeMinute → ¬ showsTime t f.bedHour f.bedMinute → showsTime t f.returningHour f.returningMinute → T = highT p) ∧
    (¬ showsTime t f.wakeHour f.wakeMinute → ¬ showsTime t f.bedHour f.bedMinute → ¬ showsTime t f.returningHour f.returningMinute →
      (d.change = 1 → showsTime t f.leavingHour f.leavingMinute → T = lowT p) ∧
      (¬ (d.change = 1 ∧ showsTime t f.leavingHour f.leavingMinute) → T = ((create p d start o a).run is).temperature)) := by
  intro f t T
  obtain ⟨⟨a1, a2, a3, a4⟩, ⟨b1, b2, b3, b4⟩, -⟩ := C60_schedule d
  obtain ⟨hpat, hfix, htime⟩ := run_pattern (create p d start o a) is
  have hT : T = (((create p d start o a).run is).step i).temperature := by
    show ((create p d start o a).run (is ++ [i])).temperature = _
    rw [run_append]
  obtain ⟨s, hs⟩ : ∃ s, s = (create p d start o a).run is := ⟨_, rfl⟩
  rw [← hs] at hpat hfix htime hT ⊢
  have hpat' : s.pattern = p := hpat
  have hfix' : s.fixed = f := hfix
  have ht : s.time + 600000000 = t := by rw [htime]; show start + _ + _ = start + _; ring
  have hch : f.changeDuringDay = true ↔ d.change = 1 := by
    show decide (d.change.val ≠ 0) = true ↔ _
    rw [decide_eq_true_eq]
    constructor
    · intro h; apply Fin.ext; have := d.change.isLt; show d.change.val = 1; omega
    · intro h; rw [h]; decide
  have hu : T = s.updateConstant t := by
    rw [hT, ← ht]
    unfold VarThermostat.step
    rcases hp with hp | hp <;> rw [hpat', hp]
  have hm : s.pattern.meanT = mediumT p ∧ s.pattern.meanT + s.pattern.maxDeviation = highT p ∧ s.pattern.meanT - s.pattern.maxDeviation = lowT p := by
    rw [hpat']
    rcases hp with hp | hp <;> subst hp <;> refine ⟨rfl, ?_, ?_⟩ <;> simp only [HeatPattern.meanT, HeatPattern.maxDeviation, highT, lowT] <;> norm_num
  obtain ⟨m1, m2, m3⟩ := hm
  rw [hu]
  have hval : s.updateConstant t = if showsTime t f.wakeHour f.wakeMinute then highT p else if showsTime t f.bedHour f.bedMinute then mediumT p else
      if showsTime t f.returningHour f.returningMinute then highT p else if d.change = 1 ∧ showsTime t f.leavingHour f.leavingMinute then lowT p else s.temperature := by
    unfold updateConstant
    simp only [hfix', m2, m3]
    simp only [m1]
    exact if_congr (shows_iff t _ _ b1) rfl (if_congr (shows_iff t _ _ b4) rfl (if_congr (shows_iff t _ _ b3) rfl
      (if_congr (by rw [Bool.and_eq_true, hch, shows_iff t _ _ b2]) rfl rfl)))
  rw [hval]
  refine ⟨fun h => by rw [if_pos h], fun h h' => by rw [if_neg h, if_pos h'], fun h h' h'' => by rw [if_neg h, if_neg h', if_pos h''], fun h h' h'' => ⟨fun k k' => ?_, fun k => ?_⟩⟩
  · rw [if_neg h, if_neg h', if_neg h'', if_pos ⟨k, k'⟩]
  · rw [if_neg h, if_neg h', if_neg h'', if_neg k]

/-- **C60.** If the simulation starts at a multiple of ten minutes, every time of the schedule is met in any 144 consecutive steps. -/
theorem C60_daily (t : Int) (hour minute : Nat) (hh : hour < 24) (hm : minute < 60) (h10 : 10 ∣ minute) (ht : t % 3600000000 / 60000000 % 10 = 0) :
    ∃ k : Nat, 1 ≤ k ∧ k ≤ 144 ∧ showsTime (t + k * 600000000) hour minute := by
  unfold showsTime
  obtain ⟨q, rfl⟩ := h10
  obtain ⟨slot, hs⟩ : ∃ slot, slot = t % 86400000000 / 600000000 := ⟨_, rfl⟩
  have : 0 ≤ slot ∧ slot < 144 := by omega
  by_cases h : slot < 6 * hour + q
  · refine ⟨(6 * hour + q - slot).toNat, by omega, by omega, ?_⟩
    have e : (((6 * hour + q - slot).toNat : Nat) : Int) = 6 * hour + q - slot := by omega
    rw [e]; push_cast; omega
  · refine ⟨(6 * hour + q - slot + 144).toNat, by omega, by omega, ?_⟩
    have e : (((6 * hour + q - slot + 144).toNat : Nat) : Int) = 6 * hour + q - slot + 144 := by omega
    rw [e]; push_cast; omega

/-- **C60 (counterexample, start time).** If the simulation does not start at a multiple of ten minutes, patterns with fixed times never change: they stay at the medium temperature in every run. -/
theorem C60_offset_counterexample (p : HeatPattern) (hp : fixedTimes p) (d : FixedDraws) (start : Int) (ho : start % 3600000000 / 60000000 % 10 ≠ 0) (o a : Nat) (is : List VarInput) :
    ((create p d start o a).run is).temperature = mediumT p := by
  induction is using List.reverseRecOn with
  | nil => rcases hp with hp | hp <;> subst hp <;> rfl
  | append_singleton is i ih =>
    obtain ⟨-, -, ⟨w, l, r, b⟩, -⟩ := C60_schedule d
    obtain ⟨-, -, -, h⟩ := C60_fixed_times p hp d start o a is i
    have no : ∀ hour minute : Nat, 10 ∣ minute → ¬ showsTime (start + (is.length + 1) * 600000000) hour minute := by
      intro hour minute h10 hs
      obtain ⟨q, rfl⟩ := h10
      unfold showsTime at hs
      push_cast at hs
      omega
    rw [(h (no _ _ w) (no _ _ b) (no _ _ r)).2 (fun h => no _ _ l h.2), ih]

/-- **C60 (counterexample, order).** A household may go to bed (20:00) before it returns (20:40): its thermostat then is high all night. -/
theorem C60_bed_before_return_counterexample :
    ∃ d, (FixedPattern.create d).bedHour = 20 ∧ (FixedPattern.create d).bedMinute = 0 ∧ (FixedPattern.create d).returningHour = 20 ∧ (FixedPattern.create d).returningMinute = 40 :=
  ⟨⟨3, 5, 1, 19, 19, 0, 0⟩, by decide⟩

example : inBand .sizzlers ((create .sizzlers ⟨0, 0, 0, 0, 0, 0, 0⟩ 0 1 1).run [⟨0, 0, false, 0⟩, ⟨1, 1, false, 0⟩, ⟨1, 1, true, 3⟩]).temperature ∧
    ((create .sizzlers ⟨0, 0, 0, 0, 0, 0, 0⟩ 0 1 1).run [⟨0, 0, false, 0⟩, ⟨1, 1, false, 0⟩, ⟨1, 1, true, 3⟩]).temperature = 49 / 2 := by
  refine ⟨C60_band _ _ _ _ _ _ (by simp [maxIncrease]), by decide +kernel⟩

end Demod
