import Verif.Model.Lighting
import Verif.Lemmas.Appliance
import Verif.Lemmas.Heating
import Mathlib.Algebra.BigOperators.Group.List.Basic
import Mathlib.Tactic.FieldSimp

/-! # Properties C49, C50 and C67: lighting and the CREST washing machine -/

namespace Demod

/-! ## C49 -/

theorem bulbStep_off (l : Light) (b : Bulb) (e irr : Rat) (d : BulbDraw) (left : Int) : l.bulbStep b 0 e irr d left = 0 := by
  unfold Light.bulbStep; simp

/-- The installed power of a household. -/
def installedPower (bulbs : List (Bulb × Int)) : Rat := (bulbs.map fun x => x.1.power.getD 0).sum

/-- **C49.** After a step in which nobody is active, the lights of the household consume nothing. -/
theorem C49_inactive (l : Light) (bulbs bulbs' : List (Bulb × Int)) (irradiance : Rat) (draws : List BulbDraw) (h : l.step bulbs 0 irradiance draws = .ok bulbs') :
    lightPower bulbs' = 0 := by
  unfold Light.step at h
  cases he : pyGet l.effective 0 with
  | error e => rw [he] at h; cases h
  | ok e =>
    rw [he] at h
    cases h
    unfold lightPower
    rw [List.map_map]
    apply List.sum_eq_zero
    intro x hx
    obtain ⟨y, -, rfl⟩ := List.mem_map.mp hx
    simp [bulbStep_off]

/-- **C49.** The consumption is at least zero and at most the installed power, in every state. -/
theorem C49_bounds (bulbs : List (Bulb × Int)) (h : ∀ x ∈ bulbs, 0 ≤ x.1.power.getD 0) : 0 ≤ lightPower bulbs ∧ lightPower bulbs ≤ installedPower bulbs := by
  unfold lightPower installedPower
  induction bulbs with
  | nil => simp
  | cons x xs ih =>
    obtain ⟨h1, h2⟩ := ih fun y hy => h y (List.mem_cons_of_mem _ hy)
    have hx := h x List.mem_cons_self
    simp only [List.map_cons, List.sum_cons]
    split_ifs <;> constructor <;> linarith

/-- **C49.** Each bulb of a household of `n` bulbs keeps its power, and the step works for every number of active occupants in the table of effective occupancies. -/
theorem C49_installed (l : Light) (bulbs : List (Bulb × Int)) (active : Nat) (hactive : active < l.effective.length) (irradiance : Rat) (draws : List BulbDraw) (hd : draws.length = bulbs.length) :
    ∃ bulbs', l.step bulbs active irradiance draws = .ok bulbs' ∧ bulbs'.map Prod.fst = bulbs.map Prod.fst ∧ installedPower bulbs' = installedPower bulbs := by
  have hp : pyGet l.effective active = .ok l.effective[active] := by unfold pyGet; simp [hactive]
  refine ⟨_, by unfold Light.step; rw [hp]; rfl, ?_, ?_⟩
  · rw [List.map_map]
    have : (Prod.fst ∘ fun x : (Bulb × Int) × BulbDraw => (x.1.1, l.bulbStep x.1.1 active l.effective[active] irradiance x.2 x.1.2)) = Prod.fst ∘ Prod.fst := rfl
    rw [this, ← List.map_map, List.map_fst_zip (by omega)]
  · unfold installedPower
    rw [List.map_map]
    have : ((fun x : Bulb × Int => x.1.power.getD 0) ∘ fun x : (Bulb × Int) × BulbDraw => (x.1.1, l.bulbStep x.1.1 active l.effective[active] irradiance x.2 x.1.2)) = (fun x : Bulb × Int => x.1.power.getD 0) ∘ Prod.fst := rfl
    rw [this, ← List.map_map, List.map_fst_zip (by omega)]

/-- What a bulb sees in a step. -/
structure BulbInput where
  active : Nat
  effective : Rat
  irradiance : Rat
  draw : BulbDraw

/-- The time left of a bulb after some steps. -/
def bulbRun (l : Light) (b : Bulb) (left : Int) : List BulbInput → Int
  | [] => left
  | i :: is => bulbRun l b (l.bulbStep b i.active i.effective i.irradiance i.draw left) is

/-- A bulb that is off is switched on in a step: it is dark enough (or it is one of the exceptions) and the draw is below the probability. -/
def switchesOn (l : Light) (b : Bulb) (i : BulbInput) : Prop := (i.irradiance < l.threshold ∨ i.draw.u1 < 1 / 20) ∧ i.draw.u2 < i.effective * b.relativeUse * l.calibration

theorem bulb_running (l : Light) (b : Bulb) (is : List BulbInput) : ∀ left : Int, (∀ i ∈ is, 0 < i.active) → (is.length : Int) < left → bulbRun l b left is = left - is.length := by
  induction is with
  | nil => intro left _ _; simp [bulbRun]
  | cons i is ih =>
    intro left hact hl
    rw [List.length_cons] at hl
    push_cast at hl
    have ha := hact i List.mem_cons_self
    have hstep : l.bulbStep b i.active i.effective i.irradiance i.draw left = left - 1 := by
      unfold Light.bulbStep
      have h1 : left > 0 := by omega
      have h2 : ¬ (left - 1 = 0) := by omega
      have h3 : ¬ i.active = 0 := by omega
      simp [h1, h2, h3]
    show bulbRun l b (l.bulbStep b i.active i.effective i.irradiance i.draw left) is = _
    rw [hstep, ih (left - 1) (fun x hx => hact x (List.mem_cons_of_mem _ hx)) (by omega), List.length_cons]
    push_cast
    ring

/-- **C49.** A bulb that is switched on for a duration `d` (at least a step) is on after that step and after the following steps while somebody is active, `⌊d⌋` in total; after the step that follows them it is off, unless it is switched on again. -/
theorem C49_duration (l : Light) (b : Bulb) (i : BulbInput) (is : List BulbInput) (hon : switchesOn l b i) (hd : 1 ≤ i.draw.duration) (hact : ∀ j ∈ i :: is, 0 < j.active) :
    ((is.length : Int) < ⌊i.draw.duration⌋ → 0 < bulbRun l b 0 (i :: is)) ∧
    (∀ j, 0 < j.active → (is.length : Int) + 1 = ⌊i.draw.duration⌋ → (0 ≤ j.draw.duration) → (switchesOn l b j → bulbRun l b 0 (i :: (is ++ [j])) = ⌊j.draw.duration⌋) ∧ (¬ switchesOn l b j → bulbRun l b 0 (i :: (is ++ [j])) = 0)) := by
  have hi := hact i List.mem_cons_self
  have hfirst : l.bulbStep b i.active i.effective i.irradiance i.draw 0 = ⌊i.draw.duration⌋ := by
    obtain ⟨h1, h2⟩ := hon
    unfold Light.bulbStep
    have h3 : ¬ i.active = 0 := by omega
    have h4 : (decide (i.irradiance < l.threshold) || decide (i.draw.u1 < 1 / 20)) = true := by simpa using h1
    simp only [h4, h3, h2, gt_iff_lt, lt_irrefl, if_false, decide_true, Bool.and_self, if_true]
    exact truncRat_of_nonneg (by linarith)
  have hrest : ∀ j ∈ is, 0 < j.active := fun j hj => hact j (List.mem_cons_of_mem _ hj)
  constructor
  · intro hlen
    show 0 < bulbRun l b (l.bulbStep b i.active i.effective i.irradiance i.draw 0) is
    rw [hfirst, bulb_running l b is _ hrest hlen]
    omega
  · intro j hj hlen hdj
    have happ : ∀ (xs : List BulbInput) (left : Int), bulbRun l b left (xs ++ [j]) = l.bulbStep b j.active j.effective j.irradiance j.draw (bulbRun l b left xs) := by
      intro xs
      induction xs with
      | nil => intro left; rfl
      | cons y ys ih => intro left; exact ih _
    have hall : bulbRun l b 0 (i :: (is ++ [j])) = if ((decide (j.irradiance < l.threshold) || decide (j.draw.u1 < 1 / 20)) && decide (j.draw.u2 < j.effective * b.relativeUse * l.calibration)) = true then ⌊j.draw.duration⌋ else 0 := by
      show bulbRun l b (l.bulbStep b i.active i.effective i.irradiance i.draw 0) (is ++ [j]) = _
      rw [happ, hfirst, bulb_running l b is _ hrest (by omega)]
      have e : ⌊i.draw.duration⌋ - (is.length : Int) = 1 := by omega
      rw [e]
      have h3 : ¬ j.active = 0 := by omega
      unfold Light.bulbStep
      simp only [gt_iff_lt, zero_lt_one, if_true, sub_self, decide_true, Bool.and_true, h3, if_false]
      exact if_congr Iff.rfl (truncRat_of_nonneg hdj) rfl
    rw [hall]
    unfold switchesOn
    constructor
    · intro hs; exact if_pos (by simpa using hs)
    · intro hs; exact if_neg (by simpa using hs)

/-- **C49.** Places without bulb never light up. -/
theorem C49_no_bulb (l : Light) (b : Bulb) (hb : b.power = none) (is : List BulbInput) (hact : ∀ i ∈ is, 0 < i.active) : bulbRun l b b.initial is = b.initial := by
  have h0 : b.initial = NAN_AS_INT := by unfold Bulb.initial; rw [hb]; rfl
  rw [h0]
  induction is with
  | nil => rfl
  | cons i is ih =>
    have hstep : l.bulbStep b i.active i.effective i.irradiance i.draw NAN_AS_INT = NAN_AS_INT := by
      have h3 : ¬ i.active = 0 := by have := hact i List.mem_cons_self; omega
      unfold Light.bulbStep
      simp [h3, NAN_AS_INT]
    show bulbRun l b (l.bulbStep b i.active i.effective i.irradiance i.draw NAN_AS_INT) is = _
    rw [hstep]
    exact ih fun x hx => hact x (List.mem_cons_of_mem _ hx)

/-- **C49 (counterexample).** A duration below one step is cut to zero: the bulb is not on after the step in which it is switched on. -/
theorem C49_short_counterexample :
    ∃ (l : Light) (b : Bulb) (i : BulbInput), switchesOn l b i ∧ 0 < i.active ∧ 0 < i.draw.duration ∧ bulbRun l b 0 [i] = 0 :=
  ⟨⟨1, [0, 1], 60⟩, ⟨some 10, 1⟩, ⟨1, 1, 0, 0, 0, 9 / 10⟩, by unfold switchesOn; norm_num, by norm_num, by norm_num, by decide +kernel⟩

example : ([0, 1, 2, 3].map fun k => bulbRun ⟨1, [0, 1], 60⟩ ⟨some 10, 1⟩ 0 (⟨1, 1, 0, 0, 0, 5 / 2⟩ :: List.replicate k ⟨1, 1, 100, 1, 1, 1⟩)) = [2, 1, 0, 0] := by decide +kernel

/-! ## C50 -/

/-- **C50.** The light usage is between 0 and 1, 1 up to the lower threshold, 0 from the upper one on, linear between, and it never increases with the irradiance. -/
theorem C50_usage (f : Fisher) (h : f.min < f.max) :
    (∀ i, 0 ≤ f.usage i ∧ f.usage i ≤ 1) ∧ (∀ i ≤ f.min, f.usage i = 1) ∧ (∀ i ≥ f.max, f.usage i = 0) ∧
    (∀ i, f.min ≤ i → i ≤ f.max → f.usage i * (f.max - f.min) = f.max - i) ∧ (∀ i j, i ≤ j → f.usage j ≤ f.usage i) := by
  have hpos : 0 < f.max - f.min := by linarith
  unfold Fisher.usage npClip
  refine ⟨fun i => ⟨le_min (le_max_right _ _) (by norm_num), min_le_right _ _⟩, fun i hi => ?_, fun i hi => ?_, fun i h1 h2 => ?_, fun i j hij => ?_⟩
  · apply min_eq_right
    apply le_max_of_le_left
    rw [le_div_iff₀ hpos]; linarith
  · rw [max_eq_right, min_eq_left]
    · norm_num
    · apply div_nonpos_of_nonpos_of_nonneg <;> linarith
  · rw [max_eq_left, min_eq_left]
    · field_simp
    · rw [div_le_iff₀ hpos]; linarith
    · apply div_nonneg <;> linarith
  · apply min_le_min _ (le_refl _)
    apply max_le_max _ (le_refl _)
    apply (div_le_div_iff_of_pos_right hpos).mpr
    linarith

/-- **C50.** The power of each household is the number of active occupants times the same value. -/
theorem C50_power (f : Fisher) (active : List Rat) (irradiance : Rat) :
    f.power active irradiance = active.map (fun a => a * (f.individual * f.usage irradiance)) := by
  unfold Fisher.power
  apply List.map_congr_left
  intro a _
  ring

/-- **C50 (counterexample).** Without an initial occupancy, the getter returns a single value instead of one for each household, until the first step. -/
theorem C50_default_counterexample (f : Fisher) (irradiance : Rat) (n : Nat) (hn : n ≠ 1) : (f.power (Fisher.initialActive n none) irradiance).length ≠ n := by
  simp [Fisher.power, Fisher.initialActive]; omega

example : (⟨30, 60, 100⟩ : Fisher).power [0, 2] 45 = [0, 100] := by decide +kernel

/-! ## C67 -/

/-- The programme of the washing machine: watts and minutes of each phase. -/
def washProgramme : List (Rat × Nat) :=
  [(73, 8), (2056, 21), (73, 52), (73, 11), (250, 2), (73, 11), (250, 2), (73, 11), (250, 2), (73, 11), (250, 2), (568, 5)]

/-- The minutes of a programme, one after the other. -/
def minutes (p : List (Rat × Nat)) : List Rat := p.flatMap fun x => List.replicate x.2 x.1

/-- **C67.** At all times the power is one of the levels of the programme (zero only after the longest programme); in standby when no time is left. -/
theorem C67_levels (length : Nat) (standby left : Rat) :
    (left = 0 → washingPower length standby left = standby) ∧
    (left ≠ 0 → length - left ≤ 198 → washingPower length standby left ∈ ([73, 2056, 250, 568, 2500] : List Rat)) := by
  constructor
  · intro h; unfold washingPower; simp [h]
  · intro h h198
    unfold washingPower
    simp only [h, if_false]
    by_cases h8 : length - left ≤ 8
    · have n1 : ∀ a b : Rat, 8 ≤ a → ¬ ((length : Rat) - left > a ∧ (length : Rat) - left ≤ b) := by rintro a b h ⟨h1, -⟩; linarith
      rw [if_neg (n1 138 198 (by norm_num)), if_neg (n1 133 138 (by norm_num)), if_neg (n1 131 133 (by norm_num)), if_neg (n1 120 131 (by norm_num)), if_neg (n1 118 120 (by norm_num)), if_neg (n1 107 118 (by norm_num)),
        if_neg (n1 105 107 (by norm_num)), if_neg (n1 94 105 (by norm_num)), if_neg (n1 92 94 (by norm_num)), if_neg (n1 81 92 (by norm_num)), if_neg (n1 29 81 (by norm_num)), if_neg (n1 8 29 (by norm_num)), if_pos h8]
      simp
    · rw [if_neg h8]
      have h8' := not_le.mp h8
      generalize (length : Rat) - left = t at h198 h8'
      clear h8 h
      have e73 : (73 : Rat) ∈ ([73, 2056, 250, 568, 2500] : List Rat) := by simp
      have e2056 : (2056 : Rat) ∈ ([73, 2056, 250, 568, 2500] : List Rat) := by simp
      have e250 : (250 : Rat) ∈ ([73, 2056, 250, 568, 2500] : List Rat) := by simp
      have e568 : (568 : Rat) ∈ ([73, 2056, 250, 568, 2500] : List Rat) := by simp
      have e2500 : (2500 : Rat) ∈ ([73, 2056, 250, 568, 2500] : List Rat) := by simp
      have key : ∀ (a b v : Rat) (x : Rat), v ∈ ([73, 2056, 250, 568, 2500] : List Rat) → (t ≤ a → x ∈ ([73, 2056, 250, 568, 2500] : List Rat)) → t ≤ b →
          (if t > a ∧ t ≤ b then v else x) ∈ ([73, 2056, 250, 568, 2500] : List Rat) := by
        intro a b v x hv hx hb
        by_cases ha : t ≤ a
        · rw [if_neg (fun h => absurd h.1 (not_lt.mpr ha))]; exact hx ha
        · rw [if_pos ⟨not_le.mp ha, hb⟩]; exact hv
      refine key _ _ _ _ e2500 (fun h => ?_) h198
      refine key _ _ _ _ e568 (fun h => ?_) h
      refine key _ _ _ _ e250 (fun h => ?_) h
      refine key _ _ _ _ e73 (fun h => ?_) h
      refine key _ _ _ _ e250 (fun h => ?_) h
      refine key _ _ _ _ e73 (fun h => ?_) h
      refine key _ _ _ _ e250 (fun h => ?_) h
      refine key _ _ _ _ e73 (fun h => ?_) h
      refine key _ _ _ _ e250 (fun h => ?_) h
      refine key _ _ _ _ e73 (fun h => ?_) h
      refine key _ _ _ _ e73 (fun h => ?_) h
      exact key _ _ _ _ e2056 (fun h => absurd h8' (not_lt.mpr h)) h

/-- **C67 (partial: the last minute is missing).** A cycle of 138 minutes shows, with `138 - k` minutes left after `k` steps, the minutes `1` to `137` of the programme, in order; then the machine is in standby, a minute too early. A washer-dryer shows
the whole programme and 59 of the 60 minutes of drying. -/
theorem C67_cycle_partial (standby : Rat) :
    ((List.range 137).map fun k => washingPower 138 standby (138 - ((k + 1 : Nat) : Rat))) = (minutes washProgramme).take 137 ∧
    ((List.range 197).map fun k => washingPower 198 standby (198 - ((k + 1 : Nat) : Rat))) = minutes washProgramme ++ List.replicate 59 2500 ∧ (minutes washProgramme).length = 138 := by
  have hne : ∀ (n : Nat) (k : Nat), k + 1 < n → (n : Rat) - ((k + 1 : Nat) : Rat) ≠ 0 := by
    intro n k h h0
    have : (n : Rat) = ((k + 1 : Nat) : Rat) := by linarith
    have : n = k + 1 := by exact_mod_cast this
    omega
  have hst : ∀ (n : Nat) (k : Nat), k + 1 < n → washingPower n standby ((n : Rat) - ((k + 1 : Nat) : Rat)) = washingPower n 0 ((n : Rat) - ((k + 1 : Nat) : Rat)) := by
    intro n k h
    unfold washingPower
    simp only [hne n k h, if_false]
  refine ⟨?_, ?_, by decide +kernel⟩
  · have e : ((List.range 137).map fun k => washingPower 138 standby (138 - ((k + 1 : Nat) : Rat))) = (List.range 137).map fun k => washingPower 138 0 (138 - ((k + 1 : Nat) : Rat)) := by
      apply List.map_congr_left
      intro k hk
      exact_mod_cast hst 138 k (by have := List.mem_range.mp hk; omega)
    rw [e]
    decide +kernel
  · have e : ((List.range 197).map fun k => washingPower 198 standby (198 - ((k + 1 : Nat) : Rat))) = (List.range 197).map fun k => washingPower 198 0 (198 - ((k + 1 : Nat) : Rat)) := by
      apply List.map_congr_left
      intro k hk
      exact_mod_cast hst 198 k (by have := List.mem_range.mp hk; omega)
    rw [e]
    decide +kernel

/-- **C67 (counterexample).** After the 138th step of the cycle the machine is in standby although the programme has a last minute of fast spin. -/
theorem C67_last_minute_counterexample : washingPower 138 1 (138 - 138) = 1 ∧ (minutes washProgramme)[137]? = some 568 := by decide +kernel

end Demod
