import Verif.Model.Load
import Mathlib.Tactic.Ring
import Mathlib.Data.List.Induction
import Mathlib.Logic.Function.Iterate

/-! # Property C61: the load simulator -/

namespace Demod

variable {Climate Activity Appliances Light Heating Opt H : Type}

/-- The weather of a step: the input if given, otherwise that of the climate simulator. -/
def weatherOf (given : Option Rat) (simulated : Option Rat) : Option Rat := given.orElse fun _ => simulated

/-- The step of the parts, given the activity and the weather. -/
theorem load_step (P : LoadParts Climate Activity Appliances Light Heating Opt H) (s : LoadState Climate Activity Appliances Light Heating) (i : LoadInput Opt) :
    (∀ out irr, weatherOf i.outside ((s.climate.map P.climateStep).map P.outside) = some out → weatherOf i.irradiance ((s.climate.map P.climateStep).map P.irradiance) = some irr →
      let activity := if s.step % 10 = 0 then P.activityStep s.activity else s.activity
      let appliances := P.applianceStep s.appliances (P.active activity)
      let light := P.lightStep s.light (P.active activity) irr
      P.step s i = .ok ⟨s.step + 1, s.climate.map P.climateStep, activity, appliances, light, s.heating.map fun h =>
        P.heatingStep h out irr (P.dhwDemand appliances) (P.occupancyGains activity) (P.lightGains light) (P.applianceGains appliances) i.heating⟩) ∧
    (s.climate = none → i.outside = none ∨ i.irradiance = none → P.step s i = .error .valueError) := by
  obtain ⟨o, r, opt⟩ := i
  obtain ⟨n, c, a, ap, l, h⟩ := s
  unfold LoadParts.step weatherOf
  constructor
  · intro out irr h1 h2
    cases c <;> cases o <;> cases r <;> simp_all <;> rfl
  · intro h1 h2
    cases c <;> cases o <;> cases r <;> simp_all <;> rfl

theorem run_append_one (P : LoadParts Climate Activity Appliances Light Heating Opt H) (is : List (LoadInput Opt)) (i : LoadInput Opt) :
    ∀ s, P.run s (is ++ [i]) = (P.run s is).bind fun t => P.step t i := by
  induction is with
  | nil =>
    intro s
    show (do P.run (← P.step s i) []) = P.step s i
    cases P.step s i <;> rfl
  | cons j js ih =>
    intro s
    show (do P.run (← P.step s j) (js ++ [i])) = (do P.run (← P.step s j) js : Except PyErr _).bind _
    cases P.step s j with
    | error e => rfl
    | ok t => exact ih t

/-- The weather is known: it is simulated or given in this step. -/
def hasWeather (climate : Option Climate) (i : LoadInput Opt) : Prop := climate.isSome ∨ (i.outside.isSome ∧ i.irradiance.isSome)

theorem weather_some {P : LoadParts Climate Activity Appliances Light Heating Opt H} {c : Option Climate} {i : LoadInput Opt} (h : hasWeather c i) :
    ∃ out irr, weatherOf i.outside ((c.map P.climateStep).map P.outside) = some out ∧ weatherOf i.irradiance ((c.map P.climateStep).map P.irradiance) = some irr := by
  obtain ⟨o, r, opt⟩ := i
  unfold hasWeather at h
  unfold weatherOf
  cases c <;> cases o <;> cases r <;> simp_all

/-- **C61.** The power demand of each household is the sum of the power demands of its appliances, its lights and (if included) its heating, after every run. -/
theorem C61_power (P : LoadParts Climate Activity Appliances Light Heating Opt H) (s : LoadState Climate Activity Appliances Light Heating) (h : H) :
    (∀ x, s.heating = some x → P.power s h = P.appliancePower s.appliances h + P.lightPower s.light h + P.heatingPower x h) ∧
    (s.heating = none → P.power s h = P.appliancePower s.appliances h + P.lightPower s.light h) := by
  unfold LoadParts.power
  constructor
  · intro x hx; rw [hx]
  · intro hx; rw [hx]; simp

/-- **C61.** After `n` steps from the starting state, all with known weather: the simulator is at step `n`, its climate simulator was stepped `n` times and its activity simulator once per started ten steps. -/
theorem C61_cadence (P : LoadParts Climate Activity Appliances Light Heating Opt H) (s : LoadState Climate Activity Appliances Light Heating) (h0 : s.step = 0)
    (is : List (LoadInput Opt)) (hw : ∀ i ∈ is, hasWeather s.climate i) :
    ∃ s', P.run s is = .ok s' ∧ s'.step = is.length ∧ s'.climate = s.climate.map (P.climateStep^[is.length]) ∧ s'.activity = P.activityStep^[(is.length + 9) / 10] s.activity ∧
      (s'.heating.isSome = s.heating.isSome) := by
  induction is using List.reverseRecOn with
  | nil => exact ⟨s, rfl, h0, by cases s.climate <;> rfl, by simp, rfl⟩
  | append_singleton is i ih =>
    obtain ⟨t, h1, h2, h3, h4, h5⟩ := ih fun j hj => hw j (List.mem_append_left _ hj)
    have hi : hasWeather t.climate i := by
      have := hw i (by simp)
      unfold hasWeather at *
      rw [h3]
      rwa [Option.isSome_map]
    obtain ⟨out, irr, w1, w2⟩ := weather_some (P := P) hi
    have hs := (load_step P t i).1 out irr w1 w2
    refine ⟨_, by rw [run_append_one, h1]; exact hs, ?_, ?_, ?_, ?_⟩
    · simp [h2]
    · simp only [h3, List.length_append, List.length_singleton]
      rw [Option.map_map, Function.iterate_succ']
    · simp only [h4, h2, List.length_append, List.length_singleton]
      split_ifs with hd
      · have e : (is.length + 1 + 9) / 10 = (is.length + 9) / 10 + 1 := by omega
        rw [e, Function.iterate_succ_apply']
      · have e : (is.length + 1 + 9) / 10 = (is.length + 9) / 10 := by omega
        rw [e]
    · simp only []
      rw [← h5]
      cases t.heating <;> rfl

/-- **C61.** In every step the appliances and the lights are stepped once with the active occupancy of the activity simulator (after it was stepped) and the heating once with the weather of this step and the hot water demand and the gains after the step of the other parts;
the weather is the given one if it is given and the one of the stepped climate simulator otherwise. -/
theorem C61_step (P : LoadParts Climate Activity Appliances Light Heating Opt H) (s s' : LoadState Climate Activity Appliances Light Heating) (i : LoadInput Opt) (hs : P.step s i = .ok s') :
    ∃ out irr, (i.outside = some out ∨ i.outside = none ∧ ∃ c, s'.climate = some c ∧ out = P.outside c) ∧ (i.irradiance = some irr ∨ i.irradiance = none ∧ ∃ c, s'.climate = some c ∧ irr = P.irradiance c) ∧
      s'.appliances = P.applianceStep s.appliances (P.active s'.activity) ∧ s'.light = P.lightStep s.light (P.active s'.activity) irr ∧
      s'.heating = s.heating.map (fun h => P.heatingStep h out irr (P.dhwDemand s'.appliances) (P.occupancyGains s'.activity) (P.lightGains s'.light) (P.applianceGains s'.appliances) i.heating) := by
  have hi : hasWeather s.climate i := by
    by_contra hno
    unfold hasWeather at hno
    have hc : s.climate = none := by
      cases hc : s.climate with
      | none => rfl
      | some c => rw [hc] at hno; simp at hno
    have h2 : i.outside = none ∨ i.irradiance = none := by
      cases ho : i.outside with
      | none => exact Or.inl rfl
      | some v =>
        right
        cases hr : i.irradiance with
        | none => rfl
        | some w => rw [ho, hr] at hno; simp at hno
    rw [(load_step P s i).2 hc h2] at hs
    cases hs
  obtain ⟨out, irr, w1, w2⟩ := weather_some (P := P) hi
  rw [(load_step P s i).1 out irr w1 w2] at hs
  cases hs
  refine ⟨out, irr, ?_, ?_, rfl, rfl, rfl⟩
  · unfold weatherOf at w1
    cases ho : i.outside with
    | some v => rw [ho] at w1; left; simpa using w1
    | none =>
      rw [ho] at w1
      right
      refine ⟨rfl, ?_⟩
      cases hc : s.climate with
      | none => rw [hc] at w1; simp at w1
      | some c => rw [hc] at w1; exact ⟨_, rfl, by simpa using w1.symm⟩
  · unfold weatherOf at w2
    cases ho : i.irradiance with
    | some v => rw [ho] at w2; left; simpa using w2
    | none =>
      rw [ho] at w2
      right
      refine ⟨rfl, ?_⟩
      cases hc : s.climate with
      | none => rw [hc] at w2; simp at w2
      | some c => rw [hc] at w2; exact ⟨_, rfl, by simpa using w2.symm⟩

/-- **C61.** Without climate simulator, a step without temperature or irradiance raises `ValueError`. -/
theorem C61_missing_weather (P : LoadParts Climate Activity Appliances Light Heating Opt H) (s : LoadState Climate Activity Appliances Light Heating) (i : LoadInput Opt) (hc : s.climate = none)
    (hi : i.outside = none ∨ i.irradiance = none) : P.step s i = .error .valueError := (load_step P s i).2 hc hi

/-- **C61 (counterexample).** The activity is ahead of the clock: with an activity simulator whose state is its time in minutes (steps of ten minutes), the load simulator shows at minute `n` the activity of the next multiple of ten minutes,
so that the initial activities are never used. -/
theorem C61_activity_ahead_counterexample (P : LoadParts Climate Nat Appliances Light Heating Opt H) (hP : P.activityStep = (· + 10)) (s : LoadState Climate Nat Appliances Light Heating) (h0 : s.step = 0) (ha : s.activity = 0)
    (is : List (LoadInput Opt)) (hw : ∀ i ∈ is, hasWeather s.climate i) :
    ∃ s', P.run s is = .ok s' ∧ s'.step = is.length ∧ s'.activity = (is.length + 9) / 10 * 10 := by
  obtain ⟨s', h1, h2, -, h3, -⟩ := C61_cadence P s h0 is hw
  refine ⟨s', h1, h2, ?_⟩
  rw [h3, hP, ha]
  have : ∀ k : Nat, (fun x => x + 10)^[k] 0 = k * 10 := by
    intro k
    induction k with
    | zero => rfl
    | succ k ih => rw [Function.iterate_succ_apply', ih]; ring
  exact this _

/-- A load simulator of counters, for one household. -/
def demoLoad : LoadParts Nat Nat Nat Nat Nat Unit Unit :=
  { climateStep := (· + 1), outside := fun c => c, irradiance := fun c => 2 * c, activityStep := (· + 10), active := fun a _ => a, occupancyGains := fun a _ => a
    applianceStep := fun x a => x + a (), appliancePower := fun x _ => x, applianceGains := fun x _ => x, dhwDemand := fun x _ => x
    lightStep := fun x _ _ => x + 1, lightPower := fun x _ => x, lightGains := fun x _ => x
    heatingStep := fun x _ _ _ _ _ _ _ => x + 1, heatingPower := fun x _ => x }

example : (match demoLoad.run ⟨0, some 0, 0, 0, 0, some 0⟩ (List.replicate 12 ⟨none, none, ()⟩) with | .ok s => some (s.step, s.climate, s.activity, demoLoad.power s ()) | .error _ => none) = some (12, some 12, 20, 140 + 12 + 12) := by decide +kernel

end Demod
