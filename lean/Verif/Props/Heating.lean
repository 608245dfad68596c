import Verif.Spec.Heating
import Verif.Lemmas.Heating

/-! # Properties C52-C59, C73: heating -/

namespace Demod

/-! ## C52: energy balance -/

/-- **C52.** In every step the change of the stored heat is the step size times the net flow from outside: the exchanges between the nodes cancel. -/
theorem C52_energy_balance (b : Building) (dt : Rat) (T : Temps) (i : BuildingInput) (h1 : b.cB ≠ 0) (h2 : b.cI ≠ 0) (h3 : b.cEm ≠ 0) (h4 : b.cCyl ≠ 0) :
    storedHeat b (b.step dt T i) - storedHeat b T = dt * netFlow b T i := by
  unfold storedHeat netFlow Building.step
  field_simp
  ring

/-- **C52 (runs).** Over any number of steps, the change of the stored heat is the sum of the net flows. -/
theorem C52_run (b : Building) (dt : Rat) (T : Temps) (is : List BuildingInput) (h1 : b.cB ≠ 0) (h2 : b.cI ≠ 0) (h3 : b.cEm ≠ 0) (h4 : b.cCyl ≠ 0) :
    storedHeat b (b.run dt T is) - storedHeat b T =
      dt * ((List.range is.length).map fun k => ((is[k]?).map fun i => netFlow b (b.run dt T (is.take k)) i).getD 0).sum := by
  induction is generalizing T with
  | nil => simp [Building.run]
  | cons i is ih =>
    have h := C52_energy_balance b dt T i h1 h2 h3 h4
    have h' := ih (b.step dt T i)
    rw [List.length_cons, List.range_succ_eq_map, List.map_cons, List.map_map, List.sum_cons]
    simp only [Function.comp_def, List.getElem?_cons_succ, List.take_succ_cons, List.getElem?_cons_zero, List.take_zero, Building.run, Option.map_some, Option.getD_some]
    rw [mul_add, ← h', ← h]
    ring

/-- **C52 (equilibrium).** When everything has the same temperature and there are no gains, nothing changes. -/
theorem C52_equilibrium (b : Building) (dt θ : Rat) (T : Temps) (i : BuildingInput) (hT : T = ⟨θ, θ, θ, θ, θ⟩) (ho : i.outside = θ) (hi : i.irradiance = 0)
    (hg : i.occupancyGains + i.lightingGains + i.applianceGains = 0) (hs : i.spaceHeating = 0) (hd : i.dhw = 0) : b.step dt T i = T := by
  subst hT
  unfold Building.step
  simp only [ho, hi, hg, hs, hd, Temps.mk.injEq]
  refine ⟨by ring, by ring, by ring, by ring, trivial⟩

/-- A small building, in Wh/K-like numbers. -/
def exampleBuilding : Building := ⟨6000000, 600000, 60000, 100, 300, 200, 50, 10, 2, 480000⟩

example : storedHeat exampleBuilding (exampleBuilding.step 60 ⟨10, 20, 40, 50, 10⟩ ⟨5, 100, 70, 84, 0, 100, 5000, 3000⟩) ≠ storedHeat exampleBuilding ⟨10, 20, 40, 50, 10⟩ := by
  decide +kernel

/-! ## C53: no overshoot -/

theorem step_le (b : Building) (dt D M : Rat) (hb : b.Physical) (hdt : 0 ≤ dt) (hst : b.Stable dt D) (T : Temps) (hT : T.LE M) (i : BuildingInput) (ho : i.outside ≤ M)
    (hd0 : 0 ≤ i.dhwDemand) (hdD : i.dhwDemand ≤ D) (hgain : i.irradiance * b.irradianceMultiplier + (i.occupancyGains + i.lightingGains + i.applianceGains) ≤ 0)
    (hem : (b.step dt T i).emitter ≤ M) (hcyl : (b.step dt T i).cylinder ≤ M) : (b.step dt T i).LE M := by
  have hB := node_le b.cB dt T.building M (b.hOb + b.hBi) (b.hBi * T.interior + b.hOb * i.outside) 0 hb.cB hdt
    (by nlinarith [mul_le_mul_of_nonneg_left hT.interior hb.hBi, mul_le_mul_of_nonneg_left ho hb.hOb]) le_rfl hT.building hst.building
  have hI := node_le b.cI dt T.interior M (b.hV + b.hBi + b.hEm + b.hLoss) (b.hBi * T.building + b.hV * i.outside + b.hEm * T.emitter + b.hLoss * T.cylinder)
    (i.irradiance * b.irradianceMultiplier + (i.occupancyGains + i.lightingGains + i.applianceGains)) hb.cI hdt
    (by nlinarith [mul_le_mul_of_nonneg_left hT.building hb.hBi, mul_le_mul_of_nonneg_left ho hb.hV, mul_le_mul_of_nonneg_left hT.emitter hb.hEm, mul_le_mul_of_nonneg_left hT.cylinder hb.hLoss])
    hgain hT.interior hst.interior
  refine ⟨?_, ?_, hem, hcyl, hT.coldWater⟩
  · refine le_trans (le_of_eq ?_) hB
    unfold Building.step; ring
  · refine le_trans (le_of_eq ?_) hI
    unfold Building.step; ring

theorem step_ge (b : Building) (dt D M : Rat) (hb : b.Physical) (hdt : 0 ≤ dt) (hst : b.Stable dt D) (T : Temps) (hT : T.GE M) (i : BuildingInput) (ho : M ≤ i.outside)
    (hd0 : 0 ≤ i.dhwDemand) (hdD : i.dhwDemand ≤ D) (hgain : 0 ≤ i.irradiance * b.irradianceMultiplier + (i.occupancyGains + i.lightingGains + i.applianceGains))
    (hs : 0 ≤ i.spaceHeating) (hw : 0 ≤ i.dhw) : (b.step dt T i).GE M := by
  have hB := node_ge b.cB dt T.building M (b.hOb + b.hBi) (b.hBi * T.interior + b.hOb * i.outside) 0 hb.cB hdt
    (by nlinarith [mul_le_mul_of_nonneg_left hT.interior hb.hBi, mul_le_mul_of_nonneg_left ho hb.hOb]) le_rfl hT.building hst.building
  have hI := node_ge b.cI dt T.interior M (b.hV + b.hBi + b.hEm + b.hLoss) (b.hBi * T.building + b.hV * i.outside + b.hEm * T.emitter + b.hLoss * T.cylinder)
    (i.irradiance * b.irradianceMultiplier + (i.occupancyGains + i.lightingGains + i.applianceGains)) hb.cI hdt
    (by nlinarith [mul_le_mul_of_nonneg_left hT.building hb.hBi, mul_le_mul_of_nonneg_left ho hb.hV, mul_le_mul_of_nonneg_left hT.emitter hb.hEm, mul_le_mul_of_nonneg_left hT.cylinder hb.hLoss])
    hgain hT.interior hst.interior
  have hE := node_ge b.cEm dt T.emitter M b.hEm (b.hEm * T.interior) i.spaceHeating hb.cEm hdt (mul_le_mul_of_nonneg_left hT.interior hb.hEm) hs hT.emitter hst.emitter
  have hC := node_ge b.cCyl dt T.cylinder M (b.hLoss + i.dhwDemand) (b.hLoss * T.interior + i.dhwDemand * T.coldWater) i.dhw hb.cCyl hdt
    (by nlinarith [mul_le_mul_of_nonneg_left hT.interior hb.hLoss, mul_le_mul_of_nonneg_left hT.coldWater hd0]) hw hT.cylinder
    (le_trans (mul_le_mul_of_nonneg_left (by linarith) hdt) hst.cylinder)
  refine ⟨?_, ?_, ?_, ?_, hT.coldWater⟩
  · refine le_trans hB (le_of_eq ?_); unfold Building.step; ring
  · refine le_trans hI (le_of_eq ?_); unfold Building.step; ring
  · refine le_trans hE (le_of_eq ?_); unfold Building.step; ring
  · refine le_trans hC (le_of_eq ?_); unfold Building.step; ring

/-- **C53.** A building with positive capacitances, a step size with `dt · ΣH ≤ C` at each node, hot water demands between 0 and `D`: without gains and heating, all
temperatures stay below any bound `M` of the initial temperatures, the cold water and the outside temperatures, and above any such lower
bound `m`, for ever. -/
theorem C53_bounds (b : Building) (dt D m M : Rat) (hb : b.Physical) (hdt : 0 ≤ dt) (hst : b.Stable dt D) (T : Temps) (is : List BuildingInput)
    (hd : ∀ i ∈ is, 0 ≤ i.dhwDemand ∧ i.dhwDemand ≤ D)
    (hno : ∀ i ∈ is, i.irradiance = 0 ∧ i.occupancyGains = 0 ∧ i.lightingGains = 0 ∧ i.applianceGains = 0 ∧ i.spaceHeating = 0 ∧ i.dhw = 0)
    (ho : ∀ i ∈ is, m ≤ i.outside ∧ i.outside ≤ M) (h1 : T.GE m) (h2 : T.LE M) : (b.run dt T is).GE m ∧ (b.run dt T is).LE M := by
  induction is generalizing T with
  | nil => exact ⟨h1, h2⟩
  | cons i is ih =>
    obtain ⟨hd0, hdD⟩ := hd i List.mem_cons_self
    obtain ⟨n1, n2, n3, n4, n5, n6⟩ := hno i List.mem_cons_self
    obtain ⟨o1, o2⟩ := ho i List.mem_cons_self
    have hgain : i.irradiance * b.irradianceMultiplier + (i.occupancyGains + i.lightingGains + i.applianceGains) = 0 := by rw [n1, n2, n3, n4]; ring
    refine ih (b.step dt T i) (fun x hx => hd x (List.mem_cons_of_mem _ hx)) (fun x hx => hno x (List.mem_cons_of_mem _ hx)) (fun x hx => ho x (List.mem_cons_of_mem _ hx)) ?_ ?_
    · exact step_ge b dt D m hb hdt hst T h1 i o1 hd0 hdD (le_of_eq hgain.symm) (le_of_eq n5.symm) (le_of_eq n6.symm)
    · refine step_le b dt D M hb hdt hst T h2 i o2 hd0 hdD (le_of_eq hgain) ?_ ?_
      · have hE := node_le b.cEm dt T.emitter M b.hEm (b.hEm * T.interior) 0 hb.cEm hdt (mul_le_mul_of_nonneg_left h2.interior hb.hEm) le_rfl h2.emitter hst.emitter
        refine le_trans (le_of_eq ?_) hE; unfold Building.step; simp only [n5]
      · have hC := node_le b.cCyl dt T.cylinder M (b.hLoss + i.dhwDemand) (b.hLoss * T.interior + i.dhwDemand * T.coldWater) 0 hb.cCyl hdt
          (by nlinarith [mul_le_mul_of_nonneg_left h2.interior hb.hLoss, mul_le_mul_of_nonneg_left h2.coldWater hd0]) le_rfl h2.cylinder
          (le_trans (mul_le_mul_of_nonneg_left (by linarith) hdt) hst.cylinder)
        refine le_trans (le_of_eq ?_) hC; unfold Building.step; simp only [n6]; ring

/-- **C53 (with gains).** With non-negative gains and heating, the lower bound still holds. -/
theorem C53_lower_bound (b : Building) (dt D m : Rat) (hb : b.Physical) (hdt : 0 ≤ dt) (hst : b.Stable dt D) (T : Temps) (is : List BuildingInput)
    (hd : ∀ i ∈ is, 0 ≤ i.dhwDemand ∧ i.dhwDemand ≤ D)
    (hg : ∀ i ∈ is, 0 ≤ i.irradiance ∧ 0 ≤ i.occupancyGains ∧ 0 ≤ i.lightingGains ∧ 0 ≤ i.applianceGains ∧ 0 ≤ i.spaceHeating ∧ 0 ≤ i.dhw)
    (ho : ∀ i ∈ is, m ≤ i.outside) (h1 : T.GE m) : (b.run dt T is).GE m := by
  induction is generalizing T with
  | nil => exact h1
  | cons i is ih =>
    obtain ⟨hd0, hdD⟩ := hd i List.mem_cons_self
    obtain ⟨n1, n2, n3, n4, n5, n6⟩ := hg i List.mem_cons_self
    refine ih (b.step dt T i) (fun x hx => hd x (List.mem_cons_of_mem _ hx)) (fun x hx => hg x (List.mem_cons_of_mem _ hx)) (fun x hx => ho x (List.mem_cons_of_mem _ hx)) ?_
    exact step_ge b dt D m hb hdt hst T h1 i (ho i List.mem_cons_self) hd0 hdD (by have := mul_nonneg n1 hb.irr; linarith) n5 n6

theorem exampleBuilding_physical : exampleBuilding.Physical := by constructor <;> decide +kernel
theorem exampleBuilding_stable : exampleBuilding.Stable 60 700 := by constructor <;> decide +kernel

/-- The condition on the step size is needed: with a step of an hour, the emitter of the example falls below all temperatures. -/
example : ¬ (exampleBuilding.step 3600 ⟨20, 20, 60, 50, 10⟩ ⟨15, 0, 0, 0, 0, 0, 0, 0⟩).GE 10 := by
  intro h; exact absurd h.emitter (by decide +kernel)

/-! ## C54: the demand reaches the set point -/

/-- **C54.** If the heating system delivers exactly the demand for hot water, the cylinder is at target + deadband after one step of the same size. -/
theorem C54_hot_water (b : Building) (dt : Rat) (T : Temps) (i : BuildingInput) (target deadband : Targets) (hdt : dt ≠ 0) (hc : b.cCyl ≠ 0)
    (hd : i.dhw = hotWaterDemand b dt T i.dhwDemand target deadband) : (b.step dt T i).cylinder = target.dhw + deadband.dhw := by
  unfold Building.step
  simp only [hd, hotWaterDemand]
  field_simp
  ring

/-- **C54.** If it delivers exactly the demand for the emitters, they are at target + deadband after one step of the same size. -/
theorem C54_emitters (b : Building) (dt : Rat) (T : Temps) (i : BuildingInput) (target deadband : Targets) (hdt : dt ≠ 0) (hc : b.cEm ≠ 0)
    (hd : i.spaceHeating = spaceDemand .heatMaxEmitters b dt T i.outside target deadband) : (b.step dt T i).emitter = target.emitter + deadband.emitter := by
  unfold Building.step
  simp only [hd, spaceDemand]
  field_simp
  ring

/-- **C54 (five modules, partial).** In a `FiveModulesHeatingSimulator` with step size `dt`, when the heating system delivers the demand for hot water, the cylinder moves
by `dt / 60` times its distance to target + deadband: it reaches it iff it is there already or the step size is 60 seconds. -/
theorem C54_five_modules_partial (b : Building) (sys : HeatSys) (algo : DemandAlgo) (dt : Rat) (deadband target : Targets) (T0 : Temps) (is : List FiveInput) (i : FiveInput)
    (hc : b.cCyl ≠ 0) (hext : i.extCylinder = none) :
    let s := (FiveModules.create b sys algo dt deadband target T0).run is
    let s' := s.step i
    s'.outputs.dhw = s'.demand.dhw → s'.temps.cylinder - s.temps.cylinder = dt / 60 * (s'.target.dhw + deadband.dhw - s.temps.cylinder) := by
  intro s s' hd
  have hinv : ∀ (is : List FiveInput) (s : FiveModules), (s.run is).building = s.building ∧ (s.run is).dt = s.dt ∧ (s.run is).demandDt = s.demandDt ∧ (s.run is).deadband = s.deadband := by
    intro is
    induction is with
    | nil => intro s; exact ⟨rfl, rfl, rfl, rfl⟩
    | cons i is ih => intro s; exact ih (s.step i)
  obtain ⟨e1, e2, e3, e4⟩ := hinv is (FiveModules.create b sys algo dt deadband target T0)
  have hcc : s.building.cCyl ≠ 0 := by rw [e1]; exact hc
  have e3' : s.demandDt = 60 := e3
  have e2' : s.dt = dt := e2
  have e4' : s.deadband = deadband := e4
  have hcyl : s'.temps.cylinder = s.temps.cylinder + s.dt / s.building.cCyl * (s.building.hLoss * s.temps.interior - (s.building.hLoss + i.dhwDemand) * s.temps.cylinder +
      i.dhwDemand * s.temps.coldWater + s'.outputs.dhw) := by
    show (FiveModules.step s i).temps.cylinder = _ + _ * (_ + (FiveModules.step s i).outputs.dhw)
    simp only [FiveModules.step, Building.step, hext, Option.join_none, Option.getD_none]
  have hdem : s'.demand.dhw = s.building.cCyl / s.demandDt * (s'.target.dhw + s.deadband.dhw - s.temps.cylinder) + i.dhwDemand * (s.temps.cylinder - s.temps.coldWater) +
      s.building.hLoss * (s.temps.cylinder - s.temps.interior) := by
    show (FiveModules.step s i).demand.dhw = _ * ((FiveModules.step s i).target.dhw + _ - _) + _ + _
    simp only [FiveModules.step, heatDemand, hotWaterDemand, hext, Option.join_none, Option.getD_none]
  rw [hcyl, hd, hdem, e3', e2', e4']
  field_simp
  ring

/-- A powerful electric boiler. -/
def exampleSys : HeatSys := { pump := 80, standby := 5, flowRate := 1, flowRateToW := 1, fuel := .electricity, maxSpace := 1000000, maxDhw := 1000000, isCombi := false }

/-- An input without external systems. -/
def exampleInput : FiveInput :=
  { outside := 5, irradiance := 0, dhwDemand := 0, occupancyGains := 0, lightingGains := 0, applianceGains := 0, targetDhw := none, targetSpace := none
    targetEmitter := none, extHeat := .none, extDhw := none, extSh := none, extCylinder := none }

/-- **C54 (counterexample).** With steps of ten minutes, a cylinder at 50 °C with target 60 °C and deadband 5 K is heated to 200 °C in one step. -/
theorem C54_step_size_counterexample :
    let s := (FiveModules.create exampleBuilding exampleSys .heatMaxEmitters 600 ⟨5, 1, 5⟩ ⟨60, 20, 50⟩ ⟨10, 20, 50, 50, 10⟩).step exampleInput
    s.controls.heatWaterOn = true ∧ s.outputs.dhw = s.demand.dhw ∧ s.temps.cylinder = 200 := by
  decide +kernel

/-! ## C55: hysteresis -/

/-- **C55.** A thermostat with a positive deadband: at or below target − deadband it is on, at or above target + deadband it is off, in between it
keeps its state. -/
theorem C55_hysteresis (on : Bool) (t target db : Rat) (h : 0 < db) :
    (t ≤ target - db → thermostatStep on t target db = true) ∧ (target + db ≤ t → thermostatStep on t target db = false) ∧
    (target - db < t → t < target + db → thermostatStep on t target db = on) := by
  unfold thermostatStep
  refine ⟨?_, ?_, ?_⟩
  · intro h1
    cases on
    · simp [h1]
    · have : t < target + db := by linarith
      simp [this]
  · intro h1
    have h2 : ¬ t < target + db := not_lt.2 h1
    have h3 : ¬ t ≤ target - db := by linarith
    cases on <;> simp [h2, h3]
  · intro h1 h2
    have h3 : ¬ t ≤ target - db := not_le.2 h1
    cases on <;> simp [h2, h3]

/-- **C55 (histories).** The three thermostats of `Thermostats.step` over any sequence of temperatures: a thermostat that is on is still on if its temperature stayed below target +
deadband, and one that is off is still off if it stayed above target − deadband (for any deadband). -/
theorem C55_run (target db : Rat) (on : Bool) (ts : List Rat) :
    (on = true → (∀ t ∈ ts, t < target + db) → ts.foldl (fun on t => thermostatStep on t target db) on = true) ∧
    (on = false → (∀ t ∈ ts, target - db < t) → ts.foldl (fun on t => thermostatStep on t target db) on = false) := by
  induction ts generalizing on with
  | nil => exact ⟨fun h _ => h, fun h _ => h⟩
  | cons t ts ih =>
    constructor
    · intro h1 h2
      have : thermostatStep on t target db = true := by
        have := h2 t List.mem_cons_self
        simp [thermostatStep, h1, this]
      exact (ih _).1 this fun x hx => h2 x (List.mem_cons_of_mem _ hx)
    · intro h1 h2
      have : thermostatStep on t target db = false := by
        have := h2 t List.mem_cons_self
        have : ¬ t ≤ target - db := not_le.2 this
        simp [thermostatStep, h1, this]
      exact (ih _).2 this fun x hx => h2 x (List.mem_cons_of_mem _ hx)

/-- **C55 (components).** The hot water thermostat follows the cylinder, the space heating thermostat the room and the emitter thermostat the emitters, each with its own target and deadband; they start on iff below the
target. -/
theorem C55_components (s : ThermostatStates) (T : Temps) (target db : Targets) :
    thermostatsStep s T target db = ⟨thermostatStep s.hotWater T.cylinder target.dhw db.dhw, thermostatStep s.spaceHeating T.interior target.spaceHeating db.spaceHeating,
      thermostatStep s.emitter T.emitter target.emitter db.emitter⟩ ∧
    ((thermostatsInit T target).hotWater = true ↔ T.cylinder < target.dhw) ∧ ((thermostatsInit T target).spaceHeating = true ↔ T.interior < target.spaceHeating) ∧
    ((thermostatsInit T target).emitter = true ↔ T.emitter < target.emitter) := by
  refine ⟨rfl, ?_, ?_, ?_⟩ <;> simp [thermostatsInit, thermostatInit]

example : [19, 20, 181 / 10, 18, 20, 219 / 10, 22, 20].foldl (fun on (t : Rat) => thermostatStep on t 20 2) false = false ∧
    [19, 20, 18, 20].foldl (fun on (t : Rat) => thermostatStep on t 20 2) false = true := by decide +kernel

/-! ## C56: controls -/

/-- **C56.** The controls: water heating of combi boilers and external cylinders follows the hot water demand, otherwise the thermostat; space heating needs both
thermostats; the heater is on iff one of them is. -/
theorem C56_controls (isCombi ext : Bool) (d : Rat) (s : ThermostatStates) :
    ((controlsStep isCombi ext d s).heatWaterOn = true ↔ if isCombi = true ∨ ext = true then 0 < d else s.hotWater = true) ∧
    ((controlsStep isCombi ext d s).spaceHeatingOn = true ↔ s.spaceHeating = true ∧ s.emitter = true) ∧
    ((controlsStep isCombi ext d s).heaterOn = true ↔ (controlsStep isCombi ext d s).heatWaterOn = true ∨ (controlsStep isCombi ext d s).spaceHeatingOn = true) := by
  unfold controlsStep
  refine ⟨?_, ?_, ?_⟩
  · cases isCombi <;> cases ext <;> simp
  · simp
  · simp

example : controlsStep true false 0 ⟨true, true, false⟩ = ⟨false, false, false⟩ ∧ controlsStep false false 0 ⟨true, false, true⟩ = ⟨true, true, false⟩ := by decide +kernel

/-! ## C57: capacity -/

/-- **C57.** The heat outputs of a heating system with capacities `maxSpace, maxDhw ≥ 0`: non-negative, hot water at most `maxDhw`, space heating at most `maxSpace`, total at most the larger of the two, total = hot water + space heating, nothing
when the heater is off; hot water is served first: it gets its demand up to `maxDhw`, and space heating what is left of `maxSpace`. -/
theorem C57_capacity (h : HeatSys) (c : Controls) (d : Demand) (h1 : 0 ≤ h.maxSpace) (h2 : 0 ≤ h.maxDhw) :
    0 ≤ (h.step c d).dhw ∧ 0 ≤ (h.step c d).spaceHeating ∧ (h.step c d).dhw ≤ h.maxDhw ∧ (h.step c d).spaceHeating ≤ h.maxSpace ∧
    (h.step c d).total ≤ max h.maxSpace h.maxDhw ∧ (h.step c d).total = (h.step c d).dhw + (h.step c d).spaceHeating ∧
    (c.heaterOn = false → (h.step c d).total = 0) ∧
    (c.heatWaterOn = false → (h.step c d).dhw = 0) ∧ (c.spaceHeatingOn = false → (h.step c d).spaceHeating = 0) ∧
    (c.heaterOn = true → c.heatWaterOn = true → (h.step c d).dhw = min (max d.dhw 0) h.maxDhw) ∧
    (c.heaterOn = true → c.spaceHeatingOn = true → (h.step c d).spaceHeating = min (max d.spaceHeating 0) (max (h.maxSpace - (h.step c d).dhw) 0)) := by
  have a1 := npClip_nonneg d.dhw h.maxDhw h2
  have a2 := npClip_le d.dhw 0 h.maxDhw
  have r0 : npClip (h.maxSpace - npClip d.dhw 0 h.maxDhw) 0 h.maxSpace = max (h.maxSpace - npClip d.dhw 0 h.maxDhw) 0 := by
    unfold npClip at a1 ⊢
    exact min_eq_left (max_le (by linarith) h1)
  have r1 : 0 ≤ npClip (h.maxSpace - npClip d.dhw 0 h.maxDhw) 0 h.maxSpace := npClip_nonneg _ _ h1
  have b1 := npClip_nonneg d.spaceHeating _ r1
  have b2 := npClip_le d.spaceHeating 0 (npClip (h.maxSpace - npClip d.dhw 0 h.maxDhw) 0 h.maxSpace)
  have b3 := npClip_le (h.maxSpace - npClip d.dhw 0 h.maxDhw) 0 h.maxSpace
  have c1 := npClip_nonneg d.spaceHeating h.maxSpace h1
  have c2 := npClip_le d.spaceHeating 0 h.maxSpace
  have m1 := le_max_left h.maxSpace h.maxDhw
  have m2 := le_max_right h.maxSpace h.maxDhw
  have b4 : npClip d.spaceHeating 0 (npClip (h.maxSpace - npClip d.dhw 0 h.maxDhw) 0 h.maxSpace) + npClip d.dhw 0 h.maxDhw ≤ max h.maxSpace h.maxDhw := by
    rw [r0] at b2 ⊢
    rcases le_total (h.maxSpace - npClip d.dhw 0 h.maxDhw) 0 with hh | hh
    · rw [max_eq_right hh] at b2 ⊢; linarith
    · rw [max_eq_left hh] at b2 ⊢; linarith
  have z : ∀ x : Rat, npClip x 0 h.maxSpace = min (max x 0) (max (h.maxSpace - 0) 0) := by
    intro x; rw [sub_zero, max_eq_left h1]; rfl
  have y : npClip d.spaceHeating 0 (npClip (h.maxSpace - npClip d.dhw 0 h.maxDhw) 0 h.maxSpace) = min (max d.spaceHeating 0) (max (h.maxSpace - npClip d.dhw 0 h.maxDhw) 0) := by
    rw [r0]; rfl
  unfold HeatSys.step
  obtain ⟨x1, x2, x3⟩ := c
  cases x1 <;> cases x2 <;> cases x3 <;> simp only [Bool.and_true, Bool.and_false, Bool.not_true, Bool.not_false, if_true, Bool.false_eq_true, if_false, zero_add, add_zero]
  all_goals refine ⟨?_, ?_, ?_, ?_, ?_, ?_, ?_, ?_, ?_, ?_, ?_⟩
  all_goals first
    | trivial
    | (intros; trivial)
    | rfl
    | assumption
    | (intros; simp_all; done)
    | linarith

example : exampleSys.step ⟨true, true, true⟩ ⟨600000, 900000⟩ = ⟨600000, 400000, 1000000⟩ := by decide +kernel

/-- **C57 (counterexample for external outputs).** `FiveModulesHeatingSimulator` overwrites the hot water output with the external one, but not the total: after such a step
`total ≠ dhw + space_heating` in `get_heat_outputs`. -/
theorem C57_external_total_counterexample :
    let s := (FiveModules.create exampleBuilding exampleSys .heatMaxEmitters 60 ⟨5, 1, 5⟩ ⟨60, 20, 50⟩ ⟨10, 20, 50, 50, 10⟩).step { exampleInput with extDhw := some (some 1000) }
    s.outputs.dhw = 1000 ∧ s.outputs.total ≠ s.outputs.dhw + s.outputs.spaceHeating := by
  decide +kernel

/-! ## C58: splitting external heat -/

/-- **C58.** For a non-negative external output: hot water + space heating = output, both are non-negative, space heating is 0 unless the heater and space heating are on, and it is at most
its (positive) demand; hot water is served first: with water heating on, it gets at least the smaller of its demand and the output. -/
theorem C58_split (out : Rat) (c : Controls) (d : Demand) (h : 0 ≤ out) :
    (splitHeat out c d).1 + (splitHeat out c d).2 = out ∧ 0 ≤ (splitHeat out c d).1 ∧ 0 ≤ (splitHeat out c d).2 ∧
    (¬ (c.heaterOn = true ∧ c.spaceHeatingOn = true) → (splitHeat out c d).2 = 0) ∧ (splitHeat out c d).2 ≤ max d.spaceHeating 0 ∧
    (c.heaterOn = true → c.heatWaterOn = true → min d.dhw out ≤ (splitHeat out c d).1) := by
  have a1 := npClip_nonneg d.dhw out h
  have a2 := npClip_le d.dhw 0 out
  have a3 : min d.dhw out ≤ npClip d.dhw 0 out := by unfold npClip; exact min_le_min_right _ (le_max_left _ _)
  have r : 0 ≤ out - npClip d.dhw 0 out := by linarith
  have b1 := npClip_nonneg d.spaceHeating _ r
  have b2 := npClip_le d.spaceHeating 0 (out - npClip d.dhw 0 out)
  have b3 := npClip_le_max d.spaceHeating 0 (out - npClip d.dhw 0 out)
  have c1 := npClip_nonneg d.spaceHeating out h
  have c2 := npClip_le d.spaceHeating 0 out
  have c3 := npClip_le_max d.spaceHeating 0 out
  have m := le_max_right d.spaceHeating 0
  have m' := min_le_right d.dhw out
  unfold splitHeat
  obtain ⟨x1, x2, x3⟩ := c
  cases x1 <;> cases x2 <;> cases x3 <;> simp only [Bool.and_true, Bool.and_false, Bool.not_true, Bool.not_false, if_true, Bool.false_eq_true, if_false]
  all_goals refine ⟨by ring, ?_, ?_, ?_, ?_, ?_⟩
  all_goals first
    | assumption
    | linarith
    | (intros; simp_all; done)
    | (intros; trivial)
    | (intro hh hh'; cases hh; done)
    | (intro hh hh'; cases hh'; done)
    | (intro hh hh'; linarith)

example : splitHeat 5000 ⟨true, true, true⟩ ⟨3000, 4000⟩ = (3000, 2000) ∧ splitHeat 5000 ⟨true, true, true⟩ ⟨1000, 2000⟩ = (3000, 2000) := by decide +kernel

/-! ## C59: power demand -/

/-- The electricity of a heating system: the flow rate (in kW) times the load of both outputs relative to their capacities. -/
def electricity (h : HeatSys) (c : Controls) (o : HeatOutputs) : Rat :=
  if h.fuel = .electricity ∧ c.heaterOn = true then h.flowRate * 1000 * (o.spaceHeating / h.maxSpace + o.dhw / h.maxDhw) else 0

/-- **C59 (partial).** After a step of a `FiveModulesHeatingSimulator` (both capacities positive): households with an external heat output in this step (hot water or space heating, not
NaN) have power demand zero; the others have the pump power if space heating is on and the standby power otherwise, plus the electricity of the
boiler; and the power demand is never negative. Missing: systems without one of the capacities, `set_external_heating_system`, and households with NaN in an array of external outputs, see the counterexamples. -/
theorem C59_power_demand_partial (s : FiveModules) (i : FiveInput) (h1 : 0 < s.sys.maxSpace) (h2 : 0 < s.sys.maxDhw) (hp : 0 ≤ s.sys.pump) (hs : 0 ≤ s.sys.standby) (hf : 0 ≤ s.sys.flowRate) :
    let s' := s.step i
    (i.externalDhw ∨ i.externalSpace → s'.powerDemand = some 0) ∧
    (¬ (i.externalDhw ∨ i.externalSpace) → (i.extHeat = .array none → i.extSh.isSome) →
      s'.powerDemand = some ((if s'.controls.spaceHeatingOn = true then s.sys.pump else s.sys.standby) + electricity s.sys s'.controls s'.outputs)) ∧
    ∃ p, s'.powerDemand = some p ∧ 0 ≤ p := by
  intro s'
  have himp := external_imp s.controls s.demand i
  have hspec := external_iff s.controls s.demand i
  obtain ⟨e, he⟩ : ∃ e, e = assignExternal s.controls s.demand i.extHeat i.extDhw i.extSh := ⟨_, rfl⟩
  rw [← he] at hspec himp
  have hsys : s'.sys = s.sys := rfl
  have hext : s'.useExternal = e.isExternal := by rw [he]; rfl
  have hiff : e.isExternal = true ↔ ∃ v, e.dhw = some (some v) ∨ e.spaceHeating = some (some v) := by
    unfold ExtDict.isExternal
    rcases e.dhw with _ | _ | v <;> rcases e.spaceHeating with _ | _ | w <;> simp
  have hin : (¬ ∃ v, e.dhw = some (some v) ∨ e.spaceHeating = some (some v)) →
      s'.powerDemand = some ((if s'.controls.spaceHeatingOn = true then s.sys.pump else s.sys.standby) + electricity s.sys s'.controls s'.outputs) := by
    intro h
    have hx : s'.useExternal = false := by
      rw [hext]; by_contra hc; exact h (hiff.1 (by simpa using hc))
    unfold FiveModules.powerDemand
    rw [hx, hsys]
    simp only [Bool.false_eq_true, if_false]
    unfold HeatSys.powerDemand HeatSys.fuelConsumption HeatSys.loadRatio fdiv HeatSys.pumpPower electricity
    rw [if_neg h1.ne', if_neg h2.ne']
    simp only [Bool.and_eq_true, decide_eq_true_eq, Bool.or_eq_true, gt_iff_lt, h1, h2, or_true, and_true]
    by_cases hc : s.sys.fuel = .electricity ∧ s'.controls.heaterOn = true
    · rw [if_pos hc, if_pos hc]; rfl
    · rw [if_neg hc, if_neg hc]; rfl
  have hex : (∃ v, e.dhw = some (some v) ∨ e.spaceHeating = some (some v)) → s'.powerDemand = some 0 := by
    intro h
    unfold FiveModules.powerDemand
    rw [hext, hiff.2 h]
    rfl
  refine ⟨fun h => hex (himp h), fun h hn => hin fun h' => h ((hspec hn).2 h'), ?_⟩
  by_cases h : ∃ v, e.dhw = some (some v) ∨ e.spaceHeating = some (some v)
  · exact ⟨0, hex h, le_rfl⟩
  · refine ⟨_, hin h, ?_⟩
    have hout : 0 ≤ s'.outputs.spaceHeating ∧ 0 ≤ s'.outputs.dhw := by
      have hcap := C57_capacity s.sys s'.controls s'.demand h1.le h2.le
      have e1 : e.dhw.join = none := by
        by_contra hc
        obtain ⟨v, hv⟩ := Option.ne_none_iff_exists'.1 hc
        exact h ⟨v, Or.inl (by rcases hd : e.dhw with _ | _ | w <;> rw [hd] at hv <;> simp_all)⟩
      have e2 : e.spaceHeating.join = none := by
        by_contra hc
        obtain ⟨v, hv⟩ := Option.ne_none_iff_exists'.1 hc
        exact h ⟨v, Or.inr (by rcases hd : e.spaceHeating with _ | _ | w <;> rw [hd] at hv <;> simp_all)⟩
      have : s'.outputs = e.apply (s.sys.step s'.controls s'.demand) := by rw [he]; rfl
      rw [this]
      unfold ExtDict.apply
      rw [e1, e2]
      exact ⟨hcap.2.1, hcap.1⟩
    have : 0 ≤ electricity s.sys s'.controls s'.outputs := by
      unfold electricity
      split
      · have a := div_nonneg hout.1 h1.le
        have b := div_nonneg hout.2 h2.le
        have : 0 ≤ s.sys.flowRate * 1000 := by linarith
        exact mul_nonneg this (by linarith)
      · exact le_rfl
    split <;> linarith

/-- **C59 (counterexample).** After `set_external_heating_system`, a step without external outputs makes the simulator forget the external system: the power demand is that of the simulated one. -/
theorem C59_set_external_counterexample :
    let s := ((FiveModules.create exampleBuilding exampleSys .heatMaxEmitters 60 ⟨5, 1, 5⟩ ⟨60, 20, 50⟩ ⟨10, 20, 50, 50, 10⟩).setExternal false 2 480000)
    s.powerDemand = some 0 ∧ (s.step exampleInput).useExternal = false ∧ (s.step exampleInput).powerDemand ≠ some 0 := by
  decide +kernel

/-- **C59 (counterexample, capacities).** A system without hot water capacity that heats a room has an undefined (NaN) power demand. -/
theorem C59_nan_counterexample :
    let s := (FiveModules.create exampleBuilding { exampleSys with maxDhw := 0 } .heatMaxEmitters 60 ⟨5, 1, 5⟩ ⟨60, 20, 50⟩ ⟨10, 15, 30, 50, 10⟩).step exampleInput
    s.controls.heaterOn = true ∧ s.powerDemand = none := by
  decide +kernel

/-- **C59 (counterexample, NaN).** A household that has NaN in the array `external_heat_outputs`, so no external system, while its space heating is off: it counts as external, with power demand zero although its own system heats the
water; and its room is not heated although its own controls ask for it. -/
theorem C59_nan_array_counterexample :
    let i := { exampleInput with extHeat := .array none }
    let s := (FiveModules.create exampleBuilding exampleSys .heatMaxEmitters 60 ⟨5, 1, 5⟩ ⟨60, 20, 50⟩ ⟨10, 15, 30, 50, 10⟩)
    (s.step exampleInput).controls.spaceHeatingOn = true ∧ (s.step exampleInput).outputs.spaceHeating > 0 ∧ (s.step exampleInput).powerDemand ≠ some 0 ∧
    (s.step i).controls.spaceHeatingOn = true ∧ (s.step i).outputs.spaceHeating = 0 ∧ (s.step i).outputs.dhw > 0 ∧ (s.step i).powerDemand = some 0 := by
  decide +kernel

example : ((FiveModules.create exampleBuilding exampleSys .heatMaxEmitters 60 ⟨5, 1, 5⟩ ⟨60, 20, 50⟩ ⟨10, 20, 50, 50, 10⟩).step { exampleInput with extHeat := .array (some 3000) }).powerDemand = some 0 := by
  decide +kernel

/-! ## C73: no overheating -/

/-- One step of the simulator with the default algorithm keeps the bounds. -/
theorem five_step_bounds (s : FiveModules) (D m M : Rat) (hdt : s.dt = 60) (hdt' : s.demandDt = 60) (ha : s.algo = .heatMaxEmitters) (hb : s.building.Physical)
    (hst : s.building.Stable 60 D) (h1 : 0 ≤ s.sys.maxSpace) (h2 : 0 ≤ s.sys.maxDhw) (i : FiveInput)
    (hext : i.extCylinder = none ∧ i.extHeat = .none ∧ i.extDhw = none ∧ i.extSh = none)
    (hd : 0 ≤ i.dhwDemand ∧ i.dhwDemand ≤ D) :
    (s.temps.GE m → m ≤ i.outside → (0 ≤ i.irradiance ∧ 0 ≤ i.occupancyGains ∧ 0 ≤ i.lightingGains ∧ 0 ≤ i.applianceGains) → (s.step i).temps.GE m) ∧
    (s.temps.LE M → i.outside ≤ M → (i.irradiance = 0 ∧ i.occupancyGains = 0 ∧ i.lightingGains = 0 ∧ i.applianceGains = 0) →
      (s.step i).target.dhw + s.deadband.dhw ≤ M → (s.step i).target.emitter + s.deadband.emitter ≤ M → (s.step i).temps.LE M) := by
  obtain ⟨x1, x2, x3, x4⟩ := hext
  obtain ⟨d0, dD⟩ := hd
  have hTT : ({ s.temps with cylinder := i.extCylinder.join.getD s.temps.cylinder } : Temps) = s.temps := by rw [x1]; rfl
  have hcap := C57_capacity s.sys (s.step i).controls (s.step i).demand h1 h2
  have hout : (s.step i).outputs = s.sys.step (s.step i).controls (s.step i).demand := by
    show (assignExternal s.controls s.demand i.extHeat i.extDhw i.extSh).apply (s.sys.step (s.step i).controls (s.step i).demand) = _
    rw [x2, x3, x4]
    rfl
  have htemps : (s.step i).temps = s.building.step 60 s.temps
      { outside := i.outside, irradiance := i.irradiance, dhwDemand := i.dhwDemand, occupancyGains := i.occupancyGains, lightingGains := i.lightingGains
        applianceGains := i.applianceGains, spaceHeating := (s.step i).outputs.spaceHeating, dhw := (s.step i).outputs.dhw } := by
    rw [← hdt]
    exact congrArg (fun T => s.building.step s.dt T
        { outside := i.outside, irradiance := i.irradiance, dhwDemand := i.dhwDemand, occupancyGains := i.occupancyGains, lightingGains := i.lightingGains
          applianceGains := i.applianceGains, spaceHeating := (s.step i).outputs.spaceHeating, dhw := (s.step i).outputs.dhw }) hTT
  have hdw : (s.step i).demand.dhw = hotWaterDemand s.building 60 s.temps i.dhwDemand (s.step i).target s.deadband := by
    show hotWaterDemand s.building s.demandDt { s.temps with cylinder := i.extCylinder.join.getD s.temps.cylinder } i.dhwDemand (s.step i).target s.deadband = _
    rw [hTT, hdt']
  have hds : (s.step i).demand.spaceHeating = spaceDemand .heatMaxEmitters s.building 60 s.temps i.outside (s.step i).target s.deadband := by
    show spaceDemand s.algo s.building s.demandDt { s.temps with cylinder := i.extCylinder.join.getD s.temps.cylinder } i.outside (s.step i).target s.deadband = _
    rw [hTT, hdt', ha]
  have hdw' : (s.step i).outputs.dhw ≤ max (s.step i).demand.dhw 0 := by
    rw [hout]; unfold HeatSys.step
    simp only
    split
    · exact npClip_le_max _ _ _
    · exact le_max_right _ _
  have hsw' : (s.step i).outputs.spaceHeating ≤ max (s.step i).demand.spaceHeating 0 := by
    rw [hout]; unfold HeatSys.step
    simp only
    split
    · exact npClip_le_max _ _ _
    · split
      · exact npClip_le_max _ _ _
      · exact le_max_right _ _
  constructor
  · intro hm o1 ⟨g1, g2, g3, g4⟩
    rw [htemps]
    refine step_ge s.building 60 D m hb (by norm_num) hst s.temps hm _ o1 d0 dD (by have := mul_nonneg g1 hb.irr; simp only; linarith) ?_ ?_
    · rw [hout]; exact hcap.2.1
    · rw [hout]; exact hcap.1
  · intro hT o2 ⟨n1, n2, n3, n4⟩ htd hte
    rw [htemps]
    refine step_le s.building 60 D M hb (by norm_num) hst s.temps hT _ o2 d0 dD (by simp only [n1, n2, n3, n4]; norm_num) ?_ ?_
    · have := node_heated_le s.building.cEm 60 s.temps.emitter M s.building.hEm (s.building.hEm * s.temps.interior) (s.step i).outputs.spaceHeating _ _ hb.cEm (by norm_num)
        (mul_le_mul_of_nonneg_left hT.interior hb.hEm) hT.emitter hst.emitter (by rw [hds]; unfold spaceDemand; simp only; ring) hte hsw'
      refine le_trans (le_of_eq ?_) this; unfold Building.step; simp only
    · have := node_heated_le s.building.cCyl 60 s.temps.cylinder M (s.building.hLoss + i.dhwDemand) (s.building.hLoss * s.temps.interior + i.dhwDemand * s.temps.coldWater)
        (s.step i).outputs.dhw _ _ hb.cCyl (by norm_num)
        (by nlinarith [mul_le_mul_of_nonneg_left hT.interior hb.hLoss, mul_le_mul_of_nonneg_left hT.coldWater d0]) hT.cylinder
        (le_trans (mul_le_mul_of_nonneg_left (by linarith) (by norm_num)) hst.cylinder) (by rw [hdw]; unfold hotWaterDemand; ring) htd hdw'
      refine le_trans (le_of_eq ?_) this; unfold Building.step; simp only; ring

/-- **C73.** A `FiveModulesHeatingSimulator` with steps of 60 seconds and the default algorithm, created with a physical building with a stable step size and non-negative capacities, without gains and external
systems: no temperature ever exceeds a bound `M` of the initial temperatures, the outside temperatures and the set points (target + deadband) of emitters and
hot water. -/
theorem C73_no_overheating (b : Building) (sys : HeatSys) (deadband target : Targets) (T0 : Temps) (D M : Rat) (hb : b.Physical) (hst : b.Stable 60 D) (h1 : 0 ≤ sys.maxSpace)
    (h2 : 0 ≤ sys.maxDhw) (hT : T0.LE M) (hset : target.dhw + deadband.dhw ≤ M ∧ target.emitter + deadband.emitter ≤ M) (is : List FiveInput)
    (hext : ∀ i ∈ is, i.extCylinder = none ∧ i.extHeat = .none ∧ i.extDhw = none ∧ i.extSh = none)
    (htar : ∀ i ∈ is, (∀ t, i.targetDhw = some t → t + deadband.dhw ≤ M) ∧ (∀ t, i.targetEmitter = some t → t + deadband.emitter ≤ M))
    (hd : ∀ i ∈ is, 0 ≤ i.dhwDemand ∧ i.dhwDemand ≤ D)
    (hno : ∀ i ∈ is, i.irradiance = 0 ∧ i.occupancyGains = 0 ∧ i.lightingGains = 0 ∧ i.applianceGains = 0) (ho : ∀ i ∈ is, i.outside ≤ M) :
    ((FiveModules.create b sys .heatMaxEmitters 60 deadband target T0).run is).temps.LE M := by
  have key : ∀ (is : List FiveInput) (s : FiveModules), s.dt = 60 → s.demandDt = 60 → s.algo = .heatMaxEmitters → s.building = b → s.sys = sys → s.deadband = deadband →
      s.temps.LE M → s.target.dhw + deadband.dhw ≤ M → s.target.emitter + deadband.emitter ≤ M →
      (∀ i ∈ is, (i.extCylinder = none ∧ i.extHeat = .none ∧ i.extDhw = none ∧ i.extSh = none) ∧
        ((∀ t, i.targetDhw = some t → t + deadband.dhw ≤ M) ∧ (∀ t, i.targetEmitter = some t → t + deadband.emitter ≤ M)) ∧ (0 ≤ i.dhwDemand ∧ i.dhwDemand ≤ D) ∧
        (i.irradiance = 0 ∧ i.occupancyGains = 0 ∧ i.lightingGains = 0 ∧ i.applianceGains = 0) ∧ i.outside ≤ M) → (s.run is).temps.LE M := by
    intro is
    induction is with
    | nil => intro s _ _ _ _ _ _ h _ _ _; exact h
    | cons i is ih =>
      intro s a1 a2 a3 a4 a5 a6 a7 a8 a9 hall
      obtain ⟨p1, ⟨p2, p2'⟩, p3, p4, p5⟩ := hall i List.mem_cons_self
      have htd : (s.step i).target.dhw + deadband.dhw ≤ M := by
        show i.targetDhw.getD s.target.dhw + deadband.dhw ≤ M
        rcases hx : i.targetDhw with _ | t
        · exact a8
        · exact p2 t hx
      have hte : (s.step i).target.emitter + deadband.emitter ≤ M := by
        show i.targetEmitter.getD s.target.emitter + deadband.emitter ≤ M
        rcases hx : i.targetEmitter with _ | t
        · exact a9
        · exact p2' t hx
      have := (five_step_bounds s D M M a1 a2 a3 (a4 ▸ hb) (a4 ▸ hst) (a5 ▸ h1) (a5 ▸ h2) i p1 p3).2 a7 p5 p4 (a6 ▸ htd) (a6 ▸ hte)
      exact ih (s.step i) a1 a2 a3 a4 a5 a6 this htd hte fun x hx => hall x (List.mem_cons_of_mem _ hx)
  exact key is _ rfl rfl rfl rfl rfl rfl hT hset.1 hset.2 fun i hi => ⟨hext i hi, htar i hi, hd i hi, hno i hi, ho i hi⟩

/-- **C73 (from below).** With any non-negative gains, no temperature ever falls below a bound `m` of the initial and outside temperatures. -/
theorem C73_no_undercooling (b : Building) (sys : HeatSys) (deadband target : Targets) (T0 : Temps) (D m : Rat) (hb : b.Physical) (hst : b.Stable 60 D) (h1 : 0 ≤ sys.maxSpace)
    (h2 : 0 ≤ sys.maxDhw) (hT : T0.GE m) (is : List FiveInput)
    (hext : ∀ i ∈ is, i.extCylinder = none ∧ i.extHeat = .none ∧ i.extDhw = none ∧ i.extSh = none)
    (hd : ∀ i ∈ is, 0 ≤ i.dhwDemand ∧ i.dhwDemand ≤ D)
    (hg : ∀ i ∈ is, 0 ≤ i.irradiance ∧ 0 ≤ i.occupancyGains ∧ 0 ≤ i.lightingGains ∧ 0 ≤ i.applianceGains) (ho : ∀ i ∈ is, m ≤ i.outside) :
    ((FiveModules.create b sys .heatMaxEmitters 60 deadband target T0).run is).temps.GE m := by
  have key : ∀ (is : List FiveInput) (s : FiveModules), s.dt = 60 → s.demandDt = 60 → s.algo = .heatMaxEmitters → s.building = b → s.sys = sys → s.temps.GE m →
      (∀ i ∈ is, (i.extCylinder = none ∧ i.extHeat = .none ∧ i.extDhw = none ∧ i.extSh = none) ∧ (0 ≤ i.dhwDemand ∧ i.dhwDemand ≤ D) ∧
        (0 ≤ i.irradiance ∧ 0 ≤ i.occupancyGains ∧ 0 ≤ i.lightingGains ∧ 0 ≤ i.applianceGains) ∧ m ≤ i.outside) → (s.run is).temps.GE m := by
    intro is
    induction is with
    | nil => intro s _ _ _ _ _ h _; exact h
    | cons i is ih =>
      intro s a1 a2 a3 a4 a5 a7 hall
      obtain ⟨p1, p3, p4, p5⟩ := hall i List.mem_cons_self
      have := (five_step_bounds s D m m a1 a2 a3 (a4 ▸ hb) (a4 ▸ hst) (a5 ▸ h1) (a5 ▸ h2) i p1 p3).1 a7 p5 p4
      exact ih (s.step i) a1 a2 a3 a4 a5 this fun x hx => hall x (List.mem_cons_of_mem _ hx)
  exact key is _ rfl rfl rfl rfl rfl hT fun i hi => ⟨hext i hi, hd i hi, hg i hi, ho i hi⟩

/-- The hypotheses of C73 are met by the example with `M = 65`, where the heating is active. -/
example : exampleBuilding.Physical ∧ exampleBuilding.Stable 60 700 ∧ (⟨10, 15, 30, 50, 10⟩ : Temps).LE 65 ∧
    (((FiveModules.create exampleBuilding exampleSys .heatMaxEmitters 60 ⟨5, 1, 5⟩ ⟨60, 20, 50⟩ ⟨10, 15, 30, 50, 10⟩).run [exampleInput, exampleInput]).temps.cylinder > 64) := by
  refine ⟨exampleBuilding_physical, exampleBuilding_stable, ?_, by decide +kernel⟩
  constructor <;> decide +kernel

/-! ## C79: heat demand -/

/-- **C79.** After a step of a `FiveModulesHeatingSimulator` the total heat demand is the sum of the demands for hot water and space heating; each of them is zero unless the controls ask for it, and then the demand computed from the temperatures (with an
external cylinder: the heat of the drawn water and the losses of the cylinder). -/
theorem C79_heat_demand (s : FiveModules) (i : FiveInput) :
    let s' := s.step i
    s'.totalHeatDemand = s'.dhwHeatDemand + s'.shHeatDemand ∧
    s'.shHeatDemand = (if s'.thermostats.spaceHeating = true ∧ s'.thermostats.emitter = true then s'.demand.spaceHeating else 0) ∧
    (s'.controls.heatWaterOn = false → s'.dhwHeatDemand = 0) ∧
    (s'.controls.heatWaterOn = true → s'.externalCylinder = false → s'.dhwHeatDemand = s'.demand.dhw) ∧
    (s'.controls.heatWaterOn = true → (∃ T, i.extCylinder = some (some T)) →
      s'.dhwHeatDemand = i.dhwDemand * (s'.target.dhw - s'.temps.coldWater) + s.building.hLoss * (s'.temps.cylinder - s'.temps.interior)) := by
  intro s'
  have hc : s'.controls = controlsStep s.sys.isCombi s.externalCylinder i.dhwDemand s'.thermostats := rfl
  have hheater : s'.controls.heaterOn = (s'.controls.heatWaterOn || s'.controls.spaceHeatingOn) := by rw [hc]; rfl
  have hspace : s'.controls.spaceHeatingOn = (s'.thermostats.spaceHeating && s'.thermostats.emitter) := by rw [hc]; rfl
  refine ⟨?_, ?_, ?_, ?_, ?_⟩
  · unfold FiveModules.totalHeatDemand FiveModules.dhwHeatDemand FiveModules.shHeatDemand
    rw [hheater]
    cases s'.controls.heatWaterOn <;> cases s'.controls.spaceHeatingOn <;> simp
  · unfold FiveModules.shHeatDemand
    rw [hspace]
    cases s'.thermostats.spaceHeating <;> cases s'.thermostats.emitter <;> simp
  · intro h; unfold FiveModules.dhwHeatDemand; rw [h]; simp
  · intro h h2; unfold FiveModules.dhwHeatDemand; rw [h, h2]; simp
  · rintro h ⟨T, hT⟩
    have he : s'.externalCylinder = true := by
      show (match i.extCylinder with | some v => v.isSome | none => s.externalCylinder) = true
      rw [hT]; rfl
    have hd : s'.cylDhwDemand = i.dhwDemand * (s'.target.dhw - s'.temps.coldWater) + s.building.hLoss * (s'.temps.cylinder - s'.temps.interior) := by
      have h0 : s'.cylDhwDemand = (match i.extCylinder with
        | some _ => i.dhwDemand * (s'.target.dhw - s'.temps.coldWater) + s.building.hLoss * (s'.temps.cylinder - s'.temps.interior)
        | none => s.cylDhwDemand) := rfl
      rw [h0, hT]
    unfold FiveModules.dhwHeatDemand
    rw [h, he, hd]; simp

end Demod
