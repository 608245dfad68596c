import Verif.Spec.HeatSim
import Verif.Lemmas.Sampling
import Verif.Lemmas.Markov
import Mathlib.Tactic.Ring

/-! # Lemmas for the whole heating simulator -/

namespace Demod

namespace HeatSim

/-! ## Arrays as tables -/

@[simp] theorem tab_length {α : Type} (n : Nat) (f : Nat → α) : (tab n f).length = n := by simp [tab]

theorem tab_congr {α : Type} {n : Nat} {f g : Nat → α} (h : ∀ i, i < n → f i = g i) : tab n f = tab n g :=
  List.map_congr_left fun i hi => h i (List.mem_range.1 hi)

theorem eq_tab {α : Type} [Inhabited α] (a : List α) (n : Nat) (h : a.length = n) : a = tab n (el a) := by
  refine List.ext_getElem (by simp [h]) fun i h1 h2 => ?_
  simp [tab, el, List.getD_eq_getElem?_getD, h1]

theorem zipWith_tab {α β γ : Type} (n : Nat) (f : α → β → γ) (g : Nat → α) (k : Nat → β) : List.zipWith f (tab n g) (tab n k) = tab n fun h => f (g h) (k h) := by
  simp [tab, List.zipWith_map]

theorem map_tab {α β : Type} (n : Nat) (f : α → β) (g : Nat → α) : (tab n g).map f = tab n fun h => f (g h) := by
  simp [tab]

theorem const_tab {α : Type} (n : Nat) (c : α) : Arr.const n c = tab n fun _ => c := by simp [Arr.const, tab]

theorem zip_tab {α β : Type} (n : Nat) (g : Nat → α) (k : Nat → β) : (tab n g).zip (tab n k) = tab n fun h => (g h, k h) := zipWith_tab n _ _ _

theorem add_tab (n : Nat) (f g : Nat → Rat) : Arr.add (tab n f) (tab n g) = tab n fun h => f h + g h := zipWith_tab ..
theorem sub_tab (n : Nat) (f g : Nat → Rat) : Arr.sub (tab n f) (tab n g) = tab n fun h => f h - g h := zipWith_tab ..
theorem mul_tab (n : Nat) (f g : Nat → Rat) : Arr.mul (tab n f) (tab n g) = tab n fun h => f h * g h := zipWith_tab ..
theorem div_tab (n : Nat) (f g : Nat → Rat) : Arr.div (tab n f) (tab n g) = tab n fun h => f h / g h := zipWith_tab ..
theorem and_tab (n : Nat) (f g : Nat → Bool) : Arr.and (tab n f) (tab n g) = tab n fun h => f h && g h := zipWith_tab ..
theorem or_tab (n : Nat) (f g : Nat → Bool) : Arr.or (tab n f) (tab n g) = tab n fun h => f h || g h := zipWith_tab ..
theorem not_tab (n : Nat) (f : Nat → Bool) : Arr.not (tab n f) = tab n fun h => !f h := map_tab ..
theorem lt_tab (n : Nat) (f g : Nat → Rat) : Arr.lt (tab n f) (tab n g) = tab n fun h => decide (f h < g h) := zipWith_tab ..
theorem le_tab (n : Nat) (f g : Nat → Rat) : Arr.le (tab n f) (tab n g) = tab n fun h => decide (f h ≤ g h) := zipWith_tab ..
theorem cond_tab {α : Type} (n : Nat) (c : Nat → Bool) (f g : Nat → α) : Arr.cond (tab n c) (tab n f) (tab n g) = tab n fun h => if c h then f h else g h := by
  rw [Arr.cond, zip_tab, zipWith_tab]
theorem clip_tab (n : Nat) (f lo hi : Nat → Rat) : Arr.clip (tab n f) (tab n lo) (tab n hi) = tab n fun h => npClip (f h) (lo h) (hi h) := by
  rw [Arr.clip, zip_tab, zipWith_tab]
theorem assign_tab (n : Nat) (f : Nat → Rat) (e : Nat → Option Rat) : Arr.assign (tab n f) (tab n e) = tab n fun h => (e h).getD (f h) := zipWith_tab ..
theorem mulBool_tab (n : Nat) (f : Nat → Rat) (g : Nat → Bool) : Arr.mulBool (tab n f) (tab n g) = tab n fun h => f h * (if g h then 1 else 0) := zipWith_tab ..
theorem clipNan_tab (n : Nat) (f : Nat → Rat) (g : Nat → Option Rat) : clipNan (tab n f) (tab n g) = tab n fun h => (g h).map fun x => npClip (f h) 0 x := zipWith_tab ..
theorem subNan_tab (n : Nat) (f g : Nat → Option Rat) : subNan (tab n f) (tab n g) = tab n fun h => (f h).bind fun x => (g h).map fun y => x - y := zipWith_tab ..
theorem addNan_tab (n : Nat) (f g : Nat → Option Rat) : addNan (tab n f) (tab n g) = tab n fun h => (f h).bind fun x => (g h).map fun y => x + y := zipWith_tab ..

/-! ## External outputs -/

/-- An optional array and the optional entries of the households. -/
def Opt (n : Nat) (e : Option (List (Option Rat))) (f : Nat → Option (Option Rat)) : Prop :=
  match e with
  | none => ∀ h, f h = none
  | some v => ∃ g : Nat → Option Rat, v = tab n g ∧ ∀ h, f h = some (g h)

theorem opt_el (n : Nat) (e : Option (List (Option Rat))) (hl : ∀ v ∈ e, v.length = n) : Opt n e fun h => e.map fun v => el v h := by
  cases e with
  | none => exact fun _ => rfl
  | some v => exact ⟨el v, eq_tab v n (hl v rfl), fun _ => rfl⟩

theorem opt_given (n : Nat) (e : Option (List (Option Rat))) (f : Nat → Option (Option Rat)) (h : Opt n e f) : given n e = tab n fun h => (f h).join.isSome := by
  cases e with
  | none => rw [given, const_tab]; exact tab_congr fun i _ => by rw [h i]; rfl
  | some v => obtain ⟨g, rfl, hg⟩ := h; rw [given, map_tab]; exact tab_congr fun i _ => by rw [hg i]; rfl

theorem opt_assign (n : Nat) (e : Option (List (Option Rat))) (f : Nat → Option (Option Rat)) (x : Nat → Rat) : Opt n e f →
    assignOpt (tab n x) e = tab n fun h => (f h).join.getD (x h) := by
  intro h
  cases e with
  | none => exact tab_congr fun i _ => by rw [h i]; rfl
  | some v => obtain ⟨g, rfl, hg⟩ := h; rw [assignOpt, assign_tab]; exact tab_congr fun i _ => by rw [hg i]; rfl

theorem split_tab (s : HeatSim) (F : Nat → FiveModules) (hp : s.Packs F) (t : Nat → Option Rat) :
    (s.split (tab s.n t)).1 = (tab s.n fun h => match t h with | none => none | some v => some (splitHeat v (F h).controls (F h).demand).1) ∧
    (s.split (tab s.n t)).2 = tab s.n fun h => match t h with
      | none => if (F h).controls.heaterOn && (F h).controls.spaceHeatingOn then none else some 0
      | some v => some (splitHeat v (F h).controls (F h).demand).2 := by
  simp only [split, hp.demDhw, hp.demSpace, hp.heater, hp.water, hp.space, const_tab, and_tab, not_tab, clipNan_tab, subNan_tab, addNan_tab, cond_tab]
  constructor
  · refine tab_congr fun h _ => ?_
    cases t h with
    | none => cases (F h).controls.heaterOn <;> cases (F h).controls.heatWaterOn <;> cases (F h).controls.spaceHeatingOn <;> rfl
    | some v =>
      simp only [splitHeat]
      cases (F h).controls.heaterOn <;> cases (F h).controls.heatWaterOn <;> cases (F h).controls.spaceHeatingOn <;> rfl
  · refine tab_congr fun h _ => ?_
    cases t h with
    | none => cases (F h).controls.heaterOn <;> cases (F h).controls.heatWaterOn <;> cases (F h).controls.spaceHeatingOn <;> rfl
    | some v =>
      simp only [splitHeat]
      cases (F h).controls.heaterOn <;> cases (F h).controls.heatWaterOn <;> cases (F h).controls.spaceHeatingOn <;> rfl

theorem external_opt (s : HeatSim) (F : Nat → FiveModules) (hp : s.Packs F) (i : StepIn) (hi : i.Sized s.n) :
    Opt s.n (s.external i).1 (fun h => (assignExternal (F h).controls (F h).demand (i.at h).extHeat (i.at h).extDhw (i.at h).extSh).dhw) ∧
    Opt s.n (s.external i).2 (fun h => (assignExternal (F h).controls (F h).demand (i.at h).extHeat (i.at h).extDhw (i.at h).extSh).spaceHeating) := by
  have hx := hi.extHeat
  constructor
  · cases hw : i.extDhw with
    | some v =>
      simp only [external, assignExternal, StepIn.at, hw]
      exact ⟨el v, eq_tab v _ (hi.extDhw v hw), fun _ => rfl⟩
    | none =>
    simp only [external, assignExternal, StepIn.at, hw]
    cases he : i.extHeat with
    | none => exact fun _ => rfl
    | other => exact fun _ => rfl
    | dict w v => rw [he] at hx; exact opt_el _ _ hx.1
    | array v =>
      rw [he] at hx
      have hv := split_tab s F hp (el v)
      rw [← eq_tab v s.n hx] at hv
      refine ⟨_, hv.1, fun h => ?_⟩
      dsimp only [Option.map_none]
      cases el v h <;> rfl
  · cases hw : i.extSpace with
    | some v =>
      simp only [external, assignExternal, StepIn.at, hw]
      exact ⟨el v, eq_tab v _ (hi.extSpace v hw), fun _ => rfl⟩
    | none =>
    simp only [external, assignExternal, StepIn.at, hw]
    cases he : i.extHeat with
    | none => exact fun _ => rfl
    | other => exact fun _ => rfl
    | dict w v => rw [he] at hx; exact opt_el _ _ hx.2
    | array v =>
      rw [he] at hx
      have hv := split_tab s F hp (el v)
      rw [← eq_tab v s.n hx] at hv
      refine ⟨_, hv.2, fun h => ?_⟩
      dsimp only [Option.map_none]
      cases el v h <;> rfl

/-! ## Steps -/

theorem newTargets_tab (s : HeatSim) (F : Nat → FiveModules) (hp : s.Packs F) (i : StepIn) (hi : i.Sized s.n) :
    newTargets s.therm i.target = .ok { s.therm with
      targetDhw := tab s.n fun h => (i.at h).targetDhw.getD (F h).target.dhw
      targetSpace := tab s.n fun h => (i.at h).targetSpace.getD (F h).target.spaceHeating
      targetEmitter := tab s.n fun h => (i.at h).targetEmitter.getD (F h).target.emitter } := by
  have hx := hi.target
  have hh : s.therm = { s.therm with targetDhw := tab s.n fun h => (F h).target.dhw, targetSpace := tab s.n fun h => (F h).target.spaceHeating, targetEmitter := tab s.n fun h => (F h).target.emitter } := by
    rw [← hp.targetDhw, ← hp.targetSpace, ← hp.targetEmitter]
  have hopt : ∀ (w : Option (List Rat)) (f : Nat → Rat), (∀ v ∈ w, v.length = s.n) → w.getD (tab s.n f) = tab s.n fun h => (w.map fun v => el v h).getD (f h) := by
    intro w f hw
    cases w with
    | none => rfl
    | some v => exact eq_tab v _ (hw v rfl)
  simp only [StepIn.at]
  cases he : i.target with
  | none => simp only [newTargets]; exact congrArg _ hh
  | other => rw [he] at hx; exact hx.elim
  | array v =>
    rw [he] at hx
    simp only [newTargets, hp.targetDhw, hp.targetEmitter]
    have := eq_tab v s.n hx
    rw [Except.ok.injEq, ThermostatArr.mk.injEq]
    exact ⟨rfl, rfl, this, rfl, rfl, rfl, rfl⟩
  | dict w v e =>
    rw [he] at hx
    simp only [newTargets, hp.targetDhw, hp.targetSpace, hp.targetEmitter, hopt w _ hx.1, hopt v _ hx.2.1, hopt e _ hx.2.2]

theorem thermostat_tab (n : Nat) (on : Nat → Bool) (t g : Nat → Rat) (d : Rat) : thermostat n (tab n on) (tab n t) (tab n g) d = tab n fun h => thermostatStep (on h) (t h) (g h) d := by
  simp only [thermostat, const_tab, add_tab, sub_tab, lt_tab, le_tab, and_tab, or_tab, not_tab, cond_tab]
  refine tab_congr fun h _ => ?_
  simp [thermostatStep]

theorem stepDemand_tab (s : HeatSim) (F : Nat → FiveModules) (hp : s.Packs F) (b : BuildingArr) (t : ThermostatArr) (T : Nat → Temps) (target : Nat → Targets) (dhw : List Rat) (w : Nat → Rat) (out : Rat)
    (h1 : b.interior = (tab s.n fun h => (T h).interior)) (h2 : b.emitter = (tab s.n fun h => (T h).emitter)) (h3 : b.cylinder = (tab s.n fun h => (T h).cylinder)) (h4 : ∀ h, (T h).coldWater = b.coldWater)
    (h5 : t.targetDhw = (tab s.n fun h => (target h).dhw)) (h6 : t.targetSpace = (tab s.n fun h => (target h).spaceHeating)) (h7 : t.targetEmitter = (tab s.n fun h => (target h).emitter)) (hw : dhw = tab s.n w) :
    stepDemand s.n s.demandDt s.dem b t dhw out = .ok { s.dem with
      dhw := tab s.n fun h => (heatDemand (F h).algo (F h).building (F h).demandDt (T h) (w h) out (target h) (F h).deadband).dhw
      space := tab s.n fun h => (heatDemand (F h).algo (F h).building (F h).demandDt (T h) (w h) out (target h) (F h).deadband).spaceHeating } := by
  have hd := hp.demDeadband
  rw [stepDemand]
  simp only [h1, h2, h3, h5, h6, h7, hp.demCCyl, hp.demHLoss, hp.demCEm, hp.demHEm, hp.demCI, hp.demHV, hp.demHIbo, const_tab, add_tab, sub_tab, mul_tab, div_tab, hw]
  simp only [heatDemand, hotWaterDemand, hp.demandDt, hp.deadband, h4, hd]
  by_cases ha : s.dem.algo = "heat_max_emmiters"
  · have hA : ∀ h, (F h).algo = .heatMaxEmitters := fun h => by
      have := hp.algo h
      rw [ha] at this
      revert this
      cases (F h).algo
      · simp
      · intro hx; exact absurd hx (by decide)
    simp only [hA, spaceDemand, if_pos ha]
  · have hA : ∀ h, (F h).algo = .roomEstimation := fun h => by
      have := hp.algo h
      revert this
      cases (F h).algo
      · intro hx; exact absurd hx.symm ha
      · simp
    have ha' : s.dem.algo = "room_estimation" := by rw [← hp.algo 0, hA 0]; rfl
    simp only [hA, spaceDemand, if_neg ha, if_pos ha', one_div]

theorem stepTherm_tab (n : Nat) (t : ThermostatArr) (b : BuildingArr) (F : Nat → ThermostatStates) (T : Nat → Temps) (target : Nat → Targets)
    (h1 : b.interior = (tab n fun h => (T h).interior)) (h2 : b.emitter = (tab n fun h => (T h).emitter)) (h3 : b.cylinder = (tab n fun h => (T h).cylinder))
    (h5 : t.targetDhw = (tab n fun h => (target h).dhw)) (h6 : t.targetSpace = (tab n fun h => (target h).spaceHeating)) (h7 : t.targetEmitter = (tab n fun h => (target h).emitter))
    (f1 : t.hotWater = tab n fun h => (F h).hotWater) (f2 : t.space = tab n fun h => (F h).spaceHeating) (f3 : t.emitter = tab n fun h => (F h).emitter) :
    stepTherm n t b = { t with
      hotWater := tab n fun h => (thermostatsStep (F h) (T h) (target h) t.deadband).hotWater
      space := tab n fun h => (thermostatsStep (F h) (T h) (target h) t.deadband).spaceHeating
      emitter := tab n fun h => (thermostatsStep (F h) (T h) (target h) t.deadband).emitter } := by
  simp only [stepTherm, h1, h2, h3, h5, h6, h7, f1, f2, f3, thermostat_tab, thermostatsStep]

theorem stepCtrl_tab (n : Nat) (c : ControlArr) (t : ThermostatArr) (F : Nat → ThermostatStates) (combi ext : Nat → Bool) (w : Nat → Rat) (hc : c.isCombi = tab n combi)
    (f1 : t.hotWater = tab n fun h => (F h).hotWater) (f2 : t.space = tab n fun h => (F h).spaceHeating) (f3 : t.emitter = tab n fun h => (F h).emitter) :
    stepCtrl n c (tab n w) t (tab n ext) = { c with
      heater := tab n fun h => (controlsStep (combi h) (ext h) (w h) (F h)).heaterOn
      water := tab n fun h => (controlsStep (combi h) (ext h) (w h) (F h)).heatWaterOn
      space := tab n fun h => (controlsStep (combi h) (ext h) (w h) (F h)).spaceHeatingOn } := by
  simp only [stepCtrl, hc, f1, f2, f3, const_tab, lt_tab, and_tab, or_tab, cond_tab, controlsStep, gt_iff_lt]

theorem stepSys_tab (s : HeatSim) (F : Nat → FiveModules) (hp : s.Packs F) (c : ControlArr) (d : DemandArr) (C : Nat → Controls) (D : Nat → Demand)
    (c1 : c.heater = tab s.n fun h => (C h).heaterOn) (c2 : c.water = tab s.n fun h => (C h).heatWaterOn) (c3 : c.space = tab s.n fun h => (C h).spaceHeatingOn)
    (d1 : d.dhw = tab s.n fun h => (D h).dhw) (d2 : d.space = tab s.n fun h => (D h).spaceHeating) :
    stepSys s.n s.sys c d = { s.sys with
      outDhw := tab s.n fun h => ((F h).sys.step (C h) (D h)).dhw
      outSpace := tab s.n fun h => ((F h).sys.step (C h) (D h)).spaceHeating
      outTotal := tab s.n fun h => ((F h).sys.step (C h) (D h)).total } := by
  simp only [stepSys, c1, c2, c3, d1, d2, hp.maxDhw, hp.maxSpace, const_tab, and_tab, not_tab, sub_tab, clip_tab, cond_tab, add_tab, HeatSys.step]

theorem stepBuild_tab (s : HeatSim) (F : Nat → FiveModules) (hp : s.Packs F) (i : StepIn) (hi : i.Sized s.n) (T : Nat → Temps) (ow os : Nat → Rat) (b : BuildingArr)
    (hb : b = { s.build with building := tab s.n fun h => (T h).building, interior := tab s.n fun h => (T h).interior, emitter := tab s.n fun h => (T h).emitter, cylinder := tab s.n fun h => (T h).cylinder })
    (hc : ∀ h, (T h).coldWater = s.build.coldWater) :
    let R : Nat → Temps := fun h => (F h).building.step (F h).dt (T h) { outside := i.outside, irradiance := i.irradiance, dhwDemand := el i.dhw h, occupancyGains := el i.occupancy h, lightingGains := el i.light h
                                                                         applianceGains := el i.appliances h, spaceHeating := os h, dhw := ow h }
    stepBuild s.n s.dt b i (tab s.n ow) (tab s.n os) = { s.build with
      building := tab s.n fun h => (R h).building, interior := tab s.n fun h => (R h).interior, emitter := tab s.n fun h => (R h).emitter, cylinder := tab s.n fun h => (R h).cylinder } := by
  obtain ⟨w, hw⟩ : ∃ w, w = el i.dhw := ⟨_, rfl⟩
  obtain ⟨x, hx⟩ : ∃ w, w = el i.occupancy := ⟨_, rfl⟩
  obtain ⟨y, hy⟩ : ∃ w, w = el i.light := ⟨_, rfl⟩
  obtain ⟨z, hz⟩ : ∃ w, w = el i.appliances := ⟨_, rfl⟩
  have ew := eq_tab _ _ hi.dhw
  have ex := eq_tab _ _ hi.occupancy
  have ey := eq_tab _ _ hi.light
  have ez := eq_tab _ _ hi.appliances
  rw [← hw] at ew
  rw [← hx] at ex
  rw [← hy] at ey
  rw [← hz] at ez
  rw [← hw, ← hx, ← hy, ← hz]
  subst hb
  intro R
  simp only [stepBuild, ew, ex, ey, ez, hp.cB, hp.cI, hp.cEm, hp.hEm, hp.hBi, hp.hOb, hp.hV, hp.irr, hp.hLoss, hp.cCyl, const_tab, add_tab, sub_tab, mul_tab, div_tab]
  have hR : ∀ h, R h = (F h).building.step s.dt (T h) { outside := i.outside, irradiance := i.irradiance, dhwDemand := w h, occupancyGains := x h, lightingGains := y h, applianceGains := z h, spaceHeating := os h, dhw := ow h } :=
    fun h => by rw [← hp.dt h]
  simp only [hR, Building.step, neg_mul, one_mul, hc]

theorem step_packs (s : HeatSim) (F : Nat → FiveModules) (hp : s.Packs F) (i : StepIn) (hi : i.Sized s.n) :
    ∃ s', s.step i = .ok s' ∧ s'.n = s.n ∧ s'.Packs fun h => (F h).step (i.at h) := by
  obtain ⟨he1, he2⟩ := external_opt s F hp i hi
  have hcyl : assignOpt s.build.cylinder i.extCylinder = tab s.n fun h => (i.at h).extCylinder.join.getD (F h).temps.cylinder := by
    rw [hp.cylinder]
    exact opt_assign s.n _ _ _ (opt_el s.n i.extCylinder hi.extCylinder)
  have hdhw := eq_tab i.dhw s.n hi.dhw
  obtain ⟨T, hT⟩ : ∃ T : Nat → Temps, T = fun h => { (F h).temps with cylinder := (i.at h).extCylinder.join.getD (F h).temps.cylinder } := ⟨_, rfl⟩
  obtain ⟨G, hG⟩ : ∃ G : Nat → Targets, G = fun h => { dhw := (i.at h).targetDhw.getD (F h).target.dhw, spaceHeating := (i.at h).targetSpace.getD (F h).target.spaceHeating, emitter := (i.at h).targetEmitter.getD (F h).target.emitter } :=
    ⟨_, rfl⟩
  obtain ⟨H, hH⟩ : ∃ H : Nat → ThermostatStates, H = fun h => thermostatsStep (F h).thermostats (T h) (G h) s.therm.deadband := ⟨_, rfl⟩
  obtain ⟨C, hC⟩ : ∃ C : Nat → Controls, C = fun h => controlsStep (F h).sys.isCombi (F h).externalCylinder (el i.dhw h) (H h) := ⟨_, rfl⟩
  obtain ⟨D, hD⟩ : ∃ D : Nat → Demand, D = fun h => heatDemand (F h).algo (F h).building (F h).demandDt (T h) (el i.dhw h) i.outside (G h) (F h).deadband := ⟨_, rfl⟩
  obtain ⟨E, hE⟩ : ∃ E : Nat → ExtDict, E = fun h => assignExternal (F h).controls (F h).demand (i.at h).extHeat (i.at h).extDhw (i.at h).extSh := ⟨_, rfl⟩
  have he1 : Opt s.n (s.external i).1 fun h => (E h).dhw := by rw [hE]; exact he1
  have he2 : Opt s.n (s.external i).2 fun h => (E h).spaceHeating := by rw [hE]; exact he2
  have hTc : ∀ h, (T h).coldWater = s.build.coldWater := fun h => by rw [hT]; exact hp.coldWater h
  obtain ⟨b, hb⟩ : ∃ b : BuildingArr, b = { s.build with building := tab s.n fun h => (T h).building, interior := tab s.n fun h => (T h).interior, emitter := tab s.n fun h => (T h).emitter, cylinder := tab s.n fun h => (T h).cylinder } := ⟨_, rfl⟩
  have hb' : { s.build with cylinder := tab s.n fun h => (i.at h).extCylinder.join.getD (F h).temps.cylinder } = b := by
    rw [hb, hT]; dsimp only; rw [← hp.building, ← hp.interior, ← hp.emitter]
  obtain ⟨O, hO⟩ : ∃ O : Nat → HeatOutputs, O = fun h => (F h).sys.step (C h) (D h) := ⟨_, rfl⟩
  obtain ⟨R, hR⟩ : ∃ R : Nat → Temps, R = fun h => (F h).building.step (F h).dt (T h)
      { outside := i.outside, irradiance := i.irradiance, dhwDemand := el i.dhw h, occupancyGains := el i.occupancy h, lightingGains := el i.light h
        applianceGains := el i.appliances h, spaceHeating := (E h).spaceHeating.join.getD (O h).spaceHeating, dhw := (E h).dhw.join.getD (O h).dhw } := ⟨_, rfl⟩
  have hRc : ∀ h, (R h).coldWater = s.build.coldWater := fun h => by rw [hR]; exact hTc h
  have hst : ∀ (h : Nat), (F h).step (i.at h) = { F h with
      target := G h, thermostats := H h, controls := C h, demand := D h, useExternal := (E h).isExternal
      outputs := { dhw := (E h).dhw.join.getD (O h).dhw, spaceHeating := (E h).spaceHeating.join.getD (O h).spaceHeating, total := (O h).total }
      temps := R h
      externalCylinder := match (i.at h).extCylinder with | some v => v.isSome | none => (F h).externalCylinder
      cylDhwDemand := match (i.at h).extCylinder with
        | some _ => el i.dhw h * ((G h).dhw - (R h).coldWater) + (F h).building.hLoss * ((R h).cylinder - (R h).interior)
        | none => (F h).cylDhwDemand } := by
    intro h
    rw [hR, hO, hD, hC, hH, hG, hE, hT, ← hp.deadband h]
    rfl
  have ht := newTargets_tab s F hp i hi
  obtain ⟨t0, ht0⟩ : ∃ t : ThermostatArr, t = { s.therm with targetDhw := tab s.n fun h => (G h).dhw, targetSpace := tab s.n fun h => (G h).spaceHeating, targetEmitter := tab s.n fun h => (G h).emitter } := ⟨_, rfl⟩
  have ht : newTargets s.therm i.target = .ok t0 := by rw [ht, ht0, hG]
  have ht1 : stepTherm s.n t0 b = { t0 with hotWater := tab s.n fun h => (H h).hotWater, space := tab s.n fun h => (H h).spaceHeating, emitter := tab s.n fun h => (H h).emitter } := by
    rw [stepTherm_tab s.n t0 b (fun h => (F h).thermostats) T G (by rw [hb]) (by rw [hb]) (by rw [hb]) (by rw [ht0]) (by rw [ht0]) (by rw [ht0]) (by rw [ht0]; exact hp.thHotWater) (by rw [ht0]; exact hp.thSpace) (by rw [ht0]; exact hp.thEmitter)]
    have : t0.deadband = s.therm.deadband := by rw [ht0]
    rw [hH, this]
  obtain ⟨t1, ht1'⟩ : ∃ t, t = stepTherm s.n t0 b := ⟨_, rfl⟩
  have hc : stepCtrl s.n s.ctrl i.dhw t1 s.externalCylinder = { s.ctrl with heater := tab s.n fun h => (C h).heaterOn, water := tab s.n fun h => (C h).heatWaterOn, space := tab s.n fun h => (C h).spaceHeatingOn } := by
    rw [hp.externalCylinder, hdhw, stepCtrl_tab s.n s.ctrl t1 H _ _ _ hp.isCombi (by rw [ht1', ht1]) (by rw [ht1', ht1]) (by rw [ht1', ht1]), hC]
  obtain ⟨c1, hc1⟩ : ∃ c, c = stepCtrl s.n s.ctrl i.dhw t1 s.externalCylinder := ⟨_, rfl⟩
  have hd := stepDemand_tab s F hp b t1 T G i.dhw (el i.dhw) i.outside (by rw [hb]) (by rw [hb]) (by rw [hb]) (by rw [hb]; exact hTc) (by rw [ht1', ht1, ht0]) (by rw [ht1', ht1, ht0]) (by rw [ht1', ht1, ht0]) hdhw
  obtain ⟨d1, hd1⟩ : ∃ d : DemandArr, d = { s.dem with dhw := tab s.n fun h => (D h).dhw, space := tab s.n fun h => (D h).spaceHeating } := ⟨_, rfl⟩
  have hd : stepDemand s.n s.demandDt s.dem b t1 i.dhw i.outside = .ok d1 := by rw [hd, hd1, hD]
  have hs := stepSys_tab s F hp c1 d1 C D (by rw [hc1, hc]) (by rw [hc1, hc]) (by rw [hc1, hc]) (by rw [hd1]) (by rw [hd1])
  obtain ⟨y1, hy1⟩ : ∃ y, y = stepSys s.n s.sys c1 d1 := ⟨_, rfl⟩
  have hy : y1 = { s.sys with outDhw := tab s.n fun h => (O h).dhw, outSpace := tab s.n fun h => (O h).spaceHeating, outTotal := tab s.n fun h => (O h).total } := by rw [hy1, hs, hO]
  have hw : assignOpt y1.outDhw (s.external i).1 = tab s.n fun h => (E h).dhw.join.getD (O h).dhw := by
    rw [hy]; exact opt_assign s.n _ _ _ he1
  have hsp : assignOpt y1.outSpace (s.external i).2 = tab s.n fun h => (E h).spaceHeating.join.getD (O h).spaceHeating := by
    rw [hy]; exact opt_assign s.n _ _ _ he2
  have hbs := stepBuild_tab s F hp i hi T (fun h => (E h).dhw.join.getD (O h).dhw) (fun h => (E h).spaceHeating.join.getD (O h).spaceHeating) b hb hTc
  obtain ⟨b1, hb1⟩ : ∃ x, x = stepBuild s.n s.dt b i (tab s.n fun h => (E h).dhw.join.getD (O h).dhw) (tab s.n fun h => (E h).spaceHeating.join.getD (O h).spaceHeating) := ⟨_, rfl⟩
  have hbs : b1 = { s.build with building := tab s.n fun h => (R h).building, interior := tab s.n fun h => (R h).interior, emitter := tab s.n fun h => (R h).emitter, cylinder := tab s.n fun h => (R h).cylinder } := by
    rw [hb1, hbs, hR]
  have hu : Arr.or (given s.n (s.external i).1) (given s.n (s.external i).2) = tab s.n fun h => (E h).isExternal := by
    rw [opt_given _ _ _ he1, opt_given _ _ _ he2, or_tab]; rfl
  have hec : newExternalCylinder s.externalCylinder i.extCylinder = tab s.n fun h => match (i.at h).extCylinder with | some v => v.isSome | none => (F h).externalCylinder := by
    have hl := hi.extCylinder
    simp only [StepIn.at]
    cases hx : i.extCylinder with
    | none => exact hp.externalCylinder
    | some v => rw [hx] at hl; dsimp only [Option.map_some, newExternalCylinder]; rw [← map_tab, ← eq_tab v _ (hl v rfl)]
  have hcd : newCylDhw s.cylDhw (Arr.add (Arr.mul i.dhw (Arr.sub t1.targetDhw (Arr.const s.n b1.coldWater))) (Arr.mul d1.hLoss (Arr.sub b1.cylinder b1.interior))) i.extCylinder =
      tab s.n fun h => match (i.at h).extCylinder with
        | some _ => el i.dhw h * ((G h).dhw - (R h).coldWater) + (F h).building.hLoss * ((R h).cylinder - (R h).interior)
        | none => (F h).cylDhwDemand := by
    simp only [StepIn.at]
    cases hx : i.extCylinder with
    | none => exact hp.cylDhw
    | some v =>
      dsimp only [Option.map_some, newCylDhw]
      rw [hdhw]
      rw [ht1', ht1, ht0, hbs, hd1]
      dsimp only
      rw [hp.demHLoss, const_tab, sub_tab, sub_tab, mul_tab, mul_tab, add_tab]
      refine tab_congr fun h _ => ?_
      rw [← hdhw, hRc h]
  have hstep : s.step i = .ok { s with
      sys := { y1 with outDhw := tab s.n fun h => (E h).dhw.join.getD (O h).dhw, outSpace := tab s.n fun h => (E h).spaceHeating.join.getD (O h).spaceHeating }, therm := t1, build := b1, ctrl := c1, dem := d1
      useExternal := tab s.n fun h => (E h).isExternal
      externalCylinder := tab s.n fun h => match (i.at h).extCylinder with | some v => v.isSome | none => (F h).externalCylinder
      cylDhw := tab s.n fun h => match (i.at h).extCylinder with
        | some _ => el i.dhw h * ((G h).dhw - (R h).coldWater) + (F h).building.hLoss * ((R h).cylinder - (R h).interior)
        | none => (F h).cylDhwDemand } := by
    rw [step]
    simp only [bind, Except.bind]
    rw [hcyl, ht]
    simp only []
    rw [hb', ← ht1', ← hc1, hd]
    simp only []
    rw [← hy1, hw, hsp, ← hb1, hu, hec, hcd]
  refine ⟨_, hstep, rfl, ?_⟩
  have hF : (fun h => (F h).step (i.at h)) = _ := funext hst
  rw [hF]
  rw [hc1, hc, ht1', ht1, ht0, hd1, hy, hbs]
  constructor
  case coldWater => exact hRc
  all_goals first
    | exact hp.dt | exact hp.demandDt | exact hp.deadband | exact hp.demDeadband | exact hp.algo | exact hp.pump | exact hp.standby | exact hp.flowRate | exact hp.flowRateToW | exact hp.fuel | exact hp.maxSpace
    | exact hp.maxDhw | exact hp.isCombi | exact hp.cEm | exact hp.hEm | exact hp.cB | exact hp.cI | exact hp.hBi | exact hp.hOb | exact hp.hV | exact hp.irr | exact hp.hLoss | exact hp.cCyl | exact hp.demCCyl
    | exact hp.demHLoss | exact hp.demCEm | exact hp.demHEm | exact hp.demCI | exact hp.demHV | exact hp.demHIbo | rfl

theorem setExternal_packs (s : HeatSim) (F : Nat → FiveModules) (hp : s.Packs F) (new : HeatSysArr) (h1 : new.isCombi.length = s.n) (h2 : new.hLoss.length = s.n) (h3 : new.cCyl.length = s.n) :
    (s.setExternal new).Packs fun h => (F h).setExternal (el new.isCombi h) (el new.hLoss h) (el new.cCyl h) := by
  have e1 := eq_tab _ _ h1
  have e2 := eq_tab _ _ h2
  have e3 := eq_tab _ _ h3
  constructor
  case isCombi => exact e1
  case hLoss => exact e2
  case cCyl => exact e3
  case demHLoss => exact e2
  case demCCyl => exact e3
  case useExternal => exact const_tab _ _
  all_goals first
    | exact hp.dt | exact hp.demandDt | exact hp.deadband | exact hp.demDeadband | exact hp.algo | exact hp.coldWater | exact hp.pump | exact hp.standby | exact hp.flowRate | exact hp.flowRateToW | exact hp.fuel
    | exact hp.maxSpace | exact hp.maxDhw | exact hp.outDhw | exact hp.outSpace | exact hp.outTotal | exact hp.targetDhw | exact hp.targetSpace | exact hp.targetEmitter | exact hp.thHotWater | exact hp.thSpace
    | exact hp.thEmitter | exact hp.cEm | exact hp.hEm | exact hp.cB | exact hp.cI | exact hp.hBi | exact hp.hOb | exact hp.hV | exact hp.irr | exact hp.building | exact hp.interior | exact hp.emitter | exact hp.cylinder
    | exact hp.heater | exact hp.water | exact hp.space | exact hp.demCEm | exact hp.demHEm | exact hp.demCI | exact hp.demHV | exact hp.demHIbo | exact hp.demDhw | exact hp.demSpace | exact hp.externalCylinder
    | exact hp.cylDhw

theorem run_packs (ops : List Op) : ∀ (s : HeatSim) (F : Nat → FiveModules), s.Packs F → (∀ o ∈ ops, o.Sized s.n) →
    ∃ s', s.run ops = .ok s' ∧ s'.n = s.n ∧ s'.Packs fun h => (F h).after h ops := by
  induction ops with
  | nil => exact fun s F hp _ => ⟨s, rfl, rfl, hp⟩
  | cons o ops ih =>
    intro s F hp hi
    have ho := hi o (by simp)
    cases o with
    | step i =>
      obtain ⟨s1, h1, hn, hp1⟩ := step_packs s F hp i ho
      obtain ⟨s2, h2, hn2, hp2⟩ := ih s1 _ hp1 (fun j hj => by rw [hn]; exact hi j (by simp [hj]))
      refine ⟨s2, ?_, by rw [hn2, hn], hp2⟩
      simp only [run, h1, bind, Except.bind, h2]
    | external new =>
      obtain ⟨s2, h2, hn2, hp2⟩ := ih (s.setExternal new) _ (setExternal_packs s F hp new ho.1 ho.2.1 ho.2.2) (fun j hj => hi j (by simp [hj]))
      exact ⟨s2, h2, hn2, hp2⟩

/-! ## Getters -/

theorem demand_tab (s : HeatSim) (F : Nat → FiveModules) (hp : s.Packs F) :
    s.dhwHeatDemand = (tab s.n fun h => (F h).dhwHeatDemand) ∧ s.shHeatDemand = (tab s.n fun h => (F h).shHeatDemand) ∧ s.totalHeatDemand = tab s.n fun h => (F h).totalHeatDemand := by
  have h1 : s.dhwHeatDemand = (tab s.n fun h => (F h).dhwHeatDemand) := by
    simp only [dhwHeatDemand, hp.externalCylinder, hp.cylDhw, hp.water, hp.demDhw, mulBool_tab, cond_tab]
    rfl
  have h2 : s.shHeatDemand = (tab s.n fun h => (F h).shHeatDemand) := by
    simp only [shHeatDemand, hp.space, hp.demSpace, mulBool_tab]
    rfl
  refine ⟨h1, h2, ?_⟩
  simp only [totalHeatDemand, h1, h2, hp.heater, add_tab, mulBool_tab]
  exact tab_congr fun h _ => mul_comm _ _

theorem any_tab {α : Type} (n : Nat) (f : Nat → α) (p : α → Bool) : (tab n f).any p = true ↔ ∃ h, h < n ∧ p (f h) = true := by
  simp [tab]

theorem loadRatio_tab (s : HeatSim) (F : Nat → FiveModules) (hp : s.Packs F) : loadRatio s.sys = tab s.n fun h => (F h).sys.loadRatio (F h).outputs := by
  simp only [loadRatio, hp.outSpace, hp.outDhw, hp.maxSpace, hp.maxDhw, zipWith_tab]
  rfl

theorem powerDemand_tab (s : HeatSim) (F : Nat → FiveModules) (hp : s.Packs F) :
    s.powerDemand = if (∃ h, h < s.n ∧ (F h).sys.fuel = .other) then .error .valueError else .ok (tab s.n fun h => (F h).powerDemand) := by
  simp only [powerDemand, sysPower]
  by_cases ho : ∃ h, h < s.n ∧ (F h).sys.fuel = .other
  · rw [if_pos ho, if_pos]
    · rfl
    · rw [hp.fuel, any_tab]; simpa using ho
  · rw [if_neg ho, if_neg]
    · simp only [bind, Except.bind, Except.ok.injEq]
      have hel : (if (s.sys.fuel.any fun f => decide (f = .electricity)) = true then electricity s.n s.sys s.ctrl.heater else Arr.const s.n (some 0)) =
          tab s.n fun h => (F h).sys.fuelConsumption (F h).controls (F h).outputs .electricity := by
        by_cases he : (s.sys.fuel.any fun f => decide (f = .electricity)) = true
        · rw [if_pos he]
          simp only [electricity, loadRatio_tab s F hp, hp.fuel, hp.heater, hp.maxSpace, hp.maxDhw, hp.flowRate, const_tab, lt_tab, or_tab, and_tab, map_tab, zipWith_tab, cond_tab]
          refine tab_congr fun h _ => ?_
          simp only [HeatSys.fuelConsumption, gt_iff_lt]
        · rw [if_neg he, const_tab]
          rw [hp.fuel, any_tab] at he
          refine tab_congr fun h hh => ?_
          have : ¬ (F h).sys.fuel = .electricity := fun hf => he ⟨h, hh, by simpa using hf⟩
          simp [HeatSys.fuelConsumption, this]
      rw [hel]
      simp only [hp.useExternal, hp.space, hp.pump, hp.standby, const_tab, cond_tab, zipWith_tab]
      rfl
    · rw [hp.fuel, any_tab]; simpa using ho

/-! ## Construction -/

theorem pick_ok {α : Type} [Inhabited α] (a : List α) (n : Nat) (k : Nat → Nat) (h : ∀ i, i < n → k i < a.length) : Arr.pick a (tab n k) = .ok (tab n fun i => el a (k i)) := by
  rw [Arr.pick, mapM_ok_iff]
  refine ⟨by simp, fun i h1 h2 => ?_⟩
  have hi : i < n := by simpa using h1
  rw [show (tab n k)[i] = k i by simp [tab], show (tab n fun i => el a (k i))[i] = el a (k i) by simp [tab], pyGet_ok _ _ (h i hi)]
  simp [el, List.getD_eq_getElem?_getD, h i hi]

theorem cdf_ok (cdf : List Rat) (h1 : 1 ∈ cdf) (n : Nat) (us : List Rat) (hd : Draws n us) : ∃ k : Nat → Nat, mcFrom1dCdf cdf us = .ok (tab n k) ∧ ∀ h, h < n → CdfSampled cdf (el us h) (k h) := by
  have hex : ∀ u : Rat, u < 1 → ∃ i, mcCdf cdf u = .ok i := by
    intro u _
    unfold mcCdf argmaxBool
    split
    · rename_i h
      simp only [List.map_eq_nil_iff] at h
      subst h; simp at h1
    · exact ⟨_, rfl⟩
  have key : ∀ h, ∃ k, h < n → mcCdf cdf (el us h) = .ok k ∧ CdfSampled cdf (el us h) k := by
    intro h
    by_cases hh : h < n
    · have hu : el us h < 1 := by
        have hl : h < us.length := by rw [hd.1]; exact hh
        simp only [el, List.getD_eq_getElem?_getD, List.getElem?_eq_getElem hl, Option.getD_some]
        exact (hd.2 _ (List.getElem_mem hl)).2
      obtain ⟨i, hi⟩ := hex _ hu
      refine ⟨i, fun _ => ⟨hi, ?_⟩⟩
      obtain ⟨hl, ha, hb⟩ := (mcCdf_iff cdf _ ⟨1, h1, hu⟩ i).1 hi
      refine ⟨hl, by simpa [List.getD_eq_getElem?_getD, hl] using ha, fun j hj => ?_⟩
      have hjl : j < cdf.length := by omega
      simpa [List.getD_eq_getElem?_getD, hjl] using hb j hj
    · exact ⟨0, fun h' => absurd h' hh⟩
  choose k hk using key
  refine ⟨k, ?_, fun h hh => (hk h hh).2⟩
  rw [mcFrom1dCdf, mapM_ok_iff]
  refine ⟨by simp [hd.1], fun i hi1 hi2 => ?_⟩
  have hi : i < n := by rw [← hd.1]; exact hi1
  rw [show (tab n k)[i] = k i by simp [tab]]
  have := (hk i hi).1
  simpa [el, List.getD_eq_getElem?_getD, hi1] using this

theorem draw_ok (p : List Rat) (hp : IsDist p) (n : Nat) (us : List Rat) (hd : Draws n us) : ∃ k : Nat → Nat, drawTypes p us = .ok (tab n k) ∧ ∀ h, h < n → Sampled p (el us h) (k h) := by
  have hne : p ≠ [] := by rintro rfl; have := hp.2; simp at this
  have hlen : 0 < p.length := List.length_pos_iff.2 hne
  have hlast : (cumsum p)[p.length - 1]'(by simp; omega) = 1 := by
    rw [cumsum_get p (p.length - 1) (by omega), List.take_of_length_le (by omega), hp.2]
  have hmem : (1 : Rat) ∈ cumsum p := by rw [← hlast]; exact List.getElem_mem _
  obtain ⟨k, hk, hs⟩ := cdf_ok (cumsum p) hmem n us hd
  refine ⟨k, ?_, fun h hh => ?_⟩
  · have := Markov.check_ok [p] (by simpa using hp)
    simp only [drawTypes, List.map_cons, List.map_nil] at this ⊢
    rw [this]
    exact hk
  · obtain ⟨h1, h2, h3⟩ := hs h hh
    have hkl : k h < p.length := by simpa using h1
    have hl : h < us.length := by rw [hd.1]; exact hh
    have h0 : 0 ≤ el us h := by
      simp only [el, List.getD_eq_getElem?_getD, List.getElem?_eq_getElem hl, Option.getD_some]
      exact (hd.2 _ (List.getElem_mem hl)).1
    refine ⟨hkl, ?_, ?_⟩
    · cases hkk : k h with
      | zero => simpa using h0
      | succ j =>
        have := h3 j (by omega)
        have hjl : j < p.length := by omega
        rwa [List.getD_eq_getElem?_getD, List.getElem?_eq_getElem (by simpa using hjl), Option.getD_some, cumsum_get p j hjl] at this
    · rw [List.getD_eq_getElem?_getD, List.getElem?_eq_getElem h1, Option.getD_some, cumsum_get p _ hkl, take_succ_sum p _ hkl] at h2
      rwa [List.getD_eq_getElem?_getD, List.getElem?_eq_getElem hkl, Option.getD_some]

theorem create_packs (D : HeatData) (hD : D.Ok) (n : Nat) (hn : n ≠ 0) (outside dt : Rat) (algo : DemandAlgo) (d : HeatDraws) (hd : d.Ok n) :
    ∃ (s : HeatSim) (k b t w : Nat → Nat), create D n outside algo.name dt d = .ok s ∧ s.n = n ∧
      (∀ h, h < n → Sampled D.sysProb (el d.system h) (k h) ∧ Sampled D.buildingProb (el d.building h) (b h) ∧ CdfSampled D.homeCdf (el d.home h) (t h) ∧ CdfSampled D.waterCdf (el d.water h) (w h)) ∧
      s.Packs fun h => D.household outside dt algo (k h) (b h) (t h) (w h) (el d.interior h) (el d.cylinder h) := by
  obtain ⟨k, hk, hks⟩ := draw_ok _ hD.sysProb n _ hd.system
  obtain ⟨b, hb, hbs⟩ := draw_ok _ hD.buildingProb n _ hd.building
  obtain ⟨t, ht, hts⟩ := cdf_ok _ hD.home n _ hd.home
  obtain ⟨w, hw, hws⟩ := cdf_ok _ hD.water n _ hd.water
  have hkl : ∀ {α : Type} [Inhabited α] (a : List α), a.length = D.sysProb.length → Arr.pick a (tab n k) = .ok (tab n fun i => el a (k i)) :=
    fun a ha => pick_ok a n k fun i hi => by rw [ha]; exact (hks i hi).1
  have hbl : ∀ {α : Type} [Inhabited α] (a : List α), a.length = D.buildingProb.length → Arr.pick a (tab n b) = .ok (tab n fun i => el a (b i)) :=
    fun a ha => pick_ok a n b fun i hi => by rw [ha]; exact (hbs i hi).1
  have htl := pick_ok D.homeValues n t fun i hi => by rw [hD.homeValues]; exact (hts i hi).1
  have hwl := pick_ok D.waterValues n w fun i hi => by rw [hD.waterValues]; exact (hws i hi).1
  obtain ⟨r, hr⟩ : ∃ r, r = el d.interior := ⟨_, rfl⟩
  obtain ⟨c, hc⟩ : ∃ c, c = el d.cylinder := ⟨_, rfl⟩
  have hr' := eq_tab _ _ hd.interior
  have hc' := eq_tab _ _ hd.cylinder
  rw [← hr] at hr' ⊢
  rw [← hc] at hc' ⊢
  suffices hs : ∃ s : HeatSim, create D n outside algo.name dt d = .ok s ∧ s.n = n ∧ s.Packs fun h => D.household outside dt algo (k h) (b h) (t h) (w h) (r h) (c h) by
    obtain ⟨s, h1, h2, h3⟩ := hs
    exact ⟨s, k, b, t, w, h1, h2, fun h hh => ⟨hks h hh, hbs h hh, hts h hh, hws h hh⟩, h3⟩
  rw [create, if_neg hn]
  simp only [createSys, createTherm, createBuild, bind, Except.bind, hk, hb, ht, hw, htl, hwl, hkl _ hD.pump, hkl _ hD.standby, hkl _ hD.flowRate, hkl _ hD.flowRateToW, hkl _ hD.fuel, hkl _ hD.maxSpace, hkl _ hD.maxDhw, hkl _ hD.cylLoss,
    hkl _ hD.cylVolume, hkl _ hD.isCombi, hbl _ hD.emittersTarget, hbl _ hD.cEm, hbl _ hD.hEm, hbl _ hD.cB, hbl _ hD.cI, hbl _ hD.hBi, hbl _ hD.hOb, hbl _ hD.hV, hbl _ hD.irr, hr', hc', const_tab, mul_tab, add_tab, div_tab, le_tab, lt_tab, cond_tab,
    createDemand]
  refine ⟨_, rfl, rfl, ?_⟩
  constructor
  all_goals first
    | rfl
    | exact fun _ => rfl
    | (refine tab_congr fun h _ => ?_; simp [HeatData.household, mul_comm])


/-! ## The draws determine the types -/

theorem sampled_unique (p : List Rat) (hp : IsDist p) (u : Rat) (i j : Nat) (hi : Sampled p u i) (hj : Sampled p u j) : i = j := by
  have key : ∀ i j, Sampled p u i → Sampled p u j → ¬ i < j := by
    intro i j hi hj hlt
    have h1 := hi.2.2
    have h2 := hj.2.1
    have h3 := take_sum_mono p hp.1 (show i + 1 ≤ j by omega)
    rw [take_succ_sum p i hi.1] at h3
    rw [List.getD_eq_getElem?_getD, List.getElem?_eq_getElem hi.1, Option.getD_some] at h1
    linarith
  have := key i j hi hj
  have := key j i hj hi
  omega

theorem cdfSampled_unique (c : List Rat) (u : Rat) (i j : Nat) (hi : CdfSampled c u i) (hj : CdfSampled c u j) : i = j := by
  rcases Nat.lt_trichotomy i j with h | h | h
  · have := hj.2.2 i h; have := hi.2.1; linarith
  · exact h
  · have := hi.2.2 j h; have := hj.2.1; linarith

theorem el_tab {α : Type} [Inhabited α] (n : Nat) (f : Nat → α) (h : Nat) (hh : h < n) : el (tab n f) h = f h := by
  simp [el, tab, List.getD_eq_getElem?_getD, hh]

/-! ## Refusals -/

theorem newTargets_ok (t : ThermostatArr) (i : TargetIn) (h : i ≠ .other) : ∃ t', newTargets t i = .ok t' := by
  cases i with
  | other => exact absurd rfl h
  | none => exact ⟨_, rfl⟩
  | array v => exact ⟨_, rfl⟩
  | dict a b c => exact ⟨_, rfl⟩

theorem create_algo (D : HeatData) (n : Nat) (outside : Rat) (a a' : String) (dt : Rat) (d : HeatDraws) :
    create D n outside a' dt d = (create D n outside a dt d).map fun s => { s with dem := { s.dem with algo := a' } } := by
  rw [create, create]
  by_cases hn : n = 0
  · rw [if_pos hn, if_pos hn]; rfl
  · rw [if_neg hn, if_neg hn]
    simp only [bind, Except.bind]
    cases createSys D n d.system with
    | error e => rfl
    | ok sys =>
      dsimp only
      cases createTherm D n d.home d.water with
      | error e => rfl
      | ok t =>
        dsimp only
        cases createBuild D n sys outside t.targetSpace d.building d.interior d.cylinder with
        | error e => rfl
        | ok b => rfl

end HeatSim

end Demod
