import Verif.Lemmas.HeatSim
import Verif.Props.Sampling

/-! # C115: the whole heating simulator simulates every household alone -/

namespace Demod

open HeatSim

/-- **C115 (run).** For consistent data, every number of households, every draws and every sequence of steps and of replacements of the heating system, with arrays of one entry per household, nothing is raised. There are types of
heating system and building and indexes of the targets, for each household those of its own draws, such that the getters give for household `h` the values of this household simulated alone with its own inputs. If a household has another fuel than gas or
electricity the power demand is a `ValueError`. -/
theorem C115_run (D : HeatData) (hD : D.Ok) (n : Nat) (hn : n ≠ 0) (outside dt : Rat) (algo : DemandAlgo) (d : HeatDraws) (hd : d.Ok n) (ops : List Op) (ho : ∀ o ∈ ops, o.Sized n) :
    ∃ (s0 s : HeatSim) (k b t w : Nat → Nat), create D n outside algo.name dt d = .ok s0 ∧ s0.run ops = .ok s ∧
      (∀ h, h < n → Sampled D.sysProb (el d.system h) (k h) ∧ Sampled D.buildingProb (el d.building h) (b h) ∧ CdfSampled D.homeCdf (el d.home h) (t h) ∧ CdfSampled D.waterCdf (el d.water h) (w h)) ∧
      let F : Nat → FiveModules := fun h => (D.household outside dt algo (k h) (b h) (t h) (w h) (el d.interior h) (el d.cylinder h)).after h ops
      s.roomTemperature = (tab n fun h => (F h).temps.interior) ∧
      s.dhwHeatDemand = (tab n fun h => (F h).dhwHeatDemand) ∧
      s.shHeatDemand = (tab n fun h => (F h).shHeatDemand) ∧
      s.totalHeatDemand = (tab n fun h => (F h).totalHeatDemand) ∧
      ((∀ h, h < n → el D.fuel (k h) ≠ .other) → s.powerDemand = .ok (tab n fun h => (F h).powerDemand)) ∧
      ((∃ h, h < n ∧ el D.fuel (k h) = .other) → s.powerDemand = .error .valueError) := by
  obtain ⟨s0, k, b, t, w, hc, hn0, hs, hp⟩ := create_packs D hD n hn outside dt algo d hd
  obtain ⟨s, hr, hn1, hp1⟩ := run_packs ops s0 _ hp (by rw [hn0]; exact ho)
  have hN : s.n = n := by rw [hn1, hn0]
  refine ⟨s0, s, k, b, t, w, hc, hr, hs, ?_⟩
  intro F
  have hfuel : ∀ h, (F h).sys.fuel = el D.fuel (k h) := by
    have key : ∀ (ops : List Op) (f : FiveModules) (h : Nat), (f.after h ops).sys.fuel = f.sys.fuel := by
      intro ops
      induction ops with
      | nil => exact fun _ _ => rfl
      | cons o ops ih => intro f h; exact (ih (o.at h f) h).trans (by cases o <;> rfl)
    exact fun h => key ops _ h
  obtain ⟨h1, h2, h3⟩ := demand_tab s F hp1
  have h4 := powerDemand_tab s F hp1
  rw [hN] at h1 h2 h3 h4
  simp only [hfuel] at h4
  refine ⟨by rw [← hN]; exact hp1.interior, h1, h2, h3, fun hf => ?_, fun hf => ?_⟩
  · rw [h4, if_neg]
    rintro ⟨h, hh, he⟩
    exact hf h hh he
  · rw [h4, if_pos hf]

/-- **C115 (independent).** Households do not influence each other: a household that has the same draws and inputs in two simulations with different numbers of households, at different positions, has the same room temperature and heat demands. -/
theorem C115_independent (D : HeatData) (hD : D.Ok) (n n' : Nat) (outside dt : Rat) (algo : DemandAlgo) (d d' : HeatDraws) (hd : d.Ok n) (hd' : d'.Ok n') (ops ops' : List Op) (ho : ∀ o ∈ ops, o.Sized n)
    (ho' : ∀ o ∈ ops', o.Sized n') (h h' : Nat) (same : SameHousehold n n' h h' d d' ops ops') (s0 s0' s s' : HeatSim) (hc : create D n outside algo.name dt d = .ok s0) (hc' : create D n' outside algo.name dt d' = .ok s0')
    (hr : s0.run ops = .ok s) (hr' : s0'.run ops' = .ok s') :
    el s.roomTemperature h = el s'.roomTemperature h' ∧ el s.dhwHeatDemand h = el s'.dhwHeatDemand h' ∧ el s.shHeatDemand h = el s'.shHeatDemand h' ∧ el s.totalHeatDemand h = el s'.totalHeatDemand h' ∧
      ∀ p p', s.powerDemand = .ok p → s'.powerDemand = .ok p' → el p h = el p' h' := by
  have hn : n ≠ 0 := by have := same.lt; omega
  have hn' : n' ≠ 0 := by have := same.lt'; omega
  obtain ⟨t0, t1, k, b, t, w, e0, e1, hs, g1, g2, g3, g4, g5, g6⟩ := C115_run D hD n hn outside dt algo d hd ops ho
  obtain ⟨t0', t1', k', b', t', w', e0', e1', hs', g1', g2', g3', g4', g5', g6'⟩ := C115_run D hD n' hn' outside dt algo d' hd' ops' ho'
  rw [hc] at e0; cases e0
  rw [hc'] at e0'; cases e0'
  rw [hr] at e1; cases e1
  rw [hr'] at e1'; cases e1'
  obtain ⟨a1, a2, a3, a4⟩ := hs h same.lt
  obtain ⟨b1, b2, b3, b4⟩ := hs' h' same.lt'
  have ek : k h = k' h' := sampled_unique _ hD.sysProb _ _ _ a1 (by rw [same.system]; exact b1)
  have eb : b h = b' h' := sampled_unique _ hD.buildingProb _ _ _ a2 (by rw [same.building]; exact b2)
  have et : t h = t' h' := cdfSampled_unique _ _ _ _ a3 (by rw [same.home]; exact b3)
  have ew : w h = w' h' := cdfSampled_unique _ _ _ _ a4 (by rw [same.water]; exact b4)
  have hafter : ∀ (f : FiveModules), f.after h ops = f.after h' ops' := by
    intro f
    have key : ∀ (ops : List Op) (h : Nat) (f : FiveModules), f.after h ops = (ops.map fun o => fun f => o.at h f).foldl (fun g o => o g) f := by
      intro ops h f
      rw [List.foldl_map]
      rfl
    rw [key, key, same.ops]
  have hl := same.lt
  have hl' := same.lt'
  refine ⟨?_, ?_, ?_, ?_, ?_⟩
  · rw [g1, g1', el_tab _ _ _ hl, el_tab _ _ _ hl']; dsimp only; rw [ek, eb, et, ew, same.interior, same.cylinder, hafter]
  · rw [g2, g2', el_tab _ _ _ hl, el_tab _ _ _ hl']; dsimp only; rw [ek, eb, et, ew, same.interior, same.cylinder, hafter]
  · rw [g3, g3', el_tab _ _ _ hl, el_tab _ _ _ hl']; dsimp only; rw [ek, eb, et, ew, same.interior, same.cylinder, hafter]
  · rw [g4, g4', el_tab _ _ _ hl, el_tab _ _ _ hl']; dsimp only; rw [ek, eb, et, ew, same.interior, same.cylinder, hafter]
  · intro p p' hp hp'
    by_cases hf : ∃ h, h < n ∧ el D.fuel (k h) = .other
    · rw [g6 hf] at hp; cases hp
    by_cases hf' : ∃ h, h < n' ∧ el D.fuel (k' h) = .other
    · rw [g6' hf'] at hp'; cases hp'
    rw [g5 fun h hh he => hf ⟨h, hh, he⟩] at hp
    rw [g5' fun h hh he => hf' ⟨h, hh, he⟩] at hp'
    cases hp; cases hp'
    rw [el_tab _ _ _ hl, el_tab _ _ _ hl']; dsimp only; rw [ek, eb, et, ew, same.interior, same.cylinder, hafter]

/-- **C115 (refuses).** No households: `ValueError`. Probabilities of the heating systems, or of the buildings, whose sums are not a valid cumulative distribution: a bare `Exception`. Target temperatures that are neither an array nor a dictionary:
`TypeError`. An unknown algorithm of the heat demand: the constructor accepts it, but every step is a `ValueError`. -/
theorem C115_refuses :
    (∀ D outside algo dt d, create D 0 outside algo dt d = .error .valueError) ∧
    (∀ D n outside algo dt d, n ≠ 0 → ¬ ValidCdfRow cdfEps (cumsum D.sysProb) → create D n outside algo dt d = .error .exception) ∧
    (∀ (D : HeatData) n outside algo dt (d : HeatDraws) p, n ≠ 0 → d.Ok n → D.Ok → ¬ ValidCdfRow cdfEps (cumsum p) → create { D with buildingProb := p } n outside algo dt d = .error .exception) ∧
    (∀ (s : HeatSim) (i : StepIn), i.target = .other → s.step i = .error .typeError) ∧
    (∀ (D : HeatData) n outside dt (d : HeatDraws) algo, n ≠ 0 → d.Ok n → D.Ok → algo ≠ "heat_max_emmiters" → algo ≠ "room_estimation" →
      ∃ s, create D n outside algo dt d = .ok s ∧ ∀ i : StepIn, i.target ≠ .other → s.step i = .error .valueError) := by
  have hdraw : ∀ p us, ¬ ValidCdfRow cdfEps (cumsum p) → drawTypes p us = .error .exception := by
    intro p us hv
    have := (C11_check_valid_cdf cdfEps [cumsum p]).2.2 (by simpa using hv)
    rw [drawTypes, this]
  refine ⟨?_, ?_, ?_, ?_, ?_⟩
  · intro D outside algo dt d
    rw [create, if_pos rfl]
  · intro D n outside algo dt d hn hv
    rw [create, if_neg hn]
    simp only [createSys, hdraw _ _ hv, bind, Except.bind]
  · intro D n outside algo dt d p hn hd hD hv
    obtain ⟨s, hs⟩ : ∃ s, create D n outside algo dt d = .ok s := by
      obtain ⟨s0, k, b, t, w, hc, _⟩ := create_packs D hD n hn outside dt .roomEstimation d hd
      exact ⟨_, by rw [create_algo _ _ _ _ algo, hc]; rfl⟩
    rw [create, if_neg hn] at hs ⊢
    simp only [bind, Except.bind] at hs ⊢
    have e1 : createSys { D with buildingProb := p } n d.system = createSys D n d.system := rfl
    have e2 : createTherm { D with buildingProb := p } n d.home d.water = createTherm D n d.home d.water := rfl
    rw [e1, e2]
    cases h1 : createSys D n d.system with
    | error e => rw [h1] at hs; cases hs
    | ok sys =>
      rw [h1] at hs
      dsimp only at hs ⊢
      cases h2 : createTherm D n d.home d.water with
      | error e => rw [h2] at hs; cases hs
      | ok t =>
        simp only [createBuild, hdraw _ _ hv, bind, Except.bind]
  · intro s i hi
    simp only [step, hi, newTargets, bind, Except.bind]
  · intro D n outside dt d algo hn hd hD h1 h2
    obtain ⟨s0, k, b, t, w, hc, _⟩ := create_packs D hD n hn outside dt .roomEstimation d hd
    refine ⟨{ s0 with dem := { s0.dem with algo := algo } }, by rw [create_algo _ _ _ _ algo, hc]; rfl, fun i hi => ?_⟩
    obtain ⟨t', ht⟩ := newTargets_ok s0.therm i.target hi
    simp only [step, ht, stepDemand, if_neg h1, if_neg h2, bind, Except.bind]

/-! ## Non-vacuity -/

/-- Two types of heating system and two of buildings. -/
def demoHeatData : HeatData :=
  { sysProb := [1/2, 1/2], pump := [80, 0], standby := [5, 2], flowRate := [1, 1], flowRateToW := [1, 1], fuel := [.electricity, .mainsGas], maxSpace := [1000000, 20000], maxDhw := [1000000, 20000], cylLoss := [1, 2], cylVolume := [1/70, 1/100]
    isCombi := [false, true], homeCdf := [1/4, 1], homeValues := [18, 21], waterCdf := [1], waterValues := [55], emitterSetpoint := 50, deadband := ⟨5, 1, 5⟩, buildingProb := [1/4, 3/4], emittersTarget := [50, 60], cEm := [1000, 2000]
    hEm := [1, 2], cB := [100000, 200000], cI := [1000, 3000], hBi := [1, 2], hOb := [1, 3], hV := [1, 1/2], irradianceMultiplier := [1, 2] }

/-- The draws of two households. -/
def demoHeatDraws : HeatDraws := { system := [3/4, 1/4], home := [1/2, 0], water := [0, 1/2], building := [1/8, 1/2], interior := [-1/2, 1/2], cylinder := [0, 1/2] }

/-- A step of two households, the first with an external heating system. -/
def demoHeatStep : StepIn :=
  { outside := 5, irradiance := 10, dhw := [10, 0], occupancy := [100, 0], light := [10, 20], appliances := [0, 50], target := .array [20, 22], extHeat := .array [some 5000, none], extDhw := none, extSpace := none
    extCylinder := some [some 60, none] }

theorem demoHeat_ok : demoHeatData.Ok ∧ demoHeatDraws.Ok 2 ∧ ∀ o ∈ [Op.step demoHeatStep, Op.step demoHeatStep], o.Sized 2 := by
  refine ⟨?_, ?_, ?_⟩
  · constructor
    case sysProb => exact ⟨by decide +kernel, by decide +kernel⟩
    case buildingProb => exact ⟨by decide +kernel, by decide +kernel⟩
    case home => decide +kernel
    case water => decide +kernel
    all_goals rfl
  · constructor
    case interior => rfl
    case cylinder => rfl
    all_goals exact ⟨rfl, by decide +kernel⟩
  · intro o ho
    have : o = .step demoHeatStep := by simpa using ho
    subst this
    constructor
    case target => rfl
    case extHeat => rfl
    case extDhw => rintro v ⟨⟩
    case extSpace => rintro v ⟨⟩
    case extCylinder => rintro v ⟨⟩; rfl
    all_goals rfl

example : ∃ s0 s, create demoHeatData 2 5 "room_estimation" 60 demoHeatDraws = .ok s0 ∧ s0.run [.step demoHeatStep, .step demoHeatStep] = .ok s ∧ s0.roomTemperature = [41/2, 37/2] ∧ s.roomTemperature ≠ s0.roomTemperature ∧
    s.powerDemand ≠ .ok [some 0, some 0] := by
  obtain ⟨s0, s, k, b, t, w, h1, h2, -⟩ := C115_run demoHeatData demoHeat_ok.1 2 (by decide) 5 60 .roomEstimation demoHeatDraws demoHeat_ok.2.1 _ demoHeat_ok.2.2
  refine ⟨s0, s, h1, h2, ?_⟩
  have e : (create demoHeatData 2 5 "room_estimation" 60 demoHeatDraws).toOption.map (fun s => s.roomTemperature) = some [41/2, 37/2] := by decide +kernel
  have e' : ((create demoHeatData 2 5 "room_estimation" 60 demoHeatDraws).toOption.bind fun s => (s.run [.step demoHeatStep, .step demoHeatStep]).toOption.map fun s => decide (s.roomTemperature ≠ [41/2, 37/2] ∧ s.powerDemand ≠ .ok [some 0, some 0])) = some true := by
    decide +kernel
  rw [show (DemandAlgo.roomEstimation).name = "room_estimation" from rfl] at h1
  rw [h1] at e e'
  simp only [Except.toOption, Option.map_some, Option.bind_some, Option.some.injEq] at e e'
  rw [h2] at e'
  simp only [Except.toOption, Option.map_some, Option.some.injEq, decide_eq_true_eq] at e'
  exact ⟨e, by rw [e]; exact e'.1, e'.2⟩

/-- The households of the demonstration in the other order: the same values. -/
example : SameHousehold 2 1 1 0 demoHeatDraws { system := [1/4], home := [0], water := [1/2], building := [1/2], interior := [1/2], cylinder := [1/2] } [.step demoHeatStep]
    [.step { demoHeatStep with dhw := [0], occupancy := [0], light := [20], appliances := [50], target := .array [22], extHeat := .array [none], extCylinder := some [none] }] := by
  constructor
  case lt => decide
  case lt' => decide
  all_goals rfl

end Demod
