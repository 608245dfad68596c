import Verif.Lemmas.LoadHeat
import Verif.Props.LoadSim
import Verif.Props.HeatSim

/-! # C116: the whole load simulator with its heating simulator -/

namespace Demod

open HeatSim

variable {C : Type}

/-- **C116.** The load simulator with the heating simulator of the code, included: it can be made, and run for any number of minutes with any optional inputs of one entry per household. There is for every minute an input of the heating: the outside
temperature and irradiance given by the user or, if not given, those of the climate simulator after its step; the hot water demand and the power of the appliances and that of the lights after their steps of this minute; and the gains of the occupants, 84 per
passive and 147 per active occupant, after the activity step of the minute. Every household has the room, building, emitter and cylinder temperatures and the heat demands of the household alone with the heating system, building and
targets of its own draws and with its own entries of these inputs, and its power demand is the sum of that of its appliances, its lights and its heating. -/
theorem C116_run (D : LoadData C HeatSim HeatOpt) (n : Nat) (counts : List Nat) (start : Int) (args : LoadArgs C) (hb : LoadBase D n counts start args) (hd : HeatData) (hD : hd.Ok) (hf : ∀ f ∈ hd.fuel, f ≠ .other) (d : HeatDraws) (hdr : d.Ok n)
    (hheat : args.heating = true) (T : Int) (hT : T = start - start % 86400000000) (n0 : Nat) (hn0 : (n0 : Int) * 600000000 = start - T) :
    ∃ (s0 : LoadSim C HeatSim) (k b t w : Nat → Nat), LoadSim.create (D.fiveModules hd d) n start args = .ok s0 ∧
      (∀ h, h < n → Sampled hd.sysProb (el d.system h) (k h) ∧ Sampled hd.buildingProb (el d.building h) (b h) ∧ CdfSampled hd.homeCdf (el d.home h) (t h) ∧ CdfSampled hd.waterCdf (el d.water h) (w h)) ∧
      ∀ ins, (∀ i ∈ ins, LoadInOk (D.fiveModules hd d) n args.climate.isSome (HeatOpt.Sized n) i) →
        ∃ (s : LoadSim C HeatSim) (P : List (Option Rat)) (inps : List StepIn), LoadSim.run (D.fiveModules hd d) s0 ins = .ok s ∧ s.powerDemand (D.fiveModules hd d) n = .ok P ∧ P.length = n ∧ inps.length = ins.length ∧
          (∀ (j : Nat) i inp, ins[j]? = some i → inps[j]? = some inp → ∃ s' : LoadSim C HeatSim, LoadSim.run (D.fiveModules hd d) s0 (ins.take (j + 1)) = .ok s' ∧
            (i.outside = some inp.outside ∨ i.outside = none ∧ ∃ c, args.climate = some c ∧ inp.outside = D.outside (D.climateStep^[j + 1] c)) ∧
            (i.irradiance = some inp.irradiance ∨ i.irradiance = none ∧ ∃ c, args.climate = some c ∧ inp.irradiance = D.irradiance (D.climateStep^[j + 1] c)) ∧
            inp.dhw = s'.appliances.dhwDemand ∧ s'.appliances.powerDemand = .ok inp.appliances ∧ inp.light = s'.light.powerDemand ∧
            inp.target = i.opt.target ∧ inp.extHeat = i.opt.extHeat ∧ inp.extDhw = i.opt.extDhw ∧ inp.extSpace = i.opt.extSpace ∧ inp.extCylinder = i.opt.extCylinder ∧
            ∀ (h k : Nat) g (r : Nat), InSubgroup counts h k → D.groups[k]? = some g → g.at kNResidents = some (.int r) →
              ∃ traj, CrestCourse D.book r T (args.activity.getD h 0) (((List.range n0).map args.activityInit ++ everyTen ((ins.take (j + 1)).map fun i => i.activity)).map fun us => us.getD h 0) (crestSlot T) (crestWeekend T) traj ∧
                ∃ m a, IsState r (traj (n0 + (j / 10 + 1))) m a ∧ inp.occupancy[h]? = some (84 * max ((m : Rat) - a) 0 + 147 * min (m : Rat) a)) ∧
          let F : Nat → FiveModules := fun h =>
            (hd.household ((args.climate.map D.outside).getD args.initialOutside) 60 .heatMaxEmitters (k h) (b h) (t h) (w h) (el d.interior h) (el d.cylinder h)).after h (inps.map .step)
          s.temperatures = .ok [("interior", tab n fun h => (F h).temps.interior), ("building", tab n fun h => (F h).temps.building), ("emitter", tab n fun h => (F h).temps.emitter), ("cylinder", tab n fun h => (F h).temps.cylinder)] ∧
          s.dhwHeatDemand = .ok (tab n fun h => (F h).dhwHeatDemand) ∧ s.shHeatDemand = .ok (tab n fun h => (F h).shHeatDemand) ∧ s.totalHeatDemand = .ok (tab n fun h => (F h).totalHeatDemand) ∧
          ∀ h, h < n → ∃ (ws : List Rat) (l : Rat), P[h]? = some ((F h).powerDemand.map fun e => ws.sum + l + e) ∧ ws.length = D.apps.length ∧
            (∀ (a : Nat) x w, D.apps[a]? = some x → ws[a]? = some w → consumes (s.appliances.appl h a x) (s.appliances.st h a) w) ∧ s.light.powerDemand[h]? = some l := by
  obtain ⟨s0, k, b, t, w, c0, cact, p3, hrun⟩ := fiveModules_run D n counts start args hb.toLoadCore hd hD hf d hdr hheat (Draws n) (LoadSim.crest_acts _ n counts start args (fiveModules_base D n counts start args hb hd d))
  refine ⟨s0, k, b, t, w, c0, p3, fun ins hi => ?_⟩
  obtain ⟨s, P, inps, e1, e2, e3, e4, e5, e6⟩ := hrun ins hi fun i h => (hi i h).activity
  refine ⟨s, P, inps, e1, e2, e3, e4, fun j i inp hj hinp => ?_, e6⟩
  obtain ⟨s', u1, u2, u3, u4, u5, u6, u7, u8, u9, u10, u11, gains, u12, u13, u14⟩ := e5 j i inp hj hinp
  refine ⟨s', u1, u2, u3, u4, u5, u6, u7, u8, u9, u10, u11, ?_⟩
  intro h kk g r z1 z2 z3
  have h10 := hb.start10
  have hjl := (List.getElem?_eq_some_iff.1 hj).1
  have hN : (start % 86400000000 / 600000000).toNat = n0 := by omega
  have hdr : ∀ us ∈ everyTen ((ins.take (j + 1)).map fun i => i.activity), Draws n us := by
    intro us hus
    obtain ⟨q, hq, rfl⟩ := List.mem_map.1 (everyTen_mem _ _ hus)
    exact (hi q (List.mem_of_mem_take hq)).activity
  obtain ⟨a, act, gains', r1, -, r3, -, r5, -, r7⟩ := LoadSim.active_spec _ n counts start args (fiveModules_base D n counts start args hb hd d) s0.activity cact _ hdr
  rw [u12] at r1
  obtain rfl := Except.ok.inj r1
  rw [u13] at r3
  obtain rfl := Except.ok.inj r3
  obtain ⟨-, traj, y2, m, k', y3, -, y5⟩ := r7 h kk g r z1 z2 z3
  rw [hN, ← hT] at y2
  have hlen : (everyTen ((ins.take (j + 1)).map fun i => i.activity)).length = j / 10 + 1 := by
    rw [everyTen_length, List.length_map, List.length_take, min_eq_left (by omega)]
    omega
  rw [hN, hlen] at y3
  refine ⟨traj, y2, m, k', y3, ?_⟩
  simp only [u14, List.getElem?_map, y5, Option.map_some]
  push_cast
  rfl

/-- **C116 (refuses).** Without heating the getters of the heat demands and of the temperatures raise an `AttributeError`. -/
theorem C116_refuses (D : LoadData C HeatSim HeatOpt) (n : Nat) (start : Int) (args : LoadArgs C) (hheat : args.heating = false) (s0 s : LoadSim C HeatSim) (hc : LoadSim.create D n start args = .ok s0) (ins : List (LoadStepIn HeatOpt))
    (hr : LoadSim.run D s0 ins = .ok s) :
    s.totalHeatDemand = .error .attributeError ∧ s.dhwHeatDemand = .error .attributeError ∧ s.shHeatDemand = .error .attributeError ∧ s.temperatures = .error .attributeError := by
  have := run_none D ins s0 s (create_none D n start args hheat s0 hc) hr
  simp only [LoadSim.totalHeatDemand, LoadSim.dhwHeatDemand, LoadSim.shHeatDemand, LoadSim.temperatures, LoadSim.ofHeating, this, and_self]

/-! ## A concrete case -/

/-- The load simulator of `demoLoadData` with the heating of `demoHeatData`. -/
def demoLoadHeat : LoadData Rat HeatSim HeatOpt :=
  { demoLoadData with heatingInit := fun _ _ => .error .valueError, heatingStep := fun _ _ => .error .valueError, heatingPower := fun _ => .error .valueError }

theorem demoLoadHeat_base : LoadBase demoLoadHeat 3 [1, 2] (5 * 86400000000 + 600000000) demoLoadArgs :=
  let h := demoLoad_setup
  { inhabited := h.inhabited, population := h.population, groups := h.groups, appliances := h.appliances, loads := h.loads, appliancesInit := h.appliancesInit, bulbs := h.bulbs, lights := h.lights, effective := h.effective, noSparse := h.noSparse, residents := h.residents, same := h.same, start10 := h.start10, refresh := h.refresh, activity := h.activity, activityInit := h.activityInit }

/-- The draws of three households. -/
def demoHeatDraws3 : HeatDraws := { system := [3/4, 1/4, 1/4], home := [1/2, 0, 0], water := [0, 1/2, 0], building := [1/8, 1/2, 0], interior := [-1/2, 1/2, 0], cylinder := [0, 1/2, 0] }

/-- An external target temperature and an external heating system for the second household. -/
def demoHeatOpt : HeatOpt := { target := .array [20, 22, 21], extHeat := .array [none, some 5000, none], extDhw := none, extSpace := none, extCylinder := some [none, some 60, none] }

example : demoHeatData.Ok ∧ (∀ f ∈ demoHeatData.fuel, f ≠ .other) ∧ demoHeatDraws3.Ok 3 ∧ demoLoadArgs.heating = true := by
  refine ⟨demoHeat_ok.1, by decide, ?_, rfl⟩
  constructor
  case interior => rfl
  case cylinder => rfl
  all_goals exact ⟨rfl, by decide +kernel⟩

example : LoadInOk (demoLoadHeat.fiveModules demoHeatData demoHeatDraws3) 3 demoLoadArgs.climate.isSome (HeatOpt.Sized 3)
    { outside := none, irradiance := some 200, opt := demoHeatOpt, activity := [1 / 4, 1 / 3, 1 / 2], appliances := { u := fun _ _ => 1 / 2, unused := fun _ => 0, volume := fun _ => 40 }, light := demoLightInput.2.2 } where
  weather := .inl rfl
  opt := ⟨rfl, rfl, (by rintro v ⟨⟩), (by rintro v ⟨⟩), by rintro v ⟨⟩; rfl⟩
  activity := ⟨rfl, by decide +kernel⟩
  appliances := by intro h a; norm_num
  interval := demoLightInput_ok.interval
  place := demoLightInput_ok.place

example : ∃ s0, LoadSim.create (demoLoadHeat.fiveModules demoHeatData demoHeatDraws3) 3 (5 * 86400000000 + 600000000) { demoLoadArgs with heating := false } = .ok s0 := by
  have hb : LoadBase demoLoadHeat 3 [1, 2] (5 * 86400000000 + 600000000) { demoLoadArgs with heating := false } :=
    let h := demoLoad_setup
    { inhabited := h.inhabited, population := h.population, groups := h.groups, appliances := h.appliances, loads := h.loads, appliancesInit := h.appliancesInit, bulbs := h.bulbs, lights := h.lights, effective := h.effective, noSparse := h.noSparse, residents := h.residents, same := h.same, start10 := h.start10, refresh := h.refresh, activity := h.activity, activityInit := h.activityInit }
  have hdr : demoHeatDraws3.Ok 3 := by
    constructor
    case interior => rfl
    case cylinder => rfl
    all_goals exact ⟨rfl, by decide +kernel⟩
  obtain ⟨s0, c0, -⟩ := C114_run _ 3 [1, 2] _ _ _ _ (fiveModules_setup demoLoadHeat 3 [1, 2] _ _ hb demoHeatData demoHeat_ok.1 (by decide) demoHeatDraws3 hdr) (5 * 86400000000) (by decide) 1 (by decide)
  exact ⟨s0, c0⟩

end Demod
