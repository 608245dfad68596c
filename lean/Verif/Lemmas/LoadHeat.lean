import Verif.Spec.LoadHeat
import Verif.Lemmas.HeatSim
import Verif.Lemmas.LoadRun

/-! # Lemmas about the load simulator with its heating -/

namespace Demod

open HeatSim

variable {C : Type}

/-- A state of the heating for `n` households, whose power demand can be told. -/
def GoodHeat (n : Nat) (x : HeatSim) : Prop := x.n = n ∧ ∃ F, x.Packs F ∧ ∀ h, h < n → (F h).sys.fuel ≠ .other

theorem toStep_sized (n : Nat) (i : HeatIn HeatOpt) (hi : i.Sized n) (ho : i.opt.Sized n) : i.toStep.Sized n :=
  { dhw := hi.dhw, occupancy := hi.occupancy, light := hi.light, appliances := hi.appliances, target := ho.target, extHeat := ho.extHeat, extDhw := ho.extDhw, extSpace := ho.extSpace, extCylinder := ho.extCylinder }

theorem fuel_ok (hd : HeatData) (hD : hd.Ok) (hf : ∀ f ∈ hd.fuel, f ≠ .other) (u : Rat) (k : Nat) (h : Sampled hd.sysProb u k) : el hd.fuel k ≠ .other := by
  have hk : k < hd.fuel.length := by rw [hD.fuel]; exact h.1
  apply hf
  unfold el
  rw [List.getD_eq_getElem?_getD, List.getElem?_eq_getElem hk]
  exact List.getElem_mem hk

theorem fiveModules_core (D : LoadData C HeatSim HeatOpt) (n : Nat) (counts : List Nat) (start : Int) (args : LoadArgs C) (hb : LoadCore D n counts start args) (hd : HeatData) (d : HeatDraws) : LoadCore (D.fiveModules hd d) n counts start args :=
  ⟨hb.inhabited, hb.population, hb.groups, hb.appliances, hb.loads, hb.appliancesInit, hb.bulbs, hb.lights, hb.effective⟩

theorem fiveModules_base (D : LoadData C HeatSim HeatOpt) (n : Nat) (counts : List Nat) (start : Int) (args : LoadArgs C) (hb : LoadBase D n counts start args) (hd : HeatData) (d : HeatDraws) : LoadBase (D.fiveModules hd d) n counts start args :=
  { fiveModules_core D n counts start args hb.toLoadCore hd d with
    noSparse := hb.noSparse, residents := hb.residents, same := hb.same, start10 := hb.start10, refresh := hb.refresh, activity := hb.activity, activityInit := hb.activityInit }

theorem fiveModules_heat (D : LoadData C HeatSim HeatOpt) (n : Nat) (hn : 0 < n) (hd : HeatData) (hD : hd.Ok) (hf : ∀ f ∈ hd.fuel, f ≠ .other) (d : HeatDraws)
    (hdr : d.Ok n) : HeatOk (D.fiveModules hd d) n (GoodHeat n) (HeatOpt.Sized n) where
  heatingInit := by
    intro t
    obtain ⟨s, k, b, tt, w, h1, h2, h3, h4⟩ := create_packs hd hD n (by omega) t 60 .heatMaxEmitters d hdr
    exact ⟨s, h1, h2, _, h4, fun h hh => fuel_ok hd hD hf _ _ (h3 h hh).1⟩
  heating := by
    rintro x i ⟨h1, F, hp, hF⟩ hi ho
    obtain ⟨x', e1, e2, e3⟩ := step_packs x F hp i.toStep (by rw [h1]; exact toStep_sized n i hi ho)
    exact ⟨x', e1, by rw [e2, h1], _, e3, hF⟩
  heatingPower := by
    rintro x ⟨h1, F, hp, hF⟩
    refine ⟨_, (powerDemand_tab x F hp).trans (if_neg ?_), by simp [h1]⟩
    rintro ⟨h, hh, he⟩
    exact hF h (h1 ▸ hh) he

theorem fiveModules_setup (D : LoadData C HeatSim HeatOpt) (n : Nat) (counts : List Nat) (start : Int) (args : LoadArgs C) (hb : LoadBase D n counts start args) (hd : HeatData) (hD : hd.Ok) (hf : ∀ f ∈ hd.fuel, f ≠ .other) (d : HeatDraws)
    (hdr : d.Ok n) : LoadSetup (D.fiveModules hd d) n counts start args (GoodHeat n) (HeatOpt.Sized n) :=
  { fiveModules_base D n counts start args hb hd d, fiveModules_heat D n hb.inhabited hd hD hf d hdr with }

theorem heat_run_snoc (l : List Op) (i : StepIn) : ∀ s : HeatSim, s.run (l ++ [.step i]) = (s.run l).bind fun s' => s'.step i := by
  induction l with
  | nil =>
    intro s
    simp only [List.nil_append, HeatSim.run, bind, Except.bind]
    cases s.step i <;> rfl
  | cons o l ih =>
    intro s
    cases o with
    | step j =>
      simp only [List.cons_append, HeatSim.run, bind, Except.bind]
      cases s.step j with
      | error e => rfl
      | ok s' => exact ih s'
    | external new => exact ih _

theorem tab_succ {α : Type} (n : Nat) (f : Nat → α) : tab (n + 1) f = tab n f ++ [f n] := by
  simp [tab, List.range_succ]

theorem fiveModules_run (D : LoadData C HeatSim HeatOpt) (n : Nat) (counts : List Nat) (start : Int) (args : LoadArgs C) (hb : LoadCore D n counts start args) (hd : HeatData) (hD : hd.Ok) (hf : ∀ f ∈ hd.fuel, f ≠ .other) (d : HeatDraws) (hdr : d.Ok n)
    (hheat : args.heating = true) (okD : List Rat → Prop) (ha : ∃ a0, LoadAct.create (D.fiveModules hd d) counts start args.activity args.activityInit = .ok a0 ∧ LoadSim.Acts (D.fiveModules hd d) n okD a0) :
    ∃ (s0 : LoadSim C HeatSim) (k b t w : Nat → Nat), LoadSim.create (D.fiveModules hd d) n start args = .ok s0 ∧ LoadAct.create (D.fiveModules hd d) counts start args.activity args.activityInit = .ok s0.activity ∧
      (∀ h, h < n → Sampled hd.sysProb (el d.system h) (k h) ∧ Sampled hd.buildingProb (el d.building h) (b h) ∧ CdfSampled hd.homeCdf (el d.home h) (t h) ∧ CdfSampled hd.waterCdf (el d.water h) (w h)) ∧
      ∀ ins, (∀ i ∈ ins, LoadInOk (D.fiveModules hd d) n args.climate.isSome (HeatOpt.Sized n) i) → (∀ i ∈ ins, okD i.activity) →
        ∃ (s : LoadSim C HeatSim) (P : List (Option Rat)) (inps : List StepIn), LoadSim.run (D.fiveModules hd d) s0 ins = .ok s ∧ s.powerDemand (D.fiveModules hd d) n = .ok P ∧ P.length = n ∧ inps.length = ins.length ∧
          (∀ (j : Nat) i inp, ins[j]? = some i → inps[j]? = some inp → ∃ s' : LoadSim C HeatSim, LoadSim.run (D.fiveModules hd d) s0 (ins.take (j + 1)) = .ok s' ∧
            (i.outside = some inp.outside ∨ i.outside = none ∧ ∃ c, args.climate = some c ∧ inp.outside = D.outside (D.climateStep^[j + 1] c)) ∧
            (i.irradiance = some inp.irradiance ∨ i.irradiance = none ∧ ∃ c, args.climate = some c ∧ inp.irradiance = D.irradiance (D.climateStep^[j + 1] c)) ∧
            inp.dhw = s'.appliances.dhwDemand ∧ s'.appliances.powerDemand = .ok inp.appliances ∧ inp.light = s'.light.powerDemand ∧
            inp.target = i.opt.target ∧ inp.extHeat = i.opt.extHeat ∧ inp.extDhw = i.opt.extDhw ∧ inp.extSpace = i.opt.extSpace ∧ inp.extCylinder = i.opt.extCylinder ∧
            ∃ gains, s0.activity.run (D.fiveModules hd d) (everyTen ((ins.take (j + 1)).map fun i => i.activity)) = .ok s'.activity ∧ s'.activity.thermalGains = .ok gains ∧ inp.occupancy = gains.map fun x : Int => (x : Rat)) ∧
          let F : Nat → FiveModules := fun h =>
            (hd.household ((args.climate.map D.outside).getD args.initialOutside) 60 .heatMaxEmitters (k h) (b h) (t h) (w h) (el d.interior h) (el d.cylinder h)).after h (inps.map .step)
          s.temperatures = .ok [("interior", tab n fun h => (F h).temps.interior), ("building", tab n fun h => (F h).temps.building), ("emitter", tab n fun h => (F h).temps.emitter), ("cylinder", tab n fun h => (F h).temps.cylinder)] ∧
          s.dhwHeatDemand = .ok (tab n fun h => (F h).dhwHeatDemand) ∧ s.shHeatDemand = .ok (tab n fun h => (F h).shHeatDemand) ∧ s.totalHeatDemand = .ok (tab n fun h => (F h).totalHeatDemand) ∧
          ∀ h, h < n → ∃ (ws : List Rat) (l : Rat), P[h]? = some ((F h).powerDemand.map fun e => ws.sum + l + e) ∧ ws.length = D.apps.length ∧
            (∀ (a : Nat) x w, D.apps[a]? = some x → ws[a]? = some w → consumes (s.appliances.appl h a x) (s.appliances.st h a) w) ∧ s.light.powerDemand[h]? = some l := by
  have hc := fiveModules_core D n counts start args hb hd d
  have hh := fiveModules_heat D n hb.inhabited hd hD hf d hdr
  obtain ⟨s0, c0, -, cact, -, -, hrun⟩ := LoadSim.run_full _ n counts start args _ _ hc hh okD ha
  obtain ⟨s0', act0, c0', c1, -, -, ⟨c4, c4'⟩, -⟩ := LoadSim.create_spec _ n counts start args _ _ hc hh okD ha
  rw [c0] at c0'
  obtain rfl := Except.ok.inj c0'
  rw [hheat] at c4
  obtain ⟨x0, hx0⟩ := Option.isSome_iff_exists.1 c4
  obtain ⟨x0', k, b, t, w, p1, p2, p3, p4⟩ := create_packs hd hD n (by have := hb.inhabited; omega) ((args.climate.map D.outside).getD args.initialOutside) 60 .heatMaxEmitters d hdr
  have h0 : HeatSim.create hd n ((args.climate.map D.outside).getD args.initialOutside) "heat_max_emmiters" 60 d = .ok x0 := (c4' x0 hx0).1
  rw [show DemandAlgo.heatMaxEmitters.name = "heat_max_emmiters" from rfl, h0] at p1
  obtain rfl := Except.ok.inj p1
  refine ⟨s0, k, b, t, w, c0, cact, p3, fun ins hi hud => ?_⟩
  obtain ⟨s, P, occs, irrs, rank, e1, -, -, e4, e5, e6, -, -, -, -, -, -, -, e7⟩ := hrun ins hi hud
  have hall : ∀ j, ∃ inp : HeatIn HeatOpt, ∀ i, ins[j]? = some i → inp.opt = i.opt ∧ inp.Sized n ∧
      ∃ s s' x x', LoadSim.run (D.fiveModules hd d) s0 (ins.take j) = .ok s ∧ LoadSim.run (D.fiveModules hd d) s0 (ins.take (j + 1)) = .ok s' ∧ s.heating = some x ∧ s'.heating = some x' ∧ x.step inp.toStep = .ok x' ∧
      (i.outside = some inp.outside ∨ i.outside = none ∧ ∃ c, args.climate = some c ∧ inp.outside = D.outside (D.climateStep^[j + 1] c)) ∧
      (i.irradiance = some inp.irradiance ∨ i.irradiance = none ∧ ∃ c, args.climate = some c ∧ inp.irradiance = D.irradiance (D.climateStep^[j + 1] c)) ∧
      inp.dhw = s'.appliances.dhwDemand ∧ s'.appliances.powerDemand = .ok inp.appliances ∧ inp.light = s'.light.powerDemand ∧
      ∃ gains, s0.activity.run (D.fiveModules hd d) (everyTen ((ins.take (j + 1)).map fun i => i.activity)) = .ok s'.activity ∧ s'.activity.thermalGains = .ok gains ∧ inp.occupancy = gains.map fun x : Int => (x : Rat) := by
    intro j
    cases hj : ins[j]? with
    | none => exact ⟨⟨0, 0, [], [], [], [], ⟨.none, .none, none, none, none⟩⟩, fun i hi' => by cases hi'⟩
    | some i =>
      obtain ⟨-, s1, s2, x, x', inp, gains, u1, u2, u3, u4, u5, u6, u7, u8, u9, u10, u11, u12, u13⟩ := LoadSim.heat_full _ n counts start args _ _ hc hh okD ha s0 c0 hheat ins hi hud j i hj
      refine ⟨inp, fun i' hi' => ?_⟩
      cases hi'
      exact ⟨u11, u12, s1, s2, x, x', u1, u2, u3, u4, u5, u6, u7, u8, u9, u10, gains, u13⟩
  choose f hff using hall
  have key : ∀ m, m ≤ ins.length → ∃ sm xm, LoadSim.run (D.fiveModules hd d) s0 (ins.take m) = .ok sm ∧ sm.heating = some xm ∧ x0.run ((tab m fun j => (f j).toStep).map .step) = .ok xm := by
    intro m
    induction m with
    | zero => exact fun _ => ⟨s0, x0, rfl, hx0, rfl⟩
    | succ m ih =>
      intro hm
      obtain ⟨sm, xm, r1, r2, r3⟩ := ih (by omega)
      obtain ⟨-, -, s1, s2, x, x', u1, u2, u3, u4, u5, -⟩ := hff m ins[m] (List.getElem?_eq_getElem (by omega))
      rw [r1] at u1
      obtain rfl := Except.ok.inj u1
      rw [r2] at u3
      obtain rfl := Option.some.inj u3
      refine ⟨s2, x', u2, u4, ?_⟩
      rw [tab_succ, List.map_append, List.map_singleton, heat_run_snoc, r3]
      exact u5
  obtain ⟨sm, x, r1, r2, r3⟩ := key ins.length le_rfl
  rw [List.take_length, e1] at r1
  obtain rfl := Except.ok.inj r1
  obtain ⟨x', v1, v2, v3⟩ := run_packs ((tab ins.length fun j => (f j).toStep).map .step) x0 _ p4 (by
    intro o ho
    obtain ⟨i, hi', rfl⟩ := List.mem_map.1 ho
    obtain ⟨j, hj, rfl⟩ := List.mem_map.1 hi'
    have hj := List.mem_range.1 hj
    obtain ⟨w1, w2, -⟩ := hff j ins[j] (List.getElem?_eq_getElem hj)
    rw [p2]
    exact toStep_sized n _ w2 (by rw [w1]; exact (hi _ (List.getElem_mem hj)).opt))
  rw [r3] at v1
  obtain rfl := Except.ok.inj v1
  refine ⟨s, P, tab ins.length fun j => (f j).toStep, e1, e5, e6, by simp, ?_, ?_⟩
  · intro j i inp hj hinp
    have hjl := (List.getElem?_eq_some_iff.1 hj).1
    have : inp = (f j).toStep := by
      have h1 : (tab ins.length fun j => (f j).toStep)[j]? = some (f j).toStep := by simp [tab, hjl]
      rw [h1] at hinp
      exact (Option.some.inj hinp).symm
    subst this
    obtain ⟨w1, w2, s1, s2, x, x', u1, u2, u3, u4, u5, u6, u7, u8, u9, u10, u11⟩ := hff j i hj
    rw [← w1]
    exact ⟨s2, u2, u6, u7, u8, u9, u10, rfl, rfl, rfl, rfl, rfl, u11⟩
  · have hN : x.n = n := by rw [v2, p2]
    intro F
    obtain ⟨h1, h2, h3⟩ := demand_tab x F v3
    rw [hN] at h1 h2 h3
    have t1 := v3.interior
    have t2 := v3.building
    have t3 := v3.emitter
    have t4 := v3.cylinder
    rw [hN] at t1 t2 t3 t4
    have hof : ∀ {α : Type} (get : HeatSim → α), s.ofHeating get = .ok (get x) := fun get => by simp only [LoadSim.ofHeating, r2]
    refine ⟨?_, ?_, ?_, ?_, ?_⟩
    · rw [LoadSim.temperatures, hof, HeatSim.temperatures, t1, t2, t3, t4]
    · rw [LoadSim.dhwHeatDemand, hof, h1]
    · rw [LoadSim.shHeatDemand, hof, h2]
    · rw [LoadSim.totalHeatDemand, hof, h3]
    · intro h hlt
      obtain ⟨-, -, ws, l, e, y1, y2, y3, y4, -, y6⟩ := e7 h hlt
      obtain ⟨p, z1, z2⟩ := y6 x r2
      refine ⟨ws, l, ?_, y2, y3, y4⟩
      have hp : x.powerDemand = .ok (tab n fun h => (F h).powerDemand) := by
        rw [powerDemand_tab x F v3, if_neg, hN]
        rintro ⟨h', hh', he⟩
        have hfu : (F h').sys.fuel = el hd.fuel (k h') := by
          have kk : ∀ (ops : List Op) (g : FiveModules), (g.after h' ops).sys.fuel = g.sys.fuel := by
            intro ops
            induction ops with
            | nil => exact fun _ => rfl
            | cons o ops ih => intro g; exact (ih (o.at h' g)).trans (by cases o <;> rfl)
          exact kk _ _
        exact fuel_ok hd hD hf _ _ (p3 h' (hN ▸ hh')).1 (hfu ▸ he)
      have : p = tab n fun h => (F h).powerDemand := Except.ok.inj (z1.symm.trans hp)
      subst this
      have : e = (F h).powerDemand := by
        have h5 : (tab n fun h => (F h).powerDemand)[h]? = some (F h).powerDemand := by simp [tab, hlt]
        exact Option.some.inj (z2.symm.trans h5)
      rw [y1, this]

theorem create_none {H Opt : Type} (D : LoadData C H Opt) (n : Nat) (start : Int) (args : LoadArgs C) (hheat : args.heating = false) (s0 : LoadSim C H) (hc : LoadSim.create D n start args = .ok s0) : s0.heating = none := by
  unfold LoadSim.create at hc
  simp only [bind, Except.bind, hheat, LoadSim.initHeating] at hc
  split at hc
  · cases hc
  repeat' (split at hc <;> [cases hc; skip])
  all_goals
    simp only [Bool.false_eq_true, if_false, Except.ok.injEq] at *
    subst_vars
    rfl

theorem step_none {H Opt : Type} (D : LoadData C H Opt) (s s' : LoadSim C H) (i : LoadStepIn Opt) (hn : s.heating = none) (hc : s.step D i = .ok s') : s'.heating = none := by
  unfold LoadSim.step at hc
  simp only [bind, Except.bind, hn, LoadSim.stepHeating] at hc
  split at hc
  · cases hc
  repeat' (split at hc <;> [cases hc; skip])
  all_goals
    cases hc
    rfl

theorem run_none {H Opt : Type} (D : LoadData C H Opt) (ins : List (LoadStepIn Opt)) : ∀ (s s' : LoadSim C H), s.heating = none → LoadSim.run D s ins = .ok s' → s'.heating = none := by
  induction ins with
  | nil =>
    intro s s' hn hr
    cases hr
    exact hn
  | cons i ins ih =>
    intro s s' hn hr
    simp only [LoadSim.run, bind, Except.bind] at hr
    cases h1 : s.step D i with
    | error e => rw [h1] at hr; cases hr
    | ok s1 =>
      rw [h1] at hr
      exact ih s1 s' (step_none D s s1 i hn h1) hr

end Demod
