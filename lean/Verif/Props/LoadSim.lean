import Verif.Lemmas.LoadRun

/-! # C114: the whole load simulator -/

namespace Demod

variable {C H Opt : Type}

/-- **C114.** `LoadSimulator` with data without sparse matrices, from any start at a multiple of ten minutes: it can be made and run for any number of minutes. Its appliances start with the active persons of the activity simulator and have the draws of their own constructor (C109_create), and so have its lights (C112_create). Household `h` is the same in all its parts, that of the subgroup in which
`sample_population` puts it. The activity simulator has followed the chain of its number of residents (`CrestCourse`), with its own draws of every tenth minute; in step `j` its active persons are those of its state after the first
`j / 10 + 1` of the steps of the activity simulator. Its appliances have followed these active persons, minute by minute, and so have its lights, with the irradiance of the step: the given one, or that of the climate simulator after the step. Its power demand is
the sum of what its appliances must consume, of the power of its lights and of that of its heating, if included. -/
theorem C114_run (D : LoadData C H Opt) (n : Nat) (counts : List Nat) (start : Int) (args : LoadArgs C) (good : H → Prop) (optOk : Opt → Prop) (hs : LoadSetup D n counts start args good optOk) (T : Int) (hT : T = start - start % 86400000000)
    (n0 : Nat) (hn0 : (n0 : Int) * 600000000 = start - T) :
    ∃ s0, LoadSim.create D n start args = .ok s0 ∧ s0.time = start ∧ (∃ act, s0.activity.activeOccupancy = .ok act ∧
        OccSim.create D.apps D.profiles D.switchedOn D.full D.refresh D.dataStep D.groups counts none start { args.appliances with initial := some act } args.appliancesInit = .ok s0.appliances) ∧
      LightSim.create D.lights n "off" "randn" args.light = .ok s0.light ∧ ∀ ins, (∀ i ∈ ins, LoadInOk D n args.climate.isSome optOk i) →
      ∃ (s : LoadSim C H) (P : List (Option Rat)) (occs : List (List Nat)) (irrs : List Rat) (rank : Nat → Nat × Nat → Nat), LoadSim.run D s0 ins = .ok s ∧ s.time = start + ins.length * 60000000 ∧
        s.climate = args.climate.map (D.climateStep^[ins.length]) ∧ s.heating.isSome = args.heating ∧ s.powerDemand D n = .ok P ∧ P.length = n ∧ occs.length = ins.length ∧ irrs.length = ins.length ∧
        (∀ j i r, ins[j]? = some i → irrs[j]? = some r → i.irradiance = some r ∨ i.irradiance = none ∧ ∃ c, args.climate = some c ∧ r = D.irradiance (D.climateStep^[j + 1] c)) ∧
        (∃ log, LightSim.simulate s0.light (occs.zip (irrs.zip (ins.map fun i => i.light))) = .ok (s.light, log)) ∧ (∀ i, Function.Injective (rank i)) ∧ (∀ h < n, ∃ k, InSubgroup counts h k ∧ k < D.groups.length) ∧
        ∀ (h k : Nat) g (r : Nat), InSubgroup counts h k → D.groups[k]? = some g → g.at kNResidents = some (.int r) →
          s.activity.residents[h]? = some (r : Int) ∧ s.appliances.hhTypes[h]? = some k ∧
          (∃ traj, CrestCourse D.book r T (args.activity.getD h 0) (((List.range n0).map args.activityInit ++ everyTen (ins.map fun i => i.activity)).map fun us => us.getD h 0) (crestSlot T) (crestWeekend T) traj ∧
            ∀ j o, occs[j]? = some o → ∃ m a, IsState r (traj (n0 + (j / 10 + 1))) m a ∧ o[h]? = some (min m a)) ∧
          (∀ a x, D.apps[a]? = some x → s0.appliances.Follows D.profiles D.refresh D.groups start (occs.zip (ins.map fun i => i.appliances)) rank h a x (s0.appliances.st h a) (s.appliances.st h a)) ∧
          ∃ (ws : List Rat) (l : Rat) (e : Option Rat), P[h]? = some (e.map fun e => ws.sum + l + e) ∧ ws.length = D.apps.length ∧ (∀ (a : Nat) x w, D.apps[a]? = some x → ws[a]? = some w → consumes (s.appliances.appl h a x) (s.appliances.st h a) w) ∧
            s.light.powerDemand[h]? = some l ∧ (s.heating = none → e = some 0) ∧ ∀ x, s.heating = some x → ∃ p, D.heatingPower x = .ok p ∧ p[h]? = some e := by
  have h10 := hs.start10
  have hN : (start % 86400000000 / 600000000).toNat = n0 := by omega
  obtain ⟨s0, c0, c1, c2, c3, c4, hrun⟩ := LoadSim.run_full D n counts start args good optOk hs.toLoadCore hs.toHeatOk (Draws n) (LoadSim.crest_acts D n counts start args hs.toLoadBase)
  refine ⟨s0, c0, c1, c3, c4, fun ins hi => ?_⟩
  obtain ⟨s, P, occs, irrs, rank, e1, e2, e3, e4, e5, e6, e7, e8, e9, e10, e11, e12, e13, e14⟩ := hrun ins hi fun i h => (hi i h).activity
  have hin : ∀ h < n, ∃ k, InSubgroup counts h k ∧ k < D.groups.length := by
    obtain ⟨s0', p1, p2⟩ := C113_run_partial D.book D.groups D.pdf n hs.inhabited .realPopulation (fun _ h => by cases h) counts hs.population hs.groups hs.residents start hs.start10 args.activity hs.activity args.activityInit hs.activityInit
      T hT n0 hn0
    obtain ⟨-, -, -, -, -, -, -, -, -, -, -, -, -, -, -, -, r, -⟩ := p2 [] (by simp)
    exact r
  refine ⟨s, P, occs, irrs, rank, e1, e2, e3, e4, e5, e6, e7, e8, e9, e10, e11, hin, ?_⟩
  intro h k g r z1 z2 z3
  have hdr : ∀ us ∈ everyTen (ins.map fun i => i.activity), Draws n us := by
    intro us hus
    obtain ⟨q, hq, rfl⟩ := List.mem_map.1 (everyTen_mem _ _ hus)
    exact (hi q hq).activity
  obtain ⟨a, act, gains, r1, r2, -, r4, -, -, r7⟩ := LoadSim.active_spec D n counts start args hs.toLoadBase s0.activity c2 _ hdr
  rw [e12] at r1
  obtain rfl := Except.ok.inj r1
  obtain ⟨y1, traj, y2, m0, k0, y3, y4, -⟩ := r7 h k g r z1 z2 z3
  rw [hN, ← hT] at y2
  have hh : h < n := by
    rw [← r4]
    exact (List.getElem?_eq_some_iff.1 y4).1
  obtain ⟨f1, f2, f3⟩ := e14 h hh
  refine ⟨y1, f1 k z1, ⟨traj, y2, ?_⟩, f2, f3⟩
  intro j o ho
  obtain ⟨aj, b1, b2⟩ := e13 j o ho
  have hjl : j < ins.length := by rw [← e7]; exact (List.getElem?_eq_some_iff.1 ho).1
  have hpre : everyTen ((ins.take (j + 1)).map fun i => i.activity) <+: everyTen (ins.map fun i => i.activity) := by
    rw [List.map_take]
    exact everyTen_prefix _ _
  obtain ⟨a', act', gains', r1', r2', -, -, -, -, r7'⟩ := LoadSim.active_spec D n counts start args hs.toLoadBase s0.activity c2 _ (fun us hus => hdr us (hpre.subset hus))
  rw [b1] at r1'
  obtain rfl := Except.ok.inj r1'
  rw [b2] at r2'
  obtain rfl := Except.ok.inj r2'
  obtain ⟨-, traj', y2', m, k', y3', y4', -⟩ := r7' h k g r z1 z2 z3
  rw [hN, ← hT] at y2'
  rw [hN] at y3'
  have hlen : (everyTen ((ins.take (j + 1)).map fun i => i.activity)).length = j / 10 + 1 := by
    rw [everyTen_length, List.length_map, List.length_take, min_eq_left (by omega)]
    omega
  obtain ⟨rr, rr1, -, -, rr4⟩ := hs.residents g (List.mem_of_getElem? z2)
  rw [z3, Option.some.injEq, SubVal.int.injEq] at rr1
  have : r = rr := by exact_mod_cast rr1
  subst this
  have := course_unique D.book r rr4 T _ _ _ (List.IsPrefix.map _ ((List.prefix_append_right_inj _).2 hpre)) _ _ traj traj' y2 y2' (n0 + (j / 10 + 1)) (by
    rw [List.length_map, List.length_append, List.length_map, List.length_range, hlen])
  rw [hlen, this] at y3'
  exact ⟨m, k', y3', y4'⟩

/-- **C114.** The heating simulator, if included, starts with the temperature of the climate simulator, or with the given one. In step `j` it is given: the outside temperature and the irradiance, both given by the user or those of the climate simulator
after the step; the demand of hot water and the power of the appliances, the power of the lights, after the step; and per household, with its state after the activity step of this minute, 147 per active person and 84 per other person at home. -/
theorem C114_heating (D : LoadData C H Opt) (n : Nat) (counts : List Nat) (start : Int) (args : LoadArgs C) (good : H → Prop) (optOk : Opt → Prop) (hs : LoadSetup D n counts start args good optOk) (T : Int) (hT : T = start - start % 86400000000)
    (n0 : Nat) (hn0 : (n0 : Int) * 600000000 = start - T) (s0 : LoadSim C H) (h0 : LoadSim.create D n start args = .ok s0) (hheat : args.heating = true)
    (ins : List (LoadStepIn Opt)) (hi : ∀ i ∈ ins, LoadInOk D n args.climate.isSome optOk i) (j : Nat) (i : LoadStepIn Opt) (hj : ins[j]? = some i) :
    (∃ x, s0.heating = some x ∧ D.heatingInit n ((args.climate.map D.outside).getD args.initialOutside) = .ok x) ∧
    ∃ s s' x x' inp, LoadSim.run D s0 (ins.take j) = .ok s ∧ LoadSim.run D s0 (ins.take (j + 1)) = .ok s' ∧ s.heating = some x ∧ s'.heating = some x' ∧ D.heatingStep x inp = .ok x' ∧
      (i.outside = some inp.outside ∨ i.outside = none ∧ ∃ c, args.climate = some c ∧ inp.outside = D.outside (D.climateStep^[j + 1] c)) ∧
      (i.irradiance = some inp.irradiance ∨ i.irradiance = none ∧ ∃ c, args.climate = some c ∧ inp.irradiance = D.irradiance (D.climateStep^[j + 1] c)) ∧
      inp.dhw = s'.appliances.dhwDemand ∧ s'.appliances.powerDemand = .ok inp.appliances ∧ inp.light = s'.light.powerDemand ∧ inp.opt = i.opt ∧ inp.Sized n ∧
      ∀ (h k : Nat) g (r : Nat), InSubgroup counts h k → D.groups[k]? = some g → g.at kNResidents = some (.int r) →
        ∃ traj, CrestCourse D.book r T (args.activity.getD h 0) (((List.range n0).map args.activityInit ++ everyTen ((ins.take (j + 1)).map fun i => i.activity)).map fun us => us.getD h 0) (crestSlot T) (crestWeekend T) traj ∧
          ∃ m a, IsState r (traj (n0 + (j / 10 + 1))) m a ∧ inp.occupancy[h]? = some (84 * max ((m : Rat) - a) 0 + 147 * min (m : Rat) a) := by
  have h10 := hs.start10
  have hjl := (List.getElem?_eq_some_iff.1 hj).1
  have hN : (start % 86400000000 / 600000000).toNat = n0 := by omega
  obtain ⟨s0', c0, -, c2, -⟩ := LoadSim.run_full D n counts start args good optOk hs.toLoadCore hs.toHeatOk (Draws n) (LoadSim.crest_acts D n counts start args hs.toLoadBase)
  rw [h0] at c0
  obtain rfl := Except.ok.inj c0
  obtain ⟨hx, s, s', x, x', inp, gains, u1, u2, u3, u4, u5, u6, u7, u8, u9, u10, u11, u12, u13, u14, u15⟩ := LoadSim.heat_full D n counts start args good optOk hs.toLoadCore hs.toHeatOk (Draws n)
    (LoadSim.crest_acts D n counts start args hs.toLoadBase) s0 h0 hheat ins hi (fun i h => (hi i h).activity) j i hj
  refine ⟨hx, s, s', x, x', inp, u1, u2, u3, u4, u5, u6, u7, u8, u9, u10, u11, u12, ?_⟩
  have hdr : ∀ us ∈ everyTen ((ins.take (j + 1)).map fun i => i.activity), Draws n us := by
    intro us hus
    obtain ⟨q, hq, rfl⟩ := List.mem_map.1 (everyTen_mem _ _ hus)
    exact (hi q (List.mem_of_mem_take hq)).activity
  obtain ⟨a, act, gains', r1, -, r3, -, r5, -, r7⟩ := LoadSim.active_spec D n counts start args hs.toLoadBase s0.activity c2 _ hdr
  rw [u13] at r1
  obtain rfl := Except.ok.inj r1
  rw [u14] at r3
  obtain rfl := Except.ok.inj r3
  intro h k g r z1 z2 z3
  obtain ⟨-, traj, y2, m, k', y3, -, y5⟩ := r7 h k g r z1 z2 z3
  rw [hN, ← hT] at y2
  have hlen : (everyTen ((ins.take (j + 1)).map fun i => i.activity)).length = j / 10 + 1 := by
    rw [everyTen_length, List.length_map, List.length_take, min_eq_left (by omega)]
    omega
  rw [hN, hlen] at y3
  refine ⟨traj, y2, m, k', y3, ?_⟩
  simp only [u15, List.getElem?_map, y5, Option.map_some]
  push_cast
  rfl

/-- **C114.** The refusals: no households; a step without climate simulator for which the outside temperature or the irradiance is missing. -/
theorem C114_refuses (D : LoadData C H Opt) (start : Int) (args : LoadArgs C) :
    LoadSim.create D 0 start args = .error .valueError ∧
    ∀ (s : LoadSim C H) (i : LoadStepIn Opt), s.climate = none → (i.outside = none ∨ i.irradiance = none) → s.step D i = .error .valueError := by
  constructor
  · rfl
  · intro s i hc hi
    unfold LoadSim.step
    simp only [bind, Except.bind, hc, Option.map_none, Option.isNone_none, Bool.true_and]
    rcases hi with h | h <;> simp [h]

/-! ## A concrete case -/

/-- A kettle and a shower, with values for up to six active persons. -/
def demoLoadData : LoadData Rat (List Rat) Unit :=
  { sparse := fun _ _ => .error .notImplementedError, fuel := 2, book := demoCrestBook, groups := [[(kNResidents, .int 1)], [(kNResidents, .int 2)]], pdf := [1 / 3, 2 / 3], groupsR := [[(kNResidents, .int 1)], [(kNResidents, .int 2)]], pdfR := [1 / 3, 2 / 3],
    apps := demoOccApps, profiles := fun _ => [("cooking".toList, List.replicate 144 [0, 1 / 2, 1, 1, 1, 1, 1]), ("washing".toList, List.replicate 144 [0, 1 / 10, 1 / 5, 1 / 5, 1 / 5, 1 / 5, 1 / 5])], switchedOn := [], full := [], refresh := 0, dataStep := 60000000,
    lights := { demoLighting with lighting := { demoLighting.lighting with effective := [0, 1, 3 / 2, 2, 2, 2, 2] } },
    climateStep := fun x => x + 1, outside := fun x => x, irradiance := fun x => 10 * x, heatingInit := fun n t => .ok (List.replicate n t),
    heatingStep := fun x i => .ok (x.map fun t => (t + i.outside) / 2), heatingPower := fun x => .ok (x.map some) }

/-- With a climate simulator and a heating simulator. -/
def demoLoadArgs : LoadArgs Rat :=
  { climate := some 3, heating := true, initialOutside := 0, activity := [0, 1 / 2, 3 / 4], activityInit := fun _ => [1 / 4, 1 / 3, 1 / 2], appliances := { demoOccArgs with initial := none },
    appliancesInit := fun _ => { u := fun _ _ => 1, unused := fun _ => 0, volume := fun _ => 0 }, light := demoLightArgs }

theorem demoLoad_setup : LoadSetup demoLoadData 3 [1, 2] (5 * 86400000000 + 600000000) demoLoadArgs (fun x => x.length = 3) (fun _ => True) where
  inhabited := by decide
  population := by decide +kernel
  groups := rfl
  noSparse := fun _ _ => rfl
  residents := by
    intro g hg
    change g ∈ ([[(kNResidents, .int 1)], [(kNResidents, .int 2)]] : List Subgroup) at hg
    simp only [List.mem_cons, List.not_mem_nil, or_false] at hg
    rcases hg with rfl | rfl
    · exact ⟨1, rfl, by decide, by decide, demoCrestBook_has 1 (by decide)⟩
    · exact ⟨2, rfl, by decide, by decide, demoCrestBook_has 2 (by decide)⟩
  same := ⟨rfl, rfl⟩
  start10 := by decide
  refresh := rfl
  activity := ⟨rfl, by decide +kernel⟩
  activityInit := fun _ => ⟨rfl, by
    show ∀ u ∈ ([1 / 4, 1 / 3, 1 / 2] : List Rat), 0 ≤ u ∧ u < 1
    decide +kernel⟩
  appliances := {
    refresh0 := by decide
    refresh1 := by decide
    refresh10 := by decide
    fullMinute := by norm_num
    inhabited := by decide
    enough := by decide
    someApp := List.cons_ne_nil _ _
    stepOk := rfl
    complete := by
      intro g _ day g' _ x hx
      change x ∈ demoOccApps at hx
      unfold demoOccApps at hx
      simp only [List.mem_cons, List.not_mem_nil, or_false] at hx
      rcases hx with rfl | rfl
      · refine ⟨List.replicate 144 [0, 1 / 2, 1, 1, 1, 1, 1], rfl, List.length_replicate, ?_⟩
        intro r hr
        rw [(List.mem_replicate.1 hr).2]
        decide
      · refine ⟨List.replicate 144 [0, 1 / 10, 1 / 5, 1 / 5, 1 / 5, 1 / 5, 1 / 5], by rfl, List.length_replicate, ?_⟩
        intro r hr
        rw [(List.mem_replicate.1 hr).2]
        decide
    some' := by norm_num
    initialOk := by
      intro occ h
      cases h
    usable := trivial
    known := by unfold demoLoadArgs demoOccArgs; simp
    notEmpty := by
      intro x _
      exact ⟨nofun, nofun⟩ }
  loads := .inl rfl
  appliancesInit := by
    intro k h a
    unfold demoLoadArgs
    norm_num
  bulbs := by
    refine Or.inr ⟨rfl, by decide, by decide +kernel, by decide +kernel, fun h k => ?_⟩
    unfold demoLoadArgs demoLightArgs
    simp only
    split <;> norm_num
  lights := ⟨demoLighting_ok.1, demoLighting_ok.2, demoLighting_ok.3, demoLighting_ok.4, demoLighting_ok.5, demoLighting_ok.6⟩
  effective := by decide
  heatingInit := fun t => ⟨_, rfl, List.length_replicate⟩
  heating := fun x i h _ _ => ⟨_, rfl, by rw [List.length_map]; exact h⟩
  heatingPower := fun x h => ⟨_, rfl, by rw [List.length_map]; exact h⟩

/-- The inputs of a minute whose irradiance is given and whose temperature is that of the climate simulator. -/
example : LoadInOk demoLoadData 3 demoLoadArgs.climate.isSome (fun _ => True)
    { outside := none, irradiance := some 200, opt := (), activity := [1 / 4, 1 / 3, 1 / 2], appliances := { u := fun _ _ => 1 / 2, unused := fun _ => 0, volume := fun _ => 40 }, light := demoLightInput.2.2 } where
  weather := .inl rfl
  opt := trivial
  activity := ⟨rfl, by decide +kernel⟩
  appliances := by intro h a; norm_num
  interval := demoLightInput_ok.interval
  place := demoLightInput_ok.place

example : (5 * 86400000000 + 600000000 : Int) - (5 * 86400000000 + 600000000) % 86400000000 = 5 * 86400000000 ∧ ((1 : Nat) : Int) * 600000000 = (5 * 86400000000 + 600000000) - 5 * 86400000000 ∧ InSubgroup [1, 2] 2 1 :=
  ⟨by decide, by decide, ⟨by decide, by decide⟩⟩

end Demod
