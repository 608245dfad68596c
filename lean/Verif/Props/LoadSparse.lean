import Verif.Lemmas.LoadSparse
import Verif.Props.LoadHeat

/-!
# C118: the whole load simulator with transit-states activities

`LoadSparse` is defined in `Spec/LoadSparse.lean`, `HeatOk`, `LoadInOk`, `everyTen` in `Spec/LoadSim.lean`, `SparseCourse`, `DoingCount`, `PosDraws` in `Spec/SparseAct.lean`.
-/

namespace Demod

open HeatSim

variable {C H Opt : Type}

/-- **C118.** `LoadSimulator` with data that have sparse matrices, from any start at a full minute: it can be made and run for any number of minutes. Household `h` is the same in all its parts, that of the subgroup in which `sample_population` puts it. The activity simulator
has followed the course of labels of its subgroup (`SparseCourse`), with its own draws of every tenth minute; in step `j` its active persons are, for its label after the first `j / 10 + 1` of the steps of the activity simulator, the smaller of the persons at
home (residents less those in 'HWH' and 'HOH') and those in 'active'. Its appliances start with the active persons of the constructed activity simulator and follow them, minute by minute, and so do its lights, with the irradiance of the step. Its power demand
is the sum of what its appliances must consume, of the power of its lights and of that of its heating, if included. Missing: draws of the activity simulator that are exactly 0, see `C117_zero_draw_counterexample`. -/
theorem C118_run_partial (D : LoadData C H Opt) (n : Nat) (counts : List Nat) (start : Int) (args : LoadArgs C) (labels0 : Subgroup → List Nat) (acts : Subgroup → List Str) (pdf : Subgroup → List Rat) (days : Subgroup → DayData) (r : Subgroup → Int)
    (hs : LoadSparse D n counts start args labels0 acts pdf days r) (good : H → Prop) (optOk : Opt → Prop) (hheat : HeatOk D n good optOk) (n0 : Nat) (hn0 : (n0 : Int) = (start - 4 * 3600000000) % 86400000000 / 600000000) :
    ∃ s0, LoadSim.create D n start args = .ok s0 ∧ s0.time = start ∧ (∃ act, s0.activity.activeOccupancy = .ok act ∧
        OccSim.create D.apps D.profiles D.switchedOn D.full D.refresh D.dataStep D.groups counts none start { args.appliances with initial := some act } args.appliancesInit = .ok s0.appliances) ∧
      LightSim.create D.lights n "off" "randn" args.light = .ok s0.light ∧ ∀ ins, (∀ i ∈ ins, LoadInOk D n args.climate.isSome optOk i) → (∀ i ∈ ins, PosDraws n i.activity) →
      ∃ (s : LoadSim C H) (P : List (Option Rat)) (occs : List (List Nat)) (irrs : List Rat) (rank : Nat → Nat × Nat → Nat), LoadSim.run D s0 ins = .ok s ∧ s.time = start + ins.length * 60000000 ∧
        s.climate = args.climate.map (D.climateStep^[ins.length]) ∧ s.heating.isSome = args.heating ∧ s.powerDemand D n = .ok P ∧ P.length = n ∧ occs.length = ins.length ∧ irrs.length = ins.length ∧
        (∀ j i r, ins[j]? = some i → irrs[j]? = some r → i.irradiance = some r ∨ i.irradiance = none ∧ ∃ c, args.climate = some c ∧ r = D.irradiance (D.climateStep^[j + 1] c)) ∧
        (∃ log, LightSim.simulate s0.light (occs.zip (irrs.zip (ins.map fun i => i.light))) = .ok (s.light, log)) ∧ (∀ i, Function.Injective (rank i)) ∧ (∀ h < n, ∃ k, InSubgroup counts h k ∧ k < D.groups.length) ∧
        ∀ (h k : Nat) g, InSubgroup counts h k → D.groups[k]? = some g →
          s.activity.residents[h]? = some (r g) ∧ s.appliances.hhTypes[h]? = some k ∧
          (∃ t, SparseCourse (days g) (labels0 g) (pdf g) .weekEnds false start (args.activity.getD h 0) (((List.range n0).map args.activityInit ++ everyTen (ins.map fun i => i.activity)).map fun us => us.getD h 0) t ∧
            ∀ (j : Nat) occ, occs[j]? = some occ → ∀ w o c, DoingCount (acts g) "HWH".toList (t (n0 + (j / 10 + 1))) w → DoingCount (acts g) "HOH".toList (t (n0 + (j / 10 + 1))) o → DoingCount (acts g) "active".toList (t (n0 + (j / 10 + 1))) c →
              ∃ x : Nat, occ[h]? = some x ∧ (x : Int) = min (r g - w - o) c) ∧
          (∀ a x, D.apps[a]? = some x → s0.appliances.Follows D.profiles D.refresh D.groups start (occs.zip (ins.map fun i => i.appliances)) rank h a x (s0.appliances.st h a) (s.appliances.st h a)) ∧
          ∃ (ws : List Rat) (l : Rat) (e : Option Rat), P[h]? = some (e.map fun e => ws.sum + l + e) ∧ ws.length = D.apps.length ∧ (∀ (a : Nat) x w, D.apps[a]? = some x → ws[a]? = some w → consumes (s.appliances.appl h a x) (s.appliances.st h a) w) ∧
            s.light.powerDemand[h]? = some l ∧ (s.heating = none → e = some 0) ∧ ∀ x, s.heating = some x → ∃ p, D.heatingPower x = .ok p ∧ p[h]? = some e := by
  obtain ⟨s0, c0, c1, c2, c3, c4, hrun⟩ := LoadSim.run_full D n counts start args good optOk hs.toLoadCore hheat (PosDraws n) (LoadSim.sparse_acts D n counts start args labels0 acts pdf days r hs n0 hn0)
  obtain ⟨a0, b0, hact⟩ := LoadSim.sparse_spec D n counts start args labels0 acts pdf days r hs n0 hn0
  rw [c2] at b0
  obtain rfl := Except.ok.inj b0
  refine ⟨s0, c0, c1, c3, c4, fun ins hi hd => ?_⟩
  obtain ⟨s, P, occs, irrs, rank, e1, e2, e3, e4, e5, e6, e7, e8, e9, e10, e11, e12, e13, e14⟩ := hrun ins hi hd
  have hdr : ∀ us ∈ everyTen (ins.map fun i => i.activity), PosDraws n us := by
    intro us hus
    obtain ⟨q, hq, rfl⟩ := List.mem_map.1 (everyTen_mem _ _ hus)
    exact hd q hq
  obtain ⟨a, act, gains, r1, r2, -, r4, r5, -, r6, r7⟩ := hact _ hdr
  rw [e12] at r1
  obtain rfl := Except.ok.inj r1
  refine ⟨s, P, occs, irrs, rank, e1, e2, e3, e4, e5, e6, e7, e8, e9, e10, e11, r6, ?_⟩
  intro h k g z1 z2
  obtain ⟨y1, t, y2, y3⟩ := r7 h k g z1 z2
  have hkc : k < counts.length := by rw [hs.groups]; exact (List.getElem?_eq_some_iff.1 z2).1
  obtain ⟨hD, -⟩ := hs.data k g _ z2 (List.getElem?_eq_getElem hkc) (inSubgroup_pos counts h k z1 hkc)
  have hh : h < n := by
    obtain ⟨w, hw⟩ := doing_exists _ _ hD.acts.2.2.1 (t (n0 + (everyTen (ins.map fun i => i.activity)).length))
    obtain ⟨o, ho⟩ := doing_exists _ _ hD.acts.2.2.2 (t (n0 + (everyTen (ins.map fun i => i.activity)).length))
    obtain ⟨c, hc⟩ := doing_exists _ _ hD.acts.2.1 (t (n0 + (everyTen (ins.map fun i => i.activity)).length))
    obtain ⟨-, hg⟩ := y3 w o c hw ho hc
    rw [← r5]
    exact (List.getElem?_eq_some_iff.1 hg).1
  obtain ⟨f1, f2, f3⟩ := e14 h hh
  refine ⟨y1, f1 k z1, ⟨t, y2, ?_⟩, f2, f3⟩
  intro j occ ho
  obtain ⟨aj, b1, b2⟩ := e13 j occ ho
  have hjl : j < ins.length := by rw [← e7]; exact (List.getElem?_eq_some_iff.1 ho).1
  have hpre : everyTen ((ins.take (j + 1)).map fun i => i.activity) <+: everyTen (ins.map fun i => i.activity) := by
    rw [List.map_take]
    exact everyTen_prefix _ _
  obtain ⟨a', act', gains', r1', r2', -, -, -, -, -, r7'⟩ := hact _ (fun us hus => hdr us (hpre.subset hus))
  rw [b1] at r1'
  obtain rfl := Except.ok.inj r1'
  rw [b2] at r2'
  obtain rfl := Except.ok.inj r2'
  obtain ⟨-, t', y2', y3'⟩ := r7' h k g z1 z2
  have hlen : (everyTen ((ins.take (j + 1)).map fun i => i.activity)).length = j / 10 + 1 := by
    rw [everyTen_length, List.length_map, List.length_take, min_eq_left (by omega)]
    omega
  rw [hlen] at y3'
  have hpp := course_prefix _ _ _ _ _ _ _ _ _ (List.IsPrefix.map (fun us : List Rat => us.getD h 0) ((List.prefix_append_right_inj ((List.range n0).map args.activityInit)).2 hpre)) t y2
  have heq := C117_course_unique D.sparse g _ _ _ _ _ _ hD start _ _ t t' hpp y2' (n0 + (j / 10 + 1)) (by rw [List.length_map, List.length_append, List.length_map, List.length_range, hlen])
  rw [heq]
  intro w o c hw ho hc
  exact (y3' w o c hw ho hc).1

/-- **C118 (heating).** With the heating simulator of the code, included: for every minute there is an input of the heating, with the weather given by the user or of the climate simulator, the hot water demand and the power of the appliances and of the lights after their
steps of this minute, and the gains of the occupants after the activity step of the minute: 147 per active and 84 per other person at home. Every household has the temperatures and the heat demands of the household alone with the heating system, building and targets
of its own draws and its own entries of these inputs, and its power demand is the sum of that of its appliances, its lights and its heating. Missing: as for `C118_run_partial`. -/
theorem C118_heating_partial (D : LoadData C HeatSim HeatOpt) (n : Nat) (counts : List Nat) (start : Int) (args : LoadArgs C) (labels0 : Subgroup → List Nat) (acts : Subgroup → List Str) (pdf : Subgroup → List Rat) (days : Subgroup → DayData) (r : Subgroup → Int)
    (hb : LoadSparse D n counts start args labels0 acts pdf days r) (hd : HeatData) (hD : hd.Ok) (hf : ∀ f ∈ hd.fuel, f ≠ .other) (d : HeatDraws) (hdr : d.Ok n)
    (hheat : args.heating = true) (n0 : Nat) (hn0 : (n0 : Int) = (start - 4 * 3600000000) % 86400000000 / 600000000) :
    ∃ (s0 : LoadSim C HeatSim) (k b t w : Nat → Nat), LoadSim.create (D.fiveModules hd d) n start args = .ok s0 ∧
      (∀ h, h < n → Sampled hd.sysProb (el d.system h) (k h) ∧ Sampled hd.buildingProb (el d.building h) (b h) ∧ CdfSampled hd.homeCdf (el d.home h) (t h) ∧ CdfSampled hd.waterCdf (el d.water h) (w h)) ∧
      ∀ ins, (∀ i ∈ ins, LoadInOk (D.fiveModules hd d) n args.climate.isSome (HeatOpt.Sized n) i) → (∀ i ∈ ins, PosDraws n i.activity) →
        ∃ (s : LoadSim C HeatSim) (P : List (Option Rat)) (inps : List StepIn), LoadSim.run (D.fiveModules hd d) s0 ins = .ok s ∧ s.powerDemand (D.fiveModules hd d) n = .ok P ∧ P.length = n ∧ inps.length = ins.length ∧
          (∀ (j : Nat) i inp, ins[j]? = some i → inps[j]? = some inp → ∃ s' : LoadSim C HeatSim, LoadSim.run (D.fiveModules hd d) s0 (ins.take (j + 1)) = .ok s' ∧
            (i.outside = some inp.outside ∨ i.outside = none ∧ ∃ c, args.climate = some c ∧ inp.outside = D.outside (D.climateStep^[j + 1] c)) ∧
            (i.irradiance = some inp.irradiance ∨ i.irradiance = none ∧ ∃ c, args.climate = some c ∧ inp.irradiance = D.irradiance (D.climateStep^[j + 1] c)) ∧
            inp.dhw = s'.appliances.dhwDemand ∧ s'.appliances.powerDemand = .ok inp.appliances ∧ inp.light = s'.light.powerDemand ∧
            inp.target = i.opt.target ∧ inp.extHeat = i.opt.extHeat ∧ inp.extDhw = i.opt.extDhw ∧ inp.extSpace = i.opt.extSpace ∧ inp.extCylinder = i.opt.extCylinder ∧
            ∀ (h k : Nat) g, InSubgroup counts h k → D.groups[k]? = some g →
              ∃ t, SparseCourse (days g) (labels0 g) (pdf g) .weekEnds false start (args.activity.getD h 0) (((List.range n0).map args.activityInit ++ everyTen ((ins.take (j + 1)).map fun i => i.activity)).map fun us => us.getD h 0) t ∧
                ∀ w o c, DoingCount (acts g) "HWH".toList (t (n0 + (j / 10 + 1))) w → DoingCount (acts g) "HOH".toList (t (n0 + (j / 10 + 1))) o → DoingCount (acts g) "active".toList (t (n0 + (j / 10 + 1))) c →
                  ∃ x : Int, inp.occupancy[h]? = some (x : Rat) ∧ x = 84 * (r g - w - o - min (r g - w - o) c) + 147 * min (r g - w - o) c) ∧
          let F : Nat → FiveModules := fun h =>
            (hd.household ((args.climate.map D.outside).getD args.initialOutside) 60 .heatMaxEmitters (k h) (b h) (t h) (w h) (el d.interior h) (el d.cylinder h)).after h (inps.map .step)
          s.temperatures = .ok [("interior", tab n fun h => (F h).temps.interior), ("building", tab n fun h => (F h).temps.building), ("emitter", tab n fun h => (F h).temps.emitter), ("cylinder", tab n fun h => (F h).temps.cylinder)] ∧
          s.dhwHeatDemand = .ok (tab n fun h => (F h).dhwHeatDemand) ∧ s.shHeatDemand = .ok (tab n fun h => (F h).shHeatDemand) ∧ s.totalHeatDemand = .ok (tab n fun h => (F h).totalHeatDemand) ∧
          ∀ h, h < n → ∃ (ws : List Rat) (l : Rat), P[h]? = some ((F h).powerDemand.map fun e => ws.sum + l + e) ∧ ws.length = D.apps.length ∧
            (∀ (a : Nat) x w, D.apps[a]? = some x → ws[a]? = some w → consumes (s.appliances.appl h a x) (s.appliances.st h a) w) ∧ s.light.powerDemand[h]? = some l := by
  have hb' : LoadSparse (D.fiveModules hd d) n counts start args labels0 acts pdf days r :=
    { fiveModules_core D n counts start args hb.toLoadCore hd d with fuel := hb.fuel, data := hb.data, home := hb.home, activity := hb.activity, activityInit := hb.activityInit }
  obtain ⟨s0, k, b, t, w, c0, cact, p3, hrun⟩ := fiveModules_run D n counts start args hb.toLoadCore hd hD hf d hdr hheat (PosDraws n) (LoadSim.sparse_acts _ n counts start args labels0 acts pdf days r hb' n0 hn0)
  obtain ⟨a0, b0, hact⟩ := LoadSim.sparse_spec _ n counts start args labels0 acts pdf days r hb' n0 hn0
  rw [cact] at b0
  obtain rfl := Except.ok.inj b0
  refine ⟨s0, k, b, t, w, c0, p3, fun ins hi hdp => ?_⟩
  obtain ⟨s, P, inps, e1, e2, e3, e4, e5, e6⟩ := hrun ins hi hdp
  refine ⟨s, P, inps, e1, e2, e3, e4, fun j i inp hj hinp => ?_, e6⟩
  obtain ⟨s', u1, u2, u3, u4, u5, u6, u7, u8, u9, u10, u11, gains, u12, u13, u14⟩ := e5 j i inp hj hinp
  refine ⟨s', u1, u2, u3, u4, u5, u6, u7, u8, u9, u10, u11, ?_⟩
  intro h kk g z1 z2
  have hjl := (List.getElem?_eq_some_iff.1 hj).1
  have hdr : ∀ us ∈ everyTen ((ins.take (j + 1)).map fun i => i.activity), PosDraws n us := by
    intro us hus
    obtain ⟨q, hq, rfl⟩ := List.mem_map.1 (everyTen_mem _ _ hus)
    exact hdp q (List.mem_of_mem_take hq)
  obtain ⟨a, act, gains', r1, -, r3, -, r5, -, -, r7⟩ := hact _ hdr
  rw [u12] at r1
  obtain rfl := Except.ok.inj r1
  rw [u13] at r3
  obtain rfl := Except.ok.inj r3
  obtain ⟨-, traj, y2, y3⟩ := r7 h kk g z1 z2
  have hlen : (everyTen ((ins.take (j + 1)).map fun i => i.activity)).length = j / 10 + 1 := by
    rw [everyTen_length, List.length_map, List.length_take, min_eq_left (by omega)]
    omega
  rw [hlen] at y3
  refine ⟨traj, y2, fun w o c hw ho hc => ⟨_, ?_, rfl⟩⟩
  rw [u14, List.getElem?_map, (y3 w o c hw ho hc).2]
  rfl

/-- **C118 (which activity simulator).** The transit-states simulator is used if it can be made. If making it raises a `NotImplementedError`, the four-states model is used, and its errors are raised. Any other error of the transit-states simulator is raised, although the four-states model might be available. -/
theorem C118_choice (D : LoadData C H Opt) (n : Nat) (hn : 0 < n) (counts : List Nat) (hp : samplePopulation n D.pdf .realPopulation = .ok counts) (start : Int) (args : LoadArgs C)
    (made : Except PyErr SparseMulti) (hm : SparseMulti.create D.sparse D.fuel D.groups counts { aware := false, start := some start, quarters := false, sevenDays := false, weekEnds := true } args.activity args.activityInit = made)
    (made' : Except PyErr CrestSim) (hm' : CrestSim.create (crestLoadTpm D.book) D.groupsR D.pdfR D.refresh counts.sum .realPopulation false start args.activity args.activityInit = made') :
    (∀ m, made = .ok m → ∀ s, LoadSim.create D n start args = .ok s → s.activity = .sparse m) ∧
    (∀ c, made = .error .notImplementedError → made' = .ok c → ∀ s, LoadSim.create D n start args = .ok s → s.activity = .crest c) ∧
    (∀ x, made = .error .notImplementedError → made' = .error x → LoadSim.create D n start args = .error x) ∧
    ∀ x, x ≠ .notImplementedError → made = .error x → LoadSim.create D n start args = .error x := by
  have hsome : ∀ a, LoadAct.create D counts start args.activity args.activityInit = .ok a → ∀ s, LoadSim.create D n start args = .ok s → s.activity = a := by
    intro a ha s hc
    unfold LoadSim.create at hc
    rw [if_neg (by omega)] at hc
    simp only [bind, Except.bind, hp, ha] at hc
    repeat' (split at hc <;> [cases hc; skip])
    all_goals
      cases hc
      rfl
  have herr : ∀ x, LoadAct.create D counts start args.activity args.activityInit = .error x → LoadSim.create D n start args = .error x := by
    intro x ha
    unfold LoadSim.create
    rw [if_neg (by omega)]
    simp only [bind, Except.bind, hp, ha]
  refine ⟨fun m h => hsome _ ?_, fun c h h' => hsome _ ?_, fun x h h' => herr _ ?_, fun x hx h => herr _ ?_⟩
  · unfold LoadAct.create
    rw [hm, h]
  · unfold LoadAct.create
    rw [hm, h]
    simp only [hm', h']
    rfl
  · unfold LoadAct.create
    rw [hm, h]
    simp only [hm', h']
    rfl
  · unfold LoadAct.create
    rw [hm, h]
    split
    · next h1 => cases h1
    · next h1 => cases h1; exact absurd rfl hx
    · next y h1 => cases h1; rfl

/-! ## A concrete case -/

/-- The load simulator of `demoLoadData` with the sparse matrices of `SparseDemo`. -/
def demoLoadSparse : LoadData Rat (List Rat) Unit := { demoLoadData with sparse := SparseDemo.load }

/-- The number of residents of the two subgroups. -/
def demoLoadResidents : Subgroup → Int := fun g => if g = [(kNResidents, .int 1)] then 1 else 2

theorem demo_home (t : Int) (l w o : Nat) (hl : l ∈ (SparseDemo.days (dayOf .weekEnds false t)).2) (hw : DoingCount SparseDemo.acts "HWH".toList l w) (ho : DoingCount SparseDemo.acts "HOH".toList l o) : w + o ≤ 1 := by
  have hl : l = 0 ∨ l = 1 ∨ l = 7 := by
    unfold SparseDemo.days at hl
    split at hl <;> simp at hl <;> omega
  have hk : ∀ k a, SparseDemo.acts[k]? = some a → k < 3 := fun k a h => (List.getElem?_eq_some_iff.1 h).1
  obtain ⟨kw, w1, rfl⟩ := hw
  obtain ⟨ko, o1, rfl⟩ := ho
  have h1 := hk _ _ w1
  have h2 := hk _ _ o1
  have e1 : kw = 1 := by
    interval_cases kw
    · exact absurd w1 (by decide)
    · rfl
    · exact absurd w1 (by decide)
  have e2 : ko = 2 := by
    interval_cases ko
    · exact absurd o1 (by decide)
    · exact absurd o1 (by decide)
    · rfl
  subst e1 e2
  rcases hl with rfl | rfl | rfl <;> decide

theorem demoLoadSparse_ok : LoadSparse demoLoadSparse 3 [1, 2] (5 * 86400000000 + 600000000) demoLoadArgs (fun _ => [0, 1, 7]) (fun _ => SparseDemo.acts) (fun _ => [1/4, 1/4, 1/2]) (fun _ => SparseDemo.days) demoLoadResidents :=
  let h := demoLoad_setup
  { inhabited := h.inhabited, population := h.population, groups := h.groups, appliances := h.appliances, loads := h.loads, appliancesInit := h.appliancesInit, bulbs := h.bulbs, lights := h.lights, effective := h.effective
    fuel := by decide
    data := by
      intro k g c hg _ _
      refine ⟨SparseDemo.data_ok g _ _, .inl ?_⟩
      have : g ∈ ([[(kNResidents, .int 1)], [(kNResidents, .int 2)]] : List Subgroup) := List.mem_of_getElem? hg
      simp only [List.mem_cons, List.not_mem_nil, or_false] at this
      rcases this with rfl | rfl <;> decide
    home := by
      intro k g c _ _ _ t l w o hl hw ho
      have h1 := demo_home t l w o hl hw ho
      unfold demoLoadResidents
      split <;> omega
    activity := h.activity
    activityInit := fun _ => ⟨rfl, by
      show ∀ u ∈ ([1 / 4, 1 / 3, 1 / 2] : List Rat), 0 < u ∧ u < 1
      decide +kernel⟩ }

example : HeatOk demoLoadSparse 3 (fun x => x.length = 3) (fun _ => True) := ⟨demoLoad_setup.heatingInit, demoLoad_setup.heating, demoLoad_setup.heatingPower⟩

example : (121 : Int) = (5 * 86400000000 + 600000000 - 4 * 3600000000) % 86400000000 / 600000000 := by decide

example : ∃ s0, LoadSim.create demoLoadSparse 3 (5 * 86400000000 + 600000000) demoLoadArgs = .ok s0 ∧ ∀ i, LoadInOk demoLoadSparse 3 true (fun _ => True) i → PosDraws 3 i.activity → ∃ s, LoadSim.run demoLoadSparse s0 (List.replicate 25 i) = .ok s := by
  obtain ⟨s0, h0, -, -, -, h1⟩ := C118_run_partial demoLoadSparse 3 [1, 2] _ demoLoadArgs _ _ _ _ _ demoLoadSparse_ok (fun x => x.length = 3) (fun _ => True) ⟨demoLoad_setup.heatingInit, demoLoad_setup.heating, demoLoad_setup.heatingPower⟩ 121 (by decide)
  refine ⟨s0, h0, fun i hi hp => ?_⟩
  obtain ⟨s, -, -, -, -, e, -⟩ := h1 (List.replicate 25 i) (fun j hj => by rw [(List.mem_replicate.1 hj).2]; exact hi) (fun j hj => by rw [(List.mem_replicate.1 hj).2]; exact hp)
  exact ⟨s, e⟩

/-- Data without sparse matrices, and data of which the sparse matrices cannot be read. -/
example : SparseMulti.create demoLoadData.sparse 2 demoLoadData.groups [1, 2] { aware := false, start := some 0, quarters := false, sevenDays := false, weekEnds := true } demoLoadArgs.activity demoLoadArgs.activityInit = .error .notImplementedError ∧
    SparseMulti.create (fun _ _ => .error .keyError) 2 demoLoadData.groups [1, 2] { aware := false, start := some 0, quarters := false, sevenDays := false, weekEnds := true } demoLoadArgs.activity demoLoadArgs.activityInit = .error .keyError := ⟨rfl, rfl⟩

end Demod
