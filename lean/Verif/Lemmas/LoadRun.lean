import Verif.Lemmas.LoadSim

/-! # The runs of the load simulator, with any activity simulator -/

namespace Demod

namespace LoadSim

variable {C H Opt : Type}

theorem run_full (D : LoadData C H Opt) (n : Nat) (counts : List Nat) (start : Int) (args : LoadArgs C) (good : H → Prop) (optOk : Opt → Prop) (hs : LoadCore D n counts start args) (hh : HeatOk D n good optOk) (okD : List Rat → Prop) (ha : ∃ a0, LoadAct.create D counts start args.activity args.activityInit = .ok a0 ∧ Acts D n okD a0) :
    ∃ s0, create D n start args = .ok s0 ∧ s0.time = start ∧ LoadAct.create D counts start args.activity args.activityInit = .ok s0.activity ∧ (∃ act, s0.activity.activeOccupancy = .ok act ∧
        OccSim.create D.apps D.profiles D.switchedOn D.full D.refresh D.dataStep D.groups counts none start { args.appliances with initial := some act } args.appliancesInit = .ok s0.appliances) ∧
      LightSim.create D.lights n "off" "randn" args.light = .ok s0.light ∧ ∀ ins, (∀ i ∈ ins, LoadInOk D n args.climate.isSome optOk i) → (∀ i ∈ ins, okD i.activity) →
      ∃ (s : LoadSim C H) (P : List (Option Rat)) (occs : List (List Nat)) (irrs : List Rat) (rank : Nat → Nat × Nat → Nat), run D s0 ins = .ok s ∧ s.time = start + ins.length * 60000000 ∧
        s.climate = args.climate.map (D.climateStep^[ins.length]) ∧ s.heating.isSome = args.heating ∧ s.powerDemand D n = .ok P ∧ P.length = n ∧ occs.length = ins.length ∧ irrs.length = ins.length ∧
        (∀ j i r, ins[j]? = some i → irrs[j]? = some r → i.irradiance = some r ∨ i.irradiance = none ∧ ∃ c, args.climate = some c ∧ r = D.irradiance (D.climateStep^[j + 1] c)) ∧
        (∃ log, LightSim.simulate s0.light (occs.zip (irrs.zip (ins.map fun i => i.light))) = .ok (s.light, log)) ∧ (∀ i, Function.Injective (rank i)) ∧
        s0.activity.run D (everyTen (ins.map fun i => i.activity)) = .ok s.activity ∧
        (∀ j o, occs[j]? = some o → ∃ a, s0.activity.run D (everyTen ((ins.take (j + 1)).map fun i => i.activity)) = .ok a ∧ a.activeOccupancy = .ok o) ∧
        ∀ h, h < n → (∀ k, InSubgroup counts h k → s.appliances.hhTypes[h]? = some k) ∧
          (∀ a x, D.apps[a]? = some x → s0.appliances.Follows D.profiles D.refresh D.groups start (occs.zip (ins.map fun i => i.appliances)) rank h a x (s0.appliances.st h a) (s.appliances.st h a)) ∧
          ∃ (ws : List Rat) (l : Rat) (e : Option Rat), P[h]? = some (e.map fun e => ws.sum + l + e) ∧ ws.length = D.apps.length ∧ (∀ (a : Nat) x w, D.apps[a]? = some x → ws[a]? = some w → consumes (s.appliances.appl h a x) (s.appliances.st h a) w) ∧
            s.light.powerDemand[h]? = some l ∧ (s.heating = none → e = some 0) ∧ ∀ x, s.heating = some x → ∃ p, D.heatingPower x = .ok p ∧ p[h]? = some e := by
  have hsum := C12_counts_sum n D.pdf .realPopulation counts (fun _ h => by cases h) hs.population
  obtain ⟨s0, act0, c0, c1, c2, c3, ⟨c4, -⟩, c5, c5', c6, c7, c8, c9⟩ := LoadSim.create_spec D n counts start args good optOk hs hh okD ha
  refine ⟨s0, c0, c2, c5, ⟨act0, c6, c7⟩, c9, fun ins hi hd => ?_⟩
  obtain ⟨s, occs, irrs, PA, e1, e2, e3, e4, e5, e6, e7, e8, e9, e10, e11, e12, ⟨log, e13⟩, e14, e15, e16, e17⟩ := LoadSim.run_spec D n counts start args good optOk hs hh okD ha s0 c0 ins hi hd
  obtain ⟨sa, a1, a2, a3, a4, a5, a6, rank, a7, a8⟩ := C109_run _ _ _ _ _ _ _ _ _ _ _ _ _ c8 s0.appliances c7 _ e9
  rw [e11] at a1
  obtain rfl := Except.ok.inj a1
  obtain ⟨sa, PB, g1, g2, g3, -, -, g6⟩ := C109_getters _ _ _ _ _ _ _ _ _ _ _ _ _ c8 hs.loads s0.appliances c7 hs.appliancesInit _ e9 e10
  rw [e11] at g1
  obtain rfl := Except.ok.inj g1
  rw [e14] at g2
  obtain rfl := Except.ok.inj g2
  obtain ⟨lamp, own, own', -, -, hlight⟩ := C112_run_partial D.lights n "randn" args.light hs.inhabited hs.bulbs hs.lights s0.light c9
  obtain ⟨-, l, log', q1, q2, -⟩ := hlight _ e12
  have hsim : LightSim.simulate s0.light (occs.zip (irrs.zip (ins.map fun i => i.light))) = .ok (s.light, s0.light.powerDemand :: log) := by
    unfold LightSim.simulate
    simp only [bind, Except.bind, e13]
  rw [hsim] at q1
  obtain ⟨rfl, -⟩ := Prod.mk.inj (Except.ok.inj q1)
  obtain ⟨ht, ht1, ht2, ht3, ht4⟩ : ∃ ht : List (Option Rat), LoadSim.heatingPower D n s.heating = .ok ht ∧ ht.length = n ∧ (s.heating = none → ht = List.replicate n (some 0)) ∧ ∀ x, s.heating = some x → D.heatingPower x = .ok ht := by
    revert e17
    cases s.heating with
    | none => exact fun _ => ⟨_, rfl, List.length_replicate, fun _ => rfl, fun x hx => by cases hx⟩
    | some x =>
      intro e17
      obtain ⟨p, hp, hpl⟩ := hh.heatingPower x (e17 x rfl)
      exact ⟨p, hp, hpl, (fun hx => by cases hx), fun y hy => by cases hy; exact hp⟩
  have hP : s.powerDemand D n = .ok ((PA.zip (s.light.powerDemand.zip ht)).map fun q => q.2.2.map fun e => q.1 + q.2.1 + e) := by
    unfold LoadSim.powerDemand
    simp only [e14, ht1, bind, Except.bind]
  refine ⟨s, _, occs, irrs, rank, e1, e3, e4, e5, hP, by simp [g3, hsum, q2, ht2], e6, e7, ?_, ⟨_, hsim⟩, a7, e8, e15, ?_⟩
  · intro j i r hj hr
    obtain ⟨s1, s2, o, irr, u1, u2, u3, u4, u5⟩ := e16 j i hj
    rw [hr, Option.some.injEq] at u4
    subst u4
    rcases u5.irradiance with u | ⟨u, x, hx, hr'⟩
    · exact .inl u
    · obtain ⟨s2', occs', irrs', P', v1, -, -, v4, -⟩ := LoadSim.run_spec D n counts start args good optOk hs hh okD ha s0 c0 (ins.take (j + 1)) (fun i hi' => hi i (List.mem_of_mem_take hi')) (fun i hi' => hd i (List.mem_of_mem_take hi'))
      rw [u2] at v1
      obtain rfl := Except.ok.inj v1
      have hjl := (List.getElem?_eq_some_iff.1 hj).1
      rw [List.length_take, min_eq_left (by omega), hx] at v4
      cases hc : args.climate with
      | none => rw [hc] at v4; cases v4
      | some c =>
        rw [hc] at v4
        cases v4
        exact .inr ⟨u, c, rfl, hr'⟩
  · intro h hlt
    have htypes : ∀ k, InSubgroup counts h k → s.appliances.hhTypes[h]? = some k := by
      intro k z1
      obtain ⟨o0, o1, -, -, -, o2, -⟩ := C109_create _ _ _ _ _ _ _ _ _ _ _ args.appliancesInit _ c8
      rw [c7] at o1
      obtain rfl := Except.ok.inj o1
      rw [a4]
      exact (o2 h k).2 z1
    refine ⟨htypes, fun a x hx => a8 h a x (by rw [hsum]; exact hlt) hx, ?_⟩
    · obtain ⟨⟨ws, w1, w2, w3⟩, -⟩ := g6 h (by rw [hsum]; exact hlt)
      have hl : s.light.powerDemand[h]? = some s.light.powerDemand[h] := List.getElem?_eq_getElem (by rw [q2]; exact hlt)
      have he : ht[h]? = some ht[h] := List.getElem?_eq_getElem (by rw [ht2]; exact hlt)
      have hz : (PA.zip (s.light.powerDemand.zip ht))[h]? = some (ws.sum, (s.light.powerDemand[h], ht[h])) := List.getElem?_zip_eq_some.2 ⟨w1, List.getElem?_zip_eq_some.2 ⟨hl, he⟩⟩
      refine ⟨ws, s.light.powerDemand[h], ht[h], ?_, w2, w3, hl, ?_, ?_⟩
      · rw [List.getElem?_map, hz]
        rfl
      · intro hx
        have h0 : ht[h]? = some (some 0) := by rw [ht3 hx, List.getElem?_replicate, if_pos hlt]
        exact Option.some.inj (he.symm.trans h0)
      · intro x hx
        exact ⟨ht, ht4 x hx, he⟩

theorem heat_full (D : LoadData C H Opt) (n : Nat) (counts : List Nat) (start : Int) (args : LoadArgs C) (good : H → Prop) (optOk : Opt → Prop) (hs : LoadCore D n counts start args) (hh : HeatOk D n good optOk) (okD : List Rat → Prop) (ha : ∃ a0, LoadAct.create D counts start args.activity args.activityInit = .ok a0 ∧ Acts D n okD a0)
    (s0 : LoadSim C H) (h0 : create D n start args = .ok s0) (hheat : args.heating = true)
    (ins : List (LoadStepIn Opt)) (hi : ∀ i ∈ ins, LoadInOk D n args.climate.isSome optOk i) (hd : ∀ i ∈ ins, okD i.activity) (j : Nat) (i : LoadStepIn Opt) (hj : ins[j]? = some i) :
    (∃ x, s0.heating = some x ∧ D.heatingInit n ((args.climate.map D.outside).getD args.initialOutside) = .ok x) ∧
    ∃ s s' x x' inp gains, run D s0 (ins.take j) = .ok s ∧ run D s0 (ins.take (j + 1)) = .ok s' ∧ s.heating = some x ∧ s'.heating = some x' ∧ D.heatingStep x inp = .ok x' ∧
      (i.outside = some inp.outside ∨ i.outside = none ∧ ∃ c, args.climate = some c ∧ inp.outside = D.outside (D.climateStep^[j + 1] c)) ∧
      (i.irradiance = some inp.irradiance ∨ i.irradiance = none ∧ ∃ c, args.climate = some c ∧ inp.irradiance = D.irradiance (D.climateStep^[j + 1] c)) ∧
      inp.dhw = s'.appliances.dhwDemand ∧ s'.appliances.powerDemand = .ok inp.appliances ∧ inp.light = s'.light.powerDemand ∧ inp.opt = i.opt ∧ inp.Sized n ∧
      s0.activity.run D (everyTen ((ins.take (j + 1)).map fun i => i.activity)) = .ok s'.activity ∧ s'.activity.thermalGains = .ok gains ∧ inp.occupancy = gains.map fun x : Int => (x : Rat) := by
  have hjl := (List.getElem?_eq_some_iff.1 hj).1
  obtain ⟨s0', act0, c0, c1, c2, c3, ⟨c4, c4'⟩, c5, c5', c6, c7, c8, c9⟩ := LoadSim.create_spec D n counts start args good optOk hs hh okD ha
  rw [h0] at c0
  obtain rfl := Except.ok.inj c0
  obtain ⟨-, occs, irrs, -, -, -, -, -, -, -, -, -, -, -, -, -, -, -, -, e16, -⟩ := LoadSim.run_spec D n counts start args good optOk hs hh okD ha s0 h0 ins hi hd
  obtain ⟨s, s', o, irr, u1, u2, -, -, u5⟩ := e16 j i hj
  obtain ⟨s2, -, -, -, v1, -, -, v4, v5, -, -, v8, -⟩ := LoadSim.run_spec D n counts start args good optOk hs hh okD ha s0 h0 (ins.take (j + 1)) (fun i hi' => hi i (List.mem_of_mem_take hi')) (fun i hi' => hd i (List.mem_of_mem_take hi'))
  rw [u2] at v1
  obtain rfl := Except.ok.inj v1
  rw [List.length_take, min_eq_left (by omega)] at v4
  have hcl : ∀ c', s'.climate = some c' → ∃ c, args.climate = some c ∧ c' = D.climateStep^[j + 1] c := by
    intro c' hc'
    rw [hc'] at v4
    cases hc : args.climate with
    | none => rw [hc] at v4; cases v4
    | some c =>
      rw [hc] at v4
      exact ⟨c, rfl, Option.some.inj v4⟩
  refine ⟨?_, ?_⟩
  · rw [hheat] at c4
    obtain ⟨x, hx⟩ := Option.isSome_iff_exists.1 c4
    exact ⟨x, hx, (c4' x hx).1⟩
  rcases u5.heating with ⟨-, hnone⟩ | ⟨x, x', out, gains, app, w1, w2, w3, w4, w5, w6⟩
  · rw [hnone, hheat] at v5
    cases v5
  · have hdr : ∀ us ∈ everyTen ((ins.take (j + 1)).map fun i => i.activity), okD us := by
      intro us hus
      obtain ⟨q, hq, rfl⟩ := List.mem_map.1 (everyTen_mem _ _ hus)
      exact hd q (List.mem_of_mem_take hq)
    obtain ⟨a, act, gains', r1, -, r3, -, r5, -⟩ := c5' _ hdr
    rw [v8] at r1
    obtain rfl := Except.ok.inj r1
    rw [w4] at r3
    obtain rfl := Except.ok.inj r3
    refine ⟨s, s', x, x', _, gains, u1, u2, w1, w2, w6, ?_, ?_, rfl, w5, rfl, rfl, ⟨u5.sizes.1, by simpa using r5, u5.sizes.2.1, u5.sizes.2.2 app w5⟩, v8, w4, rfl⟩
    · rcases w3 with w | ⟨w, c', hc', hout⟩
      · exact .inl w
      · obtain ⟨c, hc, rfl⟩ := hcl c' hc'
        exact .inr ⟨w, c, hc, hout⟩
    · rcases u5.irradiance with w | ⟨w, c', hc', hout⟩
      · exact .inl w
      · obtain ⟨c, hc, rfl⟩ := hcl c' hc'
        exact .inr ⟨w, c, hc, hout⟩

end LoadSim

end Demod
