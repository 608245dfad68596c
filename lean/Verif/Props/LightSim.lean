import Verif.Lemmas.LightSim

/-! # Property C112: the whole simulation of the CREST lighting -/

namespace Demod

/-- **C112.** The simulator is created: each household has the bulbs that its draws select, a relative use per bulb and a threshold of irradiance; all the lamps are off. -/
theorem C112_create (src : LightSource) (n : Nat) (algo : String) (args : LightArgs) (hn : 0 < n) (hb : BulbsOk src algo n args) :
    ∃ s0 w, LightSim.create src n "off" algo args = .ok s0 ∧ s0.lighting = src.lighting ∧ s0.bulbs.length = n ∧ s0.powerDemand = List.replicate n 0 ∧ ∀ h, h < n → ∃ row, s0.bulbs[h]? = some row ∧ row.length = w ∧ BulbsOf src algo args h row ∧
      s0.threshold[h]? = some (src.thresholdMean + src.thresholdStd * args.threshold h) ∧ ∃ us, s0.relUse[h]? = some us ∧ us.length = w ∧ ∀ b, b < w → us[b]? = some (args.relUse h b) := by
  have hrows : ∃ bulbs w, LightSim.sampleBulbs src algo n args = .ok bulbs ∧ Rect n w bulbs ∧ ∀ h, h < n → ∃ row, bulbs[h]? = some row ∧ BulbsOf src algo args h row := by
    rcases hb with ⟨ha, ⟨w, hw⟩, hr⟩ | ⟨ha, h1, h2, h3, h4⟩
    · have hne : src.configurations ≠ [] := by
        intro c
        have := hr 0 hn
        rw [c] at this
        exact absurd this (Nat.not_lt_zero _)
      obtain ⟨out, e, hl, hget⟩ := C91_config src.configurations ((List.range n).map args.config) hne (by
        intro r hmem
        obtain ⟨h, hh, rfl⟩ := List.mem_map.1 hmem
        exact hr h (List.mem_range.1 hh))
      have hg : ∀ h, h < n → out[h]? = src.configurations[args.config h]? := fun h hh => hget h (args.config h) (by rw [List.getElem?_map, List.getElem?_range hh]; rfl)
      refine ⟨out, w, ?_, ⟨by simpa using hl, fun r hmem => ?_⟩, fun h hh => ?_⟩
      · unfold LightSim.sampleBulbs
        rw [ha, if_neg (by decide), if_pos rfl]
        exact e
      · obtain ⟨h, hh⟩ := List.getElem?_of_mem hmem
        have hlt : h < n := by
          have := (List.getElem?_eq_some_iff.1 hh).1
          rw [hl] at this
          simpa using this
        rw [hg h hlt] at hh
        exact hw r (List.mem_of_getElem? hh)
      · rw [hg h hh]
        exact ⟨_, List.getElem?_eq_getElem (hr h hh), Or.inl ⟨ha, List.getElem?_eq_getElem (hr h hh)⟩⟩
    · obtain ⟨out, e, hl, w, hget⟩ := C91_randn src.mean src.std src.consumptions src.penetration h1 h2 h3 ((List.range n).map args.z) (by
        intro c
        have := congrArg List.length c
        simp at this
        omega) args.u (fun h k => (h4 h k).1) (fun h k => (h4 h k).2)
      have hl : out.length = n := by simpa using hl
      have hg := fun h (hh : h < n) => hget h (args.z h) (by rw [List.getElem?_map, List.getElem?_range hh]; rfl)
      refine ⟨out.map fun r => r.map some, w, ?_, ⟨by simpa using hl, fun r hmem => ?_⟩, fun h hh => ?_⟩
      · unfold LightSim.sampleBulbs
        rw [ha, if_pos rfl]
        simp only [bind, Except.bind, e]
      · obtain ⟨r', hr', rfl⟩ := List.mem_map.1 hmem
        obtain ⟨h, hh⟩ := List.getElem?_of_mem hr'
        obtain ⟨row, k, q1, q2, -⟩ := hg h (by rw [← hl]; exact (List.getElem?_eq_some_iff.1 hh).1)
        rw [hh] at q1
        rw [List.length_map, Option.some.inj q1, q2]
      · obtain ⟨row, k, q1, q2, q3, q4, q5, q6, q7, q8⟩ := hg h hh
        refine ⟨row.map some, by rw [List.getElem?_map, q1]; rfl, Or.inr ⟨ha, k, q3, by rw [List.length_map, q2]; exact q4, q5, q6, fun j hj => ?_, fun j hj hjw => ?_⟩⟩
        · obtain ⟨j', p, r1, r2, r3, r4⟩ := q7 j hj
          have hrow : row[j]? = some row[j] := List.getElem?_eq_getElem (by omega)
          exact ⟨j', p, row[j], r1, r2, r3, by rw [← r4, hrow], by rw [List.getElem?_map, hrow]; rfl⟩
        · rw [List.length_map, q2] at hjw
          rw [List.getElem?_map, q8 j hj hjw]
          rfl
  obtain ⟨bulbs, w, e, hrect, hget⟩ := hrows
  refine ⟨⟨src.lighting, bulbs, bulbs.zipIdx.map fun r => r.1.zipIdx.map fun q => args.relUse r.2 q.2, (List.range n).map fun h => src.thresholdMean + src.thresholdStd * args.threshold h,
    bulbs.map fun r => r.map fun b => if b.isSome then 0 else NAN_AS_INT⟩, w, ?_, rfl, hrect.1, ?_, fun h hh => ?_⟩
  · unfold LightSim.create
    rw [if_neg (by omega)]
    simp only [bind, Except.bind, e]
    unfold LightSim.initialBulbs
    rw [if_pos rfl]
  · unfold LightSim.powerDemand
    refine List.eq_replicate_iff.2 ⟨by simp [hrect.1], ?_⟩
    intro x hx
    obtain ⟨⟨r, r'⟩, hm, rfl⟩ := List.mem_map.1 hx
    simp only at hm ⊢
    refine List.sum_eq_zero ?_
    intro y hy
    obtain ⟨⟨p, q⟩, hpq, rfl⟩ := List.mem_map.1 hy
    have h1 := (List.of_mem_zip hm).2
    obtain ⟨r'', -, rfl⟩ := List.mem_map.1 h1
    have h2 := (List.of_mem_zip hpq).2
    obtain ⟨c, -, rfl⟩ := List.mem_map.1 h2
    have hz : ¬ ((if c.isSome = true then (0 : Int) else NAN_AS_INT) > 0) := by
      split
      · exact lt_irrefl _
      · decide
    simp only
    rw [if_neg hz, mul_zero]
  · obtain ⟨row, h1, h2⟩ := hget h hh
    have hw := hrect.2 row (List.mem_of_getElem? h1)
    refine ⟨row, h1, hw, h2, by rw [List.getElem?_map, List.getElem?_range hh]; rfl, row.zipIdx.map fun q => args.relUse h q.2, ?_, by simpa using hw, fun b hbw => ?_⟩
    · rw [List.getElem?_map, List.getElem?_zipIdx, h1]
      simp
    · rw [List.getElem?_map, List.getElem?_zipIdx, List.getElem?_eq_getElem (by omega)]
      simp

/-- **C112 (partial).** The simulation never fails, and every bulb of every household behaves as specified, with draws of its own: it is switched on only if it is off, somebody is active and it is dark (or with a chance of 5 % in any
case), stays on for the number of whole steps in the duration drawn for it, and is off in every step without active occupants. The power demand of a household is the sum of the powers of the bulbs that are on. What the log
records for a step is the demand after the step before. -/
theorem C112_run_partial (src : LightSource) (n : Nat) (algo : String) (args : LightArgs) (hn : 0 < n) (hb : BulbsOk src algo n args) (hL : LightDataOk src.lighting) (s0 : LightSim)
    (h0 : LightSim.create src n "off" algo args = .ok s0) :
    ∃ (lamp : List (List Nat × Rat × LightDraws) → Nat → Nat → Lamp) (own own' : List (List Nat × Rat × LightDraws) → (List Nat × Rat × LightDraws) → Nat × Nat → Nat),
      (∀ h b, lamp [] h b = none) ∧ (∀ hist i, Function.Injective (own hist i) ∧ Function.Injective (own' hist i)) ∧
      ∀ hist : List (List Nat × Rat × LightDraws), (∀ i ∈ hist, LightInputOk n src.lighting i) →
        (∀ i, LightInputOk n src.lighting i → ∀ (h b : Nat) row p k e t us v, s0.bulbs[h]? = some row → row[b]? = some (some p) → i.1[h]? = some k → src.lighting.effective[k]? = some e → s0.threshold[h]? = some t →
          s0.relUse[h]? = some us → us[b]? = some v → ∃ d, DrawnDuration src.lighting (i.2.2.interval (own' hist i (h, b))) (i.2.2.place (own' hist i (h, b))) d ∧
          LampStep k ((i.2.1 < t ∨ i.2.2.u1 h b < 1 / 20) ∧ i.2.2.u2 (own hist i (h, b)) < e * v * src.lighting.calibration) ⌊d⌋.toNat (lamp hist h b) (lamp (hist ++ [i]) h b)) ∧
        ∃ s log, LightSim.simulate s0 hist = .ok (s, log) ∧ s.powerDemand.length = n ∧
          (∀ (h : Nat) row, s0.bulbs[h]? = some row → ∃ ws : List Rat, s.powerDemand[h]? = some ws.sum ∧ ws.length = row.length ∧ (∀ b : Nat, row[b]? = some none → ws[b]? = some 0) ∧
            ∀ (b : Nat) p, row[b]? = some (some p) → (lamp hist h b = none → ws[b]? = some 0) ∧ (lamp hist h b ≠ none → ws[b]? = some p)) ∧
          log.length = hist.length + 1 ∧ log[0]? = some s0.powerDemand ∧ ∀ k, k < hist.length → ∃ s' log', LightSim.simulate s0 (hist.take k) = .ok (s', log') ∧ log[k + 1]? = some s'.powerDemand := by
  obtain ⟨s0', w, e, a1, a2, -, a3⟩ := C112_create src n algo args hn hb
  rw [h0] at e
  obtain rfl := Except.ok.inj e
  have hcr : s0.left = s0.bulbs.map fun r => r.map fun b => if b.isSome then 0 else NAN_AS_INT := by
    unfold LightSim.create at h0
    rw [if_neg (by omega)] at h0
    simp only [bind, Except.bind] at h0
    split at h0
    · cases h0
    · unfold LightSim.initialBulbs at h0
      rw [if_pos rfl] at h0
      obtain rfl := Except.ok.inj h0
      rfl
  have hlen2 : s0.relUse.length = n ∧ s0.threshold.length = n := by
    unfold LightSim.create at h0
    rw [if_neg (by omega)] at h0
    simp only [bind, Except.bind] at h0
    split at h0
    · cases h0
    · unfold LightSim.initialBulbs at h0
      rw [if_pos rfl] at h0
      obtain rfl := Except.ok.inj h0
      simp only at a2
      simp [a2]
  have hbr : Rect n w s0.bulbs := by
    refine ⟨a2, fun r hr => ?_⟩
    obtain ⟨h, hh⟩ := List.getElem?_of_mem hr
    obtain ⟨row, q1, q2, -⟩ := a3 h (by rw [← a2]; exact (List.getElem?_eq_some_iff.1 hh).1)
    rw [hh] at q1
    rw [Option.some.inj q1, q2]
  have hur : Rect n w s0.relUse := by
    refine ⟨hlen2.1, fun r hr => ?_⟩
    obtain ⟨h, hh⟩ := List.getElem?_of_mem hr
    obtain ⟨row, -, -, -, -, us, q1, q2, -⟩ := a3 h (by rw [← hlen2.1]; exact (List.getElem?_eq_some_iff.1 hh).1)
    rw [hh] at q1
    rw [Option.some.inj q1, q2]
  have hinv : LightSim.RunInv n w s0 (fun _ _ => none) s0 := by
    refine ⟨⟨hbr, hur, by rw [hcr]; exact rect_map hbr _, hlen2.2⟩, rfl, rfl, rfl, rfl, ?_⟩
    intro h b p hh hbw hp
    refine Or.inl ⟨rfl, ?_⟩
    unfold LightSim.lft
    have : ent s0.left h b = some 0 := by rw [hcr, ent_map, hp]; rfl
    exact ent_getD this
  rw [← a1] at hL
  refine ⟨LightSim.lampAfter s0 fun _ _ => none, fun hist i => OccSim.rankOf ((s0.after hist).freeList i), fun hist i => OccSim.rankOf ((s0.after hist).onList i), fun _ _ => rfl,
    fun _ _ => ⟨OccSim.rankOf_injective _, OccSim.rankOf_injective _⟩, ?_⟩
  intro hist hok
  rw [← a1] at hok
  have hafter : ∀ hist' s log, LightSim.run s0 hist' = .ok (s, log) → s0.after hist' = s := by
    intro hist' s log er
    unfold LightSim.after
    rw [er]
  obtain ⟨s, log, er, hll, hlog, hi⟩ := LightSim.run_spec n w s0 hL hinv hist hok
  refine ⟨?_, s, s0.powerDemand :: log, ?_, ?_, ?_, by simp [hll], rfl, ?_⟩
  · intro i hin h b row p k e t us v hrow hp hk he ht hus hv
    rw [← a1] at hin he ⊢
    obtain ⟨s', e', -, hstep⟩ := LightSim.run_step n w s0 hL _ s hi i hin
    obtain ⟨-, r2⟩ := LightSim.run_append i s s' hist s0 (fun _ _ => none) log er e'
    have hent : ent s0.bulbs h b = some (some p) := by unfold ent; rw [hrow]; exact hp
    obtain ⟨hh, hbw⟩ := hbr.of_ent hent
    obtain ⟨d, q1, q2⟩ := hstep h b p k e t v hh hbw hent hk he ht (by unfold ent; rw [hus]; exact hv)
    rw [r2]
    simp only [hafter hist s log er]
    exact ⟨d, q1, q2⟩
  · unfold LightSim.simulate
    simp only [bind, Except.bind, er]
  · unfold LightSim.powerDemand
    simp [hi.bulbs, hbr.1, hi.shaped.left.1]
  · intro h row hrow
    have hh : h < n := by rw [← a2]; exact (List.getElem?_eq_some_iff.1 hrow).1
    obtain ⟨lr, hlr, hlw⟩ := hi.shaped.left.row hh
    have hrw := hbr.2 row (List.mem_of_getElem? hrow)
    refine ⟨(row.zip lr).map fun q => q.1.getD 0 * (if q.2 > 0 then 1 else 0), ?_, by simp [hrw, hlw], fun b hb => ?_, fun b p hb => ?_⟩
    · unfold LightSim.powerDemand
      rw [List.getElem?_map, zip_get (z := (row, lr)) (by rw [hi.bulbs]; exact hrow) hlr]
      rfl
    · have hbl : b < lr.length := by rw [hlw, ← hrw]; exact (List.getElem?_eq_some_iff.1 hb).1
      rw [List.getElem?_map, zip_get (z := (none, lr[b])) hb (List.getElem?_eq_getElem hbl)]
      simp
    · have hbw : b < w := by rw [← hrw]; exact (List.getElem?_eq_some_iff.1 hb).1
      have hbl : b < lr.length := by omega
      have hlb := List.getElem?_eq_getElem hbl
      have hlft : s.lft h b = lr[b] := by
        unfold LightSim.lft
        exact ent_getD (by unfold ent; rw [hlr]; exact hlb)
      have hlamp := hi.lamps h b p hh hbw (by unfold ent; rw [hrow]; exact hb)
      rw [hlft] at hlamp
      rw [List.getElem?_map, zip_get (z := (some p, lr[b])) hb hlb, Option.map_some]
      simp only [Option.getD_some]
      rcases hlamp with ⟨q1, q2⟩ | ⟨j, m, q1, q2, q3⟩
      · refine ⟨fun _ => ?_, fun c => absurd q1 c⟩
        rw [q2, if_neg (lt_irrefl _), mul_zero]
      · refine ⟨fun c => ?_, fun _ => ?_⟩
        · rw [q1] at c
          cases c
        · rw [if_pos (by omega), mul_one]
  · intro k hk
    obtain ⟨s', log', er', -, -, -⟩ := LightSim.run_spec n w s0 hL hinv (hist.take k) fun i hmem => hok i (List.mem_of_mem_take hmem)
    refine ⟨s', s0.powerDemand :: log', by unfold LightSim.simulate; simp only [bind, Except.bind, er'], ?_⟩
    rw [List.getElem?_cons_succ, hlog k hk, hafter _ _ _ er']

/-- **C112.** The simulator is not created for no household, nor with an unknown method or algorithm; and it knows the effective occupancy for a limited number of active occupants only. -/
theorem C112_refuses (src : LightSource) (n : Nat) (method algo : String) (args : LightArgs) :
    (∀ s0, LightSim.create src n method algo args = .ok s0 → 0 < n ∧ method = "off" ∧ (algo = "config" ∨ algo = "randn")) ∧
    ∀ (s : LightSim) active irradiance d, (∃ k ∈ active, s.lighting.effective.length ≤ k) → s.step active irradiance d = .error .indexError := by
  constructor
  · intro s0 h0
    unfold LightSim.create at h0
    by_cases hn : n = 0
    · rw [if_pos hn] at h0
      cases h0
    rw [if_neg hn] at h0
    simp only [bind, Except.bind] at h0
    refine ⟨by omega, ?_⟩
    split at h0
    · cases h0
    rename_i bulbs hb
    constructor
    · by_contra hm
      unfold LightSim.initialBulbs at h0
      rw [if_neg hm] at h0
      cases h0
    · by_contra ha
      unfold LightSim.sampleBulbs at hb
      rw [if_neg fun c => ha (Or.inr c), if_neg fun c => ha (Or.inl c)] at hb
      cases hb
  · rintro s active irradiance d ⟨k, hk, hlt⟩
    have he : active.mapM (fun k => pyGet s.lighting.effective k) = .error .indexError := by
      induction active with
      | nil => cases hk
      | cons a active ih =>
        rw [List.mapM_cons]
        by_cases ha : a < s.lighting.effective.length
        · have hne : k ≠ a := by omega
          simp only [pyGet, List.getElem?_eq_getElem ha, bind, Except.bind]
          have := ih (by simpa [hne] using hk)
          simp only [pyGet] at this
          rw [this]
        · simp only [pyGet, List.getElem?_eq_none (by omega : s.lighting.effective.length ≤ a), bind, Except.bind]
    unfold LightSim.step LightSim.update
    simp only [bind, Except.bind, he]

/-! ## The log -/

/-- The full property: the log holds, for each step, the demand after that step. -/
def C112_full : Prop := ∀ (src : LightSource) (n : Nat) (algo : String) (args : LightArgs), 0 < n → BulbsOk src algo n args → LightDataOk src.lighting → ∀ s0, LightSim.create src n "off" algo args = .ok s0 →
  ∀ hist : List (List Nat × Rat × LightDraws), (∀ i ∈ hist, LightInputOk n src.lighting i) → ∃ s log, LightSim.simulate s0 hist = .ok (s, log) ∧ log[hist.length]? = some s.powerDemand

/-- Two configurations of bulbs; lamps are on for one to two or five to nine steps. -/
def demoLighting : LightSource :=
  { mean := 3, std := 1, consumptions := [60, 10], penetration := [1 / 2, 1 / 2], configurations := [[some 60, none, some 20], [some 10, some 20, some 30]], thresholdMean := 60, thresholdStd := 10,
    lighting := { calibration := 1 / 100, effective := [0, 1, 3 / 2], cdf := [1 / 2, 1], low := [1, 5], high := [2, 9] } }

/-- The draws for it. -/
def demoLightArgs : LightArgs := { z := fun _ => 0, u := fun h k => if (h + k) % 2 = 0 then 1 / 4 else 3 / 4, config := fun h => h % 2, relUse := fun h b => 1 + h + b, threshold := fun h => h }

/-- A step in the dark in which every bulb is switched on. -/
def demoLightInput : List Nat × Rat × LightDraws := ([1, 0], 0, { u1 := fun _ _ => 1 / 2, u2 := fun _ => 0, interval := fun j => if j = 0 then 1 / 4 else 3 / 4, place := fun _ => 1 / 2 })

theorem demoLighting_ok : LightDataOk demoLighting.lighting := by
  refine ⟨by decide +kernel, by decide +kernel, rfl, rfl, by decide +kernel, ?_⟩
  intro i a b ha hb
  match i with
  | 0 => cases ha; cases hb; decide +kernel
  | 1 => cases ha; cases hb; decide +kernel
  | i + 2 => cases ha

theorem demoLight_bulbs : BulbsOk demoLighting "config" 2 demoLightArgs := by
  refine Or.inl ⟨rfl, ⟨3, by decide +kernel⟩, fun h _ => ?_⟩
  exact Nat.mod_lt _ (by decide)

theorem demoLightInput_ok : LightInputOk 2 demoLighting.lighting demoLightInput := by
  refine ⟨rfl, by decide +kernel, fun j => ?_, fun j => ?_⟩
  · unfold demoLightInput
    simp only
    split <;> norm_num
  · unfold demoLightInput
    norm_num

/-- **C112 (counterexample).** The step in which the lamps go on is logged without them. -/
theorem C112_counterexample : ¬ C112_full := by
  intro h
  obtain ⟨s0, w, e0, -⟩ := C112_create demoLighting 2 "config" demoLightArgs (by decide) demoLight_bulbs
  obtain ⟨s, log, e, hl⟩ := h demoLighting 2 "config" demoLightArgs (by decide) demoLight_bulbs demoLighting_ok s0 e0 [demoLightInput] (by
    intro i hi
    rw [List.mem_singleton.1 hi]
    exact demoLightInput_ok)
  have hk : (match LightSim.create demoLighting 2 "off" "config" demoLightArgs with
    | .error _ => false
    | .ok s0 => match LightSim.simulate s0 [demoLightInput] with
      | .error _ => false
      | .ok q => decide (q.2 = [[0, 0], [0, 0]] ∧ q.1.powerDemand = [80, 0])) = true := by decide +kernel
  rw [e0] at hk
  simp only [e] at hk
  obtain ⟨h1, h2⟩ := of_decide_eq_true hk
  simp only [h1, h2] at hl
  exact absurd hl (by decide +kernel)

/-- The hypotheses of `C112_create` and `C112_run_partial` are met by this simulation of two steps. -/
example : ∃ s0 s log, LightSim.create demoLighting 2 "off" "config" demoLightArgs = .ok s0 ∧ LightSim.simulate s0 [demoLightInput, ([1, 2], 0, demoLightInput.2.2)] = .ok (s, log) ∧ log.length = 3 ∧ log[2]? ≠ some [0, 0] := by
  have hk : (match LightSim.create demoLighting 2 "off" "config" demoLightArgs with
    | .error _ => false
    | .ok s0 => match LightSim.simulate s0 [demoLightInput, ([1, 2], 0, demoLightInput.2.2)] with
      | .error _ => false
      | .ok q => decide (q.2.length = 3 ∧ q.2[2]? ≠ some [0, 0])) = true := by decide +kernel
  split at hk
  · cases hk
  split at hk
  · cases hk
  · exact ⟨_, _, _, by assumption, by assumption, of_decide_eq_true hk⟩

example : BulbsOk demoLighting "randn" 2 demoLightArgs :=
  Or.inr ⟨rfl, by decide, by decide +kernel, by decide +kernel, fun h k => by
    unfold demoLightArgs
    simp only
    split <;> norm_num⟩

end Demod
