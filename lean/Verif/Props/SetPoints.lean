import Verif.Model.SetPoints
import Verif.Spec.SetPoints
import Verif.Props.Sampling
import Mathlib.Data.List.Induction
import Mathlib.Tactic.NormNum
import Mathlib.Tactic.Linarith

/-! # C136: the set points of the thermostats -/

namespace Demod

/-- A table whose rows are in increasing order, with non-negative shares of sum 1. -/
structure ShareTable (table : List (Rat × Rat)) : Prop where
  nonneg : ∀ x ∈ table.map Prod.snd, 0 ≤ x
  total : (table.map Prod.snd).sum = 1
  below : ∀ k < table.length, householdsBelow table ((table.map Prod.fst).getD k 0) = ((table.map Prod.snd).take k).sum
  share : ∀ k < table.length, householdsAt table ((table.map Prod.fst).getD k 0) = (table.map Prod.snd).getD k 0

theorem homeShares_ok : ShareTable homeShares := ⟨by decide +kernel, by decide +kernel, by decide +kernel, by decide +kernel⟩

theorem waterShares_ok : ShareTable waterShares := ⟨by decide +kernel, by decide +kernel, by decide +kernel, by decide +kernel⟩

theorem mcFrom1dPdf_one (pdf : List Rat) (u : Rat) (i : Nat) : mcFrom1dPdf pdf [u] = .ok [i] ↔ mcCdf (cumsum pdf) u = .ok i := by
  unfold mcFrom1dPdf mcFrom1dCdf
  cases h : mcCdf (cumsum pdf) u with
  | error e => simp [h, bind, Except.bind]
  | ok j => simp [h, bind, Except.bind, pure, Except.pure]

theorem draw_setPoint (table : List (Rat × Rat)) (ht : ShareTable table) (u : Rat) (h0 : 0 ≤ u) (h1 : u < 1) :
    ∃ k v, mcCdf (cumsum (table.map Prod.snd)) u = .ok k ∧ (table.map Prod.fst)[k]? = some v ∧ ∀ w, v = w ↔ IsSetPoint table u w := by
  obtain ⟨⟨k, hk⟩, hiff⟩ := C09_pdf (table.map Prod.snd) ht.nonneg u h0 (by rw [ht.total]; exact h1)
  obtain ⟨hlt, ha, hb⟩ := (hiff k).1 hk
  rw [List.length_map] at hlt
  have e : ∀ j (hj : j < table.length), (table.map Prod.fst)[j]? = some ((table.map Prod.fst).getD j 0) := by
    intro j hj; simp [hj]
  refine ⟨k, _, (mcFrom1dPdf_one _ u k).1 hk, e k hlt, fun w => ?_⟩
  constructor
  · rintro rfl
    refine ⟨List.mem_of_getElem? (e k hlt), ?_, ?_⟩
    · rw [ht.below k hlt]; exact ha
    · rw [ht.below k hlt, ht.share k hlt]
      simpa [hlt] using hb
  · rintro ⟨hm, ga, gb⟩
    obtain ⟨j, hj⟩ := List.mem_iff_getElem?.1 hm
    have hjl : j < table.length := by
      by_contra hc
      rw [List.getElem?_eq_none (by rw [List.length_map]; omega)] at hj
      cases hj
    have hw : w = (table.map Prod.fst).getD j 0 := by
      rw [e j hjl] at hj; exact (Option.some.inj hj).symm
    rw [hw, ht.below j hjl] at ga
    rw [hw, ht.below j hjl, ht.share j hjl] at gb
    have hjk := (hiff j).2 ⟨by rw [List.length_map]; exact hjl, ga, by simpa [hjl] using gb⟩
    rw [hk] at hjk
    have : k = j := by simpa using hjk
    rw [hw, this]

theorem draws_setPoints (table : List (Rat × Rat)) (ht : ShareTable table) : ∀ us : List Rat, (∀ u ∈ us, 0 ≤ u ∧ u < 1) →
    ∃ r out, mcFrom1dCdf (cumsum (table.map Prod.snd)) us = .ok r ∧ takeValues (table.map Prod.fst) r = .ok out ∧ List.Forall₂ (fun u v => ∀ w, v = w ↔ IsSetPoint table u w) us out := by
  intro us
  induction us with
  | nil => intro _; exact ⟨[], [], rfl, rfl, .nil⟩
  | cons u us ih =>
    intro h
    obtain ⟨r, out, e1, e2, e3⟩ := ih fun x hx => h x (List.mem_cons_of_mem _ hx)
    obtain ⟨k, v, f1, f2, f3⟩ := draw_setPoint table ht u (h u List.mem_cons_self).1 (h u List.mem_cons_self).2
    unfold mcFrom1dCdf at e1
    unfold takeValues at e2
    refine ⟨k :: r, v :: out, ?_, ?_, .cons f3 e3⟩
    · unfold mcFrom1dCdf
      rw [List.mapM_cons, f1, e1]; rfl
    · unfold takeValues
      rw [List.mapM_cons, f2, e2]; rfl

/-- **C136.** For any number of households and any draws, the constructor sets the set points of all of them. The set point of the rooms is one of 13, …, 27 °C and that of the hot water one of 42, …, 62 °C: each value is set
exactly for the draws of an interval as long as its share, in increasing order. The emitter is set to 50 °C. -/
theorem C136_set_points (home water : List Rat) (hh : ∀ u ∈ home, 0 ≤ u ∧ u < 1) (hw : ∀ u ∈ water, 0 ≤ u ∧ u < 1) :
    ∃ t, initTargets germanThermostat home water = .ok t ∧
      List.Forall₂ (fun u v => ∀ w, v = w ↔ IsSetPoint homeShares u w) home t.space ∧
      List.Forall₂ (fun u v => ∀ w, v = w ↔ IsSetPoint waterShares u w) water t.dhw ∧
      t.emitter = List.replicate home.length 50 := by
  obtain ⟨r, out, e1, e2, e3⟩ := draws_setPoints homeShares homeShares_ok home hh
  obtain ⟨r', out', f1, f2, f3⟩ := draws_setPoints waterShares waterShares_ok water hw
  have g1 : germanThermostat.homeCdf = cumsum (homeShares.map Prod.snd) := by decide +kernel
  have g2 : germanThermostat.homeValues = homeShares.map Prod.fst := by decide +kernel
  have g3 : germanThermostat.waterCdf = cumsum (waterShares.map Prod.snd) := by decide +kernel
  have g4 : germanThermostat.waterValues = waterShares.map Prod.fst := by decide +kernel
  refine ⟨⟨out, out', (List.replicate home.length 1).map fun one => germanThermostat.emitter * one⟩, ?_, e3, f3, ?_⟩
  · unfold initTargets
    rw [g1, g2, g3, g4, e1]
    show (takeValues _ r >>= _) = _
    rw [e2]
    show (mcFrom1dCdf _ water >>= _) = _
    rw [f1]
    show (takeValues _ r' >>= _) = _
    rw [f2]
    rfl
  · simp [germanThermostat]

/-- **C136.** A household with a larger draw never has a lower set point. -/
theorem C136_monotone (u u' v v' : Rat) (table : List (Rat × Rat)) (ht : table = homeShares ∨ table = waterShares) (h : IsSetPoint table u v) (h' : IsSetPoint table u' v') (hu : u ≤ u') : v ≤ v' := by
  have key : ∀ T : List (Rat × Rat), (∀ x ∈ T.map Prod.fst, ∀ y ∈ T.map Prod.fst, y < x → householdsBelow T y + householdsAt T y ≤ householdsBelow T x) → IsSetPoint T u v → IsSetPoint T u' v' → v ≤ v' := by
    intro T hT a b
    by_contra hc
    have := hT v a.1 v' b.1 (not_le.mp hc)
    have h1 := a.2.1
    have h2 := b.2.2
    linarith
  rcases ht with rfl | rfl
  · exact key _ (by decide +kernel) h h'
  · exact key _ (by decide +kernel) h h'

/-- **C136.** Without initial temperatures all thermostats start off; with them, a thermostat starts on exactly if its temperature is below its set point. -/
theorem C136_start (t : SetPoints) :
    (∀ b ∈ (initStates t none).1 ++ (initStates t none).2.1 ++ (initStates t none).2.2, b = false) ∧
    ∀ (x : SetPoints) (i : Nat) (a b : Rat),
      (x.space[i]? = some a → t.space[i]? = some b → (initStates t (some x)).1[i]? = some (decide (a < b))) ∧
      (x.dhw[i]? = some a → t.dhw[i]? = some b → (initStates t (some x)).2.1[i]? = some (decide (a < b))) ∧
      (x.emitter[i]? = some a → t.emitter[i]? = some b → (initStates t (some x)).2.2[i]? = some (decide (a < b))) := by
  have hz : ∀ l : List Rat, ∀ b ∈ List.zipWith (fun a b => decide (a < b)) l l, b = false := by
    intro l
    induction l with
    | nil => simp
    | cons y l ih => intro b hb; simp only [List.zipWith_cons_cons, lt_irrefl, decide_false, List.mem_cons] at hb; rcases hb with hb | hb; exacts [hb, ih b hb]
  refine ⟨?_, ?_⟩
  · intro b hb
    simp only [List.mem_append] at hb
    rcases hb with (hb | hb) | hb
    · exact hz _ b hb
    · exact hz _ b hb
    · exact hz _ b hb
  · intro x i a b
    refine ⟨fun ha hb => ?_, fun ha hb => ?_, fun ha hb => ?_⟩ <;> · simp only [initStates, List.getElem?_zipWith, ha, hb]

theorem bandState_step (target band : Rat) (hb : 0 < band) (start : Bool) (Ts : List Rat) (T : Rat) :
    bandState target band start (Ts ++ [T]) = thermostatStep (bandState target band start Ts) T target band := by
  unfold bandState
  rw [List.reverse_append, List.reverse_singleton, List.singleton_append, List.find?_cons]
  generalize hon : (match Ts.reverse.find? (fun T => decide (T ≤ target - band) || decide (target + band ≤ T)) with
    | some T => decide (T ≤ target - band)
    | none => start) = on
  unfold thermostatStep
  by_cases h1 : T ≤ target - band
  · have h2 : T < target + band := by linarith
    cases on <;> simp [h1, h2]
  · by_cases h2 : target + band ≤ T
    · have h3 : ¬ T < target + band := not_lt.mpr h2
      cases on <;> simp [h1, h2]
    · have h3 : T < target + band := not_le.mp h2
      cases on <;> simpa [h1, h2, h3] using hon

/-- **C136.** For any set points and any temperatures over any number of steps, the thermostats follow the bands of ±1 °C for the rooms, ±5 °C for the hot water and ±5 °C for the emitter: each goes on at the lower end of its band, off at the upper end
and stays as it is in between. -/
theorem C136_bands (target : Targets) (s : ThermostatStates) (Ts : List Temps) :
    (thermostatsRun germanThermostat target s Ts).spaceHeating = bandState target.spaceHeating 1 s.spaceHeating (Ts.map Temps.interior) ∧
    (thermostatsRun germanThermostat target s Ts).hotWater = bandState target.dhw 5 s.hotWater (Ts.map Temps.cylinder) ∧
    (thermostatsRun germanThermostat target s Ts).emitter = bandState target.emitter 5 s.emitter (Ts.map Temps.emitter) := by
  induction Ts using List.reverseRecOn with
  | nil => exact ⟨rfl, rfl, rfl⟩
  | append_singleton Ts T ih =>
    obtain ⟨i1, i2, i3⟩ := ih
    have e : thermostatsRun germanThermostat target s (Ts ++ [T]) = thermostatsStep (thermostatsRun germanThermostat target s Ts) T target germanThermostat.deadbands := by
      unfold thermostatsRun; rw [List.foldl_append]; rfl
    rw [e, List.map_append, List.map_append, List.map_append]
    simp only [List.map_cons, List.map_nil]
    rw [bandState_step _ _ (by norm_num), bandState_step _ _ (by norm_num), bandState_step _ _ (by norm_num), ← i1, ← i2, ← i3]
    exact ⟨rfl, rfl, rfl⟩

example : bandState 20 1 false [20, 19, 39/2, 41/2] = true ∧ bandState 20 1 false [20, 19, 21, 39/2] = false := by decide +kernel

/-- Three households: the first is at the start of the interval of 13 °C, the second just at that of 19 °C. -/
example : initTargets germanThermostat [0, 19/100, 999/1000] [1/2, 4/100, 0] = .ok ⟨[13, 19, 27], [53, 43, 42], [50, 50, 50]⟩ := by decide +kernel

example : IsSetPoint homeShares (19/100) 19 ∧ ¬ IsSetPoint homeShares (19/100) 18 ∧ householdsAt homeShares 19 = 16/100 ∧ householdsBelow homeShares 19 = 19/100 := by unfold IsSetPoint; decide +kernel

example : initStates ⟨[20, 21], [55, 60], [50, 50]⟩ (some ⟨[19, 21], [60, 59], [50, 49]⟩) = ([true, false], [false, true], [false, true]) := by decide +kernel

end Demod
