import Verif.Spec.Example
import Verif.Props.Time
import Mathlib.Tactic.Ring
import Mathlib.Tactic.Linarith

/-!
# C133: the example simulators count the occupants
-/

namespace Demod

theorem occupantsAfter_nil {n : Nat} (start : Fin n → Int) (k : Nat) : occupantsAfter start [] k = start := by
  funext i; simp [occupantsAfter]

theorem occupantsAfter_zero {n : Nat} (start : Fin n → Int) (ms : List (Movement n)) :
    occupantsAfter start ms 0 = start := by
  funext i; simp [occupantsAfter]

theorem occupantsAfter_cons {n : Nat} (start : Fin n → Int) (m : Movement n) (ms : List (Movement n)) (k : Nat) :
    occupantsAfter start (m :: ms) (k + 1) = occupantsAfter (moveOccupants start m) ms k := by
  funext i
  simp only [occupantsAfter, moveOccupants, List.take_succ_cons, List.map_cons, List.sum_cons]
  ring

theorem example_own {n : Nat} (ms : List (Movement n)) : ∀ start : Fin n → Int,
    ownAfter (exampleClass n) start ms = occupantsAfter start ms ms.length := by
  induction ms with
  | nil => intro start; rw [occupantsAfter_nil]; rfl
  | cons m ms ih =>
    intro start
    rw [List.length_cons, occupantsAfter_cons, ← ih]
    rfl

theorem randintBelow_ok {n : Nat} {high : Int} {u : Fin n → Nat} {occ : Fin n → Int}
    (h : randintBelow high u = .ok occ) : 0 < high ∧ ∀ i, 0 ≤ occ i ∧ occ i < high := by
  unfold randintBelow at h
  split at h
  · cases h
  · rename_i hp
    cases h
    exact ⟨by omega, fun i => ⟨Int.emod_nonneg _ (by omega), Int.emod_lt_of_pos _ (by omega)⟩⟩

/-- **C133 (example simulator).** For every number of households, maximum, draw, logger and history of movements: if
the simulator can be created, there is at least one household and at least one resident allowed, it starts at step 0
with between 0 and `max_residents - 1` occupants everywhere, and after any history every household holds what it
started with plus all arrivals minus all departures. -/
theorem C133_example_simulator_partial {n : Nat} (maxResidents : Int) (u : Fin n → Nat)
    (logger : Option (Logger (Fin n → Int))) (s1 : SimState (Fin n → Int) (Fin n → Int))
    (h : exampleInit n maxResidents u logger = .ok s1) :
    0 < n ∧ 0 < maxResidents ∧ s1.timeStep = 0 ∧ (∀ i, 0 ≤ s1.own i ∧ s1.own i < maxResidents) ∧
    ∀ ms s2, (exampleClass n).run s1 ms = .ok s2 → s2.timeStep = ms.length ∧
      ∀ i, s2.own i = s1.own i + (ms.map fun m => m.arriving i).sum - (ms.map fun m => m.leaving i).sum := by
  unfold exampleInit SimClass.construct at h
  by_cases hn : (n : Int) ≤ 0
  · simp only [hn, if_true] at h; cases h
  · simp only [hn, if_false, bind, Except.bind] at h
    cases hr : randintBelow maxResidents u with
    | error e => rw [hr] at h; cases h
    | ok occ =>
      rw [hr] at h
      obtain ⟨-, ho, ht⟩ := initialise_own _ h
      obtain ⟨hm, hb⟩ := randintBelow_ok hr
      have ho' : s1.own = occ := by rw [ho]; rfl
      have ht' : s1.timeStep = 0 := by rw [ht]; rfl
      refine ⟨by omega, hm, ht', by rw [ho']; exact hb, ?_⟩
      intro ms s2 hrun
      obtain ⟨h2, h3⟩ := run_own _ _ hrun
      refine ⟨by omega, fun i => ?_⟩
      rw [h2, example_own]
      simp [occupantsAfter]

/-- **C133 (no spurious failure).** Without a logger the example simulator can be created exactly if there are
households and `max_residents` is positive, every draw below the maximum can be the start, and no step fails. -/
theorem C133_example_simulator_total {n : Nat} (maxResidents : Int) (u : Fin n → Nat) :
    ((∃ s1, exampleInit n maxResidents u none = .ok s1) ↔ 0 < n ∧ 0 < maxResidents) ∧
    (¬ (0 < n ∧ 0 < maxResidents) → exampleInit n maxResidents u none = .error .valueError) ∧
    (∀ s1, exampleInit n maxResidents u none = .ok s1 → ((∀ i, (u i : Int) < maxResidents) → ∀ i, s1.own i = u i) ∧
      ∀ ms, ∃ s2, (exampleClass n).run s1 ms = .ok s2) := by
  have hfail : ¬ (0 < n ∧ 0 < maxResidents) → exampleInit n maxResidents u none = .error .valueError := by
    intro h
    unfold exampleInit SimClass.construct
    by_cases hn : (n : Int) ≤ 0
    · simp only [hn, if_true]; rfl
    · simp only [hn, if_false, bind, Except.bind]
      unfold randintBelow
      rw [if_pos (by omega)]
  have hok : 0 < n → 0 < maxResidents → exampleInit n maxResidents u none
      = .ok { own := fun i => (u i : Int) % maxResidents, timeStep := 0, cache := Dict.empty, logger := none } := by
    intro hn hm
    unfold exampleInit SimClass.construct
    simp only [show ¬ ((n : Int) ≤ 0) by omega, if_false, bind, Except.bind]
    unfold randintBelow
    rw [if_neg (by omega)]
    rfl
  refine ⟨⟨?_, fun h => ⟨_, hok h.1 h.2⟩⟩, hfail, ?_⟩
  · rintro ⟨s1, h⟩
    by_contra hc
    rw [hfail hc] at h; cases h
  · intro s1 h
    have hp : 0 < n ∧ 0 < maxResidents := by
      by_contra hc
      rw [hfail hc] at h; cases h
    rw [hok hp.1 hp.2] at h
    cases h
    refine ⟨fun hu i => ?_, fun ms => ?_⟩
    · exact Int.emod_eq_of_lt (by omega) (hu i)
    · obtain ⟨s2, h2, -⟩ := run_ok_nolog (exampleClass n) ms _ (rfl : SimState.logger
        { own := fun i => (u i : Int) % maxResidents, timeStep := 0, cache := Dict.empty, logger := none } = none)
      exact ⟨s2, h2⟩

/-! ### The time aware example -/

theorem emptyPercent_eq {n : Nat} (occ : Fin n → Int) : emptyPercent occ =
    100 * ((((Finset.univ.filter fun i => occ i = 0).card : Nat) : Rat) / ((n : Nat) : Rat)) := by
  have : (List.finRange n).countP (fun i => decide (occ i = 0)) = (Finset.univ.filter fun i => occ i = 0).card := by
    rw [List.countP_eq_length_filter]
    rfl
  unfold emptyPercent
  rw [this]; ring

theorem fires_inHour4 (t step : Int) :
    (firesBeforeNextDay4am t step = true) ↔ (¬ InHour4 t ∧ InHour4 (t + step)) := by
  simp only [firesBeforeNextDay4am, Bool.and_eq_true, beq_iff_eq, bne_iff_ne, InHour4, hourOf, timeOfDay, DAY, HOUR]
  omega

theorem messages_cons {n : Nat} (step t : Int) (start : Fin n → Int) (m : Movement n) (ms : List (Movement n)) :
    messages step t start (m :: ms) =
      (if firesBeforeNextDay4am t step then [emptyPercent start] else []) ++
        messages step (t + step) (moveOccupants start m) ms := by
  unfold messages
  rw [List.length_cons, List.range_succ_eq_map, List.filterMap_cons, List.filterMap_map]
  have hrest : (List.range ms.length).filterMap ((fun k : Nat =>
      if ¬ InHour4 (t + (k : Int) * step) ∧ InHour4 (t + ((k : Int) + 1) * step) then
        some (100 * ((((Finset.univ.filter fun i => occupantsAfter start (m :: ms) k i = 0).card : Nat) : Rat)
          / ((n : Nat) : Rat))) else none) ∘ Nat.succ) =
      (List.range ms.length).filterMap fun k : Nat =>
      if ¬ InHour4 (t + step + (k : Int) * step) ∧ InHour4 (t + step + ((k : Int) + 1) * step) then
        some (100 * ((((Finset.univ.filter fun i => occupantsAfter (moveOccupants start m) ms k i = 0).card : Nat) : Rat)
          / ((n : Nat) : Rat))) else none := by
    congr 1
    funext k
    have e1 : t + ((k.succ : Nat) : Int) * step = t + step + (k : Int) * step := by push_cast; ring
    have e2 : t + (((k.succ : Nat) : Int) + 1) * step = t + step + ((k : Int) + 1) * step := by push_cast; ring
    simp only [Function.comp, e1, e2]
    rw [show k.succ = k + 1 from rfl, occupantsAfter_cons]
  rw [hrest]
  have e1 : t + ((0 : Nat) : Int) * step = t := by simp
  have e2 : t + (((0 : Nat) : Int) + 1) * step = t + step := by simp
  simp only [e1, e2, occupantsAfter_zero, ← emptyPercent_eq]
  by_cases hf : firesBeforeNextDay4am t step = true
  · rw [if_pos ((fires_inHour4 t step).1 hf)]; simp [hf]
  · rw [if_neg (fun h => hf ((fires_inHour4 t step).2 h))]; simp [hf]

theorem timeExample_own {n : Nat} (step : Int) (ms : List (Movement n)) : ∀ (v : ExampleVars n) (t : Int),
    (ownAfter (timeExampleClass n step) (v, t) ms).1.occ = occupantsAfter v.occ ms ms.length ∧
    (ownAfter (timeExampleClass n step) (v, t) ms).1.printed = v.printed ++ messages step t v.occ ms ∧
    (ownAfter (timeExampleClass n step) (v, t) ms).2 = t + (ms.length : Int) * step := by
  induction ms with
  | nil => intro v t; simp [ownAfter, messages, occupantsAfter_nil]
  | cons m ms ih =>
    intro v t
    obtain ⟨h1, h2, h3⟩ := ih ⟨moveOccupants v.occ m, printAt4am step t v⟩ (t + step)
    have hstep : ownAfter (timeExampleClass n step) (v, t) (m :: ms) =
        ownAfter (timeExampleClass n step) (⟨moveOccupants v.occ m, printAt4am step t v⟩, t + step) ms := rfl
    rw [hstep, h1, h2, h3]
    refine ⟨by rw [List.length_cons, occupantsAfter_cons], ?_, by push_cast [List.length_cons]; ring⟩
    rw [messages_cons]
    unfold printAt4am
    split <;> simp

theorem occupantsAfter_still {n : Nat} (start : Fin n → Int) (w k : Nat) :
    occupantsAfter start (List.replicate w ⟨fun _ => 0, fun _ => 0⟩) k = start := by
  funext i
  simp [occupantsAfter]

theorem messages_none {n : Nat} (step t : Int) (start : Fin n → Int) (ms : List (Movement n))
    (h : ∀ k < ms.length, ¬ (¬ InHour4 (t + (k : Int) * step) ∧ InHour4 (t + ((k : Int) + 1) * step))) :
    messages step t start ms = [] := by
  unfold messages
  rw [List.filterMap_eq_nil_iff]
  intro k hk
  rw [if_neg (h k (List.mem_range.1 hk))]

/-- **C133 (time aware example, everybody inside at 4 am).** For every number of households, start, positive step size,
maximum, logger and history: the simulator shows the start time, holds `max_residents` in every household and has
printed nothing; after any history the clock has advanced by the steps made, every household holds the maximum plus
all arrivals minus all departures, and there was exactly one message for each step that enters the hour of 4 am, with
the percentage of households that were empty before that step. -/
theorem C133_time_aware_4am_partial {n : Nat} (step start maxResidents : Int) (hstep : 0 < step) (u : Fin n → Nat)
    (logger : Option (Logger (Fin n → Int))) (s1 : SimState (ExampleVars n × Int) (Fin n → Int))
    (h : timeExampleInit n step start maxResidents "all_inside_at_4am" u logger = .ok s1) :
    s1.own.2 = start ∧ (∀ i, s1.own.1.occ i = maxResidents) ∧ s1.own.1.printed = [] ∧
    ∀ ms s2, (timeExampleClass n step).run s1 ms = .ok s2 →
      s2.own.2 = start + (ms.length : Int) * step ∧
      (∀ i, s2.own.1.occ i
        = maxResidents + (ms.map fun m => m.arriving i).sum - (ms.map fun m => m.leaving i).sum) ∧
      s2.own.1.printed = messages step start (fun _ => maxResidents) ms := by
  unfold timeExampleInit SimClass.construct at h
  by_cases hn : (n : Int) ≤ 0
  · simp only [hn, if_true] at h; cases h
  simp only [hn, if_false, bind, Except.bind, if_true, show ("all_inside_at_4am" = "random") = False by decide] at h
  unfold taInitialise at h
  obtain ⟨d, hd, htod, hle, hmax⟩ := (C03_initialization_time start).1 (4 * HOUR) (by decide) (by decide)
  simp only [hd, bind, Except.bind, if_neg (show step ≠ 0 by omega)] at h
  obtain ⟨hw, ho, ht⟩ := initialise_own _ h
  have hnn : 0 ≤ start - d := by omega
  rw [Int.tdiv_eq_ediv_of_nonneg hnn] at ho ht hw
  rw [Int.fmod_eq_emod_of_nonneg _ (by omega)] at ho
  have hday : start < d + DAY := by
    by_contra hc
    have := hmax (d + DAY) (by unfold timeOfDay DAY at *; omega) (by omega)
    unfold DAY at this; omega
  have hsplit := Int.ediv_mul_add_emod (start - d) step
  have hr0 := Int.emod_nonneg (start - d) (show step ≠ 0 by omega)
  obtain ⟨h1, h2, h3⟩ := timeExample_own step (List.replicate ((start - d) / step).toNat
    (⟨fun _ => 0, fun _ => 0⟩ : Movement n)) ⟨fun _ => maxResidents * 1, []⟩ (d + (start - d) % step)
  rw [← ho] at h1 h2 h3
  rw [occupantsAfter_still] at h1
  rw [List.length_replicate, Int.toNat_of_nonneg hw] at h3
  have hclock : s1.own.2 = start := by rw [h3]; omega
  have hocc : s1.own.1.occ = fun _ => maxResidents := by rw [h1]; simp
  have hprint : s1.own.1.printed = [] := by
    rw [h2, List.nil_append]
    apply messages_none
    intro k hk
    rw [List.length_replicate] at hk
    rintro ⟨ha, hb⟩
    have hk' : (k : Int) + 1 ≤ (start - d) / step := by omega
    have hub : ((k : Int) + 1) * step ≤ (start - d) / step * step := Int.mul_le_mul_of_nonneg_right hk' (by omega)
    have hlb : 0 ≤ (k : Int) * step := Int.mul_nonneg (by omega) (by omega)
    have hex : ((k : Int) + 1) * step = (k : Int) * step + step := by ring
    rw [hex] at hub hb
    generalize (k : Int) * step = q at *
    generalize (start - d) / step * step = p at *
    generalize (start - d) % step = r at *
    unfold InHour4 at ha hb
    unfold timeOfDay DAY HOUR at *
    omega
  refine ⟨hclock, fun i => by rw [hocc], hprint, ?_⟩
  intro ms s2 hrun
  obtain ⟨h4, -⟩ := run_own _ _ hrun
  obtain ⟨g1, g2, g3⟩ := timeExample_own step ms s1.own.1 s1.own.2
  rw [show ((s1.own.1, s1.own.2) : ExampleVars n × Int) = s1.own from rfl, ← h4] at g1 g2 g3
  refine ⟨by rw [g3, hclock], fun i => ?_, by rw [g2, hprint, hocc, hclock]; rfl⟩
  rw [g1, hocc]; simp [occupantsAfter]

/-- **C133 (time aware example, random start).** The same for a random start: no steps are made before the start, each
household starts with between 0 and `max_residents - 1` occupants. -/
theorem C133_time_aware_random_partial {n : Nat} (step start maxResidents : Int) (hstep : 0 < step) (u : Fin n → Nat)
    (logger : Option (Logger (Fin n → Int))) (s1 : SimState (ExampleVars n × Int) (Fin n → Int))
    (h : timeExampleInit n step start maxResidents "random" u logger = .ok s1) :
    s1.own.2 = start ∧ s1.timeStep = 0 ∧ (∀ i, 0 ≤ s1.own.1.occ i ∧ s1.own.1.occ i < maxResidents) ∧
    s1.own.1.printed = [] ∧
    ∀ ms s2, (timeExampleClass n step).run s1 ms = .ok s2 →
      s2.own.2 = start + (ms.length : Int) * step ∧
      (∀ i, s2.own.1.occ i
        = s1.own.1.occ i + (ms.map fun m => m.arriving i).sum - (ms.map fun m => m.leaving i).sum) ∧
      s2.own.1.printed = messages step start s1.own.1.occ ms := by
  unfold timeExampleInit SimClass.construct at h
  by_cases hn : (n : Int) ≤ 0
  · simp only [hn, if_true] at h; cases h
  simp only [hn, if_false, bind, Except.bind, if_true] at h
  cases hr : randintBelow maxResidents u with
  | error e => rw [hr] at h; cases h
  | ok occ =>
    rw [hr] at h
    dsimp only at h
    unfold taInitialise at h
    have hd := (C03_initialization_time start).2.1 start (le_refl _)
    simp only [hd, bind, Except.bind, if_neg (show step ≠ 0 by omega)] at h
    obtain ⟨hw, ho, ht⟩ := initialise_own _ h
    simp only [sub_self, Int.zero_tdiv, Int.zero_fmod, Int.toNat_zero, List.replicate_zero] at ho ht
    have ho' : s1.own = (⟨occ, []⟩, start) := by rw [ho]; simp [ownAfter]
    refine ⟨by rw [ho'], by rw [ht], by rw [ho']; exact (randintBelow_ok hr).2, by rw [ho'], ?_⟩
    intro ms s2 hrun
    obtain ⟨h4, -⟩ := run_own _ _ hrun
    obtain ⟨g1, g2, g3⟩ := timeExample_own step ms s1.own.1 s1.own.2
    rw [show ((s1.own.1, s1.own.2) : ExampleVars n × Int) = s1.own from rfl, ← h4] at g1 g2 g3
    refine ⟨by rw [g3, ho'], fun i => ?_, by rw [g2, ho']; rfl⟩
    rw [g1]; simp [occupantsAfter]

/-- **C133 (time aware example, what is accepted).** Any other initialization algorithm is rejected, as is a simulator
without households; without a logger the simulator can be created for every start and positive step size, with
`'random'` exactly if `max_residents` is positive, and no step fails. -/
theorem C133_time_aware_total {n : Nat} (step start maxResidents : Int) (hstep : 0 < step) (u : Fin n → Nat) :
    (∀ algo logger, n = 0 → timeExampleInit n step start maxResidents algo u logger = .error .valueError) ∧
    (∀ algo logger, 0 < n → algo ≠ "random" → algo ≠ "all_inside_at_4am" →
      timeExampleInit n step start maxResidents algo u logger = .error .notImplementedError) ∧
    (0 < n → ∃ s1, timeExampleInit n step start maxResidents "all_inside_at_4am" u none = .ok s1 ∧
      ∀ ms, ∃ s2, (timeExampleClass n step).run s1 ms = .ok s2) ∧
    (0 < n → 0 < maxResidents → ∃ s1, timeExampleInit n step start maxResidents "random" u none = .ok s1 ∧
      ∀ ms, ∃ s2, (timeExampleClass n step).run s1 ms = .ok s2) ∧
    (0 < n → maxResidents ≤ 0 → timeExampleInit n step start maxResidents "random" u none = .error .valueError) := by
  have hinit : ∀ (v : ExampleVars n) (init : InitTime) (d : Int), initDatetime start init = .ok d → d ≤ start →
      ∃ s1, taInitialise (timeExampleClass n step) step
        { own := (v, start), timeStep := 0, cache := Dict.empty, logger := none } init ⟨fun _ => 0, fun _ => 0⟩ = .ok s1 ∧
        ∀ ms, ∃ s2, (timeExampleClass n step).run s1 ms = .ok s2 := by
    intro v init d hd hle
    have hnn : 0 ≤ start - d := by omega
    have hq : 0 ≤ (start - d).tdiv step := Int.tdiv_nonneg hnn (by omega)
    obtain ⟨s1, h1, h2⟩ := run_ok_nolog (timeExampleClass n step)
      (List.replicate ((start - d).tdiv step).toNat ⟨fun _ => 0, fun _ => 0⟩)
      { own := (v, d + (start - d).fmod step), timeStep := 0, cache := Dict.empty, logger := none } rfl
    refine ⟨s1, ?_, fun ms => ?_⟩
    · unfold taInitialise
      simp only [hd, bind, Except.bind, if_neg (show step ≠ 0 by omega), SimClass.initialise]
      rw [if_neg (by omega), h1]
      cases s1
      simp_all [SimClass.visit]
    · obtain ⟨s2, h3, -⟩ := run_ok_nolog (timeExampleClass n step) ms s1 h2
      exact ⟨s2, h3⟩
  refine ⟨?_, ?_, ?_, ?_, ?_⟩
  · intro algo logger hn
    unfold timeExampleInit SimClass.construct
    rw [if_pos (by omega)]; rfl
  · intro algo logger hn h1 h2
    unfold timeExampleInit SimClass.construct
    rw [if_neg (by omega)]
    simp only [bind, Except.bind, h1, h2, if_false]
  · intro hn
    obtain ⟨d, hd, -, hle, -⟩ := (C03_initialization_time start).1 (4 * HOUR) (by decide) (by decide)
    obtain ⟨s1, h1, h2⟩ := hinit ⟨fun _ => maxResidents * 1, []⟩ _ d hd hle
    refine ⟨s1, ?_, h2⟩
    unfold timeExampleInit SimClass.construct
    rw [if_neg (by omega)]
    exact h1
  · intro hn hm
    obtain ⟨s1, h1, h2⟩ := hinit ⟨fun i => (u i : Int) % maxResidents, []⟩ _ start
      ((C03_initialization_time start).2.1 start (le_refl _)) (le_refl _)
    refine ⟨s1, ?_, h2⟩
    unfold timeExampleInit SimClass.construct randintBelow
    rw [if_neg (by omega), if_neg (by omega)]
    exact h1
  · intro hn hm
    unfold timeExampleInit SimClass.construct randintBelow
    rw [if_neg (by omega), if_pos (by omega)]
    rfl

/-- The full claim: `max_residents` is the maximum number of residents allowed in the households, so that whatever
arrives and leaves the number of occupants stays between 0 and it. -/
def C133_full : Prop := ∀ (n : Nat) (maxResidents : Int) (u : Fin n → Nat)
  (s1 s2 : SimState (Fin n → Int) (Fin n → Int)) (ms : List (Movement n)),
  exampleInit n maxResidents u none = .ok s1 → (exampleClass n).run s1 ms = .ok s2 →
  ∀ i, 0 ≤ s2.own i ∧ s2.own i ≤ maxResidents

/-- **C133 (counterexample).** Nothing bounds the occupants: for every maximum there are one-step histories after which
a household holds more than the maximum, and histories after which it holds fewer than nobody. -/
theorem C133_counterexample (maxResidents : Int) (hm : 0 < maxResidents) :
    ∃ s1 over under, exampleInit 1 maxResidents (fun _ => 0) none = .ok s1 ∧
      (exampleClass 1).run s1 [⟨fun _ => maxResidents + 1, fun _ => 0⟩] = .ok over ∧ maxResidents < over.own 0 ∧
      (exampleClass 1).run s1 [⟨fun _ => 0, fun _ => 1⟩] = .ok under ∧ under.own 0 < 0 := by
  obtain ⟨s1, h1⟩ := (C133_example_simulator_total (n := 1) maxResidents (fun _ => 0)).1.2 ⟨by omega, hm⟩
  have ht := (C133_example_simulator_total (n := 1) maxResidents (fun _ => 0)).2.2 s1 h1
  have hb := C133_example_simulator_partial maxResidents _ none s1 h1
  obtain ⟨a, ha⟩ := ht.2 [⟨fun _ => maxResidents + 1, fun _ => 0⟩]
  obtain ⟨b, hb'⟩ := ht.2 [⟨fun _ => 0, fun _ => 1⟩]
  have h0 := ht.1 (fun _ => by simpa using hm) 0
  refine ⟨s1, a, b, h1, ha, ?_, hb', ?_⟩
  · have := (hb.2.2.2.2 _ a ha).2 0
    rw [this]; simp [h0]
  · have := (hb.2.2.2.2 _ b hb').2 0
    rw [this]; simp [h0]

theorem C133_full_false : ¬ C133_full := by
  intro h
  obtain ⟨s1, a, -, h1, h2, h3, -⟩ := C133_counterexample 2 (by omega)
  have := (h 1 2 _ s1 a _ h1 h2 0).2
  omega

/-- Non-vacuity for C133: two households of at most three residents, started at 06:30 with steps of one hour; after
everybody has left one household during 22 hours of the day there is one message, saying that half are empty. -/
example : ∃ s1 : SimState (ExampleVars 2 × Int) (Fin 2 → Int),
    timeExampleInit 2 HOUR (6 * HOUR + HOUR / 2) 3 "all_inside_at_4am" (fun _ => 0) none = .ok s1 ∧
    ∃ s2, (timeExampleClass 2 HOUR).run s1
      (⟨fun _ => 0, fun i => if i = 0 then 3 else 1⟩ :: List.replicate 22 ⟨fun _ => 0, fun _ => 0⟩) = .ok s2 ∧
    s2.own.1.printed = [50] ∧ s2.own.1.occ 0 = 0 ∧ s2.own.1.occ 1 = 2 :=
  ⟨_, rfl, _, rfl, by decide +kernel, by decide +kernel, by decide +kernel⟩

end Demod
