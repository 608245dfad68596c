import Verif.Lemmas.Cars
import Mathlib.Tactic.FieldSimp

/-! # Property C51: electric cars -/

namespace Demod

/-! ## Specification -/

/-- The number of cars of a household. -/
def Fleet.carsOf (f : Fleet) (h : Nat) : Nat := f.cars.countP fun c => decide (c.hh = h)

/-- Somebody comes home by car: more people are at home and the draw says so, or more cars are away than people; and a car is away. Nothing happens in step 1 of a day. -/
def comesByCar (f : Fleet) (h : Nat) (i : CarInput) : Prop :=
  (f.step + 1) % 144 ≠ 1 ∧ (((f.house h).occupancy < i.occupancy ∧ i.byCar = true) ∨ i.hoh + i.hwh < f.usedCars h) ∧ 0 < f.usedCars h

/-- The probability that those who leave (to work: `hwh`, elsewhere: `hoh`) take the car. -/
def departureProbability (h : CarHouse) (i : CarInput) : Rat :=
  if i.occupancy < h.occupancy then
    if h.hoh < i.hoh then PROB_HOH.getD (h.occupancy - i.occupancy) 0
    else if h.hwh < i.hwh then PROB_HWH.getD (h.occupancy - i.occupancy) 0 else 0
  else 0

instance (f : Fleet) (h : Nat) (i : CarInput) : Decidable (comesByCar f h i) := by unfold comesByCar; infer_instance

/-- Somebody leaves by car: the draw is below the probability and a car is at home once those who came are back. -/
def leavesByCar (f : Fleet) (h : Nat) (i : CarInput) : Prop :=
  (f.step + 1) % 144 ≠ 1 ∧ i.u < departureProbability (f.house h) i ∧ (f.usedCars h < f.carsOf h ∨ comesByCar f h i)

instance (f : Fleet) (h : Nat) (i : CarInput) : Decidable (leavesByCar f h i) := by unfold leavesByCar; infer_instance

/-! ## Lemmas -/

theorem moved_charging (c : Car) (st : Rat) (s t : Nat) (a l : Bool) (hc : c.inUse = true → c.charging = false) :
    (c.moved st s t a l).inUse = true → (c.moved st s t a l).charging = false := by
  rw [moved_inUse]
  intro h
  have hup : ∀ d : Car, d.charging = false → d.updateCharging.charging = false := by
    intro d hd; unfold Car.updateCharging; simp only [hd, Bool.false_eq_true, if_false]; split_ifs <;> simp [hd]
  unfold Car.moved
  apply hup
  cases l
  · simp at h
    obtain ⟨h1, rfl⟩ := h
    simp only [Bool.false_eq_true, if_false]
    have h2 : c.tick.charging = false := by rw [tick_charging]; exact hc h1
    have h3 : c.tick.inUse = true := by rw [tick_inUse, h1]
    unfold Car.startCharging
    simp [h2, h3]
  · rfl

theorem moved_left_pos (c : Car) (st : Rat) (s t : Nat) (a l : Bool) : (c.moved st s t a l).charging = true → 1 ≤ (c.moved st s t a l).left := by
  have hup : ∀ d : Car, d.updateCharging.charging = true → 1 ≤ d.updateCharging.left := by
    intro d hd
    unfold Car.updateCharging at *
    simp only [] at *
    split_ifs at * <;> simp_all
  exact hup _

theorem countP_balance {α : Type} (p q r s : α → Bool) (L : List α) (h : ∀ x ∈ L, (p x).toNat + (q x).toNat = (r x).toNat + (s x).toNat) :
    L.countP p + L.countP q = L.countP r + L.countP s := by
  induction L with
  | nil => simp
  | cons x xs ih =>
    have h1 := h x List.mem_cons_self
    have h2 := ih fun y hy => h y (List.mem_cons_of_mem _ hy)
    simp only [List.countP_cons]
    have e : ∀ b : Bool, (if b = true then 1 else 0) = b.toNat := by decide
    rw [e, e, e, e]
    omega

theorem probLeave_spec {h : CarHouse} {i : CarInput} {p : Rat} (hp : probLeave h i = .ok p) : p = departureProbability h i := by
  have hg : ∀ (l : List Rat) (k : Nat) (v : Rat), pyGet l k = .ok v → v = l.getD k 0 := by
    intro l k v hv
    unfold pyGet at hv
    rw [List.getD_eq_getElem?_getD]
    cases hk : l[k]? with
    | none => rw [hk] at hv; cases hv
    | some x => rw [hk] at hv; cases hv; rfl
  unfold probLeave at hp
  unfold departureProbability
  by_cases h1 : h.occupancy > i.occupancy
  · rw [if_pos h1] at hp
    rw [if_pos h1]
    by_cases h2 : h.hwh < i.hwh
    · rw [if_pos h2] at hp
      cases hx : pyGet PROB_HWH (h.occupancy - i.occupancy) with
      | error e => rw [hx] at hp; cases hp
      | ok v =>
        rw [hx] at hp
        by_cases h3 : h.hoh < i.hoh
        · rw [if_pos h3]
          have hp' : (if h.hoh < i.hoh then pyGet PROB_HOH (h.occupancy - i.occupancy) else .ok v) = Except.ok p := hp
          rw [if_pos h3] at hp'
          exact hg _ _ _ hp'
        · rw [if_neg h3, if_pos h2]
          have hp' : (if h.hoh < i.hoh then pyGet PROB_HOH (h.occupancy - i.occupancy) else .ok v) = Except.ok p := hp
          rw [if_neg h3] at hp'
          have : v = p := by simpa using hp'
          rw [← this]; exact hg _ _ _ hx
    · rw [if_neg h2] at hp
      by_cases h3 : h.hoh < i.hoh
      · rw [if_pos h3]
        have hp' : (if h.hoh < i.hoh then pyGet PROB_HOH (h.occupancy - i.occupancy) else .ok 0) = Except.ok p := hp
        rw [if_pos h3] at hp'
        exact hg _ _ _ hp'
      · rw [if_neg h3, if_neg h2]
        have hp' : (if h.hoh < i.hoh then pyGet PROB_HOH (h.occupancy - i.occupancy) else .ok 0) = Except.ok p := hp
        rw [if_neg h3] at hp'
        have : 0 = p := by simpa using hp'
        exact this.symm
  · rw [if_neg h1] at hp
    rw [if_neg h1]
    cases hp; rfl

theorem zip3_fst {α β γ : Type} (xs : List α) (ys : List β) (zs : List γ) (h : zs.length = xs.length) (h' : ys.length = xs.length) (p : α × β → Bool) :
    (xs.zip (ys.zip zs)).countP (fun x => p (x.1, x.2.1)) = (xs.zip ys).countP p := by
  induction xs generalizing ys zs with
  | nil => simp
  | cons x xs ih =>
    cases ys with
    | nil => simp at h'
    | cons y ys =>
      cases zs with
      | nil => simp at h
      | cons z zs =>
        simp only [List.zip_cons_cons, List.countP_cons]
        rw [ih ys zs (by simpa using h) (by simpa using h')]

theorem zip_fst_countP {α β : Type} (xs : List α) (ys : List β) (h : ys.length = xs.length) (p : α → Bool) : (xs.zip ys).countP (fun x => p x.1) = xs.countP p := by
  induction xs generalizing ys with
  | nil => simp
  | cons x xs ih =>
    cases ys with
    | nil => simp at h
    | cons y ys =>
      simp only [List.zip_cons_cons, List.countP_cons]
      rw [ih ys (by simpa using h)]

theorem usedCars_eq (f : Fleet) (h : Nat) : f.usedCars h = f.cars.countP fun c => c.inUse && decide (c.hh = h) := by
  unfold Fleet.usedCars
  rw [List.countP_filter]
  apply List.countP_congr
  intro c _
  simp [and_comm]

/-! ## Theorems -/

/-- **C51.** The numbers of cars away: in every step each household with its cars in the simulated households has one arrival if `comesByCar` (none otherwise) and one departure if `leavesByCar` (none otherwise). -/
theorem C51_cars_away (f f' : Fleet) (input : Nat → CarInput) (h : Nat) (hn : h < f.n) (hstep : f.next input = .ok f') :
    f'.usedCars h + (if comesByCar f h (input h) then 1 else 0) = f.usedCars h + (if leavesByCar f h (input h) then 1 else 0) ∧ f'.carsOf h = f.carsOf h := by
  obtain ⟨s, probs, arr, dep, hs, la, ld, hcars, -, -, -, -, -, ha, hd, hA, hP, hD⟩ := next_spec hstep
  have hp := probLeave_spec (hP h hn)
  have lz : (arr.zip dep).length = f.cars.length := by simp [la, ld]
  have eU : f'.usedCars h = (f.cars.zip (arr.zip dep)).countP fun x => (x.2.2 || (x.1.inUse && !x.2.1)) && decide (x.1.hh = h) := by
    rw [usedCars_eq, hcars, List.countP_map]
    apply List.countP_congr
    intro x _
    simp only [Function.comp, moved_inUse, moved_hh]
  have eA : (f.cars.zip (arr.zip dep)).countP (fun x => x.2.1 && decide (x.1.hh = h)) = if comesByCar f h (input h) then 1 else 0 := by
    rw [zip3_fst f.cars arr dep ld la (fun x => x.2 && decide (x.1.hh = h)), hA h]
    exact if_congr Iff.rfl rfl rfl
  have eI : f.usedCars h = (f.cars.zip (arr.zip dep)).countP fun x => x.1.inUse && decide (x.1.hh = h) := by
    rw [usedCars_eq, zip_fst_countP f.cars (arr.zip dep) lz fun c => c.inUse && decide (c.hh = h)]
  have ha' : ∀ x ∈ f.cars.zip (arr.zip dep), x.2.1 = true → x.1.inUse = true := by
    rintro ⟨c, a, l⟩ hx hxa
    obtain ⟨k, hk, he⟩ := List.getElem_of_mem hx
    simp at he
    have hk' : k < (f.cars.zip arr).length := by simp at hk ⊢; omega
    exact ha (c, a) (by rw [← he.1, ← he.2.1]; have := List.getElem_mem hk'; simpa using this) hxa
  have eD : (f.cars.zip (arr.zip dep)).countP (fun x => x.2.2 && decide (x.1.hh = h)) = if leavesByCar f h (input h) then 1 else 0 := by
    rw [hD h]
    refine if_congr ?_ rfl rfl
    unfold leavesByCar
    rw [hp]
    have key : (∃ x ∈ f.cars.zip arr, x.1.hh = h ∧ (x.1.inUse = false ∨ x.2 = true)) ↔ (f.usedCars h < f.carsOf h ∨ comesByCar f h (input h)) := by
      have e1 : f.carsOf h = f.usedCars h + f.cars.countP fun c => !c.inUse && decide (c.hh = h) := by
        rw [usedCars_eq]
        unfold Fleet.carsOf
        have := countP_balance (fun c : Car => decide (c.hh = h)) (fun _ => false) (fun c => c.inUse && decide (c.hh = h)) (fun c => !c.inUse && decide (c.hh = h)) f.cars (by
          intro x _; cases x.inUse <;> cases decide (x.hh = h) <;> rfl)
        simpa using this
      have hAh : (f.cars.zip arr).countP (fun x => x.2 && decide (x.1.hh = h)) = if comesByCar f h (input h) then 1 else 0 := by
        rw [hA h]; exact if_congr Iff.rfl rfl rfl
      constructor
      · rintro ⟨x, hx, h1, h2 | h2⟩
        · left
          have : 0 < f.cars.countP fun c => !c.inUse && decide (c.hh = h) := List.countP_pos_iff.mpr ⟨x.1, (List.of_mem_zip hx).1, by simp [h1, h2]⟩
          omega
        · right
          have : 0 < (f.cars.zip arr).countP (fun x => x.2 && decide (x.1.hh = h)) := List.countP_pos_iff.mpr ⟨x, hx, by simp [h1, h2]⟩
          by_contra hcon
          rw [hAh, if_neg hcon] at this
          omega
      · rintro (h1 | h1)
        · have : 0 < f.cars.countP fun c => !c.inUse && decide (c.hh = h) := by omega
          rw [← zip_fst_countP f.cars arr la fun c => !c.inUse && decide (c.hh = h)] at this
          obtain ⟨x, hx, hx2⟩ := List.countP_pos_iff.mp this
          simp at hx2
          exact ⟨x, hx, hx2.2, Or.inl hx2.1⟩
        · have : 0 < (f.cars.zip arr).countP (fun x => x.2 && decide (x.1.hh = h)) := by
            rw [hAh, if_pos h1]; omega
          obtain ⟨x, hx, hx2⟩ := List.countP_pos_iff.mp this
          simp at hx2
          exact ⟨x, hx, hx2.2, Or.inr hx2.1⟩
    rw [key]
  constructor
  · rw [eU, ← eA, ← eD, eI]
    apply countP_balance
    rintro ⟨c, a, l⟩ hx
    have h1 := ha' _ hx
    have h2 := hd _ hx
    simp only at h1 h2 ⊢
    cases a <;> cases l <;> cases hi : c.inUse <;> cases decide (c.hh = h) <;> simp_all
  · unfold Fleet.carsOf
    rw [hcars, List.countP_map, ← zip_fst_countP f.cars (arr.zip dep) lz fun c => decide (c.hh = h)]
    apply List.countP_congr
    intro x _
    simp only [Function.comp, moved_hh]

/-- **C51.** In a step at most one car of a household that was away is back and at most one that was at home is away, whatever happens. -/
theorem C51_one_at_a_time (f f' : Fleet) (input : Nat → CarInput) (h : Nat) (hstep : f.next input = .ok f') :
    (f.cars.zip f'.cars).countP (fun x => decide (x.1.hh = h) && (x.1.inUse && !x.2.inUse)) ≤ 1 ∧
    (f.cars.zip f'.cars).countP (fun x => decide (x.1.hh = h) && (!x.1.inUse && x.2.inUse)) ≤ 1 ∧ f'.cars.map Car.hh = f.cars.map Car.hh := by
  obtain ⟨s, probs, arr, dep, hs, la, ld, hcars, -, -, -, -, -, ha, hd, hA, hP, hD⟩ := next_spec hstep
  have lz : (arr.zip dep).length = f.cars.length := by simp [la, ld]
  have hz : ∀ {α β : Type} (xs : List α) (ys : List β) (g : α × β → α), ys.length = xs.length → xs.zip ((xs.zip ys).map g) = (xs.zip ys).map fun x => (x.1, g x) := by
    intro α β xs
    induction xs with
    | nil => intros; simp
    | cons x xs ih =>
      intro ys g hl
      cases ys with
      | nil => simp at hl
      | cons y ys => simp [ih ys g (by simpa using hl)]
  rw [hcars, hz _ _ _ lz]
  simp only [List.countP_map, Function.comp_def, moved_inUse]
  refine ⟨?_, ?_, ?_⟩
  · calc _ ≤ (f.cars.zip (arr.zip dep)).countP (fun x => x.2.1 && decide (x.1.hh = h)) := by
          apply List.countP_mono_left
          rintro ⟨c, a, l⟩ _ hx
          cases a <;> cases l <;> simp_all
      _ ≤ 1 := by
          rw [zip3_fst f.cars arr dep ld la (fun x => x.2 && decide (x.1.hh = h)), hA h]
          split <;> omega
  · calc _ ≤ (f.cars.zip (arr.zip dep)).countP (fun x => x.2.2 && decide (x.1.hh = h)) := by
          apply List.countP_mono_left
          rintro ⟨c, a, l⟩ _ hx
          cases a <;> cases l <;> simp_all
      _ ≤ 1 := by
          rw [hD h]
          split <;> omega
  · rw [List.map_map]
    have : (Car.hh ∘ fun x : Car × Bool × Bool => x.1.moved (f.station x.1.hh) (s x.1.hh) ((f.step + 1) % 144) x.2.1 x.2.2) = Car.hh ∘ Prod.fst := by
      funext x; simp [moved_hh]
    rw [this, ← List.map_map, List.map_fst_zip (by omega)]

/-- What holds of every car between steps. -/
def carOk (c : Car) : Prop := (c.inUse = true → c.charging = false) ∧ (c.charging = true → 1 ≤ c.left)

/-- **C51.** In every run from the starting state: a car that is away is not charging, and a car that is charging has something left to charge. -/
theorem C51_away_not_charging (f f' : Fleet) (inputs : List (Nat → CarInput)) (hstart : ∀ c ∈ f.cars, ∃ d : Car, c = d.reset) (hrun : f.run inputs = .ok f') :
    ∀ c ∈ f'.cars, (c.inUse = true → c.charging = false) ∧ (c.charging = true → 1 ≤ c.left) := by
  have hinv : ∀ c ∈ f.cars, carOk c := by
    intro c hc
    obtain ⟨d, rfl⟩ := hstart c hc
    exact ⟨fun _ => rfl, fun h => by simp [Car.reset] at h⟩
  clear hstart
  induction inputs generalizing f with
  | nil => cases hrun; exact hinv
  | cons i is ih =>
    unfold Fleet.run at hrun
    cases hs : f.next i with
    | error e => rw [hs] at hrun; cases hrun
    | ok g =>
      rw [hs] at hrun
      refine ih g hrun ?_
      obtain ⟨s, probs, arr, dep, -, la, ld, hcars, -⟩ := next_spec hs
      intro c hc
      rw [hcars] at hc
      obtain ⟨x, hx, rfl⟩ := List.mem_map.mp hc
      have := hinv x.1 (List.of_mem_zip hx).1
      exact ⟨moved_charging _ _ _ _ _ _ this.1, moved_left_pos _ _ _ _ _ _⟩

/-- **C51.** The consumption of a household is its station power times the number of its cars that are charging; it is zero if all its cars are away, in every state of a run. -/
theorem C51_consumption (f : Fleet) (h : Nat) :
    f.consumption h = (f.cars.map fun c => if c.hh = h ∧ c.charging = true then f.station h else 0).sum ∧
    ((∀ c ∈ f.cars, carOk c) → f.usedCars h = f.carsOf h → f.consumption h = 0) := by
  have e1 : f.consumption h = (f.cars.map fun c => if c.hh = h ∧ c.charging = true then f.station h else 0).sum := by
    unfold Fleet.consumption
    induction f.cars with
    | nil => simp
    | cons c cs ih =>
      rw [List.map_cons, List.sum_cons, ← ih, List.countP_filter, List.countP_filter, List.countP_cons]
      by_cases hc : c.hh = h <;> cases hch : c.charging <;> simp [hc]
      ring
  refine ⟨e1, fun hok hall => ?_⟩
  rw [e1]
  apply List.sum_eq_zero
  intro x hx
  obtain ⟨c, hc, rfl⟩ := List.mem_map.mp hx
  refine if_neg ?_
  rintro ⟨h1, h2⟩
  have h3 : c.inUse = true := by
    by_contra hno
    have e2 : f.carsOf h = f.usedCars h + f.cars.countP fun c => !c.inUse && decide (c.hh = h) := by
      rw [usedCars_eq]
      unfold Fleet.carsOf
      have := countP_balance (fun c : Car => decide (c.hh = h)) (fun _ => false) (fun c => c.inUse && decide (c.hh = h)) (fun c => !c.inUse && decide (c.hh = h)) f.cars (by
        intro x _; cases x.inUse <;> cases decide (x.hh = h) <;> rfl)
      simpa using this
    have : 0 < f.cars.countP fun c => !c.inUse && decide (c.hh = h) := List.countP_pos_iff.mpr ⟨c, hc, by simp [h1, hno]⟩
    omega
  have := (hok c hc).1 h3
  rw [h2] at this
  cases this

/-! ## Charging -/

/-- A car that stays at home for some steps, after step `s` of the simulation; `strategy` is 0 (after use) or 1 (timer). -/
def Car.stays (c : Car) (station : Rat) (strategy s : Nat) : Nat → Car
  | 0 => c
  | n + 1 => (c.stays station strategy s n).moved station strategy ((s + n + 1) % 144) false false

theorem home_step (c : Car) (station : Rat) (strategy t : Nat) (hc : c.inUse = false) :
    let on := c.charging || (decide (c.left = c.untilTimer t) && decide (strategy = 1))
    c.moved station strategy t false false = { c with left := if on then c.left - 1 else c.left, charging := on && decide (1 ≤ c.left - 1) || (!on && c.charging) } := by
  intro on
  have htick : c.tick = c := by unfold Car.tick; rw [hc]; rfl
  obtain ⟨hh, cons, timer, inUse, charging, left, used⟩ := c
  simp only at hc
  subst hc
  unfold Car.moved
  rw [htick]
  simp only [Bool.false_eq_true, if_false]
  unfold Car.startCharging Car.updateCharging
  cases charging
  · by_cases h : left = Car.untilTimer ⟨hh, cons, timer, false, false, left, used⟩ t ∧ strategy = 1
    · have hon : on = true := by simp only [on]; simp [h.1.symm, h.2]
      rw [hon]
      obtain ⟨h1, h2⟩ := h
      have e : (decide (left = Car.untilTimer ⟨hh, cons, timer, false, false, left, used⟩ t) && decide (strategy = 1)) = true := by simp [h1.symm, h2]
      simp only [Bool.false_and, Bool.false_eq_true, if_false, e, Bool.not_false, Bool.and_self, if_true]
      by_cases h3 : left - 1 < 1
      · rw [if_pos h3]; simp; omega
      · rw [if_neg h3]; simp; omega
    · have e : (decide (left = Car.untilTimer ⟨hh, cons, timer, false, false, left, used⟩ t) && decide (strategy = 1)) = false := by
        rw [← Bool.not_eq_true]; simpa using h
      have hon : on = false := by simp only [on]; simpa using e
      rw [hon]
      simp only [Bool.false_and, Bool.false_eq_true, if_false, e]
      split_ifs <;> simp
  · have hon : on = true := by simp [on]
    rw [hon]
    simp only [Bool.false_and, Bool.false_eq_true, if_false]
    have : ∀ b : Bool, (if b = true then (⟨hh, cons, timer, false, true, left, used⟩ : Car) else ⟨hh, cons, timer, false, true, left, used⟩) = ⟨hh, cons, timer, false, true, left, used⟩ := by intro b; cases b <;> rfl
    simp only [this, if_true]
    by_cases h3 : left - 1 < 1
    · rw [if_pos h3]; simp; omega
    · rw [if_neg h3]; simp; omega

/-- **C51.** The energy of a trip of `used` ten-minute steps (half of the time driving at 46 km/h), in joules, and the number of steps charged for it: the largest number of steps whose energy does not exceed it. -/
theorem C51_trip_energy (c : Car) (station : Rat) (hc : 0 ≤ c.cons) (hs : 0 < station) :
    let joules := (c.used * (10 / 60 : Rat)) * (1 / 2) * 46 * (c.cons / 100) * 3600000
    (c.timeToCharge station : Rat) * (station * 600) ≤ joules ∧ joules < ((c.timeToCharge station : Rat) + 1) * (station * 600) := by
  intro joules
  have e : c.tripEnergy * 3600000 / station / 10 / 60 = joules / (station * 600) := by
    simp only [joules]
    unfold Car.tripEnergy
    field_simp
    ring
  have hpos : 0 < station * 600 := by linarith
  have hj : 0 ≤ joules := by simp only [joules]; positivity
  unfold Car.timeToCharge
  rw [e, truncRat_of_nonneg (by positivity)]
  constructor
  · rw [← le_div_iff₀ hpos]; exact Int.floor_le _
  · rw [← div_lt_iff₀ hpos]; exact Int.lt_floor_add_one _

theorem moved_account (c : Car) (st : Rat) (s t : Nat) (a l : Bool) :
    ∃ d : Int, (d = 0 ∨ d = 1) ∧ (c.moved st s t a l).left = c.left + (if a then c.tick.timeToCharge st else 0) - d ∧
      ((c.moved st s t a l).charging = true → d = 1) ∧ (d = 1 → (c.moved st s t a l).charging = true ∨ (c.moved st s t a l).left ≤ 0) := by
  have hup : ∀ d : Car, ∃ k : Int, (k = 0 ∨ k = 1) ∧ d.updateCharging.left = d.left - k ∧ (d.updateCharging.charging = true → k = 1) ∧ (k = 1 → d.updateCharging.charging = true ∨ d.updateCharging.left ≤ 0) := by
    intro d
    refine ⟨if d.charging then 1 else 0, ?_⟩
    unfold Car.updateCharging
    cases hd : d.charging <;> simp only [Bool.false_eq_true, if_false, if_true] <;> split_ifs <;> simp_all
    omega
  obtain ⟨k, h1, h2, h3, h4⟩ := hup (if l then ((if a then c.tick.arrive st else c.tick).startCharging a s t).leave else ((if a then c.tick.arrive st else c.tick).startCharging a s t))
  refine ⟨k, h1, ?_, h3, h4⟩
  show Car.left (Car.updateCharging _) = _
  rw [h2]
  cases l <;> cases a <;> simp [Car.leave, Car.arrive, start_left, tick_left]

/-- **C51.** Accounting, for each car in each step: what is left to charge changes by the charge of the trip, if a trip ended, minus one step if the car was charged. A car that is shown charging was charged; a car that was charged is shown
charging or has nothing left. A trip ended if the car was in use and its counter is zero again. -/
theorem C51_accounting (f f' : Fleet) (input : Nat → CarInput) (hstep : f.next input = .ok f') (k : Nat) (hk : k < f.cars.length) :
    ∃ (hk' : k < f'.cars.length) (d : Int), (d = 0 ∨ d = 1) ∧
      f'.cars[k].left = f.cars[k].left + (if f.cars[k].inUse = true ∧ f'.cars[k].used = 0 then { f.cars[k] with used := f.cars[k].used + 1 }.timeToCharge (f.station f.cars[k].hh) else 0) - d ∧
      (f'.cars[k].charging = true → d = 1) ∧ (d = 1 → f'.cars[k].charging = true ∨ f'.cars[k].left ≤ 0) := by
  obtain ⟨s, probs, arr, dep, hs, la, ld, hcars, -, -, -, -, -, ha, hd, hA, hP, hD⟩ := next_spec hstep
  have hk' : k < f'.cars.length := by rw [hcars]; simp [la, ld]; exact hk
  have hka : k < arr.length := by omega
  have hkd : k < dep.length := by omega
  have e : f'.cars[k] = f.cars[k].moved (f.station f.cars[k].hh) (s f.cars[k].hh) ((f.step + 1) % 144) arr[k] dep[k] := by
    simp only [hcars, List.getElem_map, List.getElem_zip]
  obtain ⟨d, h1, h2, h3, h4⟩ := moved_account f.cars[k] (f.station f.cars[k].hh) (s f.cars[k].hh) ((f.step + 1) % 144) arr[k] dep[k]
  rw [← e] at h2 h3 h4
  refine ⟨hk', d, h1, ?_, h3, h4⟩
  rw [h2]
  have hin : arr[k] = true → f.cars[k].inUse = true := by
    intro h
    have hz : k < (f.cars.zip arr).length := by simp; omega
    have := ha (f.cars[k], arr[k]) (by have := List.getElem_mem hz; simpa using this) h
    exact this
  have hused : f'.cars[k].used = if arr[k] then 0 else f.cars[k].tick.used := by
    rw [e]
    unfold Car.moved
    rw [update_used]
    cases dep[k] <;> cases arr[k] <;> simp [Car.leave, Car.arrive, start_used]
  cases harr : arr[k]
  · rw [harr] at hused
    have : ¬ (f.cars[k].inUse = true ∧ f'.cars[k].used = 0) := by
      rintro ⟨h5, h6⟩
      rw [hused] at h6
      unfold Car.tick at h6
      simp [h5] at h6
    simp only [this, if_false]
    simp
  · rw [harr] at hused
    have h5 := hin harr
    have h6 : f'.cars[k].used = 0 := by simpa using hused
    simp only [h5, h6, and_self, if_true]
    unfold Car.tick
    simp only [h5, if_true]

/-- **C51 (partial).** A car that comes home with nothing left from before and `k ≥ 1` steps to charge, where cars are charged after use, and stays at home, is shown charging for `k - 1` steps from its arrival; then it has nothing left. Missing: the last step is
not shown, see the counterexample. -/
theorem C51_charge_partial (c : Car) (station : Rat) (s n : Nat) (k : Nat) (hk : 1 ≤ k) (hin : c.inUse = true) (h0 : c.left = 0)
    (htrip : { c with used := c.used + 1 }.timeToCharge station = (k : Int)) :
    let c' := (c.moved station 0 (s % 144) true false).stays station 0 s n
    (c'.charging = true ↔ n + 1 < k) ∧ c'.left = ((k - 1 - n : Nat) : Int) ∧ c'.inUse = false := by
  intro c'
  have htick : c.tick = { c with used := c.used + 1 } := by unfold Car.tick; rw [hin]; rfl
  induction n with
  | zero =>
    have e : c' = c.moved station 0 (s % 144) true false := rfl
    rw [e]
    unfold Car.moved
    simp only [if_true, Bool.false_eq_true, if_false]
    have : (c.tick.arrive station).startCharging true 0 (s % 144) = { c.tick.arrive station with charging := true } := by
      unfold Car.startCharging; simp
    rw [this]
    unfold Car.updateCharging Car.arrive
    rw [htick, htrip]
    simp only [if_true, h0]
    split_ifs with h1
    · refine ⟨by simp; omega, ?_, rfl⟩
      simp only []; omega
    · refine ⟨by simp; omega, ?_, rfl⟩
      simp only []; omega
  | succ n ih =>
    obtain ⟨d, hd⟩ : ∃ d, d = (c.moved station 0 (s % 144) true false).stays station 0 s n := ⟨_, rfl⟩
    simp only [← hd] at ih
    obtain ⟨h1, h2, h3⟩ := ih
    have e : c' = d.moved station 0 ((s + n + 1) % 144) false false := by rw [hd]; rfl
    rw [e, home_step d station 0 _ h3]
    cases hc : d.charging
    · have : ¬ n + 1 < k := fun h => by rw [h1.mpr h] at hc; cases hc
      simp only [Bool.false_or, Bool.false_and, Bool.and_false, Bool.or_false, Bool.false_eq_true, if_false, h2, h3]
      simp; omega
    · have := h1.mp hc
      simp only [Bool.true_or, Bool.true_and, if_true, h2, h3, decide_eq_true_eq]
      simp; omega

/-- **C51 (counterexample).** A trip of five hours with 20 kWh / 100 km needs 23 kWh, i.e. 138000 J per step for 10 steps of 13.8 kW; the station delivers 9 steps. -/
theorem C51_charge_counterexample :
    ∃ (c : Car) (station : Rat), c.inUse = true ∧ c.left = 0 ∧ { c with used := c.used + 1 }.tripEnergy * 3600000 = 10 * (station * 600) ∧
      ((List.range 20).countP fun n => ((c.moved station 0 5 true false).stays station 0 5 n).charging) = 9 := by
  refine ⟨⟨0, 20, 0, true, false, 0, 29⟩, 13800, rfl, rfl, ?_, by decide +kernel⟩
  norm_num [Car.tripEnergy]

/-- The published probabilities that one to five people take a car when they go elsewhere. -/
def shareElsewhere : Nat → Rat
  | 1 => 62679598 / 100000000
  | 2 => 81792453 / 100000000
  | 3 => 87903226 / 100000000
  | 4 => 93333333 / 100000000
  | _ => 1

/-- The published probabilities that one to five people take a car when they go to work. -/
def shareWork : Nat → Rat
  | 1 => 52228261 / 100000000
  | 2 => 47798742 / 100000000
  | _ => 1 / 2

/-- **C51 (probabilities).** A household of which one to five people leave takes a car with the published probability: that of
going elsewhere if more people are elsewhere, otherwise that of going to work if more are at work, otherwise not at all; it
takes none if nobody leaves. -/
theorem C51_probabilities (h : CarHouse) (i : CarInput) (hk : h.occupancy - i.occupancy ≤ 5) :
    probLeave h i = .ok (if h.occupancy ≤ i.occupancy then 0 else if h.hoh < i.hoh then shareElsewhere (h.occupancy - i.occupancy)
      else if h.hwh < i.hwh then shareWork (h.occupancy - i.occupancy) else 0) := by
  unfold probLeave
  by_cases hl : h.occupancy ≤ i.occupancy
  · simp [hl, Nat.not_lt.2 hl]
  · have hg : h.occupancy > i.occupancy := Nat.lt_of_not_le hl
    have h1 : 1 ≤ h.occupancy - i.occupancy := by omega
    simp only [hl, hg, if_true, if_false]
    generalize h.occupancy - i.occupancy = k at hk h1
    have e1 : pyGet PROB_HOH k = .ok (shareElsewhere k) := by
      obtain rfl | rfl | rfl | rfl | rfl : k = 1 ∨ k = 2 ∨ k = 3 ∨ k = 4 ∨ k = 5 := by omega
      all_goals rfl
    have e2 : pyGet PROB_HWH k = .ok (shareWork k) := by
      obtain rfl | rfl | rfl | rfl | rfl : k = 1 ∨ k = 2 ∨ k = 3 ∨ k = 4 ∨ k = 5 := by omega
      all_goals rfl
    rw [e1, e2]
    by_cases ho : h.hoh < i.hoh <;> by_cases hw : h.hwh < i.hwh <;> simp [ho, hw, bind, Except.bind]

example : probLeave ⟨3, 0, 0⟩ { occupancy := 1, hoh := 1, hwh := 1, byCar := false, u := 0 } = .ok (81792453 / 100000000) := by decide +kernel

/-- What holds of the lengths of the trips between steps. -/
def tripOk (b : Nat) (c : Car) : Prop := (c.inUse = false → c.used = 0) ∧ c.used ≤ b

theorem moved_trip (b : Nat) (c : Car) (station : Rat) (strategy t : Nat) (arr dep : Bool) (h : tripOk b c) :
    tripOk (b + 1) (c.moved station strategy t arr dep) ∧ (c.inUse = false → (c.moved station strategy t arr dep).used = 0) := by
  have hused : (c.moved station strategy t arr dep).used = if arr then 0 else c.tick.used := by
    unfold Car.moved
    rw [update_used]
    cases dep <;> cases arr <;> simp [Car.leave, Car.arrive, start_used]
  have hin := moved_inUse c station strategy t arr dep
  obtain ⟨h1, h2⟩ := h
  refine ⟨⟨?_, ?_⟩, ?_⟩
  · intro h
    rw [hused]
    rw [hin] at h
    cases arr
    · have : c.inUse = false := by cases hc : c.inUse <;> simp_all
      simp [Car.tick, this, h1 this]
    · simp
  · rw [hused]
    cases arr
    · unfold Car.tick
      by_cases hc : c.inUse = true
      · simp [hc, h2]
      · simp only [hc]; simp; omega
    · simp
  · intro hc
    rw [hused]
    simp [Car.tick, hc, h1 hc]

theorem run_trip (inputs : List (Nat → CarInput)) : ∀ (f f' : Fleet) (b : Nat), (∀ c ∈ f.cars, tripOk b c) → f.run inputs = .ok f' →
    ∀ c ∈ f'.cars, tripOk (b + inputs.length) c := by
  induction inputs with
  | nil => intro f f' b h hrun; cases hrun; exact h
  | cons i is ih =>
    intro f f' b h hrun
    unfold Fleet.run at hrun
    cases hs : f.next i with
    | error e => rw [hs] at hrun; cases hrun
    | ok g =>
      rw [hs] at hrun
      have := ih g f' (b + 1) (by
        obtain ⟨s, probs, arr, dep, -, la, ld, hcars, -⟩ := next_spec hs
        intro c hc
        rw [hcars] at hc
        obtain ⟨x, hx, rfl⟩ := List.mem_map.mp hc
        exact (moved_trip b x.1 _ _ _ _ _ (h x.1 (List.of_mem_zip hx).1)).1) hrun
      simpa [Nat.add_assoc, Nat.add_comm 1] using this

/-- **C51 (length of the trips).** In every run from the starting state: a car at home has no trip under way, and no trip is
longer than the time since the first step, in which the earliest one can begin. -/
theorem C51_trip_length (f f' : Fleet) (inputs : List (Nat → CarInput)) (hstart : ∀ c ∈ f.cars, ∃ d : Car, c = d.reset) (hrun : f.run inputs = .ok f') :
    ∀ c ∈ f'.cars, (c.inUse = false → c.used = 0) ∧ c.used ≤ inputs.length - 1 := by
  have h0 : ∀ c ∈ f.cars, tripOk 0 c ∧ c.inUse = false := by
    intro c hc
    obtain ⟨d, rfl⟩ := hstart c hc
    exact ⟨⟨fun _ => rfl, Nat.le_refl 0⟩, rfl⟩
  cases inputs with
  | nil => cases hrun; exact fun c hc => (h0 c hc).1
  | cons i is =>
    unfold Fleet.run at hrun
    cases hs : f.next i with
    | error e => rw [hs] at hrun; cases hrun
    | ok g =>
      rw [hs] at hrun
      have := run_trip is g f' 0 (by
        obtain ⟨s, probs, arr, dep, -, la, ld, hcars, -⟩ := next_spec hs
        intro c hc
        rw [hcars] at hc
        obtain ⟨x, hx, rfl⟩ := List.mem_map.mp hc
        obtain ⟨q1, q2⟩ := h0 x.1 (List.of_mem_zip hx).1
        obtain ⟨m1, m2⟩ := moved_trip 0 x.1 (f.station x.1.hh) (s x.1.hh) ((f.step + 1) % 144) x.2.1 x.2.2 q1
        exact ⟨m1.1, (m2 q2).le⟩) hrun
      simpa [tripOk] using this

/-- **C51 (counterexample).** A trip that needs less than a step leaves -1 steps to charge: the next charge is a step shorter. -/
theorem C51_short_trip_counterexample : ∃ (c : Car) (station : Rat), c = c.reset.leave ∧ 0 < station ∧ (c.moved station 0 5 true false).left = -1 := by
  exact ⟨⟨0, 20, 0, true, false, 0, 0⟩, 11000, rfl, by norm_num, by decide +kernel⟩

/-- **C51.** Charging with a timer (strategy 1): a car that is at home after step `s`, with `k ≥ 1` steps to charge, at least that many steps before its timer, and that stays at home, starts to charge in time: `d` steps later, in the last step before its timer,
nothing is left to charge; it does not charge before it has to. -/
theorem C51_timer (c : Car) (station : Rat) (s n k d : Nat) (hk : 1 ≤ k) (hin : c.inUse = false) (hch : c.charging = false) (hl : c.left = k) (htimer : c.timer < 144)
    (hd1 : 1 ≤ d) (hd2 : d ≤ 144) (hd : (s + d + 1) % 144 = c.timer) (hkd : k ≤ d) (hn : n ≤ d) :
    let c' := c.stays station 1 s n
    c'.left = ((min k (d - n) : Nat) : Int) ∧ (c'.charging = true ↔ d - n < k ∧ 0 < d - n) ∧ c'.inUse = false ∧ c'.timer = c.timer := by
  intro c'
  induction n with
  | zero =>
    have e : c' = c := rfl
    rw [e, hl, hch]
    refine ⟨by rw [Nat.sub_zero, Nat.min_eq_left hkd], ?_, hin, rfl⟩
    simp; omega
  | succ n ih =>
    obtain ⟨e, he⟩ : ∃ e, e = c.stays station 1 s n := ⟨_, rfl⟩
    have ih := ih (by omega)
    simp only [← he] at ih
    obtain ⟨h1, h2, h3, h4⟩ := ih
    have ec : c' = e.moved station 1 ((s + n + 1) % 144) false false := by rw [he]; rfl
    have hu : e.untilTimer ((s + n + 1) % 144) = ((d - n : Nat) : Int) := by
      unfold Car.untilTimer
      rw [h4]
      split_ifs <;> omega
    rw [ec, home_step e station 1 _ h3, hu]
    by_cases hc : e.charging = true
    · have := h2.mp hc
      rw [hc]
      simp only [Bool.true_or, Bool.true_and, if_true, h1, h3, h4, decide_eq_true_eq]
      simp; omega
    · have hc' : e.charging = false := by simpa using hc
      have hno : ¬ (d - n < k ∧ 0 < d - n) := fun h => hc (h2.mpr h)
      rw [hc', h1]
      by_cases hkn : k = d - n
      · have e1 : ((min k (d - n) : Nat) : Int) = ((d - n : Nat) : Int) := by omega
        simp only [e1, Bool.false_or, decide_true, Bool.and_self, if_true, Bool.true_and, Bool.not_true, Bool.false_and, Bool.or_false, decide_eq_true_eq, h3, h4]
        simp; omega
      · have e1 : ¬ ((min k (d - n) : Nat) : Int) = ((d - n : Nat) : Int) := by omega
        simp only [e1, decide_false, Bool.false_and, Bool.or_false, Bool.false_eq_true, if_false, h3, h4]
        simp; omega

/-- **C51 (arrival with a timer).** With strategy 1 a car that comes back in the step `t` of the day, `d` steps before its timer, with `k ≥ 1` steps to charge in all, is charged in this step exactly if `k = d`, that is if there is no time left to wait. -/
theorem C51_timer_arrival (c : Car) (station : Rat) (t d k : Nat) (hin : c.inUse = true) (hch : c.charging = false) (ht : t < 144) (htimer : c.timer < 144) (hd1 : 1 ≤ d) (hd2 : d ≤ 144)
    (hd : (t + d) % 144 = c.timer) (hk : 1 ≤ k) (hl : c.left + { c with used := c.used + 1 }.timeToCharge station = (k : Int)) :
    (c.moved station 1 t true false).left = (if k = d then k - 1 else k) ∧ ((c.moved station 1 t true false).charging = true ↔ k = d ∧ 2 ≤ k) ∧
      (c.moved station 1 t true false).inUse = false := by
  have htick : c.tick = { c with used := c.used + 1 } := by unfold Car.tick; rw [hin]; rfl
  have hu : (c.tick.arrive station).untilTimer t = ((d : Nat) : Int) := by
    unfold Car.untilTimer Car.arrive
    rw [htick]
    simp only
    split_ifs <;> omega
  have hleft : (c.tick.arrive station).left = (k : Int) := by rw [htick, ← hl]; rfl
  unfold Car.moved
  simp only [if_true, Bool.false_eq_true, if_false]
  unfold Car.startCharging
  simp only [Bool.true_and, show decide ((1 : Nat) = 0) = false from rfl, Bool.false_eq_true, if_false, hu, hleft, decide_true, Bool.and_true]
  have hiu : (c.tick.arrive station).inUse = false := rfl
  have hc : (c.tick.arrive station).charging = false := by rw [htick]; exact hch
  rw [hiu]
  by_cases hkd : k = d
  · subst hkd
    simp only [decide_true, Bool.not_false, Bool.and_self, if_true]
    unfold Car.updateCharging
    simp only [if_true, hleft]
    split_ifs with h1
    · refine ⟨by simp only; omega, ?_, hiu⟩
      simp; omega
    · refine ⟨by simp only; omega, ?_, hiu⟩
      simp; omega
  · have : ¬ ((k : Int) = (d : Int)) := by omega
    simp only [this, decide_false, Bool.false_and, Bool.false_eq_true, if_false, hkd]
    unfold Car.updateCharging
    simp only [hc, Bool.false_eq_true, if_false, hleft]
    rw [if_neg (by omega)]
    exact ⟨hleft, by simp [hc], hiu⟩

example : (⟨0, 20, 42, true, false, 0, 29⟩ : Car).left + { (⟨0, 20, 42, true, false, 0, 29⟩ : Car) with used := 30 }.timeToCharge 11000 = 12 := by decide +kernel

/-- **C51 (driving).** The energy of a trip is the consumption while driving (in W) times the duration of the trip; a car at home does not consume for driving. -/
theorem C51_driving (c : Car) : (c.inUse = true → c.tripEnergy * 3600000 = c.driving * (c.used * 600)) ∧ (c.inUse = false → c.driving = 0) := by
  unfold Car.tripEnergy Car.driving
  constructor
  · intro h; rw [if_pos h]; ring
  · intro h; rw [if_neg (by simp [h])]

/-- **C51 (counterexample).** A car with more than a day (144 steps) to charge and a timer is never charged, however long it stays at home. -/
theorem C51_long_charge_counterexample (c : Car) (station : Rat) (s n : Nat) (hin : c.inUse = false) (hch : c.charging = false) (hl : 144 < c.left) (htimer : c.timer < 144) :
    c.stays station 1 s n = c := by
  induction n with
  | zero => rfl
  | succ n ih =>
    show (c.stays station 1 s n).moved station 1 ((s + n + 1) % 144) false false = c
    rw [ih, home_step c station 1 _ hin, hch]
    have : ¬ c.left = c.untilTimer ((s + n + 1) % 144) := by
      unfold Car.untilTimer
      split_ifs <;> omega
    simp only [this, decide_false, Bool.false_and, Bool.or_false, Bool.false_eq_true, if_false]
    simp [← hch]

/-- **C51.** A step works if the strategy is an array over households ('after use' and 'mixed') and at most five people leave each household. -/
theorem C51_no_failure (f : Fleet) (input : Nat → CarInput) (s : Nat → Nat) (hs : f.strategy = .array s) (h5 : ∀ h, h < f.n → (f.house h).occupancy ≤ (input h).occupancy + 5) :
    ∃ f', f.next input = .ok f' := by
  have hprob : ∀ h, h < f.n → ∃ p, probLeave (f.house h) (input h) = .ok p := by
    intro h hn
    have := h5 h hn
    have hg : ∀ (l : List Rat), l.length = 6 → ∃ v, pyGet l ((f.house h).occupancy - (input h).occupancy) = .ok v := by
      intro l hl
      have hlt : (f.house h).occupancy - (input h).occupancy < l.length := by omega
      exact ⟨_, by unfold pyGet; rw [List.getElem?_eq_getElem hlt]⟩
    obtain ⟨v1, h1⟩ := hg PROB_HWH rfl
    obtain ⟨v2, h2⟩ := hg PROB_HOH rfl
    unfold probLeave
    split_ifs
    · exact ⟨v2, by rw [h1, h2]; rfl⟩
    · exact ⟨v2, by rw [h2]; rfl⟩
    · exact ⟨v1, by rw [h1]; rfl⟩
    · exact ⟨0, rfl⟩
    · exact ⟨0, rfl⟩
  have hm : ∀ l : List Nat, (∀ h ∈ l, h < f.n) → ∃ r, (l.mapM fun h => probLeave (f.house h) (input h)) = .ok r := by
    intro l
    induction l with
    | nil => intro _; exact ⟨[], rfl⟩
    | cons x xs ih =>
      intro hl
      obtain ⟨p, hp⟩ := hprob x (hl x List.mem_cons_self)
      obtain ⟨r, hr⟩ := ih fun h hh => hl h (List.mem_cons_of_mem _ hh)
      exact ⟨p :: r, by rw [List.mapM_cons, hp]; simp only [hr]; rfl⟩
  obtain ⟨r, hr⟩ := hm (List.range f.n) fun h hh => List.mem_range.mp hh
  unfold Fleet.next
  rw [hs]
  simp only [hr]
  exact ⟨_, rfl⟩

/-- **C51 (counterexample).** With the charging method 'timers' every step raises `TypeError`. -/
theorem C51_timers_counterexample (f : Fleet) (input : Nat → CarInput) (draw : Nat → Nat) (hs : chargingStrategy "timers" draw = .ok f.strategy) : f.next input = .error .typeError := by
  have : f.strategy = .number 1 := by
    unfold chargingStrategy at hs
    simp at hs
    exact hs.symm
  unfold Fleet.next
  rw [this]
  rfl

/-- **C51 (counterexample).** When six people of a household leave at once for work, the step raises `IndexError`. -/
theorem C51_six_people_counterexample :
    ∃ (f : Fleet) (input : Nat → CarInput), f.strategy = .array (fun _ => 0) ∧ (match f.next input with | .error e => some e | .ok _ => none) = some PyErr.indexError :=
  ⟨⟨1, fun _ => 11000, .array fun _ => 0, 4, fun _ => ⟨6, 0, 0⟩, []⟩, fun _ => ⟨0, 0, 6, false, 0⟩, rfl, by decide +kernel⟩

/-- A household with two cars: one leaves for work, comes back three steps later and is charged. -/
def twoCars : Fleet := ⟨1, fun _ => 11000, .array fun _ => 0, 10, fun _ => ⟨2, 0, 0⟩, [⟨0, 20, 120, false, false, 0, 0⟩, ⟨0, 15, 120, false, false, 0, 0⟩]⟩

/-- What can be seen after some steps: the cars away, the consumption and what is left to charge. -/
def seen (f : Fleet) (inputs : List (Nat → CarInput)) : Option (Nat × Rat × List Int) :=
  match f.run inputs with
  | .ok f => some (f.usedCars 0, f.consumption 0, f.cars.map Car.left)
  | .error _ => none

example : seen twoCars [fun _ => ⟨1, 0, 1, false, 1 / 4⟩, fun _ => ⟨1, 0, 1, false, 1 / 4⟩] = some (1, 0, [0, 0]) ∧
    seen twoCars ([fun _ => ⟨1, 0, 1, false, 1 / 4⟩] ++ List.replicate 30 (fun _ => ⟨1, 0, 1, false, 1⟩) ++ [fun _ => ⟨2, 0, 0, true, 1⟩]) = some (0, 11000, [11, 0]) := by decide +kernel

end Demod
