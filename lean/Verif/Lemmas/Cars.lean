import Verif.Model.Cars
import Verif.Lemmas.Appliance
import Mathlib.Algebra.BigOperators.Group.List.Basic

/-! # Lemmas about electric cars -/

namespace Demod

/-- The effect of a step on a car that arrives (`a`) and leaves (`l`). -/
def Car.moved (c : Car) (station : Rat) (strategy t : Nat) (a l : Bool) : Car :=
  let c := (if a then c.tick.arrive station else c.tick).startCharging a strategy t
  (if l then c.leave else c).updateCharging

theorem tick_hh (c : Car) : c.tick.hh = c.hh := by unfold Car.tick; split <;> rfl
theorem tick_inUse (c : Car) : c.tick.inUse = c.inUse := by unfold Car.tick; split <;> simp_all
theorem tick_charging (c : Car) : c.tick.charging = c.charging := by unfold Car.tick; split <;> rfl
theorem tick_left (c : Car) : c.tick.left = c.left := by unfold Car.tick; split <;> rfl
theorem start_hh (c : Car) (a : Bool) (s t : Nat) : (c.startCharging a s t).hh = c.hh := by unfold Car.startCharging; simp only []; split_ifs <;> rfl
theorem start_inUse (c : Car) (a : Bool) (s t : Nat) : (c.startCharging a s t).inUse = c.inUse := by unfold Car.startCharging; simp only []; split_ifs <;> rfl
theorem start_left (c : Car) (a : Bool) (s t : Nat) : (c.startCharging a s t).left = c.left := by unfold Car.startCharging; simp only []; split_ifs <;> rfl
theorem start_used (c : Car) (a : Bool) (s t : Nat) : (c.startCharging a s t).used = c.used := by unfold Car.startCharging; simp only []; split_ifs <;> rfl
theorem update_hh (c : Car) : c.updateCharging.hh = c.hh := by unfold Car.updateCharging; simp only []; split_ifs <;> rfl
theorem update_inUse (c : Car) : c.updateCharging.inUse = c.inUse := by unfold Car.updateCharging; simp only []; split_ifs <;> rfl
theorem update_used (c : Car) : c.updateCharging.used = c.used := by unfold Car.updateCharging; simp only []; split_ifs <;> rfl

theorem moved_hh (c : Car) (st : Rat) (s t : Nat) (a l : Bool) : (c.moved st s t a l).hh = c.hh := by
  unfold Car.moved
  rw [update_hh]
  cases l <;> cases a <;> simp [Car.leave, Car.arrive, start_hh, tick_hh]

theorem moved_inUse (c : Car) (st : Rat) (s t : Nat) (a l : Bool) : (c.moved st s t a l).inUse = (l || (c.inUse && !a)) := by
  unfold Car.moved
  rw [update_inUse]
  cases l <;> cases a <;> simp [Car.leave, Car.arrive, start_inUse, tick_inUse]

theorem pickFirst_length (cand : Car → Bool) (cs : List Car) : ∀ seen, (pickFirst cand seen cs).length = cs.length := by
  induction cs with
  | nil => intro _; rfl
  | cons c cs ih => intro seen; unfold pickFirst; split <;> simp [ih]

theorem pickFirst_cand (cand : Car → Bool) (cs : List Car) : ∀ seen, ∀ x ∈ cs.zip (pickFirst cand seen cs), x.2 = true → cand x.1 = true := by
  induction cs with
  | nil => intro _ x hx; simp [pickFirst] at hx
  | cons c cs ih =>
    intro seen x hx h
    unfold pickFirst at hx
    split at hx
    · rename_i hc
      rcases List.mem_cons.mp hx with rfl | hx
      · simp at hc; exact hc.1
      · exact ih _ x hx h
    · rcases List.mem_cons.mp hx with rfl | hx
      · simp at h
      · exact ih _ x hx h

/-- The number of picked cars of a household: one if it has a candidate and none before. -/
theorem pickFirst_count (cand : Car → Bool) (h : Nat) (cs : List Car) : ∀ seen,
    (cs.zip (pickFirst cand seen cs)).countP (fun x => x.2 && decide (x.1.hh = h)) = if h ∈ seen then 0 else if ∃ c ∈ cs, c.hh = h ∧ cand c = true then 1 else 0 := by
  induction cs with
  | nil => intro seen; simp [pickFirst]
  | cons c cs ih =>
    intro seen
    unfold pickFirst
    by_cases hc : (cand c && !seen.contains c.hh) = true
    · rw [if_pos hc, List.zip_cons_cons, List.countP_cons, ih]
      simp only [Bool.and_eq_true, Bool.not_eq_true', List.contains_eq_mem, decide_eq_false_iff_not] at hc
      by_cases hh : c.hh = h
      · subst hh
        have e : ∃ d ∈ c :: cs, d.hh = c.hh ∧ cand d = true := ⟨c, List.mem_cons_self, rfl, hc.1⟩
        simp only [List.mem_cons_self, if_true, hc.2, if_false, e]
        simp
      · have e1 : (h ∈ c.hh :: seen) ↔ h ∈ seen := by
          rw [List.mem_cons]
          exact ⟨fun x => x.resolve_left (fun e => hh e.symm), Or.inr⟩
        have e2 : (∃ d ∈ c :: cs, d.hh = h ∧ cand d = true) ↔ ∃ d ∈ cs, d.hh = h ∧ cand d = true := by
          constructor
          · rintro ⟨d, hd, h1, h2⟩
            rcases List.mem_cons.mp hd with rfl | hd
            · exact absurd h1 hh
            · exact ⟨d, hd, h1, h2⟩
          · rintro ⟨d, hd, hx⟩; exact ⟨d, List.mem_cons_of_mem _ hd, hx⟩
        simp only [e1, e2, hh]
        simp
    · rw [if_neg hc, List.zip_cons_cons, List.countP_cons, ih]
      simp only [Bool.false_and, Bool.false_eq_true, if_false, Nat.add_zero]
      by_cases hs : h ∈ seen
      · rw [if_pos hs, if_pos hs]
      · rw [if_neg hs, if_neg hs]
        refine if_congr ?_ rfl rfl
        constructor
        · rintro ⟨d, hd, hx⟩; exact ⟨d, List.mem_cons_of_mem _ hd, hx⟩
        · rintro ⟨d, hd, h1, h2⟩
          rcases List.mem_cons.mp hd with rfl | hd
          · exfalso
            apply hc
            simp [h2, h1, hs]
          · exact ⟨d, hd, h1, h2⟩

theorem mapM_getD {α : Type} (g : α → Except PyErr Rat) : ∀ (l : List α) (r : List Rat), l.mapM g = .ok r → r.length = l.length ∧ ∀ (k : Nat) (hk : k < l.length), g l[k] = .ok (r.getD k 0) := by
  intro l
  induction l with
  | nil => intro r h; cases h; simp
  | cons x xs ih =>
    intro r h
    rw [List.mapM_cons] at h
    cases hx : g x with
    | error e => rw [hx] at h; cases h
    | ok v =>
      rw [hx] at h
      cases hxs : xs.mapM g with
      | error e => simp only [hxs] at h; cases h
      | ok vs =>
        simp only [hxs] at h
        cases h
        obtain ⟨h1, h2⟩ := ih vs hxs
        refine ⟨by simp [h1], ?_⟩
        intro k hk
        cases k with
        | zero => simpa using hx
        | succ k => simpa using h2 k (by simpa using hk)

/-- The effect of a step, in terms of the cars that arrive and leave. -/
theorem next_spec {f f' : Fleet} {input : Nat → CarInput} (h : f.next input = .ok f') :
    ∃ (s : Nat → Nat) (probs : List Rat) (arr dep : List Bool), f.strategy = .array s ∧ arr.length = f.cars.length ∧ dep.length = f.cars.length ∧
      f'.cars = (f.cars.zip (arr.zip dep)).map (fun x => x.1.moved (f.station x.1.hh) (s x.1.hh) ((f.step + 1) % 144) x.2.1 x.2.2) ∧
      f'.step = f.step + 1 ∧ f'.station = f.station ∧ f'.n = f.n ∧ f'.strategy = f.strategy ∧
      (∀ h, f'.house h = ⟨(input h).occupancy, (input h).hoh, (input h).hwh⟩) ∧
      (∀ x ∈ f.cars.zip arr, x.2 = true → x.1.inUse = true) ∧
      (∀ x ∈ f.cars.zip (arr.zip dep), x.2.2 = true → x.1.inUse = false ∨ x.2.1 = true) ∧
      (∀ h, (f.cars.zip arr).countP (fun x => x.2 && decide (x.1.hh = h)) =
        if ((f.step + 1) % 144 ≠ 1 ∧ (((f.house h).occupancy < (input h).occupancy ∧ (input h).byCar = true) ∨ (input h).hoh + (input h).hwh < f.usedCars h) ∧ 0 < f.usedCars h) then 1 else 0) ∧
      (∀ h, h < f.n → probLeave (f.house h) (input h) = .ok (probs.getD h 0)) ∧
      (∀ h, (f.cars.zip (arr.zip dep)).countP (fun x => x.2.2 && decide (x.1.hh = h)) =
        if ((f.step + 1) % 144 ≠ 1 ∧ (input h).u < probs.getD h 0 ∧ ∃ x ∈ f.cars.zip arr, x.1.hh = h ∧ (x.1.inUse = false ∨ x.2 = true)) then 1 else 0) := by
  unfold Fleet.next at h
  obtain ⟨t, ht⟩ : ∃ t, t = (f.step + 1) % 144 := ⟨_, rfl⟩
  obtain ⟨cars1, hc1⟩ : ∃ c, c = f.cars.map Car.tick := ⟨_, rfl⟩
  have hused : ∀ h, (cars1.countP fun c => c.inUse && decide (c.hh = h)) = f.usedCars h := by
    intro h
    rw [hc1, List.countP_map]
    unfold Fleet.usedCars
    rw [List.countP_filter]
    apply List.countP_congr
    intro c _
    simp [tick_inUse, tick_hh, and_comm]
  simp only [← ht, ← hc1, hused] at h
  obtain ⟨cand, hcand⟩ : ∃ c : Nat → Bool, c = fun h => ((decide ((f.house h).occupancy < (input h).occupancy) && (input h).byCar) || decide ((input h).hoh + (input h).hwh < f.usedCars h)) && decide (f.usedCars h > 0) := ⟨_, rfl⟩
  obtain ⟨arr, harr⟩ : ∃ a, a = if t = 1 then cars1.map (fun _ => false) else pickFirst (fun c => cand c.hh && c.inUse) [] cars1 := ⟨_, rfl⟩
  have hcand' : ∀ h, cand h = (((decide ((f.house h).occupancy < (input h).occupancy) && (input h).byCar) || decide ((input h).hoh + (input h).hwh < f.usedCars h)) && decide (f.usedCars h > 0)) := fun h => by rw [hcand]
  simp only [← hcand', ← harr] at h
  cases hs : f.strategy with
  | number k => rw [hs] at h; cases h
  | array s =>
    rw [hs] at h
    cases hp : (List.range f.n).mapM fun h => probLeave (f.house h) (input h) with
    | error e => simp only [hp] at h; cases h
    | ok probs =>
      simp only [hp] at h
      obtain ⟨cars2, hc2⟩ : ∃ c, c = (cars1.zip arr).map fun x => (if x.2 then x.1.arrive (f.station x.1.hh) else x.1).startCharging x.2 (s x.1.hh) t := ⟨_, rfl⟩
      obtain ⟨dep, hdep⟩ : ∃ d, d = if t = 1 then cars2.map (fun _ => false) else pickFirst (fun c => decide (probs.getD c.hh 0 > (input c.hh).u) && !c.inUse) [] cars2 := ⟨_, rfl⟩
      have hok : Except.ok (ε := PyErr) { f with step := f.step + 1, house := fun h => ⟨(input h).occupancy, (input h).hoh, (input h).hwh⟩, cars := (cars2.zip dep).map fun x => (if x.2 then x.1.leave else x.1).updateCharging } = .ok f' := by
        rw [hdep, hc2, hs]; exact h
      cases hok
      have l1 : cars1.length = f.cars.length := by rw [hc1]; simp
      have larr : arr.length = f.cars.length := by
        rw [harr]; split
        · simp [l1]
        · rw [pickFirst_length, l1]
      have l2 : cars2.length = f.cars.length := by rw [hc2]; simp [l1, larr]
      have ldep : dep.length = f.cars.length := by
        rw [hdep]; split
        · simp [l2]
        · rw [pickFirst_length, l2]
      have z1 : cars1.zip arr = (f.cars.zip arr).map fun x => (x.1.tick, x.2) := by rw [hc1, List.zip_map_left]; rfl
      have e2 : cars2 = (f.cars.zip arr).map fun x => ((if x.2 then x.1.tick.arrive (f.station x.1.hh) else x.1.tick).startCharging x.2 (s x.1.hh) t) := by
        rw [hc2, z1, List.map_map]
        apply List.map_congr_left
        intro x _
        simp [tick_hh]
      have z3 : ∀ {α β γ : Type} (xs : List α) (ys : List β) (zs : List γ), xs.zip (ys.zip zs) = ((xs.zip ys).zip zs).map fun x => (x.1.1, (x.1.2, x.2)) := by
        intro α β γ xs
        induction xs with
        | nil => intro ys zs; simp
        | cons x xs ih => intro ys zs; cases ys <;> cases zs <;> simp [ih]
      have zdep : cars2.zip dep = ((f.cars.zip arr).zip dep).map fun x => (((if x.1.2 then x.1.1.tick.arrive (f.station x.1.1.hh) else x.1.1.tick).startCharging x.1.2 (s x.1.1.hh) t), x.2) := by
        rw [e2, List.zip_map_left]; rfl
      have iu2 : ∀ x : Car × Bool, ((if x.2 then x.1.tick.arrive (f.station x.1.hh) else x.1.tick).startCharging x.2 (s x.1.hh) t).inUse = (x.1.inUse && !x.2) := by
        rintro ⟨c, a⟩
        rw [start_inUse]
        cases a <;> simp [Car.arrive, tick_inUse]
      have hh2 : ∀ x : Car × Bool, ((if x.2 then x.1.tick.arrive (f.station x.1.hh) else x.1.tick).startCharging x.2 (s x.1.hh) t).hh = x.1.hh := by
        rintro ⟨c, a⟩
        rw [start_hh]
        cases a <;> simp [Car.arrive, tick_hh]
      refine ⟨s, probs, arr, dep, rfl, larr, ldep, ?_, rfl, rfl, rfl, by simpa using hs, fun _ => rfl, ?_, ?_, ?_, ?_, ?_⟩
      · rw [zdep, List.map_map, z3, List.map_map]
        apply List.map_congr_left
        rintro ⟨⟨c, a⟩, l⟩ _
        rw [← ht]
        rfl
      · rintro ⟨c, a⟩ hx ha
        by_cases ht1 : t = 1
        · rw [harr, if_pos ht1] at hx
          have := List.of_mem_zip hx
          simp at this ha
          rw [ha] at this
          simp at this
        · rw [harr, if_neg ht1] at hx
          have hm : (c.tick, a) ∈ cars1.zip (pickFirst (fun c => cand c.hh && c.inUse) [] cars1) := by
            have : (c.tick, a) ∈ (f.cars.zip arr).map fun x => (x.1.tick, x.2) := List.mem_map.mpr ⟨(c, a), by rw [harr, if_neg ht1]; exact hx, rfl⟩
            rw [← z1, harr, if_neg ht1] at this
            exact this
          have := pickFirst_cand _ _ _ _ hm ha
          simp [tick_inUse] at this
          exact this.2
      · rintro ⟨c, a, l⟩ hx hl
        by_cases ht1 : t = 1
        · rw [hdep, if_pos ht1] at hx
          have := (List.of_mem_zip (List.of_mem_zip hx).2).2
          simp at this hl
          rw [hl] at this
          simp at this
        · rw [z3] at hx
          obtain ⟨⟨⟨c', a'⟩, l'⟩, hy, he⟩ := List.mem_map.mp hx
          obtain ⟨rfl, rfl, rfl⟩ : c' = c ∧ a' = a ∧ l' = l := by simpa using he
          have hm : (((if a' then c'.tick.arrive (f.station c'.hh) else c'.tick).startCharging a' (s c'.hh) t), l') ∈ cars2.zip dep := by
            rw [zdep]
            exact List.mem_map.mpr ⟨((c', a'), l'), hy, rfl⟩
          rw [hdep, if_neg ht1] at hm
          have := pickFirst_cand _ _ _ _ hm hl
          rw [iu2 (c', a')] at this
          simp at this
          cases a'
          · left; simpa using this.2
          · right; rfl
      · intro h
        have e : (f.cars.zip arr).countP (fun x => x.2 && decide (x.1.hh = h)) = (cars1.zip arr).countP (fun x => x.2 && decide (x.1.hh = h)) := by
          rw [z1, List.countP_map]
          apply List.countP_congr
          intro x _
          simp [tick_hh]
        rw [e, harr]
        by_cases ht1 : t = 1
        · rw [if_pos ht1, if_neg (by rw [← ht]; exact fun x => x.1 ht1), List.countP_eq_zero]
          rintro ⟨c, a⟩ hx
          have := (List.of_mem_zip hx).2
          simp at this
          simp [← this.2]
        · rw [if_neg ht1, pickFirst_count]
          simp only [List.not_mem_nil, if_false]
          refine if_congr ?_ rfl rfl
          rw [← ht]
          constructor
          · rintro ⟨c, hc, rfl, hx⟩
            simp [hcand'] at hx
            exact ⟨ht1, hx.1.1, hx.1.2⟩
          · rintro ⟨-, h1, h2⟩
            rw [← hused h, List.countP_pos_iff] at h2
            obtain ⟨c, hc, hx⟩ := h2
            simp at hx
            refine ⟨c, hc, hx.2, ?_⟩
            rw [hx.1, hx.2]
            have h2' : 0 < f.usedCars h := by rw [← hused h, List.countP_pos_iff]; exact ⟨c, hc, by simp [hx]⟩
            simp [hcand', h1, h2']
      · intro h hn
        have := (mapM_getD _ _ _ hp).2 h (by simpa using hn)
        simpa [-List.getD_eq_getElem?_getD] using this
      · intro h
        have e : (f.cars.zip (arr.zip dep)).countP (fun x => x.2.2 && decide (x.1.hh = h)) = (cars2.zip dep).countP (fun x => x.2 && decide (x.1.hh = h)) := by
          rw [z3, zdep, List.countP_map, List.countP_map]
          apply List.countP_congr
          rintro ⟨⟨c, a⟩, l⟩ _
          have := hh2 (c, a)
          simp only [Function.comp] at *
          rw [this]
        rw [e, hdep]
        by_cases ht1 : t = 1
        · rw [if_pos ht1, if_neg (by rw [← ht]; exact fun x => x.1 ht1), List.countP_eq_zero]
          rintro ⟨c, a⟩ hx
          have := (List.of_mem_zip hx).2
          simp at this
          simp [← this.2]
        · rw [if_neg ht1, pickFirst_count]
          simp only [List.not_mem_nil, if_false]
          refine if_congr ?_ rfl rfl
          rw [← ht]
          constructor
          · rintro ⟨c, hc, hch, hx⟩
            rw [e2] at hc
            obtain ⟨x, hxm, rfl⟩ := List.mem_map.mp hc
            rw [hh2 x] at hch
            rw [iu2 x, hh2 x, hch] at hx
            simp [-List.getD_eq_getElem?_getD] at hx
            refine ⟨ht1, hx.1, x, hxm, hch, ?_⟩
            cases hx2 : x.2
            · left; have := hx.2; rw [hx2] at this; simpa using this
            · right; rfl
          · rintro ⟨-, h1, x, hxm, hxh, hx⟩
            refine ⟨_, by rw [e2]; exact List.mem_map.mpr ⟨x, hxm, rfl⟩, by rw [hh2 x, hxh], ?_⟩
            rw [iu2 x, hh2 x, hxh]
            rcases hx with hx | hx <;> rw [hx] <;> simp [-List.getD_eq_getElem?_getD, h1]

end Demod
