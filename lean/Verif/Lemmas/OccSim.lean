import Mathlib.Data.Nat.Pairing
import Verif.Lemmas.Matrix
import Verif.Spec.OccSim
import Verif.Props.Equip
import Verif.Props.Appliance
import Verif.Lemmas.SemiMarkov
import Verif.Lemmas.Equip

/-! # Steps of `OccupancyApplianceSimulator`, entry by entry -/

namespace Demod

theorem off_row (columns : List Bool) (r : List Int) (delays : List Int) (hr : r.length = columns.length) (hd : delays.length = columns.length) (k : Nat) (h : Nat) :
    ((columns.zip (r.zip delays)).filter fun q => q.1).map (fun q => min q.2.1 q.2.2) =
      (((columns.zipIdx k).filter fun q => q.1).map fun q => (h, q.2)).map fun q => min (r.getD (q.2 - k) 0) (delays.getD (q.2 - k) 0) := by
  induction columns generalizing r delays k with
  | nil => simp
  | cons c cs ih =>
    obtain ⟨x, r, rfl⟩ : ∃ x r', r = x :: r' := by cases r with | nil => simp at hr | cons x r => exact ⟨x, r, rfl⟩
    obtain ⟨y, ds, rfl⟩ : ∃ x r', delays = x :: r' := by cases delays with | nil => simp at hd | cons x r => exact ⟨x, r, rfl⟩
    have hih := ih r ds (by simpa using hr) (by simpa using hd) (k + 1)
    have hshift : (((cs.zipIdx (k + 1)).filter fun q => q.1).map fun q => (h, q.2)).map (fun q => min (r.getD (q.2 - (k + 1)) 0) (ds.getD (q.2 - (k + 1)) 0)) =
        (((cs.zipIdx (k + 1)).filter fun q => q.1).map fun q => (h, q.2)).map fun q => min ((x :: r).getD (q.2 - k) 0) ((y :: ds).getD (q.2 - k) 0) := by
      rw [List.map_map, List.map_map]
      refine List.map_congr_left fun q hq => ?_
      have hk : k + 1 ≤ q.2 := List.le_snd_of_mem_zipIdx (List.mem_filter.1 hq).1
      obtain ⟨j, hj⟩ : ∃ j, q.2 = k + 1 + j := ⟨q.2 - (k + 1), by omega⟩
      simp only [Function.comp, hj]
      rw [show k + 1 + j - (k + 1) = j by omega, show k + 1 + j - k = j + 1 by omega, List.getD_cons_succ, List.getD_cons_succ]
    rw [hshift] at hih
    cases c with
    | true =>
      simp only [List.zip_cons_cons, List.zipIdx_cons, List.filter_cons, if_true, List.map_cons]
      rw [hih]
      simp
    | false =>
      simp only [List.zip_cons_cons, List.zipIdx_cons, List.filter_cons, Bool.false_eq_true, if_false]
      exact hih

theorem off_values (rows columns : List Bool) (till : List (List Int)) (delays : List Int) (hl : till.length = rows.length) (ht : ∀ r ∈ till, r.length = columns.length) (hd : delays.length = columns.length) (k : Nat) :
    ((rows.zip till).filter fun q => q.1).flatMap (fun r => ((columns.zip (r.2.zip delays)).filter fun q => q.1).map fun q => min q.2.1 q.2.2) =
      (((rows.map fun r => columns.map fun c => r && c).zipIdx k).flatMap fun r => (r.1.zipIdx.filter fun q => q.1).map fun q => (r.2, q.2)).map
        fun q => min ((till.getD (q.1 - k) []).getD q.2 0) (delays.getD q.2 0) := by
  induction rows generalizing till k with
  | nil => simp
  | cons c cs ih =>
    obtain ⟨x, ts, rfl⟩ : ∃ x r', till = x :: r' := by cases till with | nil => simp at hl | cons x r => exact ⟨x, r, rfl⟩
    have hih := ih ts (by simpa using hl) (fun r hr => ht r (List.mem_cons_of_mem _ hr)) (k + 1)
    have hshift : (((cs.map fun r => columns.map fun c => r && c).zipIdx (k + 1)).flatMap fun r => (r.1.zipIdx.filter fun q => q.1).map fun q => (r.2, q.2)).map
          (fun q => min ((ts.getD (q.1 - (k + 1)) []).getD q.2 0) (delays.getD q.2 0)) =
        (((cs.map fun r => columns.map fun c => r && c).zipIdx (k + 1)).flatMap fun r => (r.1.zipIdx.filter fun q => q.1).map fun q => (r.2, q.2)).map
          fun q => min (((x :: ts).getD (q.1 - k) []).getD q.2 0) (delays.getD q.2 0) := by
      refine List.map_congr_left fun q hq => ?_
      obtain ⟨r, hr, hq⟩ := List.mem_flatMap.1 hq
      obtain ⟨b, -, rfl⟩ := List.mem_map.1 hq
      have hk : k + 1 ≤ r.2 := List.le_snd_of_mem_zipIdx hr
      obtain ⟨j, hj⟩ : ∃ j, r.2 = k + 1 + j := ⟨r.2 - (k + 1), by omega⟩
      simp only [hj]
      rw [show k + 1 + j - (k + 1) = j by omega, show k + 1 + j - k = j + 1 by omega, List.getD_cons_succ]
    rw [hshift] at hih
    simp only [List.zip_cons_cons, List.map_cons, List.zipIdx_cons, List.flatMap_cons, List.map_append]
    rw [← hih]
    cases c with
    | true =>
      simp only [List.filter_cons, if_true, List.flatMap_cons, Bool.true_and, List.map_id']
      rw [off_row columns x delays (ht x List.mem_cons_self) hd 0 k]
      congr 1
      simp
    | false =>
      simp only [List.filter_cons, Bool.false_eq_true, if_false, Bool.false_and]
      have : ((columns.map fun _ => false).zipIdx.filter fun q => q.1) = [] := by
        rw [List.filter_eq_nil_iff]
        intro q hq
        have := List.fst_mem_of_mem_zipIdx hq
        obtain ⟨-, -, e⟩ := List.mem_map.1 this
        simp [← e]
      rw [this]
      simp

theorem zip_get {α β : Type} {xs : List α} {ys : List β} {i : Nat} {z : α × β} (h : xs[i]? = some z.1) (h' : ys[i]? = some z.2) : (xs.zip ys)[i]? = some z :=
  List.getElem?_zip_eq_some.2 ⟨h, h'⟩

namespace OccSim

/-- The arrays have a row per household and a column per appliance. -/
structure Shaped (s : OccSim) : Prop where
  owned : Rect s.hhTypes.length s.apps.length s.owned
  left : Rect s.hhTypes.length s.apps.length s.left
  till : Rect s.hhTypes.length s.apps.length s.till

theorem available_eq (s : OccSim) (h a : Nat) (x : AppData) : s.available h a = (s.appl h a x).available (s.st h a) := rfl

/-- What a step does not touch. -/
structure SameData (s s' : OccSim) : Prop where
  apps : s'.apps = s.apps
  owned : s'.owned = s.owned
  choice : s'.choice = s.choice
  hhTypes : s'.hhTypes = s.hhTypes

theorem SameData.refl (s : OccSim) : SameData s s := ⟨rfl, rfl, rfl, rfl⟩

theorem SameData.trans {s t r : OccSim} (a : SameData s t) (b : SameData t r) : SameData s r :=
  ⟨b.apps.trans a.apps, b.owned.trans a.owned, b.choice.trans a.choice, b.hhTypes.trans a.hhTypes⟩

theorem SameData.appl_eq {s s' : OccSim} (d : SameData s s') (h a : Nat) (x : AppData) : s'.appl h a x = s.appl h a x := by
  unfold appl applOf
  rw [d.owned, d.choice]

/-- The clock and the profiles are the same. -/
structure SameClock (s s' : OccSim) : Prop where
  subgroups : s'.subgroups = s.subgroups
  pdf : s'.pdf = s.pdf
  pos : s'.pos = s.pos
  current : s'.current = s.current
  time : s'.time = s.time

theorem switchOff_spec (s : OccSim) (hs : s.Shaped) (occ : List Nat) (ho : occ.length = s.hhTypes.length) :
    (s.switchOff occ).Shaped ∧ SameData s (s.switchOff occ) ∧ SameClock s (s.switchOff occ) ∧
    ∀ h a n x, occ[h]? = some n → s.apps[a]? = some x → (s.switchOff occ).st h a = (s.appl h a x).switchOffInactive n (s.st h a) := by
  refine ⟨⟨hs.owned, rect_setEntries _ _ hs.left, rect_setEntries _ _ hs.till⟩, ⟨rfl, rfl, rfl, rfl⟩, ⟨rfl, rfl, rfl, rfl, rfl⟩, ?_⟩
  intro h a n x hn hx
  have hh : h < s.hhTypes.length := by rw [← ho]; exact (List.getElem?_eq_some_iff.1 hn).1
  have ha : a < s.apps.length := (List.getElem?_eq_some_iff.1 hx).1
  obtain ⟨l, el⟩ := hs.left.ent hh ha
  obtain ⟨t, et⟩ := hs.till.ent hh ha
  have hst : s.st h a = ⟨l, t⟩ := by unfold st; rw [ent_getD el, ent_getD et]
  have hmask : ent ((occ.map fun n => decide (n = 0)).map fun r => (s.apps.map fun x => x.switchOff).map fun c => r && c) h a = some (decide (n = 0) && x.switchOff) := by
    unfold ent
    simp [hn, hx]
  have hval := off_values (occ.map fun n => decide (n = 0)) (s.apps.map fun x => x.switchOff) s.till (s.apps.map fun x => (x.delay : Int)) (by rw [List.length_map, hs.till.1, ho])
    (fun r hr => by rw [List.length_map]; exact hs.till.2 r hr) (by simp) 0
  rw [hst]
  unfold switchOff st Appl.switchOffInactive
  simp only
  rw [hval]
  change (⟨((setEntries s.left (trueAt _) ((trueAt _).map fun _ => 0)).getD h []).getD a 0, ((setEntries s.till (trueAt _) ((trueAt _).map _)).getD h []).getD a 0⟩ : ApplState) = _
  by_cases hc : (decide (n = 0) && x.switchOff) = true
  · rw [hc] at hmask
    obtain ⟨i, hi⟩ := List.mem_iff_getElem?.1 ((mem_trueAt _ _ _).2 hmask)
    have e1 := setEntries_hit (trueAt _) ((trueAt _).map fun _ => (0 : Rat)) hs.left (trueAt_nodup _) h a hh ha i 0 hi (by rw [List.getElem?_map, hi]; rfl)
    have e2 := setEntries_hit (trueAt _) ((trueAt _).map fun q => min ((s.till.getD (q.1 - 0) []).getD q.2 0) ((s.apps.map fun x => (x.delay : Int)).getD q.2 0)) hs.till (trueAt_nodup _) h a hh ha i _ hi
      (by rw [List.getElem?_map, hi]; rfl)
    rw [ent_getD e1, ent_getD e2, if_pos (by simpa [appl, applOf] using hc)]
    simp only [Nat.sub_zero, ent_getD et, appl, applOf]
    rw [List.getD_eq_getElem?_getD (l := List.map _ _), List.getElem?_map, hx]
    rfl
  · have hnm : (h, a) ∉ trueAt ((occ.map fun n => decide (n = 0)).map fun r => (s.apps.map fun x => x.switchOff).map fun c => r && c) := by
      rw [mem_trueAt, hmask]
      intro c
      exact hc (Option.some.inj c)
    rw [ent_getD ((setEntries_miss _ _ hs.left h a hh ha hnm).trans el), ent_getD ((setEntries_miss _ _ hs.till h a hh ha hnm).trans et), if_neg (by simpa [appl, applOf] using hc)]

theorem decrement_spec (s : OccSim) (hs : s.Shaped) :
    s.decrement.Shaped ∧ SameData s s.decrement ∧ SameClock s s.decrement ∧
    ∀ h a, h < s.hhTypes.length → a < s.apps.length → s.decrement.st h a = Appl.decrement (s.st h a) := by
  refine ⟨⟨hs.owned, rect_map hs.left _, rect_map hs.till _⟩, ⟨rfl, rfl, rfl, rfl⟩, ⟨rfl, rfl, rfl, rfl, rfl⟩, ?_⟩
  intro h a hh ha
  obtain ⟨l, el⟩ := hs.left.ent hh ha
  obtain ⟨t, et⟩ := hs.till.ent hh ha
  have hst : s.st h a = ⟨l, t⟩ := by unfold st; rw [ent_getD el, ent_getD et]
  rw [hst]
  unfold decrement st Appl.decrement
  simp only
  rw [ent_getD ((ent_map _ _ _ _).trans (by rw [el]; rfl)), ent_getD ((ent_map _ _ _ _).trans (by rw [et]; rfl))]

theorem app_ok (s : OccSim) (at' : List (Nat × Nat)) (hat : ∀ q ∈ at', q.2 < s.apps.length) :
    ∃ xs : List AppData, (at'.mapM fun q => s.app q.2) = .ok xs ∧ xs.length = at'.length ∧ ∀ (i : Nat) (q : Nat × Nat), at'[i]? = some q → xs[i]? = s.apps[q.2]? := by
  induction at' with
  | nil => exact ⟨[], rfl, rfl, by simp⟩
  | cons q qs ih =>
    obtain ⟨xs, e, hl, h⟩ := ih fun r hr => hat r (List.mem_cons_of_mem _ hr)
    obtain ⟨x, hx⟩ : ∃ x, s.apps[q.2]? = some x := ⟨_, List.getElem?_eq_getElem (hat q List.mem_cons_self)⟩
    refine ⟨x :: xs, ?_, by simp [hl], ?_⟩
    · have : s.app q.2 = .ok x := by unfold app pyGet; rw [hx]
      simp only [List.mapM_cons, bind, Except.bind, this, e, pure, Except.pure]
    · intro i r hi
      cases i with
      | zero => simp only [List.getElem?_cons_zero, Option.some.injEq] at hi ⊢; rw [← hi, hx]
      | succ i => simpa using h i r (by simpa using hi)

theorem sampleDurations_spec (s : OccSim) (v : Nat → Nat) (at' : List (Nat × Nat)) (hat : ∀ q ∈ at', q.2 < s.apps.length) :
    ∃ ds : List Rat, s.sampleDurations v at' = .ok ds ∧ ds.length = at'.length ∧
      ∀ (i : Nat) (q : Nat × Nat) x, at'[i]? = some q → s.apps[q.2]? = some x → x.usesWater = false →
        ds[i]? = some (if s.choice.duration q.1 q.2 > 0 then (s.choice.duration q.1 q.2 : Rat) else x.info.meanDuration) := by
  obtain ⟨xs, e, hl, h⟩ := s.app_ok at' hat
  refine ⟨_, by unfold sampleDurations durationsOf; unfold app at e; simp only [bind, Except.bind, e]; rfl, by simp [scatter_length, hl], ?_⟩
  intro i q x hi hx hw
  have hxi := (h i q hi).trans hx
  have hs := scatter_false (xs.map fun x => x.usesWater) (xs.map fun x => x.info.meanDuration)
    ((gather (xs.map fun x => x.usesWater) (xs.map fun x => x.flow)).zipIdx.map fun q => (v q.2 : Rat) / q.1) i (by rw [List.getElem?_map, hxi, Option.map_some, hw])
  rw [List.getElem?_map, hxi, Option.map_some] at hs
  rw [List.getElem?_map, zip_get (z := (x.info.meanDuration, s.choice.duration q.1 q.2)) hs (by rw [List.getElem?_map, hi]; rfl)]
  rfl

theorem switchOnWater_spec (s : OccSim) (hs : s.Shaped) (v : Nat → Nat) (at' : List (Nat × Nat)) (hnd : at'.Nodup) (hat : ∀ q ∈ at', q.2 < s.apps.length) :
    ∃ s', s.switchOnWater v at' = .ok s' ∧ s'.Shaped ∧ SameData s s' ∧ SameClock s s' ∧
      ∀ h a x, h < s.hhTypes.length → s.apps[a]? = some x → s'.st h a = if (h, a) ∈ at' then
        ⟨(v (at'.idxOf (h, a)) : Rat) / x.flow, truncRat ((v (at'.idxOf (h, a)) : Rat) / x.flow + x.delay)⟩ else s.st h a := by
  obtain ⟨xs, e, hl, hxs⟩ := s.app_ok at' hat
  refine ⟨{ s with left := setEntries s.left at' (xs.zipIdx.map fun q => (v q.2 : Rat) / q.1.flow), till := setEntries s.till at' (((xs.zipIdx.map fun q => (v q.2 : Rat) / q.1.flow).zip (xs.map fun x => (x.delay : Rat))).map fun q => truncRat (q.1 + q.2)) },
    by unfold switchOnWater; simp only [bind, Except.bind, e], ⟨hs.owned, rect_setEntries _ _ hs.left, rect_setEntries _ _ hs.till⟩, ⟨rfl, rfl, rfl, rfl⟩, ⟨rfl, rfl, rfl, rfl, rfl⟩, ?_⟩
  intro h a x hh hx
  have ha : a < s.apps.length := (List.getElem?_eq_some_iff.1 hx).1
  by_cases hm : (h, a) ∈ at'
  · rw [if_pos hm]
    have hi : at'[at'.idxOf (h, a)]? = some (h, a) := List.getElem?_idxOf hm
    have hxi := (hxs _ _ hi).trans hx
    have hd : (xs.zipIdx.map fun q => (v q.2 : Rat) / q.1.flow)[at'.idxOf (h, a)]? = some ((v (at'.idxOf (h, a)) : Rat) / x.flow) := by
      rw [List.getElem?_map, List.getElem?_zipIdx, hxi]
      simp
    have e1 := setEntries_hit at' _ hs.left hnd h a hh ha _ _ hi hd
    have e2 := setEntries_hit at' (((xs.zipIdx.map fun q => (v q.2 : Rat) / q.1.flow).zip (xs.map fun x => (x.delay : Rat))).map fun q => truncRat (q.1 + q.2)) hs.till hnd h a hh ha _
      (truncRat ((v (at'.idxOf (h, a)) : Rat) / x.flow + x.delay)) hi
      (by rw [List.getElem?_map, zip_get (z := (_, (x.delay : Rat))) hd (by rw [List.getElem?_map, hxi]; rfl)]; rfl)
    unfold st
    rw [ent_getD e1, ent_getD e2]
  · rw [if_neg hm]
    unfold st
    obtain ⟨l, el⟩ := hs.left.ent hh ha
    obtain ⟨t, et⟩ := hs.till.ent hh ha
    rw [ent_getD ((setEntries_miss _ _ hs.left h a hh ha hm).trans el), ent_getD ((setEntries_miss _ _ hs.till h a hh ha hm).trans et), ent_getD el, ent_getD et]

/-- The positions that are water fixtures. -/
def fixtures (s : OccSim) (at' : List (Nat × Nat)) : List (Nat × Nat) := at'.filter fun q => ((s.apps[q.2]?).map fun x => x.usesWater).getD false

theorem fixtures_eq (s : OccSim) (at' : List (Nat × Nat)) (xs : List AppData) (hl : xs.length = at'.length) (h : ∀ (i : Nat) (q : Nat × Nat), at'[i]? = some q → xs[i]? = s.apps[q.2]?) :
    ((at'.zip xs).filter fun q => q.2.usesWater).map (fun q => q.1) = s.fixtures at' := by
  unfold fixtures
  induction at' generalizing xs with
  | nil => simp
  | cons q qs ih =>
    obtain ⟨x, xs, rfl⟩ : ∃ x r', xs = x :: r' := by cases xs with | nil => simp at hl | cons x r => exact ⟨x, r, rfl⟩
    have hx : s.apps[q.2]? = some x := (h 0 q rfl).symm
    have hih := ih xs (by simpa using hl) fun i r hi => by simpa using h (i + 1) r (by simpa using hi)
    simp only [List.zip_cons_cons, List.filter_cons, hx, Option.map_some, Option.getD_some]
    by_cases hw : x.usesWater = true
    · rw [if_pos hw, if_pos hw, List.map_cons, hih]
    · rw [if_neg hw, if_neg hw, hih]

theorem switchOn_spec (s : OccSim) (hs : s.Shaped) (d : OccDraws) (at' : List (Nat × Nat)) (hnd : at'.Nodup) (hat : ∀ q ∈ at', q.2 < s.apps.length) :
    ∃ s', s.switchOn d at' = .ok s' ∧ s'.Shaped ∧ SameData s s' ∧ SameClock s s' ∧
      ∀ h a x, h < s.hhTypes.length → s.apps[a]? = some x → s'.st h a = if (h, a) ∈ at' then (s.appl h a x).occSwitchOn (d.volume ((s.fixtures at').idxOf (h, a))) else s.st h a := by
  obtain ⟨xs, e, hl, hxs⟩ := s.app_ok at' hat
  obtain ⟨ds, ed, hdl, hds⟩ := s.sampleDurations_spec d.unused at' hat
  have hfix := s.fixtures_eq at' xs hl hxs
  generalize hs1 : ({ s with left := setEntries s.left at' ds, till := setEntries s.till at' ((ds.zip (xs.map fun x => x.delay)).map fun q => truncRat (q.1 + (q.2 : Rat))) } : OccSim) = s1
  have hd1 : SameData s s1 := by subst hs1; exact ⟨rfl, rfl, rfl, rfl⟩
  have hc1 : SameClock s s1 := by subst hs1; exact ⟨rfl, rfl, rfl, rfl, rfl⟩
  have hsh1 : s1.Shaped := by subst hs1; exact ⟨hs.owned, rect_setEntries _ _ hs.left, rect_setEntries _ _ hs.till⟩
  have hst1 : ∀ h a x, h < s.hhTypes.length → s.apps[a]? = some x → (((h, a) ∉ at' → s1.st h a = s.st h a) ∧
      ((h, a) ∈ at' → x.usesWater = false → s1.st h a = (s.appl h a x).occSwitchOn (d.volume ((s.fixtures at').idxOf (h, a))))) := by
    intro h a x hh hx
    have ha : a < s.apps.length := (List.getElem?_eq_some_iff.1 hx).1
    subst hs1
    refine ⟨fun hm => ?_, fun hm hw => ?_⟩
    · unfold st
      obtain ⟨l, el⟩ := hs.left.ent hh ha
      obtain ⟨t, et⟩ := hs.till.ent hh ha
      rw [ent_getD ((setEntries_miss _ _ hs.left h a hh ha hm).trans el), ent_getD ((setEntries_miss _ _ hs.till h a hh ha hm).trans et), ent_getD el, ent_getD et]
    · have hi : at'[at'.idxOf (h, a)]? = some (h, a) := List.getElem?_idxOf hm
      have hxi := (hxs _ _ hi).trans hx
      have hd := hds _ _ x hi hx hw
      simp only at hd
      have e1 := setEntries_hit at' _ hs.left hnd h a hh ha _ _ hi hd
      have e2 := setEntries_hit at' ((ds.zip (xs.map fun x => x.delay)).map fun q => truncRat (q.1 + (q.2 : Rat))) hs.till hnd h a hh ha _
        (truncRat ((if s.choice.duration h a > 0 then (s.choice.duration h a : Rat) else x.info.meanDuration) + x.delay)) hi
        (by rw [List.getElem?_map, zip_get (z := (_, x.delay)) hd (by rw [List.getElem?_map, hxi]; rfl)]; rfl)
      unfold st Appl.occSwitchOn Appl.sampleDuration
      simp only [appl, applOf, hw, Bool.false_eq_true, if_false]
      rw [ent_getD e1, ent_getD e2]
  obtain ⟨s', e', h1, h2, h3, h4⟩ := s1.switchOnWater_spec hsh1 d.volume (s.fixtures at') (hnd.filter _) (fun q hq => by rw [hd1.apps]; exact hat q (List.mem_filter.1 hq).1)
  refine ⟨s', ?_, h1, hd1.trans h2, ⟨h3.subgroups.trans hc1.subgroups, h3.pdf.trans hc1.pdf, h3.pos.trans hc1.pos, h3.current.trans hc1.current, h3.time.trans hc1.time⟩, ?_⟩
  · unfold switchOn
    simp only [bind, Except.bind, e, ed, hfix]
    rw [hs1]
    exact e'
  · intro h a x hh hx
    rw [h4 h a x (by rw [hd1.hhTypes]; exact hh) (by rw [hd1.apps]; exact hx)]
    obtain ⟨hmiss, hhit⟩ := hst1 h a x hh hx
    by_cases hm : (h, a) ∈ at'
    · rw [if_pos hm]
      by_cases hw : x.usesWater = true
      · rw [if_pos (by unfold fixtures; exact List.mem_filter.2 ⟨hm, by simp [hx, hw]⟩)]
        unfold Appl.occSwitchOn
        simp only [appl, applOf, hw, if_true]
      · rw [if_neg (by unfold fixtures; intro c; simpa [hx, hw] using (List.mem_filter.1 c).2)]
        exact hhit hm (by simpa using hw)
    · rw [if_neg hm, if_neg (fun c : (h, a) ∈ s.fixtures at' => hm (List.mem_filter.1 c).1)]
      exact hmiss hm

theorem addTime_day (g g' : Subgroup) (t : Int) (h : ∀ k, k ≠ kWeekday → k ≠ kQuarter → g'.at k = g.at k) :
    ∃ g'', addTime g' t true false false false = .ok g'' ∧ OnDay g (dayNumber t) g'' := by
  have hne : kWeekday ≠ kQuarter := by decide
  have hw : isoWeekday t ≤ 5 ↔ dayNumber t % 7 ≤ 4 := by unfold isoWeekday; omega
  refine ⟨_, rfl, ⟨?_, ?_, ?_⟩⟩
  · unfold Subgroup.at
    simp only [if_true, Bool.false_eq_true, if_false, lookup_popKey, if_neg hne]
    by_cases hd : isoWeekday t ≤ 5
    · rw [if_pos hd, lookup_setKey, if_pos rfl, if_pos (hw.1 hd)]
    · rw [if_neg hd, lookup_setKey, if_pos rfl, if_neg (fun c => hd (hw.2 c))]
  · unfold Subgroup.at
    simp only [if_true, Bool.false_eq_true, if_false, lookup_popKey]
  · intro k h1 h2
    rw [← h k h1 h2]
    unfold Subgroup.at
    simp only [if_true, Bool.false_eq_true, if_false, lookup_popKey, if_neg h2]
    by_cases hd : isoWeekday t ≤ 5
    · rw [if_pos hd, lookup_setKey, if_neg h1]
    · rw [if_neg hd, lookup_setKey, if_neg h1]

/-- The subgroups of the simulator are those given, on some day. -/
def Groups (G : List Subgroup) (R : Subgroup → Subgroup → Prop) (s : OccSim) : Prop :=
  s.subgroups.length = G.length ∧ ∀ (k : Nat) g, G[k]? = some g → ∃ g', s.subgroups[k]? = some g' ∧ R g g'

theorem loadDay_spec (profiles : Subgroup → List (Str × List (List Rat))) (G : List Subgroup) (m : Nat) (s : OccSim) (t : Int) (hc : CompleteProfiles profiles G s.apps m) (ha : s.apps ≠ [])
    (hg : s.Groups G fun g g' => ∀ k, k ≠ kWeekday → k ≠ kQuarter → g'.at k = g.at k) :
    ∃ s', s.loadDay profiles t = .ok s' ∧ SameData s s' ∧ s'.left = s.left ∧ s'.till = s.till ∧ s'.current = s.current ∧ s'.time = s.time ∧ s'.pos = 0 ∧
      s'.Groups G (fun g g' => OnDay g (dayNumber t) g') ∧ activityPdf (s'.apps.map (·.info)) profiles s'.subgroups = .ok s'.pdf := by
  obtain ⟨subs, e, hl, hr⟩ := mapM_rel (fun g => addTime g t true false false false) (fun g' g'' => ∀ g, (∀ k, k ≠ kWeekday → k ≠ kQuarter → g'.at k = g.at k) → OnDay g (dayNumber t) g'') s.subgroups
    (fun g' _ => by
      obtain ⟨g'', e, -⟩ := addTime_day g' g' t fun _ _ _ => rfl
      refine ⟨g'', e, fun g h => ?_⟩
      obtain ⟨g3, e3, h3⟩ := addTime_day g g' t h
      rw [e] at e3
      exact Except.ok.inj e3 ▸ h3)
  have hday : ∀ (k : Nat) g, G[k]? = some g → ∃ g', subs[k]? = some g' ∧ OnDay g (dayNumber t) g' := by
    intro k g hk
    obtain ⟨g', e1, e2⟩ := hg.2 k g hk
    obtain ⟨g'', e3, e4⟩ := hr k g' e1
    exact ⟨g'', e3, e4 g e2⟩
  obtain ⟨pdf, hpdf⟩ := C88_profiles (s.apps.map (·.info)) profiles subs (by
    intro g' hg' x hx
    obtain ⟨k, hk⟩ := List.mem_iff_getElem?.1 hg'
    have hkl : k < G.length := by
      have := (List.getElem?_eq_some_iff.1 hk).1
      rw [hl, hg.1] at this
      exact this
    obtain ⟨g2, e1, e2⟩ := hday k G[k] (List.getElem?_eq_getElem hkl)
    rw [hk] at e1
    obtain rfl := Option.some.inj e1
    obtain ⟨y, hy, rfl⟩ := List.mem_map.1 hx
    obtain ⟨profile, h1, -⟩ := hc G[k] (List.getElem_mem hkl) _ _ e2 y hy
    rw [h1]
    rfl)
  refine ⟨{ s with subgroups := subs, pdf := pdf, pos := 0 }, ?_, ⟨rfl, rfl, rfl, rfl⟩, rfl, rfl, rfl, rfl, rfl, ⟨hl.trans hg.1, hday⟩, hpdf⟩
  unfold loadDay
  simp only [bind, Except.bind, e, hpdf, if_neg ha]

theorem nRows_eq (profiles : Subgroup → List (Str × List (List Rat))) (G : List Subgroup) (m : Nat) (s : OccSim) (hc : CompleteProfiles profiles G s.apps m) (ha : s.apps ≠ []) (hG : G ≠ [])
    (day : Int) (hg : s.Groups G fun g g' => OnDay g day g') (hp : activityPdf (s.apps.map (·.info)) profiles s.subgroups = .ok s.pdf) : nRows s.pdf = 144 := by
  obtain ⟨g, Gs, rfl⟩ := List.exists_cons_of_ne_nil hG
  obtain ⟨g', e1, e2⟩ := hg.2 0 g rfl
  obtain ⟨-, hget⟩ := mapM_ok_get _ _ _ hp
  obtain ⟨byAct, hb, hin⟩ := hget 0 g' e1
  obtain ⟨-, hget2⟩ := mapM_ok_get _ _ _ hin
  have hne : ((s.apps.map (·.info)).map (·.activity)).dedup ≠ [] := by
    intro c
    obtain ⟨x, hx⟩ := List.exists_mem_of_ne_nil _ ha
    have : x.info.activity ∈ ((s.apps.map (·.info)).map (·.activity)).dedup := by
      rw [List.mem_dedup, List.map_map]
      exact List.mem_map.2 ⟨x, hx, rfl⟩
    rw [c] at this
    cases this
  obtain ⟨act, acts, hacts⟩ := List.exists_cons_of_ne_nil hne
  obtain ⟨pr, hpr, hval⟩ := hget2 0 act (by rw [hacts]; rfl)
  have hmem : act ∈ ((s.apps.map (·.info)).map (·.activity)).dedup := by rw [hacts]; exact List.mem_cons_self
  rw [List.mem_dedup, List.map_map] at hmem
  obtain ⟨x, hx, hxa⟩ := List.mem_map.1 hmem
  obtain ⟨profile, h1, h2, -⟩ := hc g List.mem_cons_self day g' e2 x hx
  have hxa' : x.info.activity = act := hxa
  rw [hxa', lookup_eq] at h1
  rw [h1] at hval
  have : profile = pr := Except.ok.inj hval
  unfold nRows
  rw [List.head?_eq_getElem?, hb, Option.bind_some, List.head?_eq_getElem?, hpr, ← this, Option.map_some, Option.getD_some, h2]

theorem probs_spec (profiles : Subgroup → List (Str × List (List Rat))) (s : OccSim) (occ : List Nat) (row : Nat) (hcur : s.current = some (s.pdf, row))
    (hp : activityPdf (s.apps.map (·.info)) profiles s.subgroups = .ok s.pdf) (ho : occ.length = s.hhTypes.length)
    (hent : ∀ (h n : Nat) x, occ[h]? = some n → x ∈ s.apps → ∃ k g p, s.hhTypes[h]? = some k ∧ s.subgroups[k]? = some g ∧ ProfileEntry profiles g x.info.activity row n p) :
    ∃ P, s.probs occ = .ok P ∧ Rect s.hhTypes.length s.apps.length P ∧
      ∀ (h a n k : Nat) x g p, occ[h]? = some n → s.apps[a]? = some x → s.hhTypes[h]? = some k → s.subgroups[k]? = some g → ProfileEntry profiles g x.info.activity row n p →
        ent P h a = some (if s.available h a then x.info.switchOnProb * p else 0) := by
  have hone : ∀ (h a n k : Nat) x g p, occ[h]? = some n → s.apps[a]? = some x → s.hhTypes[h]? = some k → s.subgroups[k]? = some g → ProfileEntry profiles g x.info.activity row n p →
      (do
        let n ← pyGet occ h
        let x ← s.app a
        switchonProb (s.apps.map (·.info)) s.pdf s.hhTypes row n (s.available h a) h x.info) = Except.ok (if s.available h a then x.info.switchOnProb * p else 0) := by
    intro h a n k x g p hn hx hk hg hpe
    obtain ⟨profile, r, e1, e2, e3⟩ := hpe
    have := C88_probability (s.apps.map (·.info)) profiles s.subgroups s.hhTypes s.pdf hp h k row n g x.info profile r p (s.available h a) hk hg (List.mem_map.2 ⟨x, List.mem_of_getElem? hx, rfl⟩) e1 e2 e3
    have h1 : pyGet occ h = .ok n := by unfold pyGet; rw [hn]
    have h2 : s.app a = .ok x := by unfold app pyGet; rw [hx]
    simp only [bind, Except.bind, h1, h2, this]
  obtain ⟨P, e, hl, hr⟩ := mapM_rel (fun h => (List.range s.apps.length).mapM fun a => do
      let n ← pyGet occ h
      let x ← s.app a
      switchonProb (s.apps.map (·.info)) s.pdf s.hhTypes row n (s.available h a) h x.info)
    (fun h r => r.length = s.apps.length ∧ ∀ (a n k : Nat) x g p, occ[h]? = some n → s.apps[a]? = some x → s.hhTypes[h]? = some k → s.subgroups[k]? = some g → ProfileEntry profiles g x.info.activity row n p →
        r[a]? = some (if s.available h a then x.info.switchOnProb * p else 0)) (List.range s.hhTypes.length) (by
    intro h hh
    have hh : h < occ.length := by rw [ho]; simpa using hh
    have hn : occ[h]? = some occ[h] := List.getElem?_eq_getElem hh
    obtain ⟨r, e, hl, hr⟩ := mapM_rel (fun a => (do
      let n ← pyGet occ h
      let x ← s.app a
      switchonProb (s.apps.map (·.info)) s.pdf s.hhTypes row n (s.available h a) h x.info : Except PyErr Rat))
      (fun a y => ∀ (n k : Nat) x g p, occ[h]? = some n → s.apps[a]? = some x → s.hhTypes[h]? = some k → s.subgroups[k]? = some g → ProfileEntry profiles g x.info.activity row n p →
        y = if s.available h a then x.info.switchOnProb * p else 0) (List.range s.apps.length) (by
      intro a ha
      have ha : a < s.apps.length := by simpa using ha
      have hx : s.apps[a]? = some s.apps[a] := List.getElem?_eq_getElem ha
      obtain ⟨k, g, p, hk, hg, hpe⟩ := hent h _ _ hn (List.getElem_mem ha)
      refine ⟨_, hone h a _ k _ g p hn hx hk hg hpe, ?_⟩
      intro n' k' x' g' p' hn' hx' hk' hg' hpe'
      have e1 := hone h a _ k _ g p hn hx hk hg hpe
      have e2 := hone h a _ k' _ g' p' hn' hx' hk' hg' hpe'
      rw [e1] at e2
      exact Except.ok.inj e2)
    refine ⟨r, e, by simpa using hl, ?_⟩
    intro a n k x g p hn hx hk hg hpe
    have ha : a < s.apps.length := (List.getElem?_eq_some_iff.1 hx).1
    obtain ⟨y, hy, hy2⟩ := hr a a (by rw [List.getElem?_range ha])
    rw [hy, hy2 n k x g p hn hx hk hg hpe])
  refine ⟨P, ?_, ⟨by simpa using hl, ?_⟩, ?_⟩
  · unfold probs
    rw [hcur]
    exact e
  · intro r hr'
    obtain ⟨h, hh⟩ := List.mem_iff_getElem?.1 hr'
    have hlt := (List.getElem?_eq_some_iff.1 hh).1
    rw [hl] at hlt
    obtain ⟨y, hy, hy2, -⟩ := hr h h (by rw [List.getElem?_range (by simpa using hlt)])
    rw [hh] at hy
    rw [Option.some.inj hy]
    exact hy2
  · intro h a n k x g p hn hx hk hg hpe
    have hh : h < s.hhTypes.length := by rw [← ho]; exact (List.getElem?_eq_some_iff.1 hn).1
    obtain ⟨y, hy, -, hy2⟩ := hr h h (by rw [List.getElem?_range hh])
    unfold ent
    rw [hy, Option.bind_some]
    exact hy2 a n k x g p hn hx hk hg hpe

/-- The clock of the simulator is that of `PdfClock`. -/
structure Sync (profiles : Subgroup → List (Str × List (List Rat))) (G : List Subgroup) (s : OccSim) (c : PdfClock) : Prop where
  time : s.time = c.time
  groups : s.Groups G fun g g' => OnDay g c.day g'
  pdf : activityPdf (s.apps.map (·.info)) profiles s.subgroups = .ok s.pdf
  pos : c.pos = s.pos % 144
  cur : ∀ r, c.current = some r → s.current = some (s.pdf, r)

/-- A way to number the switched-on fixtures that gives different numbers to all positions. -/
def rankOf (L : List (Nat × Nat)) (q : Nat × Nat) : Nat := if q ∈ L then L.idxOf q else L.length + Nat.pair q.1 q.2

theorem rankOf_injective (L : List (Nat × Nat)) : Function.Injective (rankOf L) := by
  intro p q h
  unfold rankOf at h
  by_cases hp : p ∈ L
  · rw [if_pos hp] at h
    have := List.idxOf_lt_length_iff.2 hp
    by_cases hq : q ∈ L
    · rw [if_pos hq] at h
      exact (List.idxOf_inj hp).1 h
    · rw [if_neg hq] at h
      omega
  · rw [if_neg hp] at h
    by_cases hq : q ∈ L
    · rw [if_pos hq] at h
      have := List.idxOf_lt_length_iff.2 hq
      omega
    · rw [if_neg hq] at h
      have := (Nat.pair_eq_pair).1 (Nat.add_left_cancel h)
      exact Prod.ext this.1 this.2

/-- What the step number says about an entry. -/
def EntrySpec (profiles : Subgroup → List (Str × List (List Rat))) (G : List Subgroup) (s : OccSim) (day : Int) (row : Nat) (h : Nat) (x : AppData) (n : Nat) (p : Rat) : Prop :=
  ∃ k g g', s.hhTypes[h]? = some k ∧ G[k]? = some g ∧ OnDay g day g' ∧ ProfileEntry profiles g' x.info.activity row n p

theorem step_spec (profiles : Subgroup → List (Str × List (List Rat))) (refresh : Int) (G : List Subgroup) (m : Nat) (s : OccSim) (c : PdfClock) (hs : s.Shaped) (hy : s.Sync profiles G c)
    (hc : CompleteProfiles profiles G s.apps m) (ha : s.apps ≠ []) (hG : G ≠ []) (hk : ∀ (h k : Nat), s.hhTypes[h]? = some k → k < G.length) (h10 : refresh % 600000000 = 0)
    (occ : List Nat) (ho : occ.length = s.hhTypes.length) (hm : ∀ n ∈ occ, n ≤ m) (d : OccDraws) (row : Nat) (hrow : (c.step refresh).current = some row) (hr : row < 144) :
    ∃ s', s.step profiles refresh occ d = .ok s' ∧ s'.Shaped ∧ SameData s s' ∧ s'.Sync profiles G (c.step refresh) ∧ ∃ rank : Nat × Nat → Nat, Function.Injective rank ∧
      ∀ (h a n : Nat) x, occ[h]? = some n → s.apps[a]? = some x → ∃ p, s.EntrySpec profiles G (c.step refresh).day row h x n p ∧
        s'.st h a = (s.appl h a x).occStep (s.st h a) { active := n, prob := x.info.switchOnProb * p, u := d.u h a, volume := d.volume (rank (h, a)) } := by
  -- the profiles of the day
  obtain ⟨s1, c1, e1, ec1, hd1, hl1, ht1, hy1, hcur1⟩ : ∃ s1 c1, (if firesBeforeRefresh refresh s.time 60000000 then s.loadDay profiles (s.time + 60000000) else .ok s) = .ok s1 ∧
      c1 = (if firesBeforeRefresh refresh c.time 60000000 then { c with day := dayNumber (c.time + 60000000), pos := 0 } else c) ∧ SameData s s1 ∧ s1.left = s.left ∧ s1.till = s.till ∧
      (s1.time = c1.time ∧ (s1.Groups G fun g g' => OnDay g c1.day g') ∧ activityPdf (s1.apps.map (·.info)) profiles s1.subgroups = .ok s1.pdf ∧ c1.pos = s1.pos % 144) ∧
      (PdfClock.minute s.time % 10 ≠ 0 → ∀ r, c1.current = some r → s1.current = some (s1.pdf, r)) := by
    by_cases hf : firesBeforeRefresh refresh s.time 60000000 = true
    · obtain ⟨s1, e1, h1, h2, h3, h4, h5, h6, h7, h8⟩ := loadDay_spec profiles G m s (s.time + 60000000) hc ha ⟨hy.groups.1, fun k g hg => by
        obtain ⟨g', a1, a2⟩ := hy.groups.2 k g hg
        exact ⟨g', a1, a2.rest⟩⟩
      refine ⟨s1, _, by rw [if_pos hf]; exact e1, rfl, h1, h2, h3, ?_, ?_⟩
      · rw [if_pos (by rw [← hy.time]; exact hf)]
        exact ⟨h5.trans hy.time, by simp only; rw [← hy.time]; exact h7, h8, by simp only; rw [h6]⟩
      · intro hmin
        exfalso
        apply hmin
        unfold firesBeforeRefresh timeOfDay DAY at hf
        have := eq_of_beq hf
        unfold PdfClock.minute timeOfDay DAY HOUR
        omega
    · refine ⟨s, c, by rw [if_neg hf], by rw [if_neg (by rw [← hy.time]; exact hf)], SameData.refl s, rfl, rfl, ⟨hy.time, hy.groups, hy.pdf, hy.pos⟩, fun _ => hy.cur⟩
  obtain ⟨ht, hg, hpdf, hpos⟩ := hy1
  -- the row of the period
  have hn : nRows s1.pdf = 144 := nRows_eq profiles G m s1 (by rw [hd1.apps]; exact hc) (by rw [hd1.apps]; exact ha) hG _ hg hpdf
  obtain ⟨s2, e2, hd2, hl2, ht2, hg2, hpdf2, hpos2, htime2, hcur2⟩ : ∃ s2, (if PdfClock.minute s1.time % 10 = 0 then s1.nextRow else .ok s1) = .ok s2 ∧ SameData s1 s2 ∧ s2.left = s1.left ∧ s2.till = s1.till ∧
      s2.subgroups = s1.subgroups ∧ s2.pdf = s1.pdf ∧ (c.step refresh).pos = s2.pos % 144 ∧ s2.time = s1.time ∧ s2.current = some (s2.pdf, row) := by
    have hst : c.step refresh = (let s := if PdfClock.minute c1.time % 10 = 0 then { c1 with current := some c1.pos, pos := (c1.pos + 1) % PdfClock.ROWS } else c1
        { s with time := s.time + 60000000 }) := by
      rw [ec1]
      rfl
    have hct : c1.time = s.time := by
      rw [ec1]
      split_ifs
      · exact hy.time.symm
      · exact hy.time.symm
    rw [hst] at hrow
    rw [hst]
    by_cases hmin : PdfClock.minute s1.time % 10 = 0
    · rw [ht] at hmin
      simp only [if_pos hmin] at hrow ⊢
      refine ⟨{ s1 with current := some (s1.pdf, s1.pos % nRows s1.pdf), pos := s1.pos + 1 }, ?_, ⟨rfl, rfl, rfl, rfl⟩, rfl, rfl, rfl, rfl, ?_, rfl, ?_⟩
      · rw [if_pos (by rw [ht]; exact hmin)]
        unfold nextRow
        rw [if_neg (by rw [hn]; decide)]
      · show (c1.pos + 1) % 144 = _
        rw [hpos]
        simp only
        omega
      · rw [hn, ← hpos, Option.some.inj hrow]
    · rw [ht] at hmin
      simp only [if_neg hmin] at hrow ⊢
      refine ⟨s1, by rw [ht, if_neg hmin], SameData.refl s1, rfl, rfl, rfl, rfl, hpos, rfl, ?_⟩
      exact hcur1 (by rw [← hct]; exact hmin) row hrow
  have hday : (c.step refresh).day = c1.day ∧ (c.step refresh).time = c1.time + 60000000 := by
    have hst : c.step refresh = (let s := if PdfClock.minute c1.time % 10 = 0 then { c1 with current := some c1.pos, pos := (c1.pos + 1) % PdfClock.ROWS } else c1
        { s with time := s.time + 60000000 }) := by
      rw [ec1]
      rfl
    rw [hst]
    simp only
    split_ifs <;> exact ⟨rfl, rfl⟩
  have hd02 := hd1.trans hd2
  have hs2 : s2.Shaped := by
    refine ⟨?_, ?_, ?_⟩
    · rw [hd02.hhTypes, hd02.apps, hd02.owned]; exact hs.owned
    · rw [hd02.hhTypes, hd02.apps, hl2, hl1]; exact hs.left
    · rw [hd02.hhTypes, hd02.apps, ht2, ht1]; exact hs.till
  have hst2 : ∀ h a, s2.st h a = s.st h a := by
    intro h a
    unfold st
    rw [hl2, hl1, ht2, ht1]
  have hent : ∀ (h n : Nat) x, occ[h]? = some n → x ∈ s.apps → ∃ k g g' p, s.hhTypes[h]? = some k ∧ G[k]? = some g ∧ s2.subgroups[k]? = some g' ∧ OnDay g (c.step refresh).day g' ∧ ProfileEntry profiles g' x.info.activity row n p := by
    intro h n x hn hx
    have hh : h < s.hhTypes.length := by rw [← ho]; exact (List.getElem?_eq_some_iff.1 hn).1
    have hkl := hk h _ (List.getElem?_eq_getElem hh)
    obtain ⟨g', a1, a2⟩ := hg.2 _ _ (List.getElem?_eq_getElem hkl)
    obtain ⟨profile, b1, b2, b3⟩ := hc _ (List.getElem_mem hkl) _ _ a2 x hx
    have hr' : row < profile.length := by rw [b2]; exact hr
    have hn' : n < (profile[row]).length := lt_of_le_of_lt (hm n (List.mem_of_getElem? hn)) (b3 _ (List.getElem_mem hr'))
    exact ⟨_, _, g', _, List.getElem?_eq_getElem hh, List.getElem?_eq_getElem hkl, by rw [hg2]; exact a1, by rw [hday.1]; exact a2, profile, _, b1, List.getElem?_eq_getElem hr', List.getElem?_eq_getElem hn'⟩
  obtain ⟨P, eP, hP, hPe⟩ := probs_spec profiles s2 occ row hcur2 (by rw [hd2.apps, hg2, hpdf2]; exact hpdf) (by rw [hd02.hhTypes]; exact ho) (by
    intro h n x hn hx
    rw [hd02.apps] at hx
    obtain ⟨k, g, g', p, b1, b2, b3, b4, b5⟩ := hent h n x hn hx
    exact ⟨k, g', p, by rw [hd02.hhTypes]; exact b1, b3, b5⟩)
  rw [hd02.hhTypes, hd02.apps] at hP
  -- switching on
  obtain ⟨at', hat'⟩ : ∃ at', at' = trueAt (P.zipIdx.map fun r => r.1.zipIdx.map fun q => decide (d.u r.2 q.2 < q.1)) := ⟨_, rfl⟩
  have hmem : ∀ h a, (h, a) ∈ at' ↔ ∃ p, ent P h a = some p ∧ d.u h a < p := by
    intro h a
    rw [hat', mem_trueAt, ent_mapIdx P (fun h a p => decide (d.u h a < p))]
    cases ent P h a <;> simp
  obtain ⟨s3, e3, hs3, hd3, hc3, hst3⟩ := s2.switchOn_spec hs2 d at' (by rw [hat']; exact trueAt_nodup _) (by
    rintro ⟨h, a⟩ hq
    obtain ⟨p, hp, -⟩ := (hmem h a).1 hq
    rw [hd02.apps]
    exact (hP.of_ent hp).2)
  obtain ⟨hs4, hd4, hc4, hst4⟩ := s3.switchOff_spec hs3 occ (by rw [hd3.hhTypes, hd02.hhTypes]; exact ho)
  obtain ⟨hs5, hd5, hc5, hst5⟩ := (s3.switchOff occ).decrement_spec hs4
  have hd05 : SameData s (s3.switchOff occ).decrement := ((hd02.trans hd3).trans hd4).trans hd5
  refine ⟨{ (s3.switchOff occ).decrement with time := (s3.switchOff occ).decrement.time + 60000000 }, ?_, ⟨hs5.owned, hs5.left, hs5.till⟩, ⟨hd05.apps, hd05.owned, hd05.choice, hd05.hhTypes⟩, ?_, rankOf (s2.fixtures at'), rankOf_injective _, ?_⟩
  · have ho1 : ¬ occ.length ≠ s1.hhTypes.length := by rw [hd1.hhTypes]; exact not_not.2 ho
    have hrest : (do
        let p : List (List Rat) ← s2.probs occ
        let on := p.zipIdx.map fun r => r.1.zipIdx.map fun q => decide (d.u r.2 q.2 < q.1)
        let s ← s2.switchOn d (trueAt on)
        let s := (s.switchOff occ).decrement
        Except.ok { s with time := s.time + 60000000 }) = Except.ok { (s3.switchOff occ).decrement with time := (s3.switchOff occ).decrement.time + 60000000 } := by
      simp only [bind, Except.bind, eP]
      rw [← hat', e3]
    have hmid : (if occ.length ≠ s1.hhTypes.length then Except.error PyErr.assertionError
        else do
          let s ← if PdfClock.minute s1.time % 10 = 0 then s1.nextRow else .ok s1
          let p : List (List Rat) ← s.probs occ
          let on := p.zipIdx.map fun r => r.1.zipIdx.map fun q => decide (d.u r.2 q.2 < q.1)
          let s ← s.switchOn d (trueAt on)
          let s := (s.switchOff occ).decrement
          .ok { s with time := s.time + 60000000 }) = Except.ok { (s3.switchOff occ).decrement with time := (s3.switchOff occ).decrement.time + 60000000 } := by
      rw [if_neg ho1, ← hrest]
      by_cases hmin : PdfClock.minute s1.time % 10 = 0
      · rw [if_pos hmin] at e2
        simp only [if_pos hmin, e2, bind, Except.bind]
      · rw [if_neg hmin] at e2
        simp only [if_neg hmin, bind, Except.bind]
        rw [Except.ok.inj e2]
    rw [← hmid]
    unfold step
    by_cases hf : firesBeforeRefresh refresh s.time 60000000 = true
    · rw [if_pos hf] at e1
      simp only [if_pos hf, e1, bind, Except.bind]
    · rw [if_neg hf] at e1
      simp only [if_neg hf, bind, Except.bind]
      rw [Except.ok.inj e1]
  · refine ⟨?_, ⟨?_, ?_⟩, ?_, ?_, ?_⟩
    · rw [hday.2, ← ht, ← htime2, ← hc3.time, ← hc4.time, ← hc5.time]
    · show (s3.switchOff occ).decrement.subgroups.length = _
      rw [hc5.subgroups, hc4.subgroups, hc3.subgroups, hg2]
      exact hg.1
    · show ∀ (k : Nat) g, G[k]? = some g → ∃ g', (s3.switchOff occ).decrement.subgroups[k]? = some g' ∧ _
      rw [hc5.subgroups, hc4.subgroups, hc3.subgroups, hg2, hday.1]
      exact hg.2
    · show activityPdf ((s3.switchOff occ).decrement.apps.map (·.info)) profiles (s3.switchOff occ).decrement.subgroups = .ok (s3.switchOff occ).decrement.pdf
      rw [hc5.subgroups, hc4.subgroups, hc3.subgroups, hc5.pdf, hc4.pdf, hc3.pdf, hd5.apps, hd4.apps, hd3.apps, hd2.apps, hg2, hpdf2]
      exact hpdf
    · show _ = (s3.switchOff occ).decrement.pos % 144
      rw [hc5.pos, hc4.pos, hc3.pos]
      exact hpos2
    · intro r hr
      show (s3.switchOff occ).decrement.current = some ((s3.switchOff occ).decrement.pdf, r)
      rw [hc5.current, hc4.current, hc3.current, hc5.pdf, hc4.pdf, hc3.pdf, hcur2]
      rw [hrow] at hr
      rw [Option.some.inj hr]
  · intro h a n x hn hx
    have hh : h < s.hhTypes.length := by rw [← ho]; exact (List.getElem?_eq_some_iff.1 hn).1
    have haa : a < s.apps.length := (List.getElem?_eq_some_iff.1 hx).1
    obtain ⟨k, g, g', p, b1, b2, b3, b4, b5⟩ := hent h n x hn (List.mem_of_getElem? hx)
    refine ⟨p, ⟨k, g, g', b1, b2, b4, b5⟩, ?_⟩
    have hPv := hPe h a n k x g' p hn (by rw [hd02.apps]; exact hx) (by rw [hd02.hhTypes]; exact b1) b3 b5
    have hav : s2.available h a = (s.appl h a x).available (s.st h a) := by
      rw [available_eq s2 h a x, hd02.appl_eq, hst2]
    rw [hav] at hPv
    have h5 := hst5 h a (by rw [hd4.hhTypes, hd3.hhTypes, hd02.hhTypes]; exact hh) (by rw [hd4.apps, hd3.apps, hd02.apps]; exact haa)
    have h4 := hst4 h a n x hn (by rw [hd3.apps, hd02.apps]; exact hx)
    have h3 := hst3 h a x (by rw [hd02.hhTypes]; exact hh) (by rw [hd02.apps]; exact hx)
    have hfin : ({ (s3.switchOff occ).decrement with time := (s3.switchOff occ).decrement.time + 60000000 } : OccSim).st h a = (s3.switchOff occ).decrement.st h a := rfl
    rw [hfin, h5, h4, (hd02.trans hd3).appl_eq, h3, hd02.appl_eq, hst2]
    unfold Appl.occStep
    simp only
    have hcond : (h, a) ∈ at' ↔ d.u h a < (if (s.appl h a x).available (s.st h a) = true then 1 else 0) * (x.info.switchOnProb * p) := by
      rw [hmem, hPv]
      by_cases hb : (s.appl h a x).available (s.st h a) = true
      · simp [hb]
      · simp [hb]
    by_cases hin : (h, a) ∈ at'
    · rw [if_pos hin, if_pos (hcond.1 hin)]
      congr 2
      by_cases hw : x.usesWater = true
      · unfold rankOf
        rw [if_pos (by unfold fixtures; exact List.mem_filter.2 ⟨hin, by simp [hd02.apps, hx, hw]⟩)]
      · unfold Appl.occSwitchOn Appl.sampleDuration
        simp [appl, applOf, hw]
    · rw [if_neg hin, if_neg (fun q => hin (hcond.2 q))]

end OccSim

end Demod
