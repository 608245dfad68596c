import Verif.Lemmas.Activity
import Verif.Lemmas.SemiMarkov

/-! # Lemmas: which matrix is used at which time -/

namespace Demod
namespace Markov
variable {L : Type} [DecidableEq L]

/-- Changing the matrices with the same labels: the iterator restarts and the states are kept. -/
theorem set_good {m : Markov L} {N n : Nat} {mats : List (List (List Rat))} (g : Good m N n mats) (labels : List L) (hl : m.labels = labels) (hn : labels.Nodup)
    (hlen : labels.length = n) (mats' : List (List (List Rat))) (ht : IsTpms n mats') :
    ∃ m' : Markov L, m.setTpm mats' true (some labels) = .ok m' ∧ Good m' N n mats' ∧ m'.pos = 1 ∧ m'.labels = labels ∧ m'.states = m.states := by
  have g0 : Good ({ m with cdfs := mats'.map fun mat => mat.map cumsum, pos := 0 } : Markov L) N n mats' := ⟨ht, rfl, g.len, g.valid⟩
  have hnext := good_next g0
  have hlab : ({ m with cdfs := mats'.map fun mat => mat.map cumsum, pos := 0 + 1 } : Markov L).labels = labels := hl
  obtain ⟨m', h1, h2, h3, h4, h5, h6⟩ := assign_spec ({ m with cdfs := mats'.map fun mat => mat.map cumsum, pos := 0 + 1 } : Markov L) labels (by
    intro s hs
    rw [hlab, hlen]
    exact g.valid s hs)
  have hst : m'.states = m.states := by
    apply List.ext_getElem? 
    intro h
    by_cases hh : h < m.states.length
    · obtain ⟨s, hs⟩ : ∃ s, m.states[h]? = some s := ⟨_, List.getElem?_eq_getElem hh⟩
      have hslt : s < labels.length := by rw [hlen]; exact g.valid s (List.mem_of_getElem? hs)
      obtain ⟨s', e1, e2, -⟩ := h6 h s labels[s] hs (by rw [hlab]; exact List.getElem?_eq_getElem hslt)
      have e3 := e2 (List.count_eq_one_of_mem hn (List.getElem_mem hslt))
      obtain ⟨hs'lt, e4⟩ := List.getElem?_eq_some_iff.1 e3
      have : s' = s := (List.Nodup.getElem_inj_iff hn).1 e4
      rw [e1, hs, this]
    · rw [List.getElem?_eq_none (l := m.states) (Nat.le_of_not_lt hh), List.getElem?_eq_none (l := m'.states) (by rw [h3]; exact Nat.le_of_not_lt hh)]
  refine ⟨m', ?_, ⟨ht, by rw [h4], by rw [hst, g.len], by rw [hst]; exact g.valid⟩, by rw [h5], h2, hst⟩
  unfold setTpm
  have hchk : checkValidCdf cdfEps ((mats'.map fun (mat : List (List Rat)) => mat.map cumsum).flatten) = .ok true := by
    have : (mats'.map fun (mat : List (List Rat)) => mat.map cumsum).flatten = mats'.flatten.map cumsum := by
      rw [List.map_flatten]
    rw [this]
    apply check_ok
    intro r hr
    obtain ⟨mat, hm, hrm⟩ := List.mem_flatten.1 hr
    exact ((ht.2 mat hm).2 r hrm).2
  simp only [if_true, hchk]
  show (do let q ← ({ m with cdfs := mats'.map fun (mat : List (List Rat)) => mat.map cumsum, pos := 0 } : Markov L).next; q.2.assignNewLabels labels) = _
  rw [hnext]
  exact h1

theorem timedRun_append (aware : Bool) (load : Int → List (List (List Rat)) × List L) (refresh step : Int) (t : Int) (m : Markov L) (a b : List (List Rat)) :
    timedRun aware load refresh step t m (a ++ b) = (timedRun aware load refresh step t m a).bind fun m' => timedRun aware load refresh step (t + a.length * step) m' b := by
  induction a generalizing t m with
  | nil => simp [timedRun, Except.bind]
  | cons u us ih =>
    simp only [List.cons_append, timedRun]
    cases h : timedStep aware load refresh step t m u with
    | error e => rfl
    | ok m1 =>
      show timedRun aware load refresh step (t + step) m1 (us ++ b) = (timedRun aware load refresh step (t + step) m1 us).bind _
      rw [ih]
      have : t + step + us.length * step = t + ((u :: us).length : Nat) * step := by
        rw [List.length_cons]; push_cast; ring
      rw [this]

theorem crestRun_append (load : Bool → List (List (List Rat)) × List Nat) (refresh step : Int) (t : Int) (q : Bool × Markov Nat) (a b : List (List Rat)) :
    crestRun load refresh step t q (a ++ b) = (crestRun load refresh step t q a).bind fun q' => crestRun load refresh step (t + a.length * step) q' b := by
  induction a generalizing t q with
  | nil => simp [crestRun, Except.bind]
  | cons u us ih =>
    simp only [List.cons_append, crestRun]
    cases h : crestStep load refresh step t q u with
    | error e => rfl
    | ok m1 =>
      show crestRun load refresh step (t + step) m1 (us ++ b) = (crestRun load refresh step (t + step) m1 us).bind _
      rw [ih]
      have : t + step + us.length * step = t + ((u :: us).length : Nat) * step := by
        rw [List.length_cons]; push_cast; ring
      rw [this]

/-- The matrices in force and the position after `k` steps of a time-aware simulator started at the refresh time. -/
theorem timed_state {m : Markov L} {N n : Nat} {mats : List (List (List Rat))} (g : Good m N n mats) (hpos : m.pos = 1) (labels : List L) (hl : m.labels = labels)
    (hn : labels.Nodup) (hlen : labels.length = n) (day : Int → List (List (List Rat))) (hd : ∀ t, IsTpms n (day t)) (refresh t0 : Int)
    (h0 : t0 % DAY = refresh) (uss : List (List Rat)) (hu : ∀ us ∈ uss, Draws N us) (k : Nat) (hk : k ≤ uss.length) :
    ∃ m' : Markov L, timedRun true (fun t => (day t, labels)) refresh 600000000 t0 m (uss.take k) = .ok m' ∧ m'.labels = labels ∧
      Good m' N n (if k = 0 then mats else day (t0 + ((k - 1) / 144 : Nat) * DAY + 600000000)) ∧
      m'.pos = if k = 0 then 1 else (k - 1) % 144 + 1 := by
  induction k with
  | zero => exact ⟨m, by simp [timedRun], hl, by simpa using g, by simpa using hpos⟩
  | succ k ih =>
    obtain ⟨a, ra, la, ga, pa⟩ := ih (by omega)
    obtain ⟨us, hus⟩ : ∃ us, uss[k]? = some us := ⟨_, List.getElem?_eq_getElem (by omega)⟩
    obtain ⟨b, rb, gb, pb, lb, -, -⟩ := good_step ga us (hu us (List.mem_of_getElem? hus))
    have hrun : timedRun true (fun t => (day t, labels)) refresh 600000000 t0 m (uss.take (k + 1)) =
        timedStep true (fun t => (day t, labels)) refresh 600000000 (t0 + k * 600000000) a us := by
      rw [List.take_add_one, hus, timedRun_append, ra]
      show timedRun _ _ _ _ _ a [us] = _
      rw [List.length_take, Nat.min_eq_left (by omega)]
      simp only [timedRun]
      cases timedStep true (fun t => (day t, labels)) refresh 600000000 (t0 + k * 600000000) a us <;> rfl
    have hfire : firesAfterRefresh refresh (t0 + k * 600000000) 600000000 = decide (k % 144 = 0) := by
      unfold firesAfterRefresh timeOfDay
      rw [Bool.eq_iff_iff, beq_iff_eq, decide_eq_true_eq]
      unfold DAY at *
      omega
    rw [hrun]
    unfold timedStep
    rw [rb]
    show ∃ m' : Markov L, (if (true && firesAfterRefresh refresh (t0 + k * 600000000) 600000000) = true then b.setTpm (day (t0 + k * 600000000 + 600000000)) true (some labels) else .ok b) = .ok m' ∧ _
    rw [hfire]
    by_cases h : k % 144 = 0
    · rw [if_pos (by simpa using h)]
      obtain ⟨m', s1, s2, s3, s4, s5⟩ := set_good gb labels (by rw [lb, la]) hn hlen _ (hd (t0 + k * 600000000 + 600000000))
      refine ⟨m', s1, s4, ?_, ?_⟩
      · rw [if_neg (by omega)]
        have e : t0 + ((k + 1 - 1) / 144 : Nat) * DAY + 600000000 = t0 + k * 600000000 + 600000000 := by
          unfold DAY; omega
        rw [e]; exact s2
      · rw [if_neg (by omega), s3]; omega
    · rw [if_neg (by simpa using h)]
      have hk0 : k ≠ 0 := by rintro rfl; exact h rfl
      rw [if_neg hk0] at ga gb pa
      refine ⟨b, rfl, by rw [lb, la], ?_, ?_⟩
      · rw [if_neg (by omega)]
        have e : (k + 1 - 1) / 144 = (k - 1) / 144 := by omega
        rw [e]; exact gb
      · rw [if_neg (by omega), pb, pa]; omega

/-- Whether the type of day changed in the days up to the `d`-th after `t0`. -/
def changed (t0 : Int) (d : Nat) : Prop := ∃ d' ≤ d, crestWeekday (t0 + (d' : Nat) * DAY) ≠ crestWeekday t0

theorem crest_state {m : Markov Nat} {N n : Nat} (labels : List Nat) (hl : m.labels = labels)
    (hn : labels.Nodup) (hlen : labels.length = n) (mats : Bool → List (List (List Rat))) (hd : ∀ d, IsTpms n (mats d)) (t0 : Int)
    (h0 : t0 % DAY = 0) (g : Good m N n (mats (crestWeekday t0))) (hpos : m.pos = 1) (uss : List (List Rat)) (hu : ∀ us ∈ uss, Draws N us) (k : Nat) (hk : k ≤ uss.length) :
    ∃ m' : Markov Nat, crestRun (fun d => (mats d, labels)) 0 600000000 t0 (crestWeekday t0, m) (uss.take k) = .ok (crestWeekday (t0 + ((k - 1) / 144 : Nat) * DAY), m') ∧ m'.labels = labels ∧
      Good m' N n (mats (crestWeekday (t0 + ((k - 1) / 144 : Nat) * DAY))) ∧
      (¬ changed t0 ((k - 1) / 144) → m'.pos = k + 1) ∧ (changed t0 ((k - 1) / 144) → m'.pos % 144 = k % 144) := by
  induction k with
  | zero =>
    refine ⟨m, by simp [crestRun], hl, by simpa using g, fun _ => hpos, ?_⟩
    rintro ⟨d, hd, hne⟩
    have : d = 0 := by omega
    subst this
    simp at hne
  | succ k ih =>
    obtain ⟨a, ra, la, ga, pa, pa'⟩ := ih (by omega)
    obtain ⟨us, hus⟩ : ∃ us, uss[k]? = some us := ⟨_, List.getElem?_eq_getElem (by omega)⟩
    obtain ⟨b, rb, gb, pb, lb, -, -⟩ := good_step ga us (hu us (List.mem_of_getElem? hus))
    have hrun : crestRun (fun d => (mats d, labels)) 0 600000000 t0 (crestWeekday t0, m) (uss.take (k + 1)) =
        crestStep (fun d => (mats d, labels)) 0 600000000 (t0 + k * 600000000) (crestWeekday (t0 + ((k - 1) / 144 : Nat) * DAY), a) us := by
      rw [List.take_add_one, hus, crestRun_append, ra]
      show crestRun _ _ _ _ _ [us] = _
      rw [List.length_take, Nat.min_eq_left (by omega)]
      simp only [crestRun]
      cases crestStep (fun d => (mats d, labels)) 0 600000000 (t0 + k * 600000000) (crestWeekday (t0 + ((k - 1) / 144 : Nat) * DAY), a) us <;> rfl
    have hfire : firesAfterRefresh 0 (t0 + k * 600000000) 600000000 = decide (k % 144 = 0) := by
      unfold firesAfterRefresh timeOfDay
      rw [Bool.eq_iff_iff, beq_iff_eq, decide_eq_true_eq]
      unfold DAY at *
      omega
    have hday : k % 144 = 0 → crestWeekday (t0 + k * 600000000 + 600000000) = crestWeekday (t0 + ((k + 1 - 1) / 144 : Nat) * DAY) := by
      intro h
      unfold crestWeekday isoWeekday dayNumber
      have : (t0 + k * 600000000 + 600000000) / DAY = (t0 + ((k + 1 - 1) / 144 : Nat) * DAY) / DAY := by unfold DAY at *; omega
      rw [this]
    rw [hrun]
    unfold crestStep
    rw [rb]
    show ∃ m' : Markov Nat, (if firesAfterRefresh 0 (t0 + k * 600000000) 600000000 = true then
      (if (crestWeekday (t0 + k * 600000000 + 600000000) != crestWeekday (t0 + ((k - 1) / 144 : Nat) * DAY)) = true then
        (b.setTpm (mats (crestWeekday (t0 + k * 600000000 + 600000000))) true (some labels) >>= fun m => Except.ok (crestWeekday (t0 + k * 600000000 + 600000000), m))
        else .ok (crestWeekday (t0 + ((k - 1) / 144 : Nat) * DAY), b)) else .ok (crestWeekday (t0 + ((k - 1) / 144 : Nat) * DAY), b)) = .ok _ ∧ _
    rw [hfire]
    by_cases h : k % 144 = 0
    · rw [if_pos (by simpa using h), hday h]
      by_cases hc : crestWeekday (t0 + ((k + 1 - 1) / 144 : Nat) * DAY) = crestWeekday (t0 + ((k - 1) / 144 : Nat) * DAY)
      · rw [if_neg (by simpa using hc), ← hc]
        refine ⟨b, rfl, by rw [lb, la], by rw [hc]; exact gb, ?_, ?_⟩
        · intro hch
          rw [pb, pa]
          rintro ⟨d, h1, h2⟩
          exact hch ⟨d, by omega, h2⟩
        · rintro ⟨d, h1, h2⟩
          have hch : changed t0 ((k - 1) / 144) := by
            by_cases hdk : d = (k + 1 - 1) / 144
            · exact ⟨(k - 1) / 144, le_refl _, by rw [← hc, ← hdk]; exact h2⟩
            · exact ⟨d, by omega, h2⟩
          rw [pb]
          have := pa' hch
          omega
      · rw [if_pos (by simpa using hc)]
        obtain ⟨m', s1, s2, s3, s4, s5⟩ := set_good gb labels (by rw [lb, la]) hn hlen _ (hd (crestWeekday (t0 + ((k + 1 - 1) / 144 : Nat) * DAY)))
        rw [s1]
        refine ⟨m', rfl, s4, s2, ?_, ?_⟩
        · intro hch
          exfalso
          apply hch
          by_cases hz : crestWeekday (t0 + ((k + 1 - 1) / 144 : Nat) * DAY) = crestWeekday t0
          · exact ⟨(k - 1) / 144, by omega, by rw [← hz]; exact fun e => hc e.symm⟩
          · exact ⟨(k + 1 - 1) / 144, le_refl _, hz⟩
        · intro _
          rw [s3]; omega
    · rw [if_neg (by simpa using h)]
      have e : (k + 1 - 1) / 144 = (k - 1) / 144 := by omega
      rw [e]
      refine ⟨b, rfl, by rw [lb, la], gb, ?_, ?_⟩
      · intro hch; rw [pb, pa hch]
      · intro hch
        rw [pb]
        have := pa' hch
        omega

end Markov

namespace SparseSim

theorem updateNewDay_clock (load : Option DayClass → Except PyErr (SparseTPM × List Nat)) (s s' : SparseSim) (h : s.updateNewDay load = .ok s') :
    s'.time = s.time ∧ s'.timeStep = s.timeStep ∧ s'.aware = s.aware ∧ s'.nDays = s.nDays ∧ s'.useQuarters = s.useQuarters ∧
      s'.dayClass = dayClassOf s.nDays s.useQuarters s.dayClass s.time := by
  unfold updateNewDay at h
  simp only [bind, Except.bind] at h
  split at h
  · cases h
  · split at h
    · cases h
    · split at h
      · cases h
      · split at h
        · cases h
        · unfold assignTpm at h
          split at h
          · cases h
          · injection h with h
            subst h
            exact ⟨rfl, rfl, rfl, rfl, rfl, rfl⟩

theorem step_clock (load : Option DayClass → Except PyErr (SparseTPM × List Nat)) (fuel : Nat) (s s' : SparseSim) (us : List Rat) (ha : s.aware = true)
    (h : s.step load fuel us = .ok s') :
    s'.time = s.time + 600000000 ∧ s'.timeStep = s.timeStep + 1 ∧ s'.aware = true ∧ s'.nDays = s.nDays ∧ s'.useQuarters = s.useQuarters ∧
      s'.dayClass = if s.timeStep % 144 = 0 then dayClassOf s.nDays s.useQuarters s.dayClass (s.time + 600000000) else s.dayClass := by
  unfold step at h
  simp only [if_pos ha] at h
  by_cases hm : s.timeStep % 144 = 0
  · rw [if_pos hm]
    rw [if_pos hm] at h
    cases hu : updateNewDay load ({ s with time := s.time + 600000000 } : SparseSim) with
    | error e => rw [hu] at h; cases h
    | ok s1 =>
      rw [hu] at h
      obtain ⟨h1, h2, h3, h4, h5, h6⟩ := updateNewDay_clock load _ _ hu
      simp only [bind, Except.bind] at h
      split at h
      · cases h
      · injection h with h
        subst h
        exact ⟨h1, by simp only [h2], by rw [h3, ha], h4, h5, h6⟩
  · rw [if_neg hm]
    rw [if_neg hm] at h
    simp only [bind, Except.bind] at h
    split at h
    · cases h
    · injection h with h
      subst h
      exact ⟨rfl, rfl, ha, rfl, rfl, rfl⟩

theorem run_clock (load : Option DayClass → Except PyErr (SparseTPM × List Nat)) (fuel : Nat) (uss : List (List Rat)) (s s' : SparseSim) (ha : s.aware = true)
    (h : s.run load fuel uss = .ok s') :
    s'.time = s.time + uss.length * 600000000 ∧ s'.timeStep = s.timeStep + uss.length ∧ s'.aware = true ∧ s'.nDays = s.nDays ∧ s'.useQuarters = s.useQuarters := by
  induction uss generalizing s with
  | nil =>
    injection h with h
    subst h
    exact ⟨by simp, by simp, ha, rfl, rfl⟩
  | cons us uss ih =>
    unfold run at h
    cases h1 : s.step load fuel us with
    | error e => rw [h1] at h; cases h
    | ok s1 =>
      rw [h1] at h
      obtain ⟨c1, c2, c3, c4, c5, -⟩ := step_clock load fuel s s1 us ha h1
      obtain ⟨d1, d2, d3, d4, d5⟩ := ih s1 c3 h
      refine ⟨?_, ?_, d3, by rw [d4, c4], by rw [d5, c5]⟩
      · rw [d1, c1, List.length_cons]; push_cast; ring
      · rw [d2, c2, List.length_cons]; omega

end SparseSim
end Demod
