import Verif.Lemmas.SemiIndividuals
import Verif.Props.Individuals

/-!
# Property C108: individuals with durations, grouped into households

`ValidSemiData`, `StreamsForTypes` and `activityOf` are defined in `Spec/SemiIndividuals.lean`, the rest in `Spec/Individuals.lean`.
-/

namespace Demod
variable {L : Type} [DecidableEq L]

/-- The position in the matrices and in the durations of the `k`-th step after the refresh time before the start: with day types and a start a multiple of 10 minutes after the refresh time,
both are put to 1 by each change of day, otherwise never. -/
def slotOf (f : DayFlags) (refresh start : Int) (k : Nat) : Nat :=
  if f.requested = true ∧ (start - refresh) % 600000000 = 0 then (if k = 0 then 1 else (k - 1) % 144 + 1) else k + 1

/-- The data of person `p` for the `k`-th step after the refresh time before the start: those of the current day, if the code changes them at all, and those of the person without any day otherwise. -/
def DataAt (load : SemiLoader L) (f : DayFlags) (refresh start : Int) (p : Subgroup) (k : Nat) (t : Int) (r : SemiData L) : Prop :=
  ∃ g, load g = .ok r ∧
    if f.requested = true ∧ (start - refresh) % 600000000 = 0 ∧ k ≠ 0 then
      ∃ τ : Int, τ % DAY = refresh ∧ τ < t ∧ t ≤ τ + DAY ∧ ∃ day, addTime p (τ + 600000000) f.weekEndsDays f.weekSatSun f.sevenDays f.quarters = .ok day ∧ ∀ key, g.at key = day.at key
    else g = p

omit [DecidableEq L] in
theorem activityOf_eq (s : SemiIndividuals L) (i h : Nat) (m : SemiMarkov L) (hm : s.sims[i]? = some m) :
    activityOf s i h = ((m.chain.states.map fun x => m.chain.labels[x]?)[h]?).join := by
  unfold activityOf
  rw [hm, List.getElem?_map]
  simp only
  cases m.chain.states[h]? <;> rfl

theorem slot_pos (f : DayFlags) (refresh start i0 : Int) (h3 : i0 % 86400000000 = refresh) (k : Nat) :
    posAfter f refresh (i0 + (start - i0) % 600000000) 1 k = slotOf f refresh start k := by
  unfold slotOf
  rw [requested_eq]
  by_cases hal : f.aware = true ∧ (start - refresh) % 600000000 = 0
  · rw [if_pos hal]
    have : (start - i0) % 600000000 = 0 := by have := hal.2; omega
    rw [this, Int.add_zero]
    cases k with
    | zero => rfl
    | succ k => rw [posAfter_aligned f hal.1 refresh i0 h3, if_neg (by omega)]; rfl
  · rw [if_neg hal, posAfter_never, Nat.add_comm]
    intro ha k hc
    exact hal ⟨ha, by omega⟩

/-- **C108 (durations).** The simulator of individuals with semi-Markov chains, constructed with any start and stepped any number of times. Let `t k` be its state `k` steps after the last refresh time before the
start. There are `D k i h`, which is `some (r, n)` if person `h` of type `i` is given a new activity and the duration `n` at step `k` with the `r`-th draws of that step, such that:
* without a new activity, the person keeps the activity;
* a new activity is drawn from the row of the old one in the data of the person (`DataAt`), its duration from the durations of these data, for the same position; two persons never share a draw;
* after a duration `n ≥ 1` the next new activity is given exactly `n` steps later (one step later if `n = 0`), also if the data of a new day have been loaded in between. -/
theorem C108_durations (load : SemiLoader L) (f : DayFlags) (hf : f.Valid) (refresh : Int) (hr : 0 ≤ refresh ∧ refresh < DAY) (groups : List (Subgroup × Nat)) (persons : List (List Subgroup)) (hg : ValidGroups groups persons)
    (labels : List L) (hdata : ValidSemiData load f labels persons.flatten) (start : Int) (d : Nat → List Rat × List Rat) (hd1 : DrawsForTypes groups persons fun i => (d i).1)
    (hd2 : DrawsForTypes groups persons fun i => (d i).2) (e : Nat → Nat → (Nat → Rat) × (Nat → Rat)) (he : ∀ k, StreamsForTypes (e k))
    (uss : List (Nat → (Nat → Rat) × (Nat → Rat))) (hu : ∀ us ∈ uss, StreamsForTypes us) :
    ∃ (n0 : Nat) (t : Nat → SemiIndividuals L) (D : Nat → Nat → Nat → Option (Nat × Nat)), (n0 : Int) = (start - refresh) % DAY / 600000000 ∧
      SemiIndividuals.create load f refresh groups start 600000000 d e = .ok (t n0) ∧ (∀ k ≤ uss.length, (t n0).run load f refresh (uss.take k) = .ok (t (n0 + k))) ∧
      (∀ k ≤ n0 + uss.length, (t k).time = start + ((k : Int) - n0) * 600000000) ∧
      ∀ (i : Nat) p h, (personTypes persons)[i]? = some p → h < timesIn p (allHouseholds groups persons).flatten →
        (∀ k ≤ n0 + uss.length, ∃ a ∈ labels, activityOf (t k) i h = some a) ∧
        (∃ (r : SemiData L) (x n : Nat), load p = .ok r ∧ Sampled r.initial ((d i).1.getD h 0) x ∧ activityOf (t 0) i h = r.labels[x]? ∧ D 0 i h = some (h, n) ∧
          Sampled (r.initialDurations.getD x []) ((d i).2.getD h 0) n) ∧
        (∀ k us, ((List.range n0).map e ++ uss)[k]? = some us →
          (D (k + 1) i h = none → activityOf (t (k + 1)) i h = activityOf (t k) i h) ∧
          (∀ rank n, D (k + 1) i h = some (rank, n) → ∃ (r : SemiData L) (x y : Nat), DataAt load f refresh start p k (t k).time r ∧ activityOf (t k) i h = r.labels[x]? ∧ activityOf (t (k + 1)) i h = r.labels[y]? ∧
            Sampled (rowOf r.tpm.mats (slotOf f refresh start k % r.tpm.mats.length) x) ((us i).1 rank) y ∧
            Sampled (durationRow r.durations (slotOf f refresh start k % nDurations r.durations) x y) ((us i).2 rank) n ∧
            ∀ h' < timesIn p (allHouseholds groups persons).flatten, ∀ n', D (k + 1) i h' = some (rank, n') → h' = h)) ∧
        (∀ k rank n, k ≤ n0 + uss.length → D k i h = some (rank, n) →
          (∀ j, 0 < j → j < max n 1 → k + j ≤ n0 + uss.length → D (k + j) i h = none) ∧ (k + max n 1 ≤ n0 + uss.length → D (k + max n 1) i h ≠ none)) := by
  obtain ⟨asked, a1, a2, a3⟩ := hdata
  obtain ⟨s00, i0, l1, l2, l3, hcr, ht0, hsub, inv, -, -, -, -, -, hall, hcnt, hini⟩ := semiCreate_inv load f refresh hr groups persons hg labels asked a1 a3 start d hd1 hd2 e
  obtain ⟨n0, hn0⟩ : ∃ n0, n0 = ((start - i0) / 600000000).toNat := ⟨_, rfl⟩
  rw [← hn0] at hcr
  have hn0' : (n0 : Int) = (start - i0) / 600000000 := by rw [hn0, Int.toNat_of_nonneg (by omega)]
  have hus : ∀ us ∈ (List.range n0).map e ++ uss, StreamsForTypes us := by
    intro us h
    rcases List.mem_append.1 h with h | h
    · obtain ⟨k, -, rfl⟩ := List.mem_map.1 h; exact he k
    · exact hu us h
  obtain ⟨t, t0, tr, tg, ts⟩ := semi_traj load f hf refresh labels _ _ asked a2 a3 ((List.range n0).map e ++ uss) hus s00 inv none hsub 1 hall
  have htot : ((List.range n0).map e ++ uss).length = n0 + uss.length := by simp
  rw [htot] at tr tg
  have htime : ∀ k ≤ n0 + uss.length, (t k).time = start + ((k : Int) - n0) * 600000000 := by
    intro k hk
    rw [(tg k hk).2.1, ht0, hn0']; omega
  -- the sub-simulators
  have hsim : ∀ (k i : Nat) p, k ≤ n0 + uss.length → (personTypes persons)[i]? = some p → ∃ m g, (t k).sims[i]? = some m ∧ (t k).subgroups[i]? = some g ∧
      (parseSubgroups (persons.zip (groups.map fun g => g.2))).2.1[i]? = some (timesIn p (allHouseholds groups persons).flatten) ∧ OkSemi labels (timesIn p (allHouseholds groups persons).flatten) m := by
    intro k i p hk hp
    obtain ⟨iv, -⟩ := tg k hk
    have hic : i < (parseSubgroups (persons.zip (groups.map fun g => g.2))).2.1.length := by rw [← iv.ntypes]; exact (List.getElem?_eq_some_iff.1 hp).1
    have hc := List.getElem?_eq_getElem hic
    have hm := List.getElem?_eq_getElem (show i < (t k).sims.length by rw [iv.nsims]; exact hic)
    have hg' := List.getElem?_eq_getElem (show i < (t k).subgroups.length by rw [iv.nsubs]; exact hic)
    have hcc := hcnt i _ p hc hp
    refine ⟨_, _, hm, hg', by rw [hc, hcc], ?_⟩
    rw [← hcc]
    exact iv.ok i _ _ hm hc
  have hact : ∀ (k i : Nat) p h m, k ≤ n0 + uss.length → (personTypes persons)[i]? = some p → h < timesIn p (allHouseholds groups persons).flatten → (t k).sims[i]? = some m →
      m.chain.states.getD h 0 < m.chain.labels.length ∧ activityOf (t k) i h = m.chain.labels[m.chain.states.getD h 0]? ∧
      (m.chain.states.map fun x => m.chain.labels[x]?)[h]? = some (m.chain.labels[m.chain.states.getD h 0]?) := by
    intro k i p h m hk hp hh hm
    obtain ⟨m0, g, z1, z2, z3, z4⟩ := hsim k i p hk hp
    rw [hm] at z1
    obtain rfl := Option.some.inj z1
    obtain ⟨mats, pdfs, gd⟩ := z4.good
    have hl : h < m.chain.states.length := by rw [gd.chain.len]; exact hh
    have e1 : (m.chain.states.map fun x => m.chain.labels[x]?)[h]? = some (m.chain.labels[m.chain.states.getD h 0]?) := by
      rw [List.getElem?_map, List.getD_eq_getElem?_getD, List.getElem?_eq_getElem hl]; rfl
    refine ⟨?_, ?_, e1⟩
    · rw [getD_eq _ _ _ hl]; exact gd.chain.valid _ (List.getElem_mem _)
    · rw [activityOf_eq _ _ _ _ hm, e1]; rfl
  let left : Nat → Nat → Nat → Int := fun k i h => match (t k).sims[i]? with | none => 0 | some m => m.timesLeft.getD h 0
  let rk : Nat → Nat → Nat → Nat := fun k i h => match (t k).sims[i]? with | none => 0 | some m => m.rank h
  have hleft : ∀ k i h m, (t k).sims[i]? = some m → left k i h = m.timesLeft.getD h 0 := by
    intro k i h m hm; simp only [left, hm]
  have hrk : ∀ k i h m, (t k).sims[i]? = some m → rk k i h = m.rank h := by
    intro k i h m hm; simp only [rk, hm]
  let D : Nat → Nat → Nat → Option (Nat × Nat) := fun k i h => match k with
    | 0 => some (h, (left 0 i h + 1).toNat)
    | k + 1 => if left k i h < 1 then some (rk k i h, (left (k + 1) i h + 1).toNat) else none
  have hD0 : ∀ i h, D 0 i h = some (h, (left 0 i h + 1).toNat) := fun _ _ => rfl
  have hD1 : ∀ k i h, D (k + 1) i h = if left k i h < 1 then some (rk k i h, (left (k + 1) i h + 1).toNat) else none := fun _ _ _ => rfl
  -- one step
  have hstep : ∀ (k i : Nat) p h us, (personTypes persons)[i]? = some p → h < timesIn p (allHouseholds groups persons).flatten → ((List.range n0).map e ++ uss)[k]? = some us →
      (¬ left k i h < 1 → activityOf (t (k + 1)) i h = activityOf (t k) i h ∧ left (k + 1) i h = left k i h - 1) ∧
      (left k i h < 1 → ∃ (r : SemiData L) (x y n : Nat), DataAt load f refresh start p k (t k).time r ∧ activityOf (t k) i h = r.labels[x]? ∧ activityOf (t (k + 1)) i h = r.labels[y]? ∧
            Sampled (rowOf r.tpm.mats (slotOf f refresh start k % r.tpm.mats.length) x) ((us i).1 (rk k i h)) y ∧ left (k + 1) i h = (n : Int) - 1 ∧
            Sampled (durationRow r.durations (slotOf f refresh start k % nDurations r.durations) x y) ((us i).2 (rk k i h)) n) := by
    intro k i p h us hp hh hk
    have hkl : k < n0 + uss.length := by rw [← htot]; exact (List.getElem?_eq_some_iff.1 hk).1
    obtain ⟨m, g, z1, z2, z3, z4⟩ := hsim k i p (by omega) hp
    obtain ⟨m', r, y1, y2, y3, y4, y5⟩ := ts k us hk i m _ g z1 z3 z2
    obtain ⟨w1, w2⟩ := y5 h hh
    obtain ⟨q1, q2, q3⟩ := hact k i p h m (by omega) hp hh z1
    obtain ⟨q1', q2', q3'⟩ := hact (k + 1) i p h m' (by omega) hp hh y1
    rw [hleft k i h m z1, hleft (k + 1) i h m' y1, hrk k i h m z1]
    rw [q3, q3'] at w1
    rw [q3'] at w2
    rw [ht0, slot_pos f refresh start i0 l3] at w2
    constructor
    · intro hl
      obtain ⟨v1, v2⟩ := w1 hl
      rw [q2, q2']
      exact ⟨Option.some.inj v1, v2⟩
    · intro hl
      obtain ⟨j, n, v1, v2, v3, v4⟩ := w2 hl
      refine ⟨r, m.chain.states.getD h 0, j, n, ?_, by rw [q2, y4], by rw [q2', Option.some.inj v2], v1, v3, v4⟩
      refine ⟨g, y2, ?_⟩
      obtain ⟨iv, tt, -, dt, -⟩ := tg k (by omega)
      rw [requested_eq]
      have hty : (personTypes persons).length = (t k).subgroups.length := by rw [iv.ntypes, iv.nsubs]
      by_cases hal : f.aware = true ∧ (start - refresh) % 600000000 = 0 ∧ k ≠ 0
      · rw [if_pos hal]
        obtain ⟨ha, hm0, hk0⟩ := hal
        obtain ⟨k', rfl⟩ := Nat.exists_eq_succ_of_ne_zero hk0
        have hz : (start - i0) % 600000000 = 0 := by omega
        rw [ht0, hz, Int.add_zero] at dt tt
        obtain ⟨τ, b1, b2, b3, b4⟩ := datedAfter_aligned f ha refresh i0 l3 k'
        rw [b1] at dt
        refine ⟨τ, b2, ?_, ?_, ?_⟩
        · rw [tt]; exact b3
        · rw [tt]; exact b4
        · exact dt i g p z2 hp
      · rw [if_neg hal]
        have hnone : datedAfter f refresh s00.time none k = none := by
          by_cases hk0 : k = 0
          · rw [hk0]; rfl
          · apply datedAfter_none
            intro ha j hc
            rw [ht0] at hc
            exact hal ⟨ha, by omega, hk0⟩
        rw [hnone] at dt
        have dt' : (t k).subgroups = personTypes persons := dt
        rw [dt', hp] at z2
        exact (Option.some.inj z2).symm
  refine ⟨n0, t, D, ?_, ?_, ?_, htime, ?_⟩
  · rw [hn0']
    have : (start - refresh) % DAY = start - i0 := by unfold DAY; omega
    rw [this]
  · rw [hcr]
    have := tr n0 (by omega)
    rwa [List.take_append_of_le_length (by simp), List.take_of_length_le (by simp)] at this
  · intro k hk
    have e1 := tr (n0 + k) (by omega)
    have hlr : ((List.range n0).map e).length = n0 := by simp
    rw [List.take_append, hlr, List.take_of_length_le (by simp), Nat.add_sub_cancel_left, semiRun_append] at e1
    have e2 := tr n0 (by omega)
    rw [List.take_append_of_le_length (by simp), List.take_of_length_le (by simp)] at e2
    rw [e2] at e1
    exact e1
  · intro i p h hp hh
    refine ⟨?_, ?_, ?_, ?_⟩
    · intro k hk
      obtain ⟨m, g, z1, z2, z3, z4⟩ := hsim k i p hk hp
      obtain ⟨q1, q2, q3⟩ := hact k i p h m hk hp hh z1
      exact ⟨_, (z4.same _).1 (List.getElem_mem q1), by rw [q2, List.getElem?_eq_getElem q1]⟩
    · obtain ⟨m, g, z1, z2, z3, z4⟩ := hsim 0 i p (by omega) hp
      obtain ⟨q1, q2, q3⟩ := hact 0 i p h m (by omega) hp hh z1
      have z1' := z1
      rw [t0] at z1'
      obtain ⟨r, y1, y2, y3, y4⟩ := hini i m p z1' hp
      obtain ⟨v1, n, v2, v3⟩ := y4 h hh
      refine ⟨r, m.chain.states.getD h 0, n, y1, v1, by rw [q2, y3], ?_, v3⟩
      rw [hD0, hleft 0 i h m z1, v2]
      congr 2
      omega
    · intro k us hk
      obtain ⟨w1, w2⟩ := hstep k i p h us hp hh hk
      rw [hD1]
      by_cases hl : left k i h < 1
      · refine ⟨fun hn => absurd hn (by rw [if_pos hl]; simp), ?_⟩
        intro rank n hsome
        rw [if_pos hl, Option.some.injEq, Prod.mk.injEq] at hsome
        obtain ⟨rfl, rfl⟩ := hsome
        obtain ⟨r, x, y, n, v1, v2, v3, v4, v5, v6⟩ := w2 hl
        refine ⟨r, x, y, v1, v2, v3, v4, ?_, ?_⟩
        · rw [v5]
          have : ((n : Int) - 1 + 1).toNat = n := by omega
          rw [this]; exact v6
        · intro h' hh' n' hD'
          rw [hD1] at hD'
          by_cases hl' : left k i h' < 1
          · rw [if_pos hl', Option.some.injEq, Prod.mk.injEq] at hD'
            have hkl : k < n0 + uss.length := by rw [← htot]; exact (List.getElem?_eq_some_iff.1 hk).1
            obtain ⟨m, g, z1, z2, z3, z4⟩ := hsim k i p (by omega) hp
            obtain ⟨mats, pdfs, gd⟩ := z4.good
            have hr' := hD'.1
            rw [hrk k i h m z1, hrk k i h' m z1] at hr'
            rw [hleft k i h m z1] at hl
            rw [hleft k i h' m z1] at hl'
            exact SemiMarkov.rank_inj m h' h (by rw [gd.len]; exact hh') (by rw [gd.len]; exact hh) hl' hl hr'
          · rw [if_neg hl'] at hD'; exact absurd hD' (by simp)
      · refine ⟨fun _ => (w1 hl).1, ?_⟩
        intro rank n hsome
        rw [if_neg hl] at hsome
        exact absurd hsome (by simp)
    · intro k rank n hk hsome
      -- the time left after the change
      have hafter : left k i h = (n : Int) - 1 := by
        cases k with
        | zero =>
          rw [hD0, Option.some.injEq, Prod.mk.injEq] at hsome
          obtain ⟨m, g, z1, z2, z3, z4⟩ := hsim 0 i p (by omega) hp
          have z1' := z1
          rw [t0] at z1'
          obtain ⟨r, y1, y2, y3, y4⟩ := hini i m p z1' hp
          obtain ⟨v1, n', v2, v3⟩ := y4 h hh
          rw [← hsome.2, hleft 0 i h m z1, v2]
          omega
        | succ k =>
          rw [hD1] at hsome
          by_cases hl : left k i h < 1
          · rw [if_pos hl, Option.some.injEq, Prod.mk.injEq] at hsome
            have hkl : k < ((List.range n0).map e ++ uss).length := by rw [htot]; omega
            obtain ⟨-, w2⟩ := hstep k i p h _ hp hh (List.getElem?_eq_getElem hkl)
            obtain ⟨r, x, y, n', v1, v2, v3, v4, v5, v6⟩ := w2 hl
            rw [← hsome.2, v5]
            omega
          · rw [if_neg hl] at hsome; exact absurd hsome (by simp)
      have hdec : ∀ j, j < max n 1 → k + j ≤ n0 + uss.length → left (k + j) i h = (n : Int) - 1 - j := by
        intro j
        induction j with
        | zero => intro _ _; simpa using hafter
        | succ j ih =>
          intro hj hkj
          have hp1 := ih (by omega) (by omega)
          have hkl : k + j < ((List.range n0).map e ++ uss).length := by rw [htot]; omega
          obtain ⟨w1, -⟩ := hstep (k + j) i p h _ hp hh (List.getElem?_eq_getElem hkl)
          have := (w1 (by rw [hp1]; omega)).2
          rw [show k + (j + 1) = k + j + 1 by omega, this, hp1]
          push_cast; ring
      constructor
      · intro j hj0 hj hkj
        obtain ⟨j', rfl⟩ := Nat.exists_eq_succ_of_ne_zero (Nat.pos_iff_ne_zero.1 hj0)
        have hl := hdec j' (by omega) (by omega)
        rw [show k + (j' + 1) = k + j' + 1 by omega, hD1, if_neg (by rw [hl]; omega)]
      · intro hkj
        have hl := hdec (max n 1 - 1) (by omega) (by omega)
        have hidx : k + max n 1 = k + (max n 1 - 1) + 1 := by omega
        rw [hidx, hD1, if_pos (by rw [hl]; omega)]
        simp

/-- **C108 (households).** After any number of steps, nothing is raised, the activities partition the residents of each household and `0 ≤ active occupancy ≤ occupancy ≤ residents`. Each sub-simulator
simulates the persons of one type: as many as there are in each household. -/
theorem C108_households (load : SemiLoader L) (f : DayFlags) (hf : f.Valid) (refresh : Int) (hr : 0 ≤ refresh ∧ refresh < DAY) (groups : List (Subgroup × Nat)) (persons : List (List Subgroup)) (hg : ValidGroups groups persons)
    (labels : List L) (hdata : ValidSemiData load f labels persons.flatten) (start : Int) (d : Nat → List Rat × List Rat) (hd1 : DrawsForTypes groups persons fun i => (d i).1)
    (hd2 : DrawsForTypes groups persons fun i => (d i).2) (e : Nat → Nat → (Nat → Rat) × (Nat → Rat)) (he : ∀ k, StreamsForTypes (e k))
    (uss : List (Nat → (Nat → Rat) × (Nat → Rat))) (hu : ∀ us ∈ uss, StreamsForTypes us) (away sleeping : L) (ha : away ∈ labels) (hsl : sleeping ∈ labels) (hne : away ≠ sleeping) :
    ∃ s0 s, SemiIndividuals.create load f refresh groups start 600000000 d e = .ok s0 ∧ s0.run load f refresh uss = .ok s ∧ s.time = start + uss.length * 600000000 ∧
      (∃ (states : List (L × List Nat)) (occ act : List Int), s.ind.activityStates away sleeping = .ok (states, act) ∧ s.ind.getOccupancy away sleeping = .ok occ ∧
        (states.map fun q => q.1).Nodup ∧ (∀ a, a ∈ states.map (fun q => q.1) ↔ a ∈ labels) ∧
        ∀ h < (allHouseholds groups persons).length,
          (states.map fun q => q.2.getD h 0).sum = ((allHouseholds groups persons).getD h []).length ∧
          (∀ q ∈ states, q.2.getD h 0 = personsDoing s.hhOfPersons (s.sims.map fun m => m.chain) h q.1) ∧
          occ.getD h 0 = ((allHouseholds groups persons).getD h []).length - personsDoing s.hhOfPersons (s.sims.map fun m => m.chain) h away ∧
          act.getD h 0 = occ.getD h 0 - personsDoing s.hhOfPersons (s.sims.map fun m => m.chain) h sleeping ∧
          0 ≤ act.getD h 0 ∧ act.getD h 0 ≤ occ.getD h 0 ∧ occ.getD h 0 ≤ ((allHouseholds groups persons).getD h []).length) ∧
      ∃ blocks : List (List Nat), s.hhOfPersons = blocks.flatten ∧ blocks.length = s.sims.length ∧ (personTypes persons).length = s.sims.length ∧
        ∀ (i : Nat) b m p, blocks[i]? = some b → s.sims[i]? = some m → (personTypes persons)[i]? = some p →
          m.chain.states.length = b.length ∧ ∀ h, b.count h = timesIn p ((allHouseholds groups persons).getD h []) := by
  obtain ⟨n0, t, D, -, c1, c2, c3, -⟩ := C108_durations load f hf refresh hr groups persons hg labels hdata start d hd1 hd2 e he uss hu
  obtain ⟨asked, a1, a2, a3⟩ := hdata
  obtain ⟨s00, i0, l1, l2, l3, hcr, ht0, hsub, inv, hhh, hN, hR, hl1, hl2, hall, hcnt, -⟩ := semiCreate_inv load f refresh hr groups persons hg labels asked a1 a3 start d hd1 hd2 e
  have hus : ∀ us ∈ (List.range ((start - i0) / 600000000).toNat).map e ++ uss, StreamsForTypes us := by
    intro us h
    rcases List.mem_append.1 h with h | h
    · obtain ⟨k, -, rfl⟩ := List.mem_map.1 h; exact he k
    · exact hu us h
  obtain ⟨t', -, tr, tg, -⟩ := semi_traj load f hf refresh labels _ _ asked a2 a3 ((List.range ((start - i0) / 600000000).toNat).map e ++ uss) hus s00 inv none hsub 1 hall
  have h1 := tr _ (Nat.le_refl _)
  rw [List.take_of_length_le (Nat.le_refl _), semiRun_append, ← hcr, c1] at h1
  have h2 := c2 uss.length (Nat.le_refl _)
  rw [List.take_of_length_le (Nat.le_refl _)] at h2
  obtain ⟨s, hs⟩ : ∃ s, s = t (n0 + uss.length) := ⟨_, rfl⟩
  rw [← hs] at h2
  have h1' : (t n0).run load f refresh uss = .ok (t' ((List.range ((start - i0) / 600000000).toNat).map e ++ uss).length) := h1
  rw [h2] at h1'
  obtain ⟨inv2, -, hrest, -, -⟩ := tg _ (Nat.le_refl _)
  rw [← Except.ok.inj h1'] at inv2 hrest
  have hh' : s.hhOfPersons = (parseSubgroups (persons.zip (groups.map fun g => g.2))).2.2 := by rw [hrest]; exact hhh
  have hN' : s.nHouseholds = (groups.map fun g => g.2).sum := by rw [hrest]; exact hN
  have hR' : s.nResidents = (allHouseholds groups persons).map (fun ps => (ps.length : Int)) := by rw [hrest]; exact hR
  have hl1' : s.activityLabels.Nodup := by rw [hrest]; exact hl1
  have hl2' : ∀ a, a ∈ s.activityLabels ↔ a ∈ labels := by rw [hrest]; exact hl2
  obtain ⟨blocks, b1, b2, b3, b4, b5, b6⟩ := parse_blocks (persons.zip (groups.map fun g => g.2))
  have huniq := unique_types groups persons hg.2.1
  have hcounts : (s.sims.map fun m => m.chain).map (fun m => m.states.length) = (parseSubgroups (persons.zip (groups.map fun g => g.2))).2.1 := by
    rw [List.map_map]
    apply List.ext_getElem (by rw [List.length_map]; exact inv2.nsims)
    intro i k1 k2
    rw [List.length_map] at k1
    obtain ⟨mats, pdfs, g⟩ := (inv2.ok i _ _ (List.getElem?_eq_getElem k1) (List.getElem?_eq_getElem k2)).good
    rw [List.getElem_map]
    exact g.chain.len
  have hsim : Simulate (s.sims.map fun m => m.chain) (parseSubgroups (persons.zip (groups.map fun g => g.2))).2.1 s.activityLabels := by
    refine ⟨hcounts, ?_⟩
    intro c hc
    obtain ⟨m, hm, rfl⟩ := List.mem_map.1 hc
    obtain ⟨i, hi⟩ := List.mem_iff_getElem?.1 hm
    have hic : i < (parseSubgroups (persons.zip (groups.map fun g => g.2))).2.1.length := by rw [← inv2.nsims]; exact (List.getElem?_eq_some_iff.1 hi).1
    have ok := inv2.ok i m _ hi (List.getElem?_eq_getElem hic)
    obtain ⟨mats, pdfs, g⟩ := ok.good
    exact ⟨ok.nodup, fun a => (ok.same a).trans (hl2' a).symm, g.chain.valid⟩
  have hsnd : (persons.zip (groups.map fun g => g.2)).map (fun q => q.2) = groups.map fun g => g.2 := List.map_snd_zip (by rw [List.length_map, hg.2.1])
  have hhN : (allHouseholds groups persons).length = s.nHouseholds := by
    rw [hN', ← hsnd]
    unfold allHouseholds households
    rw [List.length_flatMap]
    congr 1
    apply List.map_congr_left
    intro q _; simp
  obtain ⟨states, occ, act, o1, o2, o3, o4, o5, o6, o7⟩ := C41_individuals (persons.zip (groups.map fun (g : Subgroup × Nat) => g.2)) (s.sims.map fun m => m.chain) s.activityLabels hl1' hsim away sleeping
    ((hl2' _).2 ha) ((hl2' _).2 hsl) hne s.ind rfl hh' (by rw [hsnd]; exact hN') hR' rfl
  refine ⟨t n0, s, c1, h2, ?_, ⟨states, occ, act, o1, o2, by rw [o3]; exact hl1', by intro a; rw [o3]; exact hl2' a, ?_⟩, blocks, ?_, ?_, ?_, ?_⟩
  · rw [hs, c3 _ (Nat.le_refl _)]; push_cast; ring
  · intro h hh
    rw [hhN] at hh
    obtain ⟨d1, d2, d3, d4, d5, d6⟩ := o7 h hh
    exact ⟨d1, fun q hq => (o6 q hq).2 h hh, d2, d3, d4, d5, d6⟩
  · exact hh'.trans b1
  · rw [inv2.nsims, ← b2, List.length_map]
  · rw [inv2.nsims, ← huniq, ← b3, ← b2, List.length_map]
  · intro i b m p hb hm hp
    refine ⟨?_, (b6 i p b (by rw [huniq]; exact hp) hb).2⟩
    have e1 : ((s.sims.map fun m => m.chain).map fun m => m.states.length)[i]? = (blocks.map List.length)[i]? := by rw [hcounts, b2]
    rw [List.getElem?_map, List.getElem?_map, List.getElem?_map, hm, hb] at e1
    simpa using e1

/-! ### A concrete case: two couples and one person alone, with labels "away", "sleeping" and "other" numbered 0, 1, 2 -/

/-- The same data for everyone, with the labels in another order at the week-end: activities last one, two or three steps, five in the beginning. -/
def demoSemi : SemiLoader Nat := fun g =>
  let half : List Rat := [1 / 2, 1 / 4, 1 / 4]
  let dur : List Rat := [0, 1 / 2, 1 / 4, 1 / 4]
  let five : List Rat := [0, 0, 0, 0, 0, 1]
  .ok { tpm := ⟨3, 3, [[half, half, half]]⟩, durations := .perState [[dur, dur, dur]], labels := if g.at kWeekday = some (.list [6, 7]) then [2, 0, 1] else [0, 1, 2], initial := half,
        initialDurations := [five, five, five] }

theorem demo_semi : ValidSemiData demoSemi demoFlags [0, 1, 2] demoPersons.flatten := by
  refine ⟨fun _ => True, fun _ _ => trivial, fun _ _ _ _ _ => trivial, ?_⟩
  intro g _
  refine ⟨_, rfl, ?_⟩
  have ht : IsTpms 3 [[[1 / 2, 1 / 4, 1 / 4], [1 / 2, 1 / 4, 1 / 4], [1 / 2, 1 / 4, 1 / 4]]] := by
    unfold IsTpms IsDist
    decide +kernel
  have hi : IsDist [1 / 2, 1 / 4, 1 / 4] := by unfold IsDist; decide +kernel
  have hd : IsDurations 3 (.perState [[[0, 1 / 2, 1 / 4, 1 / 4], [0, 1 / 2, 1 / 4, 1 / 4], [0, 1 / 2, 1 / 4, 1 / 4]]]) := by
    unfold IsDurations IsDist
    decide +kernel
  have h5 : ∀ row ∈ [[0, 0, 0, 0, 0, (1 : Rat)], [0, 0, 0, 0, 0, 1], [0, 0, 0, 0, 0, 1]], IsDist row := by
    unfold IsDist
    decide +kernel
  by_cases hw : g.at kWeekday = some (.list [6, 7])
  · simp only [if_pos hw]
    exact ⟨by decide, by intro a; simp; omega, rfl, rfl, ht, ⟨hi, rfl⟩, hd, rfl, h5⟩
  · simp only [if_neg hw]
    exact ⟨by decide, by intro a; simp, rfl, rfl, ht, ⟨hi, rfl⟩, hd, rfl, h5⟩

/-- The draws of a step. -/
def demoStreams (k : Nat) : Nat → (Nat → Rat) × (Nat → Rat) := fun _ => (fun j => (((k + j) % 4 : Nat) : Rat) / 4, fun j => ((j % 2 : Nat) : Rat) / 2)

theorem demo_streams (k : Nat) : StreamsForTypes (demoStreams k) := by
  intro i
  constructor
  · intro j
    have : (k + j) % 4 < 4 := Nat.mod_lt _ (by decide)
    simp only [demoStreams]
    generalize (k + j) % 4 = j at *
    constructor
    · positivity
    · rw [div_lt_one (by norm_num)]; exact_mod_cast this
  · intro j
    have : j % 2 < 2 := Nat.mod_lt _ (by decide)
    simp only [demoStreams]
    generalize j % 2 = j at *
    constructor
    · positivity
    · rw [div_lt_one (by norm_num)]; exact_mod_cast this

/-- Started on a Saturday at 04:00, simulated for six steps: the labels of the week-end are loaded in between. -/
example : ∃ s0 s, SemiIndividuals.create demoSemi demoFlags (4 * HOUR) demoGroups (5 * DAY + 4 * HOUR) 600000000 (fun i => (demoDraw 1 i, demoDraw 2 i)) demoStreams = .ok s0 ∧
    s0.run demoSemi demoFlags (4 * HOUR) [demoStreams 1, demoStreams 2, demoStreams 3, demoStreams 4, demoStreams 5, demoStreams 6] = .ok s ∧ s.time = 5 * DAY + 5 * HOUR := by
  obtain ⟨s0, s, a, b, c, -⟩ := C108_households demoSemi demoFlags rfl (4 * HOUR) (by decide) demoGroups demoPersons demo_groups [0, 1, 2] demo_semi (5 * DAY + 4 * HOUR)
    (fun i => (demoDraw 1 i, demoDraw 2 i)) (demo_draws 1) (demo_draws 2) demoStreams demo_streams [demoStreams 1, demoStreams 2, demoStreams 3, demoStreams 4, demoStreams 5, demoStreams 6] (by
      intro us h
      simp only [List.mem_cons, List.not_mem_nil, or_false] at h
      rcases h with rfl | rfl | rfl | rfl | rfl | rfl <;> exact demo_streams _) 0 1 (by decide) (by decide) (by decide)
  exact ⟨s0, s, a, b, by rw [c]; decide⟩

/-- In this run the first person keeps activity 0 for the five steps drawn in the beginning, in spite of the new labels, then changes at each of the next two steps. -/
example : (match SemiIndividuals.create demoSemi demoFlags (4 * HOUR) demoGroups (5 * DAY + 4 * HOUR) 600000000 (fun i => (demoDraw 1 i, demoDraw 2 i)) demoStreams with
    | .ok s0 => (List.range 7).map fun k => match s0.run demoSemi demoFlags (4 * HOUR) ([demoStreams 1, demoStreams 2, demoStreams 3, demoStreams 4, demoStreams 7, demoStreams 8].take k) with
      | .ok s => (activityOf s 0 0, (s.sims.map fun (m : SemiMarkov Nat) => m.chain.labels).head?)
      | .error _ => (none, none)
    | .error _ => []) =
    [(some 0, some [0, 1, 2]), (some 0, some [2, 0, 1]), (some 0, some [2, 0, 1]), (some 0, some [2, 0, 1]), (some 0, some [2, 0, 1]), (some 1, some [2, 0, 1]), (some 2, some [2, 0, 1])] := by
  decide +kernel

end Demod
