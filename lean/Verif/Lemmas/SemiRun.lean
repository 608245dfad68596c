import Verif.Lemmas.SemiMarkov

namespace Demod
namespace SemiMarkov
variable {L : Type}

/-- A run is a sequence of states. -/
theorem exists_traj {m : SemiMarkov L} {N n : Nat} {mats : List (List (List Rat))} {pdfs : Durations} (g : Good m N n mats pdfs)
    (ds : List ((Nat → Rat) × (Nat → Rat))) (hd : ∀ d ∈ ds, DrawStream d.1 ∧ DrawStream d.2) :
    ∃ t : Nat → SemiMarkov L, t 0 = m ∧ (∀ k ≤ ds.length, m.run (ds.take k) = .ok (t k)) ∧
      (∀ k ≤ ds.length, Good (t k) N n mats pdfs ∧ (t k).chain.pos = m.chain.pos + k ∧ (t k).durPos = m.durPos + k) ∧
      ∀ k d, ds[k]? = some d → (t k).step d.1 d.2 = .ok (t (k + 1)) := by
  induction ds generalizing m with
  | nil =>
    refine ⟨fun _ => m, rfl, ?_, ?_, ?_⟩
    · intro k hk; rw [List.take_nil]; rfl
    · intro k hk
      have : k = 0 := by simpa using hk
      subst this
      exact ⟨g, rfl, rfl⟩
    · intro k d h; simp at h
  | cons d ds ih =>
    obtain ⟨hd1, hd2⟩ := hd d List.mem_cons_self
    obtain ⟨m1, h1, g1, p1, q1, _⟩ := good_step g d.1 d.2 hd1 hd2
    obtain ⟨t, t0, tr, tg, ts⟩ := ih g1 fun x hx => hd x (List.mem_cons_of_mem _ hx)
    refine ⟨fun k => match k with | 0 => m | k + 1 => t k, rfl, ?_, ?_, ?_⟩
    · intro k hk
      cases k with
      | zero => rfl
      | succ k =>
        rw [List.take_succ_cons, run, h1]
        exact tr k (by simpa using hk)
    · intro k hk
      cases k with
      | zero => exact ⟨g, rfl, rfl⟩
      | succ k =>
        obtain ⟨a, b, c⟩ := tg k (by simpa using hk)
        exact ⟨a, by simp only; omega, by simp only; omega⟩
    · intro k d' hk
      cases k with
      | zero =>
        simp only [List.getElem?_cons_zero, Option.some.injEq] at hk
        subst hk
        show m.step d.1 d.2 = .ok (t 0)
        rw [h1, t0]
      | succ k => exact ts k d' (by simpa using hk)

theorem rank_inj (m : SemiMarkov L) (a b : Nat) (ha : a < m.timesLeft.length) (hb : b < m.timesLeft.length) (ca : m.timesLeft.getD a 0 < 1)
    (cb : m.timesLeft.getD b 0 < 1) (h : m.rank a = m.rank b) : a = b := by
  have get : ∀ h < m.timesLeft.length, m.timesLeft.getD h 0 < 1 → m.changing[h]? = some true := by
    intro h hh hc
    rw [getD_eq _ _ _ hh] at hc
    unfold changing
    rw [List.getElem?_map, List.getElem?_eq_getElem hh]
    simp [hc]
  unfold rank at h
  rcases Nat.lt_trichotomy a b with hab | hab | hab
  · have := count_take_lt _ _ _ hab (get a ha ca); omega
  · exact hab
  · have := count_take_lt _ _ _ hab (get b hb cb); omega

end SemiMarkov

theorem durations_checked {n : Nat} {pdfs : Durations} (hd : IsDurations n pdfs) :
    pdfs.hasStates n = true ∧ checkValidCdf cdfEps pdfs.cumsum.rows = .ok true ∧ pdfs.size ≠ 0 := by
  have h0 := SemiMarkov.nDurations_pos hd
  cases pdfs with
  | perState d =>
    obtain ⟨h1, h2⟩ := hd
    refine ⟨?_, ?_, ?_⟩
    · unfold Durations.hasStates
      simp only [List.all_eq_true, decide_eq_true_eq]
      exact fun m hm => (h2 m hm).1
    · show checkValidCdf cdfEps (d.map fun m => m.map cumsum).flatten = _
      rw [← List.map_flatten]
      apply Markov.check_ok
      intro r hr
      obtain ⟨m, hm, hr⟩ := List.mem_flatten.1 hr
      exact (h2 m hm).2 r hr
    · simp only [Durations.size, nDurations] at h0 ⊢; omega
  | perPrevious d =>
    obtain ⟨h1, h2⟩ := hd
    refine ⟨?_, ?_, ?_⟩
    · unfold Durations.hasStates
      simp only [List.all_eq_true, decide_eq_true_eq]
      exact fun m hm => (h2 m hm).1
    · show checkValidCdf cdfEps (d.map fun m => m.map fun r => r.map cumsum).flatten.flatten = _
      rw [← List.map_flatten, ← List.map_flatten]
      apply Markov.check_ok
      intro r hr
      obtain ⟨m, hm, hr⟩ := List.mem_flatten.1 hr
      obtain ⟨m', hm', hm⟩ := List.mem_flatten.1 hm
      exact ((h2 m' hm').2 m hm).2 r hr
    · simp only [Durations.size, nDurations] at h0 ⊢; omega

theorem setDurations_ok [DecidableEq L] (m : SemiMarkov L) (n : Nat) (hn : m.chain.nStates = n) {pdfs : Durations} (hd : IsDurations n pdfs) :
    m.setDurations pdfs = .ok { m with durations := pdfs.cumsum, durPos := 1 } := by
  obtain ⟨a, b, c⟩ := durations_checked hd
  unfold SemiMarkov.setDurations
  rw [hn, a, b]
  simp only [not_true_eq_false, if_false, bind, Except.bind, if_neg c]

theorem semi_initialise_good [DecidableEq L] (c : Markov L) (N n : Nat) (mats : List (List (List Rat))) (g : c.Good N n mats) (hcn : c.nStates = n) (rows : List (List Rat))
    (pdfs : Durations) (hd : IsDurations n pdfs) (hrl : rows.length = n) (hr : ∀ r ∈ rows, IsDist r) (us : List Rat) (hu : Draws N us) :
    ∃ m : SemiMarkov L, SemiMarkov.initialise c rows pdfs us = .ok m ∧ m.Good N n mats pdfs ∧ m.chain = c ∧ m.durPos = 1 ∧
      ∀ h < N, ∃ d : Nat, m.timesLeft.getD h 0 = (d : Int) - 1 ∧ Sampled (rows.getD (c.states.getD h 0) []) (us.getD h 0) d := by
  have h1 : c.states.mapM (pyGet rows) = .ok (c.states.map fun s => rows.getD s []) := by
    rw [mapM_ok_iff]
    refine ⟨by simp, ?_⟩
    intro k h h'
    have := g.valid c.states[k] (List.getElem_mem h)
    rw [pyGet_ok rows c.states[k] (by omega)]
    simp only [List.getElem_map]
    rw [getD_eq _ _ _ (by omega)]
  obtain ⟨out, o1, o2, o3⟩ := mc_rows (c.states.map fun s => rows.getD s []) us (by
    intro r hr'
    obtain ⟨s, hs, rfl⟩ := List.mem_map.1 hr'
    have := g.valid s hs
    rw [getD_eq _ _ _ (by omega)]
    exact hr _ (List.getElem_mem _)) (by rw [List.length_map, g.len]; exact hu)
  have o1' : mcFromPdf (c.states.map fun s => rows.getD s []) us = .ok out := o1
  rw [List.length_map, g.len] at o2
  refine ⟨{ chain := c, timesLeft := out.map fun (x : Nat) => (x : Int) - 1, durations := pdfs.cumsum, durPos := 1 }, ?_,
    ⟨g, by simp only; rw [List.length_map, o2], rfl, hd⟩, rfl, rfl, ?_⟩
  · unfold SemiMarkov.initialise
    rw [h1]
    show (do let d ← mcFromPdf (c.states.map fun s => rows.getD s []) us; _) = _
    rw [o1']
    exact setDurations_ok _ n hcn hd
  · intro h hh
    obtain ⟨d, hd, hs⟩ := o3 h (rows.getD (c.states.getD h 0) []) (by
      rw [List.getElem?_map, List.getElem?_eq_getElem (by rw [g.len]; exact hh), getD_eq c.states _ _ (by rw [g.len]; exact hh)]; rfl)
    refine ⟨d, ?_, hs⟩
    simp only
    rw [List.getD_eq_getElem?_getD, List.getElem?_map, hd]; rfl

end Demod
