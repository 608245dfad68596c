import Verif.Lemmas.SemiRun

/-!
# Properties C38-C40: Markov and semi-Markov simulators

`Sampled p u i` (in `Spec/Markov.lean`): the draw `u` lies in the `i`-th of consecutive intervals of lengths
`p[0], p[1], …`; in particular `p[i] > 0`.
-/

namespace Demod
variable {L : Type} [DecidableEq L]

/-- **C38.** A `MarkovChain1rstOrder` created and initialised with transition matrices and a start distribution, then run with any uniform
draws: nothing fails; every household starts in a state drawn from the start distribution; and at step `k` it
moves to a state drawn, with its own draw, from the row of its previous state in matrix `(k+1) mod` the number of matrices. -/
theorem C38_markov_chain (N n : Nat) (hN : 0 < N) (mats : List (List (List Rat))) (labels : List L) (hl : labels.length = n) (pdf : List Rat)
    (check : Bool) (us0 : List Rat) (uss : List (List Rat)) (htp : IsTpms n mats) (hpdf : IsDist pdf) (hpl : pdf.length = n)
    (hu0 : Draws N us0) (hus : ∀ us ∈ uss, Draws N us) :
    ∃ m0 : Markov L, (Markov.create N n ⟨n, n, mats⟩ labels >>= fun m => m.initialise pdf check us0) = .ok m0 ∧
      m0.states.length = N ∧ (∀ h < N, Sampled pdf (us0.getD h 0) (m0.states.getD h 0)) ∧
      ∀ k us, uss[k]? = some us → ∃ a b : Markov L, m0.run (uss.take k) = .ok a ∧ m0.run (uss.take (k + 1)) = .ok b ∧
        b.states.length = N ∧ (∀ s ∈ b.states, s < n) ∧ b.labels = labels ∧
        ∀ h < N, Sampled (rowOf mats ((k + 1) % mats.length) (a.states.getD h 0)) (us.getD h 0) (b.states.getD h 0) := by
  obtain ⟨m0, h1, g0, p0, l0, -, s0⟩ := Markov.initialise_good
    ({ nHouseholds := N, nStates := n, tpms := ⟨n, n, mats⟩, labels := labels, cdfs := [], pos := 0, states := [] } : Markov L)
    n pdf check us0 rfl hpdf hpl htp hu0
  refine ⟨m0, ?_, g0.len, s0, ?_⟩
  · have hc : Markov.create N n ⟨n, n, mats⟩ labels =
        .ok { nHouseholds := N, nStates := n, tpms := ⟨n, n, mats⟩, labels := labels, cdfs := [], pos := 0, states := [] } := by
      unfold Markov.create
      rw [if_neg (by omega), if_neg (by simp), if_neg (by simp), if_neg (by simp [hl])]
    rw [hc]
    exact h1
  · intro k us hk
    obtain ⟨a, ra, ga, pa, la, -⟩ := Markov.good_run g0 (uss.take k) fun x hx => hus x (List.mem_of_mem_take hx)
    obtain ⟨b, rb, gb, pb, lb, -, sb⟩ := Markov.good_step ga us (hus us (List.mem_of_getElem? hk))
    refine ⟨a, b, ra, ?_, gb.len, gb.valid, by rw [lb, la, l0], ?_⟩
    · rw [List.take_add_one, hk, Markov.run_append, ra]
      show Markov.run a [us] = _
      rw [Markov.run, rb]; rfl
    · have hkl : k < uss.length := (List.getElem?_eq_some_iff.1 hk).1
      have hpk : a.pos = k + 1 := by rw [pa, p0, List.length_take]; omega
      rw [hpk] at sb
      exact sb

/-- **C38 (positive probability).** Whatever is drawn has a positive probability, in a valid position. -/
theorem C38_positive (p : List Rat) (u : Rat) (i : Nat) (h : Sampled p u i) : i < p.length ∧ 0 < p.getD i 0 := ⟨h.1, h.pos⟩

/-- **C38 (rejections).** No households, matrices of a wrong shape, a wrong number of labels or a start distribution of a wrong length are rejected. -/
theorem C38_rejected (N n : Nat) (t : Tpms) (labels : List L) :
    ((N = 0 ∨ t.cols ≠ t.rows ∨ t.cols ≠ n ∨ labels.length ≠ n) ↔ Markov.create N n t labels = .error .valueError) ∧
    ∀ (m : Markov L) pdf check us, Markov.create N n t labels = .ok m → pdf.length ≠ n → m.initialise pdf check us = .error .assertionError := by
  constructor
  · unfold Markov.create
    constructor
    · rintro (h | h | h | h)
      · rw [if_pos h]
      · by_cases h0 : N = 0
        · rw [if_pos h0]
        · rw [if_neg h0, if_pos h]
      · split
        · rfl
        · split
          · rfl
          · rfl
      · split
        · rfl
        · split
          · rfl
          · split
            · rfl
            · rfl
    · intro h
      by_contra hc
      simp only [not_or, not_not] at hc
      obtain ⟨h0, h1, h2, h3⟩ := hc
      rw [if_neg h0, if_neg (by simpa using h1), if_neg (by simpa using h2), if_neg (by simpa using h3)] at h
      cases h
  · intro m pdf check us hm hp
    unfold Markov.create at hm
    split at hm
    · cases hm
    · split at hm
      · cases hm
      · split at hm
        · cases hm
        · split at hm
          · cases hm
          · injection hm with hm
            subst hm
            unfold Markov.initialise
            rw [if_pos hp]

/-- Two states, two matrices; three steps of two households. -/
def exampleMats : List (List (List Rat)) := [[[1, 0], [0, 1]], [[1 / 2, 1 / 2], [0, 1]]]

example : IsTpms 2 exampleMats := by
  refine ⟨by simp [exampleMats], ?_⟩
  intro mat hm
  simp only [exampleMats, List.mem_cons, List.not_mem_nil, or_false] at hm
  rcases hm with rfl | rfl <;> refine ⟨rfl, ?_⟩ <;> intro r hr <;> simp only [List.mem_cons, List.not_mem_nil, or_false] at hr <;>
    rcases hr with rfl | rfl <;> refine ⟨rfl, ?_, ?_⟩ <;> simp <;> norm_num

example : ((Markov.create 2 2 ⟨2, 2, exampleMats⟩ ["a", "b"] >>= fun m => m.initialise [1 / 2, 1 / 2] true [1 / 4, 3 / 4]) >>= fun m =>
    m.run [[3 / 4, 1 / 4]]).map (·.states) = .ok [1, 1] := by decide +kernel

/-- A matrix whose rows sum to slightly less than one is accepted, and then a state of probability zero can be reached: the rows
of a transition matrix must sum to one exactly. -/
theorem C38_tolerance_counterexample :
    ∃ (mats : List (List (List Rat))) (us0 us : List Rat) (m : Markov Nat), Draws 1 us0 ∧ Draws 1 us ∧
      (Markov.create 1 2 ⟨2, 2, mats⟩ [0, 1] >>= fun m => m.initialise [0, 1] true us0) = .ok m ∧
      m.states = [1] ∧ rowOf mats 0 1 = [0, 99999999999 / 100000000000] ∧ (m.run [us]).map (·.states) = .ok [0] := by
  refine ⟨[[[0, 1], [0, 99999999999 / 100000000000]]], [0], [999999999999 / 1000000000000],
    { nHouseholds := 1, nStates := 2, tpms := ⟨2, 2, [[[0, 1], [0, 99999999999 / 100000000000]]]⟩, labels := [0, 1],
      cdfs := [[[0, 1], [0, 99999999999 / 100000000000]]], pos := 1, states := [1] }, ?_, ?_, ?_, rfl, rfl, ?_⟩
  · exact ⟨rfl, by simp⟩
  · refine ⟨rfl, ?_⟩; simp; norm_num
  · decide +kernel
  · decide +kernel

/-! ## C39 -/

/-- **C39.** After the labels are replaced, a household whose label occurs exactly once among the new labels keeps its label; the others
are in state 0. The number of households does not change. -/
theorem C39_new_labels (m : Markov L) (new : List L) (hv : ∀ s ∈ m.states, s < m.labels.length) :
    ∃ m' : Markov L, m.assignNewLabels new = .ok m' ∧ m'.labels = new ∧ m'.states.length = m.states.length ∧
      ∀ (h s : Nat) lab, m.states[h]? = some s → m.labels[s]? = some lab →
        ∃ s', m'.states[h]? = some s' ∧ (new.count lab = 1 → new[s']? = some lab) ∧ (new.count lab ≠ 1 → s' = 0) := by
  obtain ⟨m', a, b, c, -, -, d⟩ := Markov.assign_spec m new hv
  exact ⟨m', a, b, c, d⟩

/-- **C39 (through a change of matrices).** `_set_tpm` with new labels: same effect on the states, and the chain restarts at the beginning of the new
matrices (the first is skipped). -/
theorem C39_set_tpm (m : Markov L) (n : Nat) (mats : List (List (List Rat))) (check : Bool) (new : List L) (htp : IsTpms n mats)
    (hv : ∀ s ∈ m.states, s < m.labels.length) :
    ∃ m' : Markov L, m.setTpm mats check (some new) = .ok m' ∧ m'.labels = new ∧ m'.pos = 1 ∧ m'.states.length = m.states.length ∧
      ∀ (h s : Nat) lab, m.states[h]? = some s → m.labels[s]? = some lab →
        ∃ s', m'.states[h]? = some s' ∧ (new.count lab = 1 → new[s']? = some lab) ∧ (new.count lab ≠ 1 → s' = 0) := by
  obtain ⟨m', a, b, c, -, p, d⟩ := Markov.assign_spec ({ m with cdfs := mats.map fun mat => mat.map cumsum, pos := 1 } : Markov L) new hv
  refine ⟨m', ?_, b, p, c, d⟩
  have hflat : (mats.map fun mat => mat.map cumsum).flatten = (mats.flatten).map cumsum := by rw [List.map_flatten]
  have hcheck : checkValidCdf cdfEps (mats.map fun mat => mat.map cumsum).flatten = .ok true := by
    rw [hflat]
    apply Markov.check_ok
    intro r hr
    obtain ⟨mat, hm, hr⟩ := List.mem_flatten.1 hr
    exact ((htp.2 mat hm).2 r hr).2
  have hnext : ({ m with cdfs := mats.map fun mat => mat.map cumsum, pos := 0 } : Markov L).next =
      .ok ((mats.getD 0 []).map cumsum, { m with cdfs := mats.map fun mat => mat.map cumsum, pos := 1 }) := by
    have h0 : 0 < mats.length := List.length_pos_iff.2 htp.1
    unfold Markov.next
    rw [if_neg (by simpa using htp.1)]
    simp only [Nat.zero_mod]
    rw [pyGet_map, pyGet_ok _ _ h0, getD_eq _ _ _ h0]
    rfl
  unfold Markov.setTpm
  cases check
  · simp only [Bool.false_eq_true, if_false]
    rw [hnext]; exact a
  · simp only [if_true]
    rw [hcheck, hnext]; exact a

example : (Markov.assignNewLabels ({ nHouseholds := 4, nStates := 3, tpms := ⟨3, 3, []⟩, labels := ["a", "b", "c"], cdfs := [], pos := 0, states := [0, 1, 2, 0] } : Markov String)
    ["c", "b", "b", "a"]).map (·.states) = .ok [3, 0, 0, 3] := by decide +kernel

/-! ## C40 -/

/-- **C40.** A `SemiMarkovSimulator`, initialised with distributions and run with any uniform draws. There are households states `x k h`
after `k` steps and `D k h`, which is `some (r, d)` if household `h` is given a new state and the duration `d` at step `k` with
the `r`-th draws of that step (step 0 is the initialisation), such that:
* without a new state the household keeps its state;
* new states and their durations are drawn from the row of the previous state in the matrix `k mod` the number of matrices, and from the duration
  distribution of the new state; two households never share a draw;
* after a duration `d ≥ 1` the next new state is given exactly `d` steps later (one step later if `d = 0`). -/
theorem C40_durations (N n : Nat) (hN : 0 < N) (mats : List (List (List Rat))) (labels : List L) (hl : labels.length = n) (pdf : List Rat)
    (check : Bool) (starts : List (List Rat)) (pdfs : Durations) (us0 us1 : List Rat) (ds : List ((Nat → Rat) × (Nat → Rat)))
    (htp : IsTpms n mats) (hpdf : IsDist pdf) (hpl : pdf.length = n) (hsl : starts.length = n) (hs : ∀ r ∈ starts, IsDist r) (hdur : IsDurations n pdfs)
    (hu0 : Draws N us0) (hu1 : Draws N us1) (hds : ∀ d ∈ ds, DrawStream d.1 ∧ DrawStream d.2) :
    ∃ (m0 : SemiMarkov L) (x : Nat → Nat → Nat) (D : Nat → Nat → Option (Nat × Nat)),
      ((Markov.create N n ⟨n, n, mats⟩ labels >>= fun m => m.initialise pdf check us0) >>= fun c => SemiMarkov.initialise c starts pdfs us1) = .ok m0 ∧
      (∀ k ≤ ds.length, ∃ m : SemiMarkov L, m0.run (ds.take k) = .ok m ∧ m.chain.states.length = N ∧ ∀ h < N, m.chain.states[h]? = some (x k h) ∧ x k h < n) ∧
      (∀ h < N, Sampled pdf (us0.getD h 0) (x 0 h) ∧ ∃ d, D 0 h = some (h, d) ∧ Sampled (starts.getD (x 0 h) []) (us1.getD h 0) d) ∧
      (∀ k u v, ds[k]? = some (u, v) → ∀ h < N,
        (D (k + 1) h = none → x (k + 1) h = x k h) ∧
        (∀ r d, D (k + 1) h = some (r, d) →
          Sampled (rowOf mats ((k + 1) % mats.length) (x k h)) (u r) (x (k + 1) h) ∧
          Sampled (durationRow pdfs ((k + 1) % nDurations pdfs) (x k h) (x (k + 1) h)) (v r) d ∧
          ∀ h' < N, ∀ d', D (k + 1) h' = some (r, d') → h' = h)) ∧
      (∀ k h r d, h < N → k ≤ ds.length → D k h = some (r, d) →
        (∀ j, 0 < j → j < max d 1 → k + j ≤ ds.length → D (k + j) h = none) ∧ (k + max d 1 ≤ ds.length → D (k + max d 1) h ≠ none)) := by
  obtain ⟨c0, h1, g0, p0, l0, hcn, s0⟩ := Markov.initialise_good
    ({ nHouseholds := N, nStates := n, tpms := ⟨n, n, mats⟩, labels := labels, cdfs := [], pos := 0, states := [] } : Markov L)
    n pdf check us0 rfl hpdf hpl htp hu0
  obtain ⟨m0, h2, gm, hc, dp0, hd0⟩ := semi_initialise_good c0 N n mats g0 hcn starts pdfs hdur hsl hs us1 hu1
  obtain ⟨t, t0, tr, tg, ts⟩ := SemiMarkov.exists_traj gm ds hds
  have hstep : ∀ k u v, ds[k]? = some (u, v) → ∀ h < N,
      (¬ (t k).timesLeft.getD h 0 < 1 →
          (t (k + 1)).chain.states.getD h 0 = (t k).chain.states.getD h 0 ∧ (t (k + 1)).timesLeft.getD h 0 = (t k).timesLeft.getD h 0 - 1) ∧
        ((t k).timesLeft.getD h 0 < 1 →
          Sampled (rowOf mats ((k + 1) % mats.length) ((t k).chain.states.getD h 0)) (u ((t k).rank h)) ((t (k + 1)).chain.states.getD h 0) ∧
          ∃ d : Nat, (t (k + 1)).timesLeft.getD h 0 = (d : Int) - 1 ∧
            Sampled (durationRow pdfs ((k + 1) % nDurations pdfs) ((t k).chain.states.getD h 0) ((t (k + 1)).chain.states.getD h 0)) (v ((t k).rank h)) d) := by
    intro k u v hk h hh
    have hkl : k < ds.length := (List.getElem?_eq_some_iff.1 hk).1
    obtain ⟨gk, pk, qk⟩ := tg k (by omega)
    obtain ⟨hu, hv⟩ := hds (u, v) (List.mem_of_getElem? hk)
    obtain ⟨m', e, -, -, -, hm⟩ := SemiMarkov.good_step gk u v hu hv
    rw [ts k (u, v) hk] at e
    injection e with e
    rw [← e, pk, qk, hc, p0, dp0, Nat.add_comm 1 k] at hm
    exact hm h hh
  refine ⟨m0, fun k h => (t k).chain.states.getD h 0,
    fun k h => match k with
      | 0 => some (h, ((t 0).timesLeft.getD h 0 + 1).toNat)
      | k + 1 => if (t k).timesLeft.getD h 0 < 1 then some ((t k).rank h, ((t (k + 1)).timesLeft.getD h 0 + 1).toNat) else none,
    ?_, ?_, ?_, ?_, ?_⟩
  · have hcr : Markov.create N n ⟨n, n, mats⟩ labels =
        .ok { nHouseholds := N, nStates := n, tpms := ⟨n, n, mats⟩, labels := labels, cdfs := [], pos := 0, states := [] } := by
      unfold Markov.create
      rw [if_neg (by omega), if_neg (by simp), if_neg (by simp), if_neg (by simp [hl])]
    rw [hcr]
    show (Markov.initialise _ pdf check us0 >>= fun c => SemiMarkov.initialise c starts pdfs us1) = _
    rw [h1]
    exact h2
  · intro k hk
    obtain ⟨gk, -, -⟩ := tg k hk
    refine ⟨t k, tr k hk, gk.chain.len, ?_⟩
    intro h hh
    have hh' : h < (t k).chain.states.length := by rw [gk.chain.len]; exact hh
    simp only
    rw [List.getElem?_eq_getElem hh', getD_eq _ _ _ hh']
    exact ⟨rfl, gk.chain.valid _ (List.getElem_mem _)⟩
  · intro h hh
    simp only [t0, hc]
    refine ⟨s0 h hh, ?_⟩
    obtain ⟨d, hd, hsm⟩ := hd0 h hh
    refine ⟨d, ?_, hsm⟩
    rw [hd]
    congr 2
    omega
  · intro k u v hk h hh
    obtain ⟨a, b⟩ := hstep k u v hk h hh
    simp only
    constructor
    · intro hD
      split at hD
      · cases hD
      · rename_i hn
        exact (a hn).1
    · intro r d hD
      split at hD
      · rename_i hy
        obtain ⟨b1, d', b2, b3⟩ := b hy
        simp only [Option.some.injEq, Prod.mk.injEq] at hD
        obtain ⟨rfl, rfl⟩ := hD
        refine ⟨b1, ?_, ?_⟩
        · rw [b2]
          have : ((d' : Int) - 1 + 1).toNat = d' := by omega
          rw [this]; exact b3
        · intro h' hh' d'' hD'
          split at hD'
          · rename_i hy'
            simp only [Option.some.injEq, Prod.mk.injEq] at hD'
            have hkl : k < ds.length := (List.getElem?_eq_some_iff.1 hk).1
            have hlen := (tg k (by omega)).1.len
            exact SemiMarkov.rank_inj (t k) h' h (by omega) (by omega) hy' hy hD'.1
          · cases hD'
      · cases hD
  · intro k h r d hh hk hD
    -- the remaining time after the draw
    have ht : (t k).timesLeft.getD h 0 = (d : Int) - 1 := by
      cases k with
      | zero =>
        simp only [Option.some.injEq, Prod.mk.injEq] at hD
        obtain ⟨d', hd', -⟩ := hd0 h hh
        rw [← hD.2, t0, hd']
        omega
      | succ k =>
        simp only at hD
        split at hD
        · rename_i hy
          simp only [Option.some.injEq, Prod.mk.injEq] at hD
          have hkl : k < ds.length := by omega
          obtain ⟨-, d', hd', -⟩ := (hstep k ds[k].1 ds[k].2 (List.getElem?_eq_getElem hkl) h hh).2 hy
          rw [← hD.2, hd']
          omega
        · cases hD
    have hrem : ∀ j, j < max d 1 → k + j ≤ ds.length → (t (k + j)).timesLeft.getD h 0 = (d : Int) - 1 - j := by
      intro j
      induction j with
      | zero => intro _ _; rw [Nat.add_zero, ht]; simp
      | succ j ih =>
        intro hj hkj
        have := ih (by omega) (by omega)
        have hkl : k + j < ds.length := by omega
        have hn : ¬ (t (k + j)).timesLeft.getD h 0 < 1 := by rw [this]; omega
        rw [show k + (j + 1) = (k + j) + 1 from rfl, ((hstep (k + j) ds[k + j].1 ds[k + j].2 (List.getElem?_eq_getElem hkl) h hh).1 hn).2, this]
        push_cast
        omega
    constructor
    · intro j hj0 hj hkj
      obtain ⟨i, rfl⟩ : ∃ i, j = i + 1 := ⟨j - 1, by omega⟩
      rw [show k + (i + 1) = (k + i) + 1 from rfl]
      simp only
      rw [if_neg]
      rw [hrem i (by omega) (by omega)]
      omega
    · intro hkj
      obtain ⟨i, hi⟩ : ∃ i, max d 1 = i + 1 := ⟨max d 1 - 1, by omega⟩
      rw [hi, show k + (i + 1) = (k + i) + 1 from rfl]
      simp only
      rw [if_pos]
      · simp
      · rw [hrem i (by omega) (by omega)]
        omega

/-- Two households, two states, durations 2 (state 0) and 1 (state 1): the first household starts in state 0 with duration 2, the second in state 1 with
duration 1. -/
example : (((Markov.create 2 2 ⟨2, 2, [[[0, 1], [1, 0]]]⟩ ["a", "b"] >>= fun m => m.initialise [1 / 2, 1 / 2] true [0, 1 / 2]) >>= fun c =>
    SemiMarkov.initialise c [[0, 0, 1], [0, 1, 0]] (.perState [[[0, 0, 1], [0, 1, 0]]]) [0, 0]) >>= fun m =>
    m.run [(fun _ => 0, fun _ => 0), (fun _ => 0, fun _ => 0)]).map (fun m => (m.chain.states, m.timesLeft)) = .ok ([1, 0], [0, 0]) := by decide +kernel

example : IsDurations 2 (.perState [[[0, 0, 1], [0, 1, 0]]]) := by
  refine ⟨by simp, ?_⟩
  intro mat hm
  simp only [List.mem_cons, List.not_mem_nil, or_false] at hm
  subst hm
  refine ⟨rfl, ?_⟩
  intro r hr
  simp only [List.mem_cons, List.not_mem_nil, or_false] at hr
  rcases hr with rfl | rfl <;> refine ⟨?_, ?_⟩ <;> simp

/-- A row that is no distribution is rejected, wherever it is. -/
theorem no_dist_rejected (rows : List (List Rat)) (row : List Rat) (h : row ∈ rows) (hb : NoDist row) : checkValidCdf cdfEps (rows.map cumsum) = .error .valueError := by
  rw [(C11_check_valid_cdf cdfEps _).2]
  intro hall
  obtain ⟨hne, hmono, hb', hl⟩ := hall (cumsum row) (List.mem_map_of_mem h)
  have hl := hl hne
  rw [cumsum_getLast] at hl
  rcases hb with ⟨x, hx, hx0⟩ | h | h
  · exact absurd (cumsum_mono_nonneg row hmono (fun y hy => (hb' y hy).1) x hx) (not_le.2 hx0)
  · unfold cdfEps at hl; linarith [hl.1]
  · unfold cdfEps at hl; linarith [hl.2]

/-- **C40 (rejected).** Durations for another number of states, or that are no distributions, are refused with a `ValueError` when the simulator is initialised, even if the user asks for no checks;
no duration at all raises `StopIteration`. -/
theorem C40_rejected (N n : Nat) (hN : 0 < N) (mats : List (List (List Rat))) (labels : List L) (hl : labels.length = n) (pdf : List Rat)
    (check : Bool) (starts : List (List Rat)) (pdfs : Durations) (us0 us1 : List Rat)
    (htp : IsTpms n mats) (hpdf : IsDist pdf) (hpl : pdf.length = n) (hsl : starts.length = n) (hs : ∀ r ∈ starts, IsDist r) (hu0 : Draws N us0) (hu1 : Draws N us1) :
    (BadDurations n pdfs → ((Markov.create N n ⟨n, n, mats⟩ labels >>= fun m => m.initialise pdf check us0) >>= fun c => SemiMarkov.initialise c starts pdfs us1).map (fun _ => ()) = .error .valueError) ∧
    (pdfs = .perState [] ∨ pdfs = .perPrevious [] →
      ((Markov.create N n ⟨n, n, mats⟩ labels >>= fun m => m.initialise pdf check us0) >>= fun c => SemiMarkov.initialise c starts pdfs us1).map (fun _ => ()) = .error .stopIteration) := by
  obtain ⟨c0, h1, g0, p0, l0, hcn, s0⟩ := Markov.initialise_good
    ({ nHouseholds := N, nStates := n, tpms := ⟨n, n, mats⟩, labels := labels, cdfs := [], pos := 0, states := [] } : Markov L)
    n pdf check us0 rfl hpdf hpl htp hu0
  have hc : Markov.create N n ⟨n, n, mats⟩ labels = .ok ({ nHouseholds := N, nStates := n, tpms := ⟨n, n, mats⟩, labels := labels, cdfs := [], pos := 0, states := [] } : Markov L) := by
    unfold Markov.create
    rw [if_neg (by omega), if_neg (by simp), if_neg (by simp), if_neg (by simp [hl])]
  have hrows : ∃ d, ((c0.states.mapM (pyGet starts)) >>= fun st => mcFromPdf st us1) = .ok d := by
    have hd : IsDurations n (.perState [List.replicate n [1]]) := by
      refine ⟨by simp, ?_⟩
      intro mat hm
      simp only [List.mem_singleton] at hm
      subst hm
      refine ⟨by simp, ?_⟩
      intro row hr
      rw [List.eq_of_mem_replicate hr]
      unfold IsDist
      decide +kernel
    obtain ⟨m0, h2, -⟩ := semi_initialise_good c0 N n mats g0 hcn starts _ hd hsl hs us1 hu1
    unfold SemiMarkov.initialise at h2
    cases e : c0.states.mapM (pyGet starts) with
    | error x => rw [e] at h2; exact absurd h2 (by simp [bind, Except.bind])
    | ok st =>
      rw [e] at h2
      cases e' : mcFromPdf st us1 with
      | error x => simp only [bind, Except.bind, e'] at h2; exact absurd h2 (by simp)
      | ok d => exact ⟨d, by simp only [bind, Except.bind, e']⟩
  obtain ⟨d, hd⟩ := hrows
  have hred : ((Markov.create N n ⟨n, n, mats⟩ labels >>= fun m => m.initialise pdf check us0) >>= fun c => SemiMarkov.initialise c starts pdfs us1) =
      ({ chain := c0, timesLeft := d.map fun (x : Nat) => (x : Int) - 1, durations := pdfs, durPos := 0 } : SemiMarkov L).setDurations pdfs := by
    rw [hc]
    simp only [bind, Except.bind, h1]
    unfold SemiMarkov.initialise
    cases e : c0.states.mapM (pyGet starts) with
    | error x => rw [e] at hd; exact absurd hd (by simp [bind, Except.bind])
    | ok st =>
      rw [e] at hd
      simp only [bind, Except.bind] at hd ⊢
      rw [hd]
  rw [hred]
  unfold SemiMarkov.setDurations
  rw [hcn]
  constructor
  · intro hbad
    by_cases hst : pdfs.hasStates n = true
    · rw [if_neg (by simp [hst])]
      have hr : checkValidCdf cdfEps pdfs.cumsum.rows = .error .valueError := by
        cases pdfs with
        | perState c =>
          obtain ⟨mat, hm, h | ⟨row, hr, hb⟩⟩ := hbad
          · have := List.all_eq_true.1 hst mat hm
            exact absurd (of_decide_eq_true this) h
          · have hf : (Durations.cumsum (.perState c)).rows = c.flatten.map cumsum := by simp [Durations.cumsum, Durations.rows, List.map_flatten]
            rw [hf]
            exact no_dist_rejected _ row (List.mem_flatten.2 ⟨mat, hm, hr⟩) hb
        | perPrevious c =>
          obtain ⟨mat, hm, h | ⟨rows, hrs, row, hr, hb⟩⟩ := hbad
          · have := List.all_eq_true.1 hst mat hm
            exact absurd (of_decide_eq_true this) h
          · have hf : (Durations.cumsum (.perPrevious c)).rows = c.flatten.flatten.map cumsum := by
              simp only [Durations.cumsum, Durations.rows, List.map_flatten]
            rw [hf]
            exact no_dist_rejected _ row (List.mem_flatten.2 ⟨rows, List.mem_flatten.2 ⟨mat, hm, hrs⟩, hr⟩) hb
      simp only [bind, Except.bind, hr, Except.map]
    · rw [if_pos hst]; rfl
  · rintro (rfl | rfl) <;> rfl

/-- Two states: durations for three states, or a row with sum 3/4, are refused. -/
example : BadDurations 2 (.perState [[[0, 1], [0, 1], [0, 1]]]) ∧ BadDurations 2 (.perState [[[0, 1], [0, 3 / 4]]]) ∧ ¬ BadDurations 2 (.perState [[[0, 1], [0, 1 / 4, 3 / 4]]]) := by
  refine ⟨⟨_, List.mem_singleton_self _, .inl (by decide)⟩, ⟨_, List.mem_singleton_self _, .inr ⟨[0, 3 / 4], by simp, .inr (.inl (by norm_num))⟩⟩, ?_⟩
  rintro ⟨mat, hm, h⟩
  rw [List.mem_singleton.1 hm] at h
  revert h
  unfold NoDist
  decide +kernel

end Demod
