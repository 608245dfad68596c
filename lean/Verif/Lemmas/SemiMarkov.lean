import Verif.Lemmas.Markov

namespace Demod

/-! ## Boolean masks -/

theorem scatter_length {α : Type} (ms : List Bool) (xs ns : List α) : (scatter ms xs ns).length = xs.length := by
  fun_induction scatter ms xs ns <;> simp_all

theorem scatter_false {α : Type} (ms : List Bool) (xs ns : List α) (h : Nat) (hm : ms[h]? = some false) : (scatter ms xs ns)[h]? = xs[h]? := by
  induction ms generalizing xs ns h with
  | nil => simp at hm
  | cons m ms ih =>
    cases xs with
    | nil => cases m <;> simp [scatter]
    | cons x xs =>
      cases m
      · cases h with
        | zero => simp [scatter]
        | succ h => simp only [scatter, List.getElem?_cons_succ]; exact ih xs ns h (by simpa using hm)
      · cases ns with
        | nil => simp [scatter]
        | cons n ns =>
          cases h with
          | zero => simp at hm
          | succ h => simp only [scatter, List.getElem?_cons_succ]; exact ih xs ns h (by simpa using hm)

theorem scatter_true {α : Type} (ms : List Bool) (xs ns : List α) (h : Nat) (hm : ms[h]? = some true) (hl : ms.length = xs.length)
    (hn : ns.length = ms.count true) : (scatter ms xs ns)[h]? = ns[(ms.take h).count true]? := by
  induction ms generalizing xs ns h with
  | nil => simp at hm
  | cons m ms ih =>
    cases xs with
    | nil => simp at hl
    | cons x xs =>
      cases m
      · cases h with
        | zero => simp at hm
        | succ h =>
          simp only [scatter, List.getElem?_cons_succ]
          rw [ih xs ns h (by simpa using hm) (by simpa using hl) (by simpa using hn)]
          simp
      · cases ns with
        | nil => simp at hn
        | cons n ns =>
          cases h with
          | zero => simp [scatter]
          | succ h =>
            simp only [scatter, List.getElem?_cons_succ]
            rw [ih xs ns h (by simpa using hm) (by simpa using hl) (by simpa using hn)]
            simp

theorem gather_length {α : Type} (ms : List Bool) (xs : List α) (hl : ms.length = xs.length) : (gather ms xs).length = ms.count true := by
  induction ms generalizing xs with
  | nil => simp [gather]
  | cons m ms ih =>
    cases xs with
    | nil => simp at hl
    | cons x xs => cases m <;> simp [gather, ih xs (by simpa using hl)]

theorem gather_mem {α : Type} (ms : List Bool) (xs : List α) (x : α) (h : x ∈ gather ms xs) : x ∈ xs := by
  induction ms generalizing xs with
  | nil => simp [gather] at h
  | cons m ms ih =>
    cases xs with
    | nil => cases m <;> simp [gather] at h
    | cons y xs =>
      cases m
      · exact List.mem_cons_of_mem _ (ih xs (by simpa [gather] using h))
      · simp only [gather, List.mem_cons] at h
        rcases h with h | h
        · rw [h]; exact List.mem_cons_self
        · exact List.mem_cons_of_mem _ (ih xs h)

theorem gather_get {α : Type} (ms : List Bool) (xs : List α) (h : Nat) (hm : ms[h]? = some true) (hl : ms.length = xs.length) :
    (gather ms xs)[(ms.take h).count true]? = xs[h]? := by
  induction ms generalizing xs h with
  | nil => simp at hm
  | cons m ms ih =>
    cases xs with
    | nil => simp at hl
    | cons x xs =>
      cases h with
      | zero =>
        have : m = true := by simpa using hm
        subst this
        simp [gather]
      | succ h =>
        have := ih xs h (by simpa using hm) (by simpa using hl)
        cases m <;> simp [gather, this]

theorem count_take_lt (ms : List Bool) (a b : Nat) (hab : a < b) (ha : ms[a]? = some true) : (ms.take a).count true < (ms.take b).count true := by
  have h1 : (ms.take (a + 1)).count true ≤ (ms.take b).count true :=
    List.Sublist.count_le _ (List.take_sublist_take_left (by omega))
  have h2 : (ms.take (a + 1)).count true = (ms.take a).count true + 1 := by
    rw [List.take_add_one, ha, List.count_append]
    simp
  omega

theorem count_take_lt_count (ms : List Bool) (a : Nat) (ha : ms[a]? = some true) : (ms.take a).count true < ms.count true := by
  have h := count_take_lt ms a ms.length (List.getElem?_eq_some_iff.1 ha).1 ha
  rwa [List.take_length] at h

/-! ## Durations -/

theorem size_cumsum (d : Durations) : d.cumsum.size = nDurations d := by
  cases d <;> simp [Durations.cumsum, Durations.size, nDurations]

theorem getD_eq {α : Type} (l : List α) (i : Nat) (d : α) (h : i < l.length) : l.getD i d = l[i] := by
  rw [List.getD_eq_getElem?_getD, List.getElem?_eq_getElem h]; rfl

theorem dur_row (n : Nat) (d : Durations) (hd : IsDurations n d) (i p s : Nat) (hi : i < nDurations d) (hp : p < n) (hs : s < n) :
    d.cumsum.row i p s = .ok (cumsum (durationRow d i p s)) ∧ IsDist (durationRow d i p s) := by
  cases d with
  | perState d =>
    have hi' : i < d.length := hi
    obtain ⟨h1, h2⟩ := hd.2 d[i] (List.getElem_mem hi')
    have hs' : s < d[i].length := by omega
    simp only [Durations.cumsum, Durations.row, durationRow]
    rw [getD_eq _ _ _ hi', getD_eq _ _ _ hs']
    refine ⟨?_, h2 _ (List.getElem_mem _)⟩
    rw [pyGet_map, pyGet_ok _ _ hi']
    simp only [Except.map]
    show pyGet (d[i].map cumsum) s = _
    rw [pyGet_map, pyGet_ok _ _ hs']; rfl
  | perPrevious d =>
    have hi' : i < d.length := hi
    obtain ⟨h1, h2⟩ := hd.2 d[i] (List.getElem_mem hi')
    have hp' : p < d[i].length := by omega
    obtain ⟨h3, h4⟩ := h2 d[i][p] (List.getElem_mem hp')
    have hs' : s < d[i][p].length := by omega
    simp only [Durations.cumsum, Durations.row, durationRow]
    rw [getD_eq _ _ _ hi', getD_eq _ _ _ hp', getD_eq _ _ _ hs']
    refine ⟨?_, h4 _ (List.getElem_mem _)⟩
    rw [pyGet_map, pyGet_ok _ _ hi']
    simp only [Except.map]
    show (do let rows ← pyGet (d[i].map fun (r : List (List Rat)) => r.map cumsum) p; pyGet rows s) = _
    rw [pyGet_map, pyGet_ok _ _ hp']
    show pyGet (d[i][p].map cumsum) s = _
    rw [pyGet_map, pyGet_ok _ _ hs']; rfl

theorem takeDraws_draws (n : Nat) (u : Nat → Rat) (hu : DrawStream u) : Draws n (takeDraws n u) := by
  refine ⟨by simp [takeDraws], ?_⟩
  intro x hx
  obtain ⟨k, _, rfl⟩ := List.mem_map.1 hx
  exact hu k

theorem takeDraws_getD (n : Nat) (u : Nat → Rat) (k : Nat) (hk : k < n) : (takeDraws n u).getD k 0 = u k := by
  rw [getD_eq _ _ _ (by simpa [takeDraws] using hk)]
  simp [takeDraws]

namespace SemiMarkov
variable {L : Type}

/-- What holds after the initialisation. -/
structure Good (m : SemiMarkov L) (N n : Nat) (mats : List (List (List Rat))) (pdfs : Durations) : Prop where
  chain : m.chain.Good N n mats
  len : m.timesLeft.length = N
  durs : m.durations = pdfs.cumsum
  isDurs : IsDurations n pdfs

theorem nDurations_pos {n : Nat} {d : Durations} (h : IsDurations n d) : 0 < nDurations d := by
  cases d with
  | perState d => exact List.length_pos_iff.2 h.1
  | perPrevious d => exact List.length_pos_iff.2 h.1

/-- The number of households that change, before household `h`. -/
def rank (m : SemiMarkov L) (h : Nat) : Nat := (m.changing.take h).count true

theorem good_step {m : SemiMarkov L} {N n : Nat} {mats : List (List (List Rat))} {pdfs : Durations} (g : Good m N n mats pdfs)
    (u v : Nat → Rat) (hu : DrawStream u) (hv : DrawStream v) :
    ∃ m' : SemiMarkov L, m.step u v = .ok m' ∧ Good m' N n mats pdfs ∧ m'.chain.pos = m.chain.pos + 1 ∧ m'.durPos = m.durPos + 1 ∧
      ∀ h < N, (¬ m.timesLeft.getD h 0 < 1 →
          m'.chain.states.getD h 0 = m.chain.states.getD h 0 ∧ m'.timesLeft.getD h 0 = m.timesLeft.getD h 0 - 1) ∧
        (m.timesLeft.getD h 0 < 1 →
          Sampled (rowOf mats (m.chain.pos % mats.length) (m.chain.states.getD h 0)) (u (m.rank h)) (m'.chain.states.getD h 0) ∧
          ∃ d : Nat, m'.timesLeft.getD h 0 = (d : Int) - 1 ∧
            Sampled (durationRow pdfs (m.durPos % nDurations pdfs) (m.chain.states.getD h 0) (m'.chain.states.getD h 0)) (v (m.rank h)) d) := by
  have gc := g.chain
  have hpos : 0 < mats.length := List.length_pos_iff.2 gc.tp.1
  have hlt : m.chain.pos % mats.length < mats.length := Nat.mod_lt _ hpos
  obtain ⟨hml, hmr⟩ := Markov.tpms_mat gc.tp _ hlt
  have hdl : m.durPos % nDurations pdfs < nDurations pdfs := Nat.mod_lt _ (nDurations_pos g.isDurs)
  have hmask : m.changing.length = m.chain.states.length := by unfold changing; rw [List.length_map, g.len, gc.len]
  have hmask2 : m.changing.length = m.timesLeft.length := by unfold changing; rw [List.length_map]
  -- the previous states of those that change
  obtain ⟨prev, hprev⟩ : ∃ p, p = gather m.changing m.chain.states := ⟨_, rfl⟩
  have hpl : prev.length = m.changing.count true := by rw [hprev]; exact gather_length _ _ hmask
  have hpv : ∀ s ∈ prev, s < n := fun s hs => gc.valid s (gather_mem _ _ _ (hprev ▸ hs))
  obtain ⟨new, n1, n2, n3⟩ := mc_rows (prev.map fun s => (mats.getD (m.chain.pos % mats.length) []).getD s [])
    (takeDraws prev.length u) (by
      intro r hr
      obtain ⟨s, hs, rfl⟩ := List.mem_map.1 hr
      exact (hmr s (hpv s hs)).2) (by rw [List.length_map]; exact takeDraws_draws _ _ hu)
  rw [List.length_map] at n2
  have hnew : ∀ (k : Nat) p, prev[k]? = some p →
      ∃ s, new[k]? = some s ∧ Sampled (rowOf mats (m.chain.pos % mats.length) p) (u k) s := by
    intro k p hp
    have hk : k < prev.length := (List.getElem?_eq_some_iff.1 hp).1
    obtain ⟨s, h1, h2⟩ := n3 k ((mats.getD (m.chain.pos % mats.length) []).getD p []) (by rw [List.getElem?_map, hp]; rfl)
    rw [takeDraws_getD _ _ _ hk] at h2
    exact ⟨s, h1, h2⟩
  have hnv : ∀ s ∈ new, s < n := by
    intro s hs
    obtain ⟨k, hk, rfl⟩ := List.getElem_of_mem hs
    have hk' : k < prev.length := by omega
    obtain ⟨s, h1, h2⟩ := hnew k prev[k] (List.getElem?_eq_getElem hk')
    rw [List.getElem?_eq_getElem hk] at h1
    rw [Option.some.inj h1]
    have := h2.1
    unfold rowOf at this
    rwa [(hmr _ (hpv _ (List.getElem_mem hk'))).1] at this
  -- durations
  have hrows : (prev.zip new).mapM (fun q => pdfs.cumsum.row (m.durPos % nDurations pdfs) q.1 q.2) =
      .ok (((prev.zip new).map fun (q : Nat × Nat) => durationRow pdfs (m.durPos % nDurations pdfs) q.1 q.2).map cumsum) := by
    rw [mapM_ok_iff]
    refine ⟨by simp, ?_⟩
    intro k h h'
    have hz : (prev.zip new)[k].1 ∈ prev ∧ (prev.zip new)[k].2 ∈ new := List.of_mem_zip (List.getElem_mem h)
    rw [(dur_row n pdfs g.isDurs _ _ _ hdl (hpv _ hz.1) (hnv _ hz.2)).1]
    simp
  have hzl : (prev.zip new).length = prev.length := by rw [List.length_zip, n2, Nat.min_self]
  obtain ⟨dur, d1, d2, d3⟩ := mc_rows ((prev.zip new).map fun (q : Nat × Nat) => durationRow pdfs (m.durPos % nDurations pdfs) q.1 q.2)
    (takeDraws (prev.zip new).length v) (by
      intro r hr
      obtain ⟨q, hq, rfl⟩ := List.mem_map.1 hr
      have hz := List.of_mem_zip hq
      exact (dur_row n pdfs g.isDurs _ _ _ hdl (hpv _ hz.1) (hnv _ hz.2)).2) (by rw [List.length_map]; exact takeDraws_draws _ _ hv)
  rw [List.length_map, hzl] at d2
  have hdur : ∀ (k p s : Nat), prev[k]? = some p → new[k]? = some s →
      ∃ d, dur[k]? = some d ∧ Sampled (durationRow pdfs (m.durPos % nDurations pdfs) p s) (v k) d := by
    intro k p s hp hs
    have hk : k < prev.length := (List.getElem?_eq_some_iff.1 hp).1
    obtain ⟨d, h1, h2⟩ := d3 k (durationRow pdfs (m.durPos % nDurations pdfs) p s) (by
      rw [List.getElem?_map, (List.getElem?_zip_eq_some (z := (p, s))).2 ⟨hp, hs⟩]; rfl)
    rw [takeDraws_getD _ _ _ (by omega)] at h2
    exact ⟨d, h1, h2⟩
  have hds : (dur.map fun (x : Nat) => (x : Int)).length = m.changing.count true := by rw [List.length_map, d2, hpl]
  obtain ⟨st, hst⟩ : ∃ st, st = scatter m.changing m.chain.states new := ⟨_, rfl⟩
  obtain ⟨ti, hti⟩ : ∃ ti, ti = scatter m.changing m.timesLeft (dur.map fun (x : Nat) => (x : Int)) := ⟨_, rfl⟩
  have hstl : st.length = N := by rw [hst, scatter_length, gc.len]
  have htil : ti.length = N := by rw [hti, scatter_length, g.len]
  have hmaskget : ∀ h < N, m.changing[h]? = some (decide (m.timesLeft.getD h 0 < 1)) := by
    intro h hh
    unfold changing
    rw [List.getElem?_map, List.getElem?_eq_getElem (by rw [g.len]; exact hh), getD_eq _ _ _ (by rw [g.len]; exact hh)]
    rfl
  have hprevget : ∀ h < N, m.timesLeft.getD h 0 < 1 → prev[m.rank h]? = some (m.chain.states.getD h 0) := by
    intro h hh hc
    have hm := hmaskget h hh
    rw [decide_eq_true hc] at hm
    rw [hprev]
    unfold rank
    rw [gather_get _ _ _ hm hmask, List.getElem?_eq_getElem (by rw [gc.len]; exact hh), getD_eq _ _ _ (by rw [gc.len]; exact hh)]
  have hmain : ∀ h < N, (¬ m.timesLeft.getD h 0 < 1 → st[h]? = some (m.chain.states.getD h 0) ∧ ti[h]? = some (m.timesLeft.getD h 0)) ∧
      (m.timesLeft.getD h 0 < 1 → ∃ s d : Nat, st[h]? = some s ∧ ti[h]? = some (d : Int) ∧
        Sampled (rowOf mats (m.chain.pos % mats.length) (m.chain.states.getD h 0)) (u (m.rank h)) s ∧
        Sampled (durationRow pdfs (m.durPos % nDurations pdfs) (m.chain.states.getD h 0) s) (v (m.rank h)) d) := by
    intro h hh
    have hm := hmaskget h hh
    constructor
    · intro hc
      rw [decide_eq_false hc] at hm
      rw [hst, hti, scatter_false _ _ _ _ hm, scatter_false _ _ _ _ hm, List.getElem?_eq_getElem (by rw [gc.len]; exact hh),
        List.getElem?_eq_getElem (by rw [g.len]; exact hh), getD_eq _ _ _ (by rw [gc.len]; exact hh), getD_eq _ _ _ (by rw [g.len]; exact hh)]
      exact ⟨rfl, rfl⟩
    · intro hc
      rw [decide_eq_true hc] at hm
      have hp := hprevget h hh hc
      obtain ⟨s, hs, hss⟩ := hnew _ _ hp
      obtain ⟨d, hd, hdd⟩ := hdur _ _ _ hp hs
      refine ⟨s, d, ?_, ?_, hss, hdd⟩
      · rw [hst, scatter_true _ _ _ _ hm hmask (by rw [n2, hpl])]; exact hs
      · rw [hti, scatter_true _ _ _ _ hm hmask2 hds, List.getElem?_map]
        unfold rank at hd
        rw [hd]; rfl
  refine ⟨{ m with chain := { m.chain with pos := m.chain.pos + 1, states := st }, timesLeft := ti.map fun t => t - 1, durPos := m.durPos + 1 },
    ?_, ⟨⟨gc.tp, gc.cdfs, hstl, ?_⟩, by simp only; rw [List.length_map, htil], g.durs, g.isDurs⟩, rfl, rfl, ?_⟩
  · unfold step
    simp only
    rw [Markov.good_next gc, ← hprev]
    show (do
      let rows ← prev.mapM (pyGet ((mats.getD (m.chain.pos % mats.length) []).map cumsum))
      let new ← mcFromCdf rows (takeDraws rows.length u)
      if m.durations.size = 0 then .error .stopIteration
      else
        let durRows ← (prev.zip new).mapM fun (q : Nat × Nat) => m.durations.row (m.durPos % m.durations.size) q.1 q.2
        let d ← mcFromCdf durRows (takeDraws durRows.length v)
        Except.ok ({ m with chain := { m.chain with pos := m.chain.pos + 1, states := scatter m.changing m.chain.states new }, timesLeft := (scatter m.changing m.timesLeft (d.map fun (x : Nat) => (x : Int))).map fun t => t - 1, durPos := m.durPos + 1 } : SemiMarkov L)) = _
    rw [Markov.rows_ok n _ hml _ hpv]
    show (do
      let new ← mcFromCdf ((prev.map fun s => (mats.getD (m.chain.pos % mats.length) []).getD s []).map cumsum)
        (takeDraws ((prev.map fun s => (mats.getD (m.chain.pos % mats.length) []).getD s []).map cumsum).length u)
      if m.durations.size = 0 then .error .stopIteration
      else
        let durRows ← (prev.zip new).mapM fun (q : Nat × Nat) => m.durations.row (m.durPos % m.durations.size) q.1 q.2
        let d ← mcFromCdf durRows (takeDraws durRows.length v)
        Except.ok ({ m with chain := { m.chain with pos := m.chain.pos + 1, states := scatter m.changing m.chain.states new }, timesLeft := (scatter m.changing m.timesLeft (d.map fun (x : Nat) => (x : Int))).map fun t => t - 1, durPos := m.durPos + 1 } : SemiMarkov L)) = _
    rw [List.length_map, List.length_map, n1, g.durs, size_cumsum]
    show (if nDurations pdfs = 0 then .error .stopIteration
      else do
        let durRows ← (prev.zip new).mapM fun (q : Nat × Nat) => pdfs.cumsum.row (m.durPos % nDurations pdfs) q.1 q.2
        let d ← mcFromCdf durRows (takeDraws durRows.length v)
        Except.ok ({ m with durations := pdfs.cumsum, chain := { m.chain with pos := m.chain.pos + 1, states := scatter m.changing m.chain.states new }, timesLeft := (scatter m.changing m.timesLeft (d.map fun (x : Nat) => (x : Int))).map fun t => t - 1, durPos := m.durPos + 1 } : SemiMarkov L)) = _
    rw [if_neg (by have := nDurations_pos g.isDurs; omega), hrows]
    show (do
        let d ← mcFromCdf (((prev.zip new).map fun (q : Nat × Nat) => durationRow pdfs (m.durPos % nDurations pdfs) q.1 q.2).map cumsum) (takeDraws (((prev.zip new).map fun (q : Nat × Nat) => durationRow pdfs (m.durPos % nDurations pdfs) q.1 q.2).map cumsum).length v)
        Except.ok ({ m with durations := pdfs.cumsum, chain := { m.chain with pos := m.chain.pos + 1, states := scatter m.changing m.chain.states new }, timesLeft := (scatter m.changing m.timesLeft (d.map fun (x : Nat) => (x : Int))).map fun t => t - 1, durPos := m.durPos + 1 } : SemiMarkov L)) = _
    rw [List.length_map, List.length_map, d1, hst, hti]
    rfl
  · intro s hs
    obtain ⟨h, hh, rfl⟩ := List.getElem_of_mem hs
    simp only at hh ⊢
    have hhN : h < N := by rw [← hstl]; exact hh
    obtain ⟨a, b⟩ := hmain h hhN
    by_cases hc : m.timesLeft.getD h 0 < 1
    · obtain ⟨s, d, h1, -, h3, -⟩ := b hc
      rw [List.getElem?_eq_getElem hh] at h1
      rw [Option.some.inj h1]
      have := h3.1
      unfold rowOf at this
      rwa [(hmr _ (gc.valid _ (by rw [getD_eq _ _ _ (by rw [gc.len]; exact hhN)]; exact List.getElem_mem _))).1] at this
    · obtain ⟨h1, -⟩ := a hc
      rw [List.getElem?_eq_getElem hh] at h1
      rw [Option.some.inj h1]
      exact gc.valid _ (by rw [getD_eq _ _ _ (by rw [gc.len]; exact hhN)]; exact List.getElem_mem _)
  · intro h hh
    obtain ⟨a, b⟩ := hmain h hh
    have tmap : ∀ t, ti[h]? = some t → (ti.map fun t => t - 1).getD h 0 = t - 1 := by
      intro t ht
      rw [List.getD_eq_getElem?_getD, List.getElem?_map, ht]; rfl
    constructor
    · intro hc
      obtain ⟨h1, h2⟩ := a hc
      refine ⟨?_, tmap _ h2⟩
      simp only
      rw [List.getD_eq_getElem?_getD (l := st), h1]; rfl
    · intro hc
      obtain ⟨s, d, h1, h2, h3, h4⟩ := b hc
      have hs : st.getD h 0 = s := by rw [List.getD_eq_getElem?_getD, h1]; rfl
      simp only
      rw [hs]
      exact ⟨h3, d, tmap _ h2, h4⟩

end SemiMarkov
end Demod
