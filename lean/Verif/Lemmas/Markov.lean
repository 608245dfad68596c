import Verif.Model.Markov
import Verif.Spec.Markov
import Verif.Props.Sampling

namespace Demod

theorem Sampled.pos {p : List Rat} {u : Rat} {i : Nat} (h : Sampled p u i) : 0 < p.getD i 0 := by
  obtain ⟨_, h1, h2⟩ := h
  linarith

theorem sampled_mc (p : List Rat) (hp : IsDist p) (u : Rat) (h0 : 0 ≤ u) (h1 : u < 1) : ∃ i, mcCdf (cumsum p) u = .ok i ∧ Sampled p u i := by
  have hu : u < p.sum := by rw [hp.2]; exact h1
  obtain ⟨i, hi⟩ := exists_mcPdf p u h0 hu
  obtain ⟨a, b, c⟩ := (mcPdf_iff p hp.1 u h0 hu i).1 hi
  refine ⟨i, hi, a, b, ?_⟩
  rw [take_succ_sum p i a] at c
  rw [List.getD_eq_getElem?_getD, List.getElem?_eq_getElem a]
  exact c

theorem mapM_rel {α β : Type} (f : α → Except PyErr β) (R : α → β → Prop) (xs : List α) (h : ∀ x ∈ xs, ∃ y, f x = .ok y ∧ R x y) :
    ∃ ys : List β, xs.mapM f = .ok ys ∧ ys.length = xs.length ∧ ∀ (k : Nat) x, xs[k]? = some x → ∃ y, ys[k]? = some y ∧ R x y := by
  induction xs with
  | nil => exact ⟨[], rfl, rfl, by simp⟩
  | cons x xs ih =>
    obtain ⟨y, hy, hr⟩ := h x List.mem_cons_self
    obtain ⟨ys, h1, h2, h3⟩ := ih fun z hz => h z (List.mem_cons_of_mem _ hz)
    refine ⟨y :: ys, ?_, by simp [h2], ?_⟩
    · rw [List.mapM_cons, hy, h1]; rfl
    · intro k z hk
      cases k with
      | zero =>
        simp only [List.getElem?_cons_zero, Option.some.injEq] at hk
        subst hk
        exact ⟨y, rfl, hr⟩
      | succ k => exact h3 k z hk

theorem mc_rows (rows : List (List Rat)) (us : List Rat) (hr : ∀ r ∈ rows, IsDist r) (hu : Draws rows.length us) :
    ∃ out : List Nat, mcFromCdf (rows.map cumsum) us = .ok out ∧ out.length = rows.length ∧
      ∀ (h : Nat) r, rows[h]? = some r → ∃ i, out[h]? = some i ∧ Sampled r (us.getD h 0) i := by
  unfold mcFromCdf
  have hz : (rows.map cumsum).zip us = (rows.zip us).map fun q => (cumsum q.1, q.2) := by
    rw [List.zip_map_left]; rfl
  rw [hz]
  obtain ⟨out, h1, h2, h3⟩ := mapM_rel (fun (q : List Rat × Rat) => mcCdf (cumsum q.1) q.2) (fun q i => Sampled q.1 q.2 i) (rows.zip us) (by
    intro q hq
    have := List.of_mem_zip hq
    exact sampled_mc q.1 (hr _ this.1) q.2 (hu.2 _ this.2).1 (hu.2 _ this.2).2)
  refine ⟨out, ?_, ?_, ?_⟩
  · rw [List.mapM_map]
    exact h1
  · rw [h2, List.length_zip, hu.1, Nat.min_self]
  · intro h r hhr
    have hl : h < rows.length := (List.getElem?_eq_some_iff.1 hhr).1
    have hl2 : h < us.length := by rw [hu.1]; exact hl
    obtain ⟨i, hi, hs⟩ := h3 h (r, us[h]) (by
      rw [List.getElem?_zip_eq_some]
      exact ⟨hhr, List.getElem?_eq_getElem hl2⟩)
    refine ⟨i, hi, ?_⟩
    rw [List.getD_eq_getElem?_getD, List.getElem?_eq_getElem hl2]
    exact hs

theorem pyGet_map {α β : Type} (f : α → β) (xs : List α) (i : Nat) : pyGet (xs.map f) i = (pyGet xs i).map f := by
  unfold pyGet
  rw [List.getElem?_map]
  cases xs[i]? <;> rfl

theorem pyGet_ok {α : Type} (xs : List α) (i : Nat) (h : i < xs.length) : pyGet xs i = .ok xs[i] := by
  unfold pyGet
  rw [List.getElem?_eq_getElem h]

namespace Markov
variable {L : Type}

/-- What holds after the initialisation. -/
structure Good (m : Markov L) (N n : Nat) (mats : List (List (List Rat))) : Prop where
  tp : IsTpms n mats
  cdfs : m.cdfs = mats.map fun mat => mat.map cumsum
  len : m.states.length = N
  valid : ∀ s ∈ m.states, s < n

theorem good_next {m : Markov L} {N n : Nat} {mats : List (List (List Rat))} (g : Good m N n mats) :
    m.next = .ok ((mats.getD (m.pos % mats.length) []).map cumsum, { m with pos := m.pos + 1 }) := by
  have hpos : 0 < mats.length := List.length_pos_iff.2 g.tp.1
  have hlt : m.pos % mats.length < mats.length := Nat.mod_lt _ hpos
  unfold next
  rw [g.cdfs, if_neg (by simpa using g.tp.1), List.length_map, pyGet_map, pyGet_ok _ _ hlt]
  simp only [Except.map]
  rw [List.getD_eq_getElem?_getD, List.getElem?_eq_getElem hlt]
  simp only [Option.getD_some]

theorem rows_ok (n : Nat) (mat : List (List Rat)) (hl : mat.length = n) (ss : List Nat) (hs : ∀ s ∈ ss, s < n) :
    ss.mapM (pyGet (mat.map cumsum)) = .ok ((ss.map fun s => mat.getD s []).map cumsum) := by
  rw [mapM_ok_iff]
  refine ⟨by simp, ?_⟩
  intro k h h'
  have := hs ss[k] (List.getElem_mem h)
  rw [pyGet_map, pyGet_ok mat ss[k] (by omega)]
  simp only [List.getElem_map, Except.map]
  rw [List.getD_eq_getElem?_getD, List.getElem?_eq_getElem (by omega)]
  rfl

theorem tpms_mat {n : Nat} {mats : List (List (List Rat))} (h : IsTpms n mats) (i : Nat) (hi : i < mats.length) :
    (mats.getD i []).length = n ∧ ∀ s < n, ((mats.getD i []).getD s []).length = n ∧ IsDist ((mats.getD i []).getD s []) := by
  rw [List.getD_eq_getElem?_getD, List.getElem?_eq_getElem hi, Option.getD_some]
  obtain ⟨h1, h2⟩ := h.2 mats[i] (List.getElem_mem hi)
  refine ⟨h1, ?_⟩
  intro s hs
  rw [List.getD_eq_getElem?_getD, List.getElem?_eq_getElem (by omega), Option.getD_some]
  exact h2 _ (List.getElem_mem _)

theorem good_step {m : Markov L} {N n : Nat} {mats : List (List (List Rat))} (g : Good m N n mats) (us : List Rat) (hu : Draws N us) :
    ∃ m', m.step us = .ok m' ∧ Good m' N n mats ∧ m'.pos = m.pos + 1 ∧ m'.labels = m.labels ∧ m'.nStates = m.nStates ∧
      ∀ h < N, Sampled (rowOf mats (m.pos % mats.length) (m.states.getD h 0)) (us.getD h 0) (m'.states.getD h 0) := by
  have hpos : 0 < mats.length := List.length_pos_iff.2 g.tp.1
  have hlt : m.pos % mats.length < mats.length := Nat.mod_lt _ hpos
  obtain ⟨hml, hmr⟩ := tpms_mat g.tp _ hlt
  obtain ⟨out, h1, h2, h3⟩ := mc_rows (m.states.map fun s => (mats.getD (m.pos % mats.length) []).getD s []) us (by
    intro r hr
    obtain ⟨s, hs, rfl⟩ := List.mem_map.1 hr
    exact (hmr s (g.valid s hs)).2) (by rw [List.length_map, g.len]; exact hu)
  rw [List.length_map] at h2
  have hsamp : ∀ h < N, ∃ i, out[h]? = some i ∧ Sampled (rowOf mats (m.pos % mats.length) (m.states.getD h 0)) (us.getD h 0) i := by
    intro h hh
    obtain ⟨i, hi, hs⟩ := h3 h ((mats.getD (m.pos % mats.length) []).getD (m.states.getD h 0) []) (by
      rw [List.getElem?_map, List.getElem?_eq_getElem (by rw [g.len]; exact hh), Option.map_some]
      congr 2
      rw [List.getD_eq_getElem?_getD, List.getElem?_eq_getElem (by rw [g.len]; exact hh)]
      rfl)
    exact ⟨i, hi, hs⟩
  refine ⟨{ m with pos := m.pos + 1, states := out }, ?_, ⟨g.tp, g.cdfs, by simp only; rw [h2, g.len], ?_⟩, rfl, rfl, rfl, ?_⟩
  · unfold step
    rw [good_next g]
    show (do
      let rows ← m.states.mapM (pyGet ((mats.getD (m.pos % mats.length) []).map cumsum))
      let states ← mcFromCdf rows us
      Except.ok ({ m with pos := m.pos + 1, states := states } : Markov L)) = _
    rw [rows_ok n _ hml _ g.valid]
    show (do
      let states ← mcFromCdf _ us
      Except.ok ({ m with pos := m.pos + 1, states := states } : Markov L)) = _
    rw [h1]; rfl
  · intro s hs
    obtain ⟨h, hh, rfl⟩ := List.getElem_of_mem hs
    have hhN : h < N := by rw [← g.len, ← h2]; exact hh
    obtain ⟨i, hi, hsm⟩ := hsamp h hhN
    have : i = out[h] := by
      have := List.getElem?_eq_getElem hh
      simp only at this hi
      rw [hi] at this
      exact Option.some.inj this
    rw [← this]
    have hst := g.valid (m.states.getD h 0) (by
      rw [List.getD_eq_getElem?_getD, List.getElem?_eq_getElem (by rw [g.len]; exact hhN)]
      exact List.getElem_mem _)
    have := hsm.1
    unfold rowOf at this
    rw [(hmr _ hst).1] at this
    exact this
  · intro h hh
    obtain ⟨i, hi, hs⟩ := hsamp h hh
    simp only
    rw [List.getD_eq_getElem?_getD (l := out), hi]
    exact hs

theorem run_append (m : Markov L) (a b : List (List Rat)) : m.run (a ++ b) = (m.run a).bind fun m' => m'.run b := by
  induction a generalizing m with
  | nil => rfl
  | cons x a ih =>
    show (do let m ← m.step x; m.run (a ++ b)) = _
    rw [run]
    rcases m.step x with e | m1
    · rfl
    · exact ih m1

theorem good_run {m : Markov L} {N n : Nat} {mats : List (List (List Rat))} (g : Good m N n mats) (uss : List (List Rat)) (hu : ∀ us ∈ uss, Draws N us) :
    ∃ m', m.run uss = .ok m' ∧ Good m' N n mats ∧ m'.pos = m.pos + uss.length ∧ m'.labels = m.labels ∧ m'.nStates = m.nStates := by
  induction uss generalizing m with
  | nil => exact ⟨m, rfl, g, rfl, rfl, rfl⟩
  | cons us uss ih =>
    obtain ⟨m1, h1, g1, p1, l1, n1, _⟩ := good_step g us (hu us List.mem_cons_self)
    obtain ⟨m2, h2, g2, p2, l2, n2⟩ := ih g1 fun x hx => hu x (List.mem_cons_of_mem _ hx)
    refine ⟨m2, ?_, g2, by rw [p2, p1, List.length_cons]; omega, by rw [l2, l1], by rw [n2, n1]⟩
    rw [run, h1]; exact h2

theorem cumsum_valid (p : List Rat) (hp : IsDist p) : ValidCdfRow cdfEps (cumsum p) := by
  have hne : p ≠ [] := by rintro rfl; have := hp.2; simp at this
  have hlen : (cumsum p).length = p.length := cumsumFrom_length p 0
  have hpos : 0 < p.length := List.length_pos_iff.2 hne
  have heps : (0 : Rat) < cdfEps := by unfold cdfEps; norm_num
  have hle : ∀ i (h : i < p.length), 0 ≤ (cumsum p)[i]'(by omega) ∧ (cumsum p)[i]'(by omega) ≤ 1 := by
    intro i h
    rw [cumsum_get p i h]
    refine ⟨List.sum_nonneg fun x hx => hp.1 x (List.mem_of_mem_take hx), ?_⟩
    rw [← hp.2]
    exact sum_take_le p hp.1 _
  have hlast : ∀ h : cumsum p ≠ [], (cumsum p).getLast h = 1 := by
    intro h
    rw [List.getLast_eq_getElem]
    rw [show (cumsum p)[(cumsum p).length - 1]'(by omega) = (cumsum p)[p.length - 1]'(by omega) from by congr 1; omega]
    rw [cumsum_get p (p.length - 1) (by omega), List.take_of_length_le (by omega), hp.2]
  refine ⟨?_, ?_, ?_, ?_⟩
  · intro h; rw [h] at hlen; simp at hlen; omega
  · rw [List.pairwise_iff_getElem]
    intro i j hi hj hij
    rw [cumsum_get p i (by omega), cumsum_get p j (by omega)]
    exact take_sum_mono p hp.1 (by omega)
  · intro x hx
    obtain ⟨i, hi, rfl⟩ := List.getElem_of_mem hx
    obtain ⟨a, b⟩ := hle i (by omega)
    exact ⟨a, by linarith⟩
  · intro h
    rw [hlast h]
    constructor <;> linarith

theorem check_ok (rows : List (List Rat)) (h : ∀ r ∈ rows, IsDist r) : checkValidCdf cdfEps (rows.map cumsum) = .ok true := by
  rw [(C11_check_valid_cdf cdfEps _).1]
  intro c hc
  obtain ⟨r, hr, rfl⟩ := List.mem_map.1 hc
  exact cumsum_valid r (h r hr)

theorem initialise_good [DecidableEq L] (m : Markov L) (n : Nat) (pdf : List Rat) (check : Bool) (us : List Rat) (hn : m.nStates = n) (hp : IsDist pdf)
    (hl : pdf.length = n) (ht : IsTpms n m.tpms.mats) (hu : Draws m.nHouseholds us) :
    ∃ m' : Markov L, m.initialise pdf check us = .ok m' ∧ Good m' m.nHouseholds n m.tpms.mats ∧ m'.pos = 1 ∧ m'.labels = m.labels ∧ m'.nStates = n ∧
      ∀ h < m.nHouseholds, Sampled pdf (us.getD h 0) (m'.states.getD h 0) := by
  have hrep : List.replicate m.nHouseholds (cumsum pdf) = (List.replicate m.nHouseholds pdf).map cumsum := by simp
  have hrows : ∀ r ∈ List.replicate m.nHouseholds pdf, IsDist r := by
    intro r hr; rw [(List.mem_replicate.1 hr).2]; exact hp
  obtain ⟨out, h1, h2, h3⟩ := mc_rows (List.replicate m.nHouseholds pdf) us hrows (by rw [List.length_replicate]; exact hu)
  rw [List.length_replicate] at h2
  have hs : ∀ h < m.nHouseholds, ∃ i, out[h]? = some i ∧ Sampled pdf (us.getD h 0) i := by
    intro h hh
    exact h3 h pdf (by simp [hh])
  have hval : ∀ s ∈ out, s < n := by
    intro s hs'
    obtain ⟨h, hh, rfl⟩ := List.getElem_of_mem hs'
    obtain ⟨i, hi, hsm⟩ := hs h (by omega)
    rw [List.getElem?_eq_getElem hh] at hi
    rw [Option.some.inj hi, ← hl]
    exact hsm.1
  have hcheck1 : (if check then (checkValidCdf cdfEps (List.replicate m.nHouseholds (cumsum pdf))).map fun _ => () else .ok ()) = .ok () := by
    cases check
    · rfl
    · rw [hrep, check_ok _ hrows]; rfl
  have hflat : (m.tpms.mats.map fun mat => mat.map cumsum).flatten = (m.tpms.mats.flatten).map cumsum := by
    rw [List.map_flatten]
  have hcheck2 : checkValidCdf cdfEps (m.tpms.mats.map fun mat => mat.map cumsum).flatten = .ok true := by
    rw [hflat]
    apply check_ok
    intro r hr
    obtain ⟨mat, hm, hr⟩ := List.mem_flatten.1 hr
    exact ((ht.2 mat hm).2 r hr).2
  have g : Good ({ m with states := out, cdfs := m.tpms.mats.map fun mat => mat.map cumsum, pos := 0 } : Markov L) m.nHouseholds n m.tpms.mats :=
    ⟨ht, rfl, h2, hval⟩
  have hset : ({ m with states := out } : Markov L).setTpm m.tpms.mats check none =
      .ok { m with states := out, cdfs := m.tpms.mats.map fun mat => mat.map cumsum, pos := 1 } := by
    unfold setTpm
    cases check
    · simp only [Bool.false_eq_true, if_false]
      rw [good_next g]; rfl
    · simp only [if_true]
      rw [hcheck2, good_next g]; rfl
  refine ⟨{ m with states := out, cdfs := m.tpms.mats.map fun mat => mat.map cumsum, pos := 1 }, ?_, ⟨ht, rfl, h2, hval⟩, rfl, rfl, hn, ?_⟩
  · unfold initialise
    rw [if_neg (by rw [hl, hn]; simp)]
    simp only
    have hall : (out.all fun s => decide (s < m.nStates)) = true := by
      rw [List.all_eq_true]
      intro s hs'
      rw [decide_eq_true_eq, hn]
      exact hval s hs'
    cases check
    · simp only [Bool.false_eq_true, if_false]
      rw [hrep, h1]
      show (if (out.all fun s => decide (s < m.nStates)) = true then _ else _) = _
      rw [if_pos hall]
      exact hset
    · simp only [if_true]
      rw [hrep, check_ok _ hrows, h1]
      show (if (out.all fun s => decide (s < m.nStates)) = true then _ else _) = _
      rw [if_pos hall]
      exact hset
  · intro h hh
    obtain ⟨i, hi, hsm⟩ := hs h hh
    simp only
    rw [List.getD_eq_getElem?_getD (l := out), hi]
    exact hsm

/-! ## New labels -/

theorem positionsOf_nodup [DecidableEq L] (lab : L) (new : List L) : (positionsOf lab new).Nodup := List.Nodup.filter _ List.nodup_range

theorem positionsOf_length [DecidableEq L] (lab : L) (new : List L) : (positionsOf lab new).length = new.count lab := by
  unfold positionsOf
  rw [← List.countP_eq_length_filter]
  induction new with
  | nil => rfl
  | cons a new ih =>
    rw [List.length_cons, List.range_succ_eq_map, List.countP_cons, List.countP_map, List.count_cons, ← ih]
    have h1 : ((fun i => decide ((a :: new)[i]? = some lab)) ∘ Nat.succ) = fun i => decide (new[i]? = some lab) := by
      funext i; simp
    rw [h1]
    congr 1
    by_cases h : a = lab
    · simp [h]
    · simp [h]

theorem idxOf_get [DecidableEq L] (l : List L) (x : L) (h : x ∈ l) : l[l.idxOf x]? = some x := by
  have hlt := List.idxOf_lt_length_of_mem h
  rw [List.getElem?_eq_getElem hlt, List.getElem_idxOf hlt]

theorem assign_spec [DecidableEq L] (m : Markov L) (new : List L) (hv : ∀ s ∈ m.states, s < m.labels.length) :
    ∃ m' : Markov L, m.assignNewLabels new = .ok m' ∧ m'.labels = new ∧ m'.states.length = m.states.length ∧ m'.cdfs = m.cdfs ∧ m'.pos = m.pos ∧
      ∀ (h s : Nat) lab, m.states[h]? = some s → m.labels[s]? = some lab →
        ∃ s', m'.states[h]? = some s' ∧ (new.count lab = 1 → new[s']? = some lab) ∧ (new.count lab ≠ 1 → s' = 0) := by
  obtain ⟨old, o1, o2, o3⟩ := mapM_rel (pyGet m.labels) (fun s lab => m.labels[s]? = some lab) m.states (by
    intro s hs
    refine ⟨m.labels[s]'(hv s hs), pyGet_ok _ _ (hv s hs), List.getElem?_eq_getElem (hv s hs)⟩)
  obtain ⟨st, s1, s2, s3⟩ := mapM_rel (pyGet (old.eraseDups.map fun lab => match positionsOf lab new with | [i] => i | _ => 0))
    (fun i p => (old.eraseDups.map fun lab => match positionsOf lab new with | [i] => i | _ => 0)[i]? = some p)
    (old.map fun l => old.eraseDups.idxOf l) (by
      intro i hi
      obtain ⟨l, hl, rfl⟩ := List.mem_map.1 hi
      have hlt : old.eraseDups.idxOf l < (old.eraseDups.map fun lab => match positionsOf lab new with | [i] => i | _ => 0).length := by
        rw [List.length_map]
        exact List.idxOf_lt_length_of_mem (List.mem_eraseDups.2 hl)
      exact ⟨_, pyGet_ok _ _ hlt, List.getElem?_eq_getElem hlt⟩)
  refine ⟨{ m with states := st, labels := new }, ?_, rfl, ?_, rfl, rfl, ?_⟩
  · unfold assignNewLabels
    rw [o1]
    show (do let states ← (old.map fun l => old.eraseDups.idxOf l).mapM (pyGet (old.eraseDups.map fun lab => match positionsOf lab new with | [i] => i | _ => 0)); Except.ok ({ m with states := states, labels := new } : Markov L)) = _
    rw [s1]; rfl
  · simp only; rw [s2, List.length_map, o2]
  · intro h s lab hs hlab
    obtain ⟨lab', hl', e⟩ := o3 h s hs
    rw [hlab] at e
    injection e with e
    subst e
    obtain ⟨p, hp, hpp⟩ := s3 h (old.eraseDups.idxOf lab) (by rw [List.getElem?_map, hl']; rfl)
    have hmem : lab ∈ old.eraseDups := List.mem_eraseDups.2 (List.mem_of_getElem? hl')
    rw [List.getElem?_map, idxOf_get _ _ hmem] at hpp
    simp only [Option.map_some, Option.some.injEq] at hpp
    refine ⟨p, hp, ?_, ?_⟩
    · intro hc
      rw [← positionsOf_length] at hc
      obtain ⟨i, hi⟩ := List.length_eq_one_iff.1 hc
      rw [hi] at hpp
      have : i ∈ positionsOf lab new := by rw [hi]; simp
      unfold positionsOf at this
      rw [List.mem_filter, decide_eq_true_eq] at this
      rw [← hpp]; exact this.2
    · intro hc
      rw [← positionsOf_length] at hc
      rw [← hpp]
      split
      · rename_i i hi
        rw [hi] at hc; simp at hc
      · rfl

end Markov
end Demod
