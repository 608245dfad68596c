import Verif.Spec.SparseAct
import Verif.Props.Sparse
import Verif.Props.Activity
import Verif.Props.Clock
import Verif.Lemmas.LoadSim

/-! # Lemmas about the transit-states simulator -/

namespace Demod

namespace SparseTPM

theorem foldl_assign_ne (l : List (Nat × Nat × Rat)) (m : Nat → Nat → Rat) (i j : Nat) (h : l.foldl assign m i j ≠ m i j) : ∃ e ∈ l, e.1 = i ∧ e.2.1 = j := by
  induction l generalizing m with
  | nil => exact absurd rfl h
  | cons e l ih =>
    rw [List.foldl_cons] at h
    by_cases he : e.1 = i ∧ e.2.1 = j
    · exact ⟨e, by simp, he⟩
    · have : assign m e i j = m i j := by
        unfold assign
        rw [if_neg (fun hc => he ⟨hc.1.symm, hc.2.symm⟩)]
      obtain ⟨e', h1, h2⟩ := ih (assign m e) (by rw [this]; exact h)
      exact ⟨e', by simp [h1], h2⟩

theorem tabulate_getD (n : Nat) (f : Nat → Nat → Rat) (q i : Nat) : ((tabulate n f).getD q []).getD i 0 = if q < n ∧ i < n then f q i else 0 := by
  unfold tabulate
  by_cases hq : q < n
  · by_cases hi : i < n
    · simp [List.getD_eq_getElem?_getD, List.getElem?_range, hq, hi]
    · simp [List.getD_eq_getElem?_getD, List.getElem?_range, hq, List.getElem?_eq_none (show (List.range n).length ≤ i by simp; omega), hi]
  · simp [List.getD_eq_getElem?_getD, List.getElem?_eq_none (show (List.range n).length ≤ q by simp; omega), hq]

/-- An entry of a matrix that is not zero is in the data. -/
theorem entry_of_ne {s : SparseTPM} (h : s.WF) (j : Nat) (M : List (List Rat)) (hM : s.getItem j = .ok M) (q i : Nat) (hne : (M.getD q []).getD i 0 ≠ 0) :
    ∃ e ∈ s.entries, e.1 = j % s.nTimes ∧ e.2.1 = q ∧ e.2.2.1 = i := by
  rw [getItem_wf h, Except.ok.injEq] at hM
  have hmod : ((j : Int) % (s.nTimes : Int)).toNat = j % s.nTimes := by
    rw [← Int.natCast_mod, Int.toNat_natCast]
  rw [hmod] at hM
  subst hM
  unfold denseAt at hne
  rw [tabulate_getD] at hne
  split at hne
  swap
  · exact absurd rfl hne
  obtain ⟨e, he, h1, h2⟩ := foldl_assign_ne _ _ _ _ hne
  obtain ⟨x, hx, rfl⟩ := List.mem_map.1 he
  rw [List.mem_filter, beq_iff_eq] at hx
  exact ⟨x, hx.1, hx.2, h1, h2⟩

/-- The entries of a row are not negative if it is a distribution when the state can be left. -/
theorem row_nonneg {s : SparseTPM} (h : s.WF) (j : Nat) (M : List (List Rat)) (hM : s.getItem j = .ok M) (q : Nat) (hd : s.Leaves (j % s.nTimes) q → IsDist (M.getD q [])) :
    ∀ x ∈ M.getD q [], 0 ≤ x := by
  intro x hx
  by_cases hc : s.Leaves (j % s.nTimes) q
  · exact (hd hc).1 x hx
  · obtain ⟨i, hi, rfl⟩ := List.mem_iff_getElem.1 hx
    by_contra hneg
    refine hc ?_
    obtain ⟨e, e1, e2, e3, -⟩ := entry_of_ne h j M hM q i (by
      rw [getD_eq _ i 0 hi]
      intro h0
      rw [h0] at hneg
      exact hneg (le_refl _))
    exact ⟨e, e1, e2, e3⟩

/-- The state can be left, or else the first state can. -/
def Alive (s : SparseTPM) (t q : Nat) : Prop := s.Leaves t q ∨ s.Leaves t 0

theorem NeverStuck.start {s : SparseTPM} (h : s.NeverStuck) (hp : 0 < s.nTimes) (j q : Nat) (hj : j % 144 = 0) : s.Alive (j % s.nTimes) q := by
  right
  rcases h with h | ⟨h1, h2, -⟩
  · exact h _ (Nat.mod_lt _ hp)
  · rw [h1, hj]
    exact h2

theorem NeverStuck.next {s : SparseTPM} (h : s.NeverStuck) (hp : 0 < s.nTimes) (j q : Nat) (hj : (j + 1) % 144 ≠ 0) (he : ∃ e ∈ s.entries, e.1 = j % s.nTimes ∧ e.2.2.1 = q) : s.Alive ((j + 1) % s.nTimes) q := by
  rcases h with h | ⟨h1, -, h3⟩
  · exact .inr (h _ (Nat.mod_lt _ hp))
  · obtain ⟨e, e1, e2, rfl⟩ := he
    rw [h1] at e2 ⊢
    have hlt : e.1 + 1 < 144 := by omega
    have := h3 e e1 hlt
    rw [show e.1 + 1 = (j + 1) % 144 by omega] at this
    exact .inl this

end SparseTPM

namespace SparseSim

/-- A transition for all households. -/
theorem move_spec (tpm : SparseTPM) (labels : List Nat) (hv : ValidDay tpm labels) (j : Nat) (states : List Nat) (hst : ∀ q ∈ states, q < labels.length) (us : List Rat) (hu : PosDraws states.length us)
    (fuel : Nat) (hf : 2 ≤ fuel) (hal : ∀ q ∈ states, tpm.Alive (j % tpm.nTimes) q) :
    ∃ old out, ({ tpm with dead := some 0 } : SparseTPM).sparseMC fuel (j : Int) states us = .ok (old, out) ∧ out.length = states.length ∧ (∀ q ∈ out, q < labels.length ∧ ∃ e ∈ tpm.entries, e.1 = j % tpm.nTimes ∧ e.2.2.1 = q) ∧
      ∀ (h q : Nat) u l, states[h]? = some q → us[h]? = some u → labels[q]? = some l → ∃ i l', out[h]? = some i ∧ labels[i]? = some l' ∧ SparseMove tpm labels j u l l' := by
  classical
  obtain ⟨S, hS⟩ : ∃ S : SparseTPM, S = { tpm with dead := some 0 } := ⟨_, rfl⟩
  have hwf : S.WF := by
    subst hS
    exact ⟨hv.wf.lf, hv.wf.lt, hv.wf.lv, hv.wf.pos, hv.wf.bf, hv.wf.bt⟩
  have hnT : S.nTimes = tpm.nTimes := by subst hS; rfl
  have hnS : S.nStates = labels.length := by subst hS; exact hv.size.symm
  have hent : S.entries = tpm.entries := by subst hS; rfl
  have hget : ∀ k : Int, S.getItem k = tpm.getItem k := by subst hS; intro k; rfl
  have hsort : ∀ t, S.SortedAt t := by subst hS; exact hv.sorted
  have hd : S.dead = some 0 := by subst hS; rfl
  rw [← hS]
  obtain ⟨M, hM⟩ : ∃ M, tpm.getItem j = .ok M := ⟨_, SparseTPM.getItem_wf hv.wf j⟩
  have hmod : ((j : Int) % (S.nTimes : Int)).toNat = j % tpm.nTimes := by
    rw [hnT, ← Int.natCast_mod, Int.toNat_natCast]
  have hmod2 : (((j : Int) % (S.nTimes : Int)) % (S.nTimes : Int)).toNat = j % tpm.nTimes := by
    rw [Int.emod_emod_of_dvd _ (dvd_refl _), hmod]
  have hpos := hv.wf.pos
  have hleave : ∀ q, tpm.Leaves (j % tpm.nTimes) q → q < labels.length := by
    rintro q ⟨e, he, -, rfl⟩
    rw [hv.size]
    refine hv.wf.bf _ ?_
    have := List.of_mem_zip (show (e.1, e.2) ∈ _ from he)
    exact (List.of_mem_zip (show (e.2.1, e.2.2) ∈ _ from this.2)).1
  let f : Nat → Nat := fun q => if tpm.Leaves (j % tpm.nTimes) q then q else 0
  have hfl : ∀ q ∈ states, tpm.Leaves (j % tpm.nTimes) (f q) := by
    intro q hqs
    by_cases hq : tpm.Leaves (j % tpm.nTimes) q
    · simpa only [f, if_pos hq] using hq
    · simpa only [f, if_neg hq] using (hal q hqs).resolve_left hq
  -- the transition from the states that can be left
  have key : ∀ (time : Int) (fuel : Nat), 0 < fuel → (time % (S.nTimes : Int)).toNat = j % tpm.nTimes → S.getItem time = .ok M →
      ∃ out, S.sparseMC fuel time (states.map f) us = .ok (states.map f, out) ∧ out.length = states.length ∧ (∀ q ∈ out, q < labels.length ∧ ∃ e ∈ tpm.entries, e.1 = j % tpm.nTimes ∧ e.2.2.1 = q) ∧
        ∀ (h q : Nat) u l, states[h]? = some q → us[h]? = some u → labels[q]? = some l → ∃ i l', out[h]? = some i ∧ labels[i]? = some l' ∧ SparseMove tpm labels j u l l' := by
    intro time fuel hf ht hMt
    obtain ⟨out, o1, o2, o3⟩ := C14_agrees_with_dense_partial S hwf time M hMt (hsort _) (states.map f) us (by rw [hu.1, List.length_map]) (by
      intro q hq
      obtain ⟨q0, hq0, rfl⟩ := List.mem_map.1 hq
      obtain ⟨d1, d2⟩ := hv.rows j M (f q0) hM (hfl q0 hq0)
      exact ⟨by rw [hnS]; exact hleave _ (hfl q0 hq0), d1, d2⟩) (fun u h => ⟨(hu.2 u h).1, le_of_lt (hu.2 u h).2⟩) fuel hf
    rw [List.length_map] at o2
    refine ⟨out, o1, o2, ?_, ?_⟩
    · intro q hq
      obtain ⟨h, hh, rfl⟩ := List.mem_iff_getElem.1 hq
      obtain ⟨p1, p2, -⟩ := o3 h (by rw [List.length_map]; omega) (by rw [hu.1]; omega) hh
      rw [hnS] at p1
      obtain ⟨e, e1, e2, -, e3⟩ := SparseTPM.entry_of_ne hv.wf j M hM _ _ (ne_of_gt p2)
      exact ⟨p1, e, e1, e2, e3⟩
    · intro h q u l hq hu' hl
      obtain ⟨hh, hq'⟩ := List.getElem?_eq_some_iff.1 hq
      obtain ⟨hh', hu''⟩ := List.getElem?_eq_some_iff.1 hu'
      obtain ⟨p1, -, p2, p3, -⟩ := o3 h (by rw [List.length_map]; omega) hh' (by omega)
      rw [List.getElem_map, hq', hu''] at p2 p3
      rw [hnS] at p1
      refine ⟨out[h], labels[out[h]], List.getElem?_eq_getElem (by omega), List.getElem?_eq_getElem p1, M, q, f q, out[h], hM, hl, ?_, ?_, List.getElem?_eq_getElem p1, p2, p3⟩
      · intro hc
        simp only [f, if_pos hc]
      · intro hc
        simp only [f, if_neg hc]
  by_cases hall : ∀ q ∈ states, tpm.Leaves (j % tpm.nTimes) q
  · have hid : states.map f = states := by
      conv_rhs => rw [← List.map_id states]
      apply List.map_congr_left
      intro q hq
      simp only [f, if_pos (hall q hq), id]
    obtain ⟨out, o⟩ := key j fuel (by omega) hmod (by rw [hget, hM])
    rw [hid] at o
    exact ⟨states, out, o⟩
  · push Not at hall
    obtain ⟨q0, hq0, hdead0⟩ := hall
    obtain ⟨fuel, rfl⟩ : ∃ k, fuel = k + 1 := ⟨fuel - 1, by omega⟩
    have hdead : ∀ q, decide (¬ tpm.Leaves (j % tpm.nTimes) q) = true ↔ ∀ e ∈ S.entries, ¬ (e.1 = ((j : Int) % (S.nTimes : Int)).toNat ∧ e.2.1 = q) := by
      intro q
      rw [decide_eq_true_iff, hmod, hent]
      unfold SparseTPM.Leaves
      push Not
      rfl
    rw [C14_dead_states S hwf j states us fuel 0 hd (fun q => decide (¬ tpm.Leaves (j % tpm.nTimes) q)) hdead ⟨q0, hq0, by simpa using hdead0⟩]
    have hmap : (states.map fun q => if decide (¬ tpm.Leaves (j % tpm.nTimes) q) = true then 0 else q) = states.map f := by
      apply List.map_congr_left
      intro q _
      by_cases hq : tpm.Leaves (j % tpm.nTimes) q
      · simp [f, hq]
      · simp [f, hq]
    rw [hmap]
    have hMt : S.getItem ((j : Int) % (S.nTimes : Int)) = .ok M := by
      rw [← hM, ← hget j, SparseTPM.getItem_wf hwf, SparseTPM.getItem_wf hwf, Int.emod_emod_of_dvd _ (dvd_refl _)]
    obtain ⟨out, o⟩ := key _ fuel (by omega) hmod2 hMt
    exact ⟨_, out, o⟩

/-- `update_new_day` changes neither the number of residents nor the labels of the activities. -/
theorem updateNewDay_frame (load : Option DayClass → Except PyErr (SparseTPM × List Nat)) (s s' : SparseSim) (h : s.updateNewDay load = .ok s') :
    s'.nResidents = s.nResidents ∧ s'.activityLabels = s.activityLabels := by
  unfold updateNewDay at h
  simp only [bind, Except.bind] at h
  split at h
  · cases h
  · split at h
    · cases h
    · split at h
      · cases h
      · split at h
        · cases h
        · unfold assignTpm at h
          split at h
          · cases h
          · injection h with h
            subst h
            exact ⟨rfl, rfl⟩

theorem dayClassOf_eq (a : SparseArgs) (old : Option DayClass) (t : Int) : dayClassOf a.nDays a.quarters old t = some (dayOf (.of a.sevenDays a.weekEnds) a.quarters t) := by
  have e : (isoWeekday t : Int) = t / 86400000000 % 7 + 1 := by
    unfold isoWeekday dayNumber DAY
    omega
  have e5 : isoWeekday t ≤ 5 ↔ t / 86400000000 % 7 < 5 := by omega
  obtain ⟨aw, st, qu, sd, we⟩ := a
  cases sd <;> cases we <;> simp [dayClassOf, SparseArgs.nDays, dayOf, DaySplit.of, e, e5]
  split <;> rfl

/-- The label of a household. -/
def LabelAt (s : SparseSim) (h l : Nat) : Prop := ∃ q, s.states[h]? = some q ∧ s.labels[q]? = some l

/-- The time at which the data in use after `j` steps were loaded. -/
def dataTime (start : Int) (j : Nat) : Int := if j = 0 then start else loadTime start (j - 1)

/-- The state of a simulator started at `start`, after `j` steps. -/
structure Follows (a : SparseArgs) (start : Int) (D : DayData) (acts : List Str) (r : Int) (j : Nat) (s : SparseSim) : Prop where
  tpm : s.tpm = { (D (dayOf (.of a.sevenDays a.weekEnds) a.quarters (dataTime start j))).1 with dead := some 0 }
  labels : s.labels = (D (dayOf (.of a.sevenDays a.weekEnds) a.quarters (dataTime start j))).2
  states : ∀ q ∈ s.states, q < s.labels.length
  timeStep : s.timeStep = j
  aware : s.aware = true
  time : s.time = start + j * 600000000
  nDays : s.nDays = a.nDays
  quarters : s.useQuarters = a.quarters
  residents : s.nResidents = r
  acts : s.activityLabels = acts
  alive : j % 144 ≠ 0 → ∀ q ∈ s.states, s.tpm.Alive (j % s.tpm.nTimes) q

/-- A new day, at any time. -/
theorem newDay_spec {L : SparseLoad} {g : Subgroup} {labels0 : List Nat} {acts : List Str} {pdf : List Rat} (a : SparseArgs) {D : DayData}
    (hD : SparseData L g labels0 acts pdf (.of a.sevenDays a.weekEnds) a.quarters D) (s : SparseSim) (hst : ∀ q ∈ s.states, q < s.labels.length) (hn : s.nDays = a.nDays) (hq : s.useQuarters = a.quarters) :
    ∃ s', s.updateNewDay (L.day g) = .ok s' ∧ s'.tpm = { (D (dayOf (.of a.sevenDays a.weekEnds) a.quarters s.time)).1 with dead := some 0 } ∧
      s'.labels = (D (dayOf (.of a.sevenDays a.weekEnds) a.quarters s.time)).2 ∧ (∀ q ∈ s'.states, q < s'.labels.length) ∧ s'.timeStep = s.timeStep ∧ s'.aware = s.aware ∧ s'.time = s.time ∧ s'.nDays = a.nDays ∧
      s'.useQuarters = a.quarters ∧ s'.nResidents = s.nResidents ∧ s'.activityLabels = s.activityLabels ∧ s'.states.length = s.states.length ∧
      ∀ h l, LabelAt s h l → ∃ l', LabelAt s' h l' ∧ Relabel (D (dayOf (.of a.sevenDays a.weekEnds) a.quarters s.time)).2 l l' := by
  have hval := hD.valid s.time
  obtain ⟨x, hload⟩ := hD.day s.time
  generalize hc : dayOf (.of a.sevenDays a.weekEnds) a.quarters s.time = c at *
  have hcl : dayClassOf s.nDays s.useQuarters s.dayClass s.time = some c := by rw [hn, hq, dayClassOf_eq, hc]
  obtain ⟨l0, f1, f2⟩ := hval.first
  have hne : (D c).2 ≠ [] := by
    intro h0
    rw [h0] at f1
    cases f1
  obtain ⟨s', p1, p2, p3, p4, p5, p6, p7, p8, p9, p10, p11⟩ := C43_new_day s (L.day g) (D c).1 (D c).2 (by
    rw [hcl]
    unfold SparseLoad.day
    rw [hload]
    rfl) hval.nodup hne hval.size hst
  obtain ⟨r1, r2⟩ := updateNewDay_frame _ _ _ p1
  have hlab : ∀ h l, LabelAt s h l → ∃ q' l', s'.states[h]? = some q' ∧ s'.labels[q']? = some l' ∧ Relabel (D c).2 l l' := by
    rintro h l ⟨q, q1, q2⟩
    obtain ⟨st', t1, t2, t3⟩ := p11 h q l q1 q2
    by_cases hl : l ∈ (D c).2
    · exact ⟨st', l, t1, t2 hl, fun _ => rfl, fun h => absurd hl h⟩
    · have hst' : st' = l0 := by rw [t3 hl, List.getD_eq_getElem?_getD, f1]; rfl
      refine ⟨st', (D c).2[l0], t1, ?_, fun h => absurd h hl, fun _ => ⟨l0, f1, List.getElem?_eq_getElem f2⟩⟩
      rw [p2, hst']
      exact List.getElem?_eq_getElem f2
  refine ⟨s', p1, p7, p2, ?_, p6, p8, p5, p9.trans hn, p10.trans hq, r1, r2, p3, ?_⟩
  · intro q hq
    obtain ⟨h, hh⟩ := List.mem_iff_getElem?.1 hq
    have hlt : h < s.states.length := by rw [← p3]; exact (List.getElem?_eq_some_iff.1 hh).1
    have hb := hst _ (List.getElem_mem hlt)
    obtain ⟨q', l', t1, t2, -⟩ := hlab h _ ⟨_, List.getElem?_eq_getElem hlt, List.getElem?_eq_getElem hb⟩
    rw [hh, Option.some.injEq] at t1
    subst t1
    exact (List.getElem?_eq_some_iff.1 t2).1
  · intro h l hl
    obtain ⟨q', l', t1, t2, t3⟩ := hlab h l hl
    exact ⟨l', ⟨q', t1, t2⟩, t3⟩

/-- One step. -/
theorem step_spec {L : SparseLoad} {g : Subgroup} {labels0 : List Nat} {acts : List Str} {pdf : List Rat} (a : SparseArgs) {D : DayData}
    (hD : SparseData L g labels0 acts pdf (.of a.sevenDays a.weekEnds) a.quarters D) (start : Int) (r : Int) (fuel : Nat) (hf : 2 ≤ fuel) (j : Nat) (s : SparseSim)
    (hs : Follows a start D acts r j s) (us : List Rat) (hu : PosDraws s.states.length us) :
    ∃ s', s.step (L.day g) fuel us = .ok s' ∧ Follows a start D acts r (j + 1) s' ∧ s'.states.length = s.states.length ∧
      ∀ h l u, LabelAt s h l → us[h]? = some u → ∃ l', LabelAt s' h l' ∧ SparseStep D (.of a.sevenDays a.weekEnds) a.quarters start j u l l' := by
  -- the new day
  obtain ⟨s1, n1, n2, n3, n4, n5, n6, n7, n8, n9⟩ : ∃ s1, (if s.aware then
      (let s : SparseSim := { s with time := s.time + 600000000 }
      if s.timeStep % 144 = 0 then s.updateNewDay (L.day g) else .ok s)
    else .ok s) = .ok s1 ∧ s1.tpm = { (D (dayOf (.of a.sevenDays a.weekEnds) a.quarters (loadTime start j))).1 with dead := some 0 } ∧
      s1.labels = (D (dayOf (.of a.sevenDays a.weekEnds) a.quarters (loadTime start j))).2 ∧ (∀ q ∈ s1.states, q < s1.labels.length) ∧ s1.timeStep = j ∧
      (s1.aware = true ∧ s1.time = start + ((j + 1 : Nat) : Int) * 600000000 ∧ s1.nDays = a.nDays ∧ s1.useQuarters = a.quarters ∧ s1.nResidents = r ∧ s1.activityLabels = acts) ∧
      s1.states.length = s.states.length ∧
      (∀ h l, LabelAt s h l → ∃ m, LabelAt s1 h m ∧ (j % 144 = 0 → Relabel (D (dayOf (.of a.sevenDays a.weekEnds) a.quarters (loadTime start j))).2 l m) ∧ (j % 144 ≠ 0 → m = l)) ∧
      (j % 144 ≠ 0 → ∀ q ∈ s1.states, SparseTPM.Alive (D (dayOf (.of a.sevenDays a.weekEnds) a.quarters (loadTime start j))).1 (j % (D (dayOf (.of a.sevenDays a.weekEnds) a.quarters (loadTime start j))).1.nTimes) q) := by
    rw [if_pos hs.aware]
    have ht : s.time + 600000000 = start + ((j + 1 : Nat) : Int) * 600000000 := by
      rw [hs.time]
      push_cast
      ring
    by_cases hj : j % 144 = 0
    · have hlt : s.time + 600000000 = loadTime start j := by
        rw [ht]
        unfold loadTime
        rw [show j / 144 * 144 = j by omega]
      obtain ⟨s1, p1, p2, p3, p4, p5, p6, p7, p8, p9, p10, p11, p12, p13⟩ := newDay_spec a hD { s with time := s.time + 600000000 } hs.states hs.nDays hs.quarters
      dsimp only at p2 p3 p5 p6 p7 p10 p11 p12 p13
      rw [hlt] at p2 p3 p13
      refine ⟨s1, ?_, p2, p3, p4, p5.trans hs.timeStep, ⟨p6.trans hs.aware, p7.trans ht, p8, p9, p10.trans hs.residents, p11.trans hs.acts⟩, p12, ?_, fun h => absurd hj h⟩
      · have hj' : s.timeStep % 144 = 0 := by rw [hs.timeStep, hj]
        simp only [if_pos hj']
        exact p1
      · intro h l hl
        obtain ⟨m, m1, m2⟩ := p13 h l hl
        exact ⟨m, m1, fun _ => m2, fun h => absurd hj h⟩
    · have hT : dataTime start j = loadTime start j := by
        unfold dataTime loadTime
        rw [if_neg (by rintro rfl; exact hj rfl), show (j - 1) / 144 = j / 144 by omega]
      have q1 := hs.tpm
      have q2 := hs.labels
      rw [hT] at q1 q2
      refine ⟨{ s with time := s.time + 600000000 }, ?_, q1, q2, hs.states, hs.timeStep, ⟨hs.aware, ht, hs.nDays, hs.quarters, hs.residents, hs.acts⟩, rfl, ?_, ?_⟩
      · simp only [hs.timeStep, if_neg hj]
      · intro h l hl
        exact ⟨l, hl, fun h => absurd h hj, fun _ => rfl⟩
      · intro _ q hq
        have := hs.alive hj q hq
        rwa [q1] at this
  have hlen := n7
  have hval := hD.valid (loadTime start j)
  obtain ⟨old, out, o1, o2, o3, o4⟩ := move_spec _ _ hval j s1.states (by rw [← n3]; exact n4) us (by rw [hlen]; exact hu) fuel hf (by
    intro q hq
    by_cases hj : j % 144 = 0
    · exact hval.stuck.start hval.wf.pos j q hj
    · exact n9 hj q hq)
  refine ⟨{ s1 with timeStep := s1.timeStep + 1, states := out }, ?_, ?_, o2.trans hlen, ?_⟩
  · unfold step
    have hts : ((s1.timeStep + 1 : Nat) : Int) - 1 = (j : Int) := by rw [n5]; push_cast; ring
    by_cases hj : s.timeStep % 144 = 0
    · simp only [if_pos hs.aware, if_pos hj] at n1 ⊢
      simp only [n1, bind, Except.bind, hts, n2, o1]
    · simp only [if_pos hs.aware, if_neg hj] at n1 ⊢
      injection n1 with n1
      subst n1
      dsimp only at n2 hts o1
      simp only [bind, Except.bind, hts, n2, o1]
  · refine ⟨?_, ?_, by rw [n3]; exact fun q hq => (o3 q hq).1, by rw [← n5], n6.1, n6.2.1, n6.2.2.1, n6.2.2.2.1, n6.2.2.2.2.1, n6.2.2.2.2.2, ?_⟩
    · exact n2
    · exact n3
    · intro hj q hq
      show SparseTPM.Alive s1.tpm _ _
      rw [n2]
      exact hval.stuck.next hval.wf.pos j q hj (o3 q hq).2
  · intro h l u hl hu'
    obtain ⟨m, ⟨q, q1, q2⟩, m2, m3⟩ := n8 h l hl
    rw [n3] at q2
    obtain ⟨i, l', i1, i2, i3⟩ := o4 h q u m q1 hu' q2
    exact ⟨l', ⟨i, i1, by rw [n3]; exact i2⟩, m, m2, m3, i3⟩

/-- The draw of a household. -/
theorem draw_at (n : Nat) (us : List Rat) (hl : us.length = n) (h : Nat) (hh : h < n) : us[h]? = some (us.getD h 0) := by
  rw [List.getElem?_eq_getElem (by omega), List.getD_eq_getElem?_getD, List.getElem?_eq_getElem (by omega)]
  rfl

theorem LabelAt.lt {s : SparseSim} {h l : Nat} (hl : LabelAt s h l) : h < s.states.length := by
  obtain ⟨q, q1, -⟩ := hl
  exact (List.getElem?_eq_some_iff.1 q1).1

/-- Several steps. -/
theorem run_spec {L : SparseLoad} {g : Subgroup} {labels0 : List Nat} {acts : List Str} {pdf : List Rat} (a : SparseArgs) {D : DayData}
    (hD : SparseData L g labels0 acts pdf (.of a.sevenDays a.weekEnds) a.quarters D) (start : Int) (r : Int) (fuel : Nat) (hf : 2 ≤ fuel) (uss : List (List Rat)) (j : Nat) (s : SparseSim)
    (hs : Follows a start D acts r j s) (hu : ∀ us ∈ uss, PosDraws s.states.length us) :
    ∃ s', s.run (L.day g) fuel uss = .ok s' ∧ Follows a start D acts r (j + uss.length) s' ∧ s'.states.length = s.states.length ∧
      ∀ h l, LabelAt s h l → ∃ t : Nat → Nat, t 0 = l ∧ LabelAt s' h (t uss.length) ∧
        ∀ i u, (uss.map fun us => us.getD h 0)[i]? = some u → SparseStep D (.of a.sevenDays a.weekEnds) a.quarters start (j + i) u (t i) (t (i + 1)) := by
  induction uss generalizing j s with
  | nil => exact ⟨s, rfl, hs, rfl, fun h l hl => ⟨fun _ => l, rfl, hl, fun i u hi => by simp at hi⟩⟩
  | cons us uss ih =>
    have hu0 := hu us (by simp)
    obtain ⟨s1, p1, p2, p3, p4⟩ := step_spec a hD start r fuel hf j s hs us hu0
    obtain ⟨s2, q1, q2, q3, q4⟩ := ih (j + 1) s1 p2 (by rw [p3]; exact fun us h => hu us (by simp [h]))
    refine ⟨s2, ?_, ?_, q3.trans p3, ?_⟩
    · rw [run, p1]
      exact q1
    · rw [List.length_cons, show j + (uss.length + 1) = j + 1 + uss.length by omega]
      exact q2
    · intro h l hl
      obtain ⟨l', m1, m2⟩ := p4 h l _ hl (draw_at _ us hu0.1 h hl.lt)
      obtain ⟨t, t1, t2, t3⟩ := q4 h l' m1
      refine ⟨fun i => match i with | 0 => l | i + 1 => t i, rfl, t2, ?_⟩
      intro i u hi
      cases i with
      | zero =>
        simp only [List.map_cons, List.getElem?_cons_zero, Option.some.injEq] at hi
        subst hi
        show SparseStep _ _ _ _ _ _ l (t 0)
        rw [t1]
        exact m2
      | succ i =>
        rw [List.map_cons, List.getElem?_cons_succ] at hi
        rw [show j + (i + 1) = j + 1 + i by omega]
        exact t3 i u hi

theorem run_append (load : Option DayClass → Except PyErr (SparseTPM × List Nat)) (fuel : Nat) (xs ys : List (List Rat)) (s s' : SparseSim) (h : s.run load fuel xs = .ok s') :
    s.run load fuel (xs ++ ys) = s'.run load fuel ys := by
  induction xs generalizing s with
  | nil =>
    injection h with h
    rw [h]
    rfl
  | cons x xs ih =>
    rw [run] at h
    rw [List.cons_append, run]
    cases hx : s.step load fuel x with
    | error e => rw [hx] at h; cases h
    | ok s1 =>
      rw [hx] at h
      exact ih s1 h

/-- The starting states. -/
theorem start_spec (n : Nat) (pdf us : List Rat) (hp : IsDist pdf) (hu : Draws n us) :
    ∃ states, sparseStart n pdf.length pdf us = .ok states ∧ states.length = n ∧ (∀ q ∈ states, q < pdf.length) ∧ ∀ h < n, ∃ i, states[h]? = some i ∧ Sampled pdf (us.getD h 0) i := by
  obtain ⟨hu1, hu2⟩ := hu
  obtain ⟨states, s1, s2, s3⟩ := mapM_rel (fun p : List Rat × Rat => mcCdf p.1 p.2) (fun p i => Sampled pdf p.2 i) ((List.replicate n (cumsum pdf)).zip us) (by
    rintro ⟨c, u⟩ hc
    have hcu := List.of_mem_zip hc
    rw [List.eq_of_mem_replicate hcu.1]
    obtain ⟨u1, u2⟩ := hu2 u hcu.2
    obtain ⟨i, hi⟩ : ∃ i, mcCdf (cumsum pdf) u = .ok i := by
      have hne : pdf ≠ [] := by rintro rfl; have := hp.2; simp at this
      unfold mcCdf argmaxBool
      split
      · rename_i h
        rw [List.map_eq_nil_iff] at h
        have := congrArg List.length h
        rw [cumsum_length, List.length_nil] at this
        exact absurd (List.length_eq_zero_iff.1 this) hne
      · exact ⟨_, rfl⟩
    obtain ⟨i1, i2, i3⟩ := (mcPdf_iff pdf hp.1 u u1 (by rw [hp.2]; exact u2) i).1 hi
    refine ⟨i, hi, i1, i2, ?_⟩
    rwa [take_succ_sum _ _ i1, ← getD_eq pdf i 0 i1] at i3)
  rw [List.length_zip, List.length_replicate, hu1, Nat.min_self] at s2
  have hget : ∀ h < n, ∃ i, states[h]? = some i ∧ Sampled pdf (us.getD h 0) i := by
    intro h hh
    have hz : ((List.replicate n (cumsum pdf)).zip us)[h]? = some (cumsum pdf, us.getD h 0) := by
      rw [List.getElem?_zip_eq_some]
      exact ⟨by simp [hh], draw_at n us hu1 h hh⟩
    obtain ⟨i, i1, i2⟩ := s3 h _ hz
    exact ⟨i, i1, i2⟩
  have hlt : ∀ q ∈ states, q < pdf.length := by
    intro q hq
    obtain ⟨h, hh, rfl⟩ := List.mem_iff_getElem.1 hq
    obtain ⟨i, i1, i2⟩ := hget h (by omega)
    rw [List.getElem?_eq_getElem hh, Option.some.injEq] at i1
    rw [i1]
    exact i2.1
  refine ⟨states, ?_, s2, hlt, hget⟩
  unfold sparseStart
  rw [if_neg (by simp)]
  unfold mcFromCdf
  rw [s1]
  simp only [bind, Except.bind]
  rw [if_pos]
  rw [List.all_eq_true]
  intro q hq
  simpa using hlt q hq

/-- Construction and steps. -/
theorem create_spec {L : SparseLoad} {g : Subgroup} {labels0 : List Nat} {acts : List Str} {pdf : List Rat} (a : SparseArgs) {D : DayData}
    (hD : SparseData L g labels0 acts pdf (.of a.sevenDays a.weekEnds) a.quarters D) (start : Int) (ha : a.start = some start) (r : Int) (hr : ResidentsOf g r) (fuel : Nat) (hf : 2 ≤ fuel)
    (n : Nat) (hn : 0 < n) (us : List Rat) (hu : Draws n us) (e : Nat → List Rat) (he : ∀ k, PosDraws n (e k)) (n0 : Nat) (hn0 : (n0 : Int) = (start - 4 * 3600000000) % 86400000000 / 600000000) :
    ∃ s0, create L fuel n g a us e = .ok s0 ∧ s0.states.length = n ∧
      ∀ uss, (∀ us ∈ uss, PosDraws n us) → ∃ s, s0.run (L.day g) fuel uss = .ok s ∧ Follows a start D acts r (n0 + uss.length) s ∧ s.states.length = n ∧
        ∀ h < n, ∃ t, SparseCourse D labels0 pdf (.of a.sevenDays a.weekEnds) a.quarters start (us.getD h 0) (((List.range n0).map e ++ uss).map fun us => us.getD h 0) t ∧ LabelAt s h (t (n0 + uss.length)) := by
  obtain ⟨tpm, g1, g2⟩ := hD.given
  obtain ⟨d1, d2⟩ := hD.pdf
  obtain ⟨states, s1, s2, s3, s4⟩ := start_spec n pdf us d1 hu
  have hres : sparseResidents g = .ok r := by
    unfold sparseResidents
    rcases hr with h | ⟨h, rfl⟩
    · rw [show lookupA g kNResidents = _ from h]
    · rw [show lookupA g kNResidents = _ from h]
  obtain ⟨S, hS⟩ : ∃ S : SparseSim, S = { tpm := tpm, labels := labels0, states := states, timeStep := 0, aware := true, time := start, nDays := a.nDays, useQuarters := a.quarters, dayClass := (none : Option DayClass), nResidents := r, activityLabels := acts } := ⟨_, rfl⟩
  obtain ⟨s1', p1, p2, p3, p4, p5, p6, p7, p8, p9, p10, p11, p12, p13⟩ := newDay_spec a hD S (by subst hS; rw [← d2]; exact s3) (by subst hS; rfl) (by subst hS; rfl)
  have hSt : S.time = start := by subst hS; rfl
  rw [hSt] at p2 p3 p13
  have hF : Follows a start D acts r 0 { s1' with timeStep := 0 } := by
    refine ⟨p2, p3, p4, rfl, p6.trans (by subst hS; rfl), ?_, p8, p9, p10.trans (by subst hS; rfl), p11.trans (by subst hS; rfl), fun h => absurd rfl h⟩
    show s1'.time = _
    rw [p7, hSt]
    simp
  have hlen : ({ s1' with timeStep := 0 } : SparseSim).states.length = n := by
    show s1'.states.length = n
    rw [p12, ← s2]
    subst hS
    rfl
  have hslot := C44_time_slot start
  have hn144 : n0 < 144 := by omega
  have hstart : (startTimeStep start).toNat = n0 := by
    have := hslot.1
    unfold HOUR DAY at this
    omega
  have hinit : ((List.range 144).map e).take n0 = (List.range n0).map e := by
    rw [← List.map_take, List.take_range, Nat.min_eq_left (by omega)]
  have hpd : ∀ us ∈ (List.range n0).map e, PosDraws n us := by
    intro us hus
    obtain ⟨k, -, rfl⟩ := List.mem_map.1 hus
    exact he k
  obtain ⟨s0, q1, q2, q3, -⟩ := run_spec a hD start r fuel hf ((List.range n0).map e) 0 _ hF (by rw [hlen]; exact hpd)
  refine ⟨s0, ?_, q3.trans hlen, ?_⟩
  · unfold create
    rw [hres, g1]
    simp only [bind, Except.bind]
    rw [if_neg (by omega), if_neg (by simp [g2]), if_neg (by simp [ha]), ← g2, ← d2, s1]
    simp only [ha, Option.isSome_some, Bool.or_true, Option.getD_some]
    rw [← hS]
    unfold initialise
    have haw : S.aware = true := by subst hS; rfl
    have haw' : s1'.aware = true := p6.trans haw
    have hst' : (startTimeStep s1'.time).toNat = n0 := by rw [p7, hSt, hstart]
    simp only [bind, Except.bind, if_pos haw, p1, if_pos haw', hst', hinit]
    exact q1
  · intro uss huss
    obtain ⟨s, t1, t2, t3, t4⟩ := run_spec a hD start r fuel hf ((List.range n0).map e ++ uss) 0 _ hF (by
      rw [hlen]
      intro us hus
      rcases List.mem_append.1 hus with h | h
      · exact hpd us h
      · exact huss us h)
    rw [run_append _ _ _ _ _ _ q1] at t1
    have hl : ((List.range n0).map e ++ uss).length = n0 + uss.length := by simp
    rw [hl, Nat.zero_add] at t2
    refine ⟨s, t1, t2, t3.trans hlen, fun h hh => ?_⟩
    obtain ⟨i, i1, i2⟩ := s4 h hh
    have hil : i < labels0.length := by rw [← d2]; exact i2.1
    obtain ⟨l', m1, m2⟩ := p13 h labels0[i] ⟨i, by subst hS; exact i1, by subst hS; exact List.getElem?_eq_getElem hil⟩
    obtain ⟨t, v1, v2, v3⟩ := t4 h l' m1
    rw [hl] at v2
    refine ⟨t, ⟨⟨i, labels0[i], i2, List.getElem?_eq_getElem hil, by rw [v1]; exact m2⟩, fun j u hj => ?_⟩, v2⟩
    have := v3 j u hj
    rwa [Nat.zero_add] at this

/-! ## Getters -/

/-- Positions of labels and values of the getters. -/
theorem getters_spec (s : SparseSim) (hst : ∀ q ∈ s.states, q < s.labels.length) (hnd : s.activityLabels.Nodup) :
    ∃ labs : List Nat, labs.length = s.states.length ∧ (∀ h l, LabelAt s h l ↔ labs[h]? = some l) ∧
      (∀ a k, s.activityLabels[k]? = some a → s.nDoing a = .ok (labs.map fun l => l / 7 ^ k % 7)) ∧
      ∀ w o c, s.activityLabels[w]? = some "HWH".toList → s.activityLabels[o]? = some "HOH".toList → s.activityLabels[c]? = some "active".toList →
        s.occupancy = .ok (labs.map fun l => s.nResidents - ((l / 7 ^ w % 7 + l / 7 ^ o % 7 : Nat) : Int)) ∧
        s.activeOccupancy = .ok (labs.map fun l => min (s.nResidents - ((l / 7 ^ w % 7 + l / 7 ^ o % 7 : Nat) : Int)) ((l / 7 ^ c % 7 : Nat) : Int)) ∧
        s.thermalGains = .ok (labs.map fun l =>
          84 * (s.nResidents - ((l / 7 ^ w % 7 + l / 7 ^ o % 7 : Nat) : Int) - min (s.nResidents - ((l / 7 ^ w % 7 + l / 7 ^ o % 7 : Nat) : Int)) ((l / 7 ^ c % 7 : Nat) : Int)) +
            147 * min (s.nResidents - ((l / 7 ^ w % 7 + l / 7 ^ o % 7 : Nat) : Int)) ((l / 7 ^ c % 7 : Nat) : Int)) := by
  obtain ⟨labs, c1, c2, c3⟩ := mapM_rel (pyGet s.labels) (fun st lab => s.labels[st]? = some lab) s.states (by
    intro st hs
    exact ⟨s.labels[st]'(hst st hs), pyGet_ok _ _ (hst st hs), List.getElem?_eq_getElem (hst st hs)⟩)
  have hu : ∀ l k, unpack l k = l / 7 ^ k % 7 := by
    intro l k
    unfold unpack maxPeople
    rw [Nat.pow_succ, Nat.mod_mul_right_div_self]
  have hnum : ∀ k, s.nDoingNumber k = .ok (labs.map fun l => l / 7 ^ k % 7) := by
    intro k
    unfold nDoingNumber
    rw [c1]
    simp only [bind, Except.bind, hu]
  have hdo : ∀ a k, s.activityLabels[k]? = some a → s.nDoing a = .ok (labs.map fun l => l / 7 ^ k % 7) := by
    intro a k hk
    have hp : Markov.positionsOf a s.activityLabels = [k] := by
      have hklt := (List.getElem?_eq_some_iff.1 hk).1
      unfold Markov.positionsOf
      have hu : ∀ j, s.activityLabels[j]? = some a ↔ j = k := by
        intro j
        constructor
        · intro hj
          have hjlt := (List.getElem?_eq_some_iff.1 hj).1
          exact (List.Nodup.getElem_inj_iff hnd (hi := hjlt) (hj := hklt)).1 (by
            rw [(List.getElem?_eq_some_iff.1 hj).2, (List.getElem?_eq_some_iff.1 hk).2])
        · rintro rfl; exact hk
      have : ((List.range s.activityLabels.length).filter fun j => decide (s.activityLabels[j]? = some a)) =
          (List.range s.activityLabels.length).filter (fun j => j == k) := by
        apply List.filter_congr
        intro j _
        rw [decide_eq_decide.2 (hu j)]
        rfl
      rw [this, List.filter_beq, List.count_eq_one_of_mem List.nodup_range (List.mem_range.2 hklt)]
      rfl
    unfold nDoing
    rw [hp]
    exact hnum k
  have zw : ∀ {α β γ : Type} (g : α → β → γ) (f1 : Nat → α) (f2 : Nat → β), List.zipWith g (labs.map f1) (labs.map f2) = labs.map fun l => g (f1 l) (f2 l) := by
    intro α β γ g f1 f2
    rw [List.zipWith_map, List.zipWith_self]
  refine ⟨labs, c2, ?_, hdo, ?_⟩
  · intro h l
    constructor
    · rintro ⟨q, q1, q2⟩
      obtain ⟨l', r1, r2⟩ := c3 h q q1
      rw [r1, ← r2, q2]
    · intro hl
      have hh : h < s.states.length := by rw [← c2]; exact (List.getElem?_eq_some_iff.1 hl).1
      obtain ⟨l', r1, r2⟩ := c3 h _ (List.getElem?_eq_getElem hh)
      rw [hl, Option.some.injEq] at r1
      subst r1
      exact ⟨_, List.getElem?_eq_getElem hh, r2⟩
  · intro w o c hw ho hc
    have e1 := hdo _ _ hw
    have e2 := hdo _ _ ho
    have e3 := hdo _ _ hc
    have h1 : s.occupancy = .ok (labs.map fun l => s.nResidents - ((l / 7 ^ w % 7 + l / 7 ^ o % 7 : Nat) : Int)) := by
      unfold occupancy
      rw [e1, e2]
      simp only [bind, Except.bind, zw, List.map_map]
      rfl
    have h2 : s.activeOccupancy = .ok (labs.map fun l => min (s.nResidents - ((l / 7 ^ w % 7 + l / 7 ^ o % 7 : Nat) : Int)) ((l / 7 ^ c % 7 : Nat) : Int)) := by
      unfold activeOccupancy
      rw [h1, e3]
      simp only [bind, Except.bind, zw]
    refine ⟨h1, h2, ?_⟩
    unfold thermalGains
    rw [h2, e1, e2]
    simp only [bind, Except.bind, List.zip, zw]
    congr 1
    apply List.map_congr_left
    intro l _
    push_cast
    ring_nf

end SparseSim

namespace SparseMulti

open SparseSim

/-- The subgroup of each household. -/
def groupsOf (l : List (Subgroup × Nat)) : List Subgroup := (l.map fun q => List.replicate q.2 q.1).flatten

theorem groupsOf_length (l : List (Subgroup × Nat)) : (groupsOf l).length = (l.map (·.2)).sum := by
  unfold groupsOf
  rw [List.length_flatten, List.map_map]
  congr 1
  apply List.map_congr_left
  intro q _
  simp

theorem groupsOf_get (groups : List Subgroup) (counts : List Nat) (hl : counts.length = groups.length) (h k : Nat) (hk : InSubgroup counts h k) : (groupsOf (groups.zip counts))[h]? = groups[k]? := by
  induction counts generalizing groups h k with
  | nil => obtain ⟨-, h2⟩ := hk; simp at h2
  | cons c counts ih =>
    cases groups with
    | nil => simp at hl
    | cons g groups =>
      have hcons : groupsOf ((g :: groups).zip (c :: counts)) = List.replicate c g ++ groupsOf (groups.zip counts) := by simp [groupsOf]
      rw [hcons]
      obtain ⟨k1, k2⟩ := hk
      cases k with
      | zero =>
        simp only [List.take_succ_cons, List.take_zero, List.sum_cons, List.sum_nil, Nat.add_zero, Nat.zero_add] at k2
        rw [List.getElem?_append_left (by simpa using k2), List.getElem?_replicate, if_pos k2]
        rfl
      | succ k =>
        simp only [List.take_succ_cons, List.sum_cons] at k1 k2
        rw [List.getElem?_append_right (by simp; omega), List.length_replicate, List.getElem?_cons_succ]
        exact ih groups (by simpa using hl) (h - c) k ⟨by omega, by omega⟩

/-- The data of a subgroup. -/
structure GroupData where
  labels0 : List Nat
  acts : List Str
  pdf : List Rat
  D : DayData
  r : Int

/-- Runs forever with `n` households. -/
def Steady (L : SparseLoad) (fuel n : Nat) (g : Subgroup) (s : SparseSim) : Prop :=
  ∀ uss, (∀ us ∈ uss, PosDraws n us) → ∃ s', s.run (L.day g) fuel uss = .ok s' ∧ s'.states.length = n

theorem posDraws_take {n m : Nat} {us : List Rat} (h : PosDraws (n + m) us) : PosDraws n (us.take n) :=
  ⟨by rw [List.length_take, h.1]; omega, fun u hu => h.2 u (List.mem_of_mem_take hu)⟩

theorem posDraws_drop {n m : Nat} {us : List Rat} (h : PosDraws (n + m) us) : PosDraws m (us.drop n) :=
  ⟨by rw [List.length_drop, h.1]; omega, fun u hu => h.2 u (List.mem_of_mem_drop hu)⟩

/-- The first sub-simulator runs with the first draws, the others with the others. -/
theorem run_cons (L : SparseLoad) (fuel n : Nat) (g : Subgroup) (uss : List (List Rat)) (hu : ∀ us ∈ uss, PosDraws n (us.take n)) (s s' : SparseSim) (m m' : SparseMulti) (hst : Steady L fuel n g s)
    (h1 : s.run (L.day g) fuel (uss.map fun us => us.take n) = .ok s') (h2 : run L fuel m (uss.map fun us => us.drop n) = .ok m') : run L fuel ((g, s) :: m) uss = .ok ((g, s') :: m') := by
  induction uss generalizing s m with
  | nil =>
    injection h1 with h1
    injection h2 with h2
    subst h1 h2
    rfl
  | cons us uss ih =>
    have hn : s.states.length = n := by
      obtain ⟨s1, e1, e2⟩ := hst [] (by simp)
      injection e1 with e1
      rw [e1, e2]
    rw [List.map_cons, SparseSim.run] at h1
    rw [List.map_cons, run] at h2
    rw [run, step, hn]
    cases hs : s.step (L.day g) fuel (us.take n) with
    | error e => rw [hs] at h1; cases h1
    | ok s1 =>
      cases hm : step L fuel m (us.drop n) with
      | error e => rw [hm] at h2; cases h2
      | ok m1 =>
        rw [hs] at h1
        rw [hm] at h2
        refine ih (fun us h => hu us (by simp [h])) s1 m1 ?_ h1 h2
        intro vss hv
        obtain ⟨s2, e1, e2⟩ := hst (us.take n :: vss) (by
          intro us' h
          rcases List.mem_cons.1 h with rfl | h
          · exact hu us (by simp)
          · exact hv us' h)
        rw [SparseSim.run, hs] at e1
        exact ⟨s2, e1, e2⟩

theorem run_nil (L : SparseLoad) (fuel : Nat) (uss : List (List Rat)) : run L fuel [] uss = .ok [] := by
  induction uss with
  | nil => rfl
  | cons us uss ih => exact ih

theorem collect_cons {α : Type} (f : SparseSim → Except PyErr (List α)) (g : Subgroup) (s : SparseSim) (m : SparseMulti) (x y : List α) (h1 : f s = .ok x) (h2 : collect f m = .ok y) :
    collect f ((g, s) :: m) = .ok (x ++ y) := by
  unfold collect at h2 ⊢
  rw [List.mapM_cons, h1]
  simp only [bind, Except.bind, pure, Except.pure] at h2 ⊢
  split at h2
  · cases h2
  · rename_i l hl
    injection h2 with h2
    simp only [List.flatten_cons, h2]

theorem idx_get (l : List Str) (x : Str) (h : x ∈ l) : l[l.idxOf x]? = some x := by
  have hlt := List.idxOf_lt_length_of_mem h
  rw [List.getElem?_eq_getElem hlt, List.getElem_idxOf hlt]

/-- Persons away from home. -/
def away (q : GroupData × Nat) : Nat := q.2 / 7 ^ q.1.acts.idxOf "HWH".toList % 7 + q.2 / 7 ^ q.1.acts.idxOf "HOH".toList % 7

/-- Occupancy. -/
def occOf (q : GroupData × Nat) : Int := q.1.r - (away q : Int)

/-- Active occupancy. -/
def actOf (q : GroupData × Nat) : Int := min (occOf q) ((q.2 / 7 ^ q.1.acts.idxOf "active".toList % 7 : Nat) : Int)

/-- All sub-simulators. -/
theorem subs_spec (L : SparseLoad) (a : SparseArgs) (start : Int) (ha : a.start = some start) (fuel : Nat) (hf : 2 ≤ fuel) (n0 : Nat) (hn0 : (n0 : Int) = (start - 4 * 3600000000) % 86400000000 / 600000000)
    (G : Subgroup → GroupData) (l : List (Subgroup × Nat))
    (hG : ∀ q ∈ l, 0 < q.2 → SparseData L q.1 (G q.1).labels0 (G q.1).acts (G q.1).pdf (.of a.sevenDays a.weekEnds) a.quarters (G q.1).D ∧ ResidentsOf q.1 (G q.1).r)
    (us : List Rat) (hu : Draws (l.map (·.2)).sum us) (e : Nat → List Rat) (he : ∀ k, PosDraws (l.map (·.2)).sum (e k)) :
    ∃ m0, createSubs L fuel a l us e = .ok m0 ∧ (m0 = [] ↔ (l.map (·.2)).sum = 0) ∧
      ∀ uss, (∀ us ∈ uss, PosDraws (l.map (·.2)).sum us) → ∃ (m : SparseMulti) (hs : List (Subgroup × Nat)), run L fuel m0 uss = .ok m ∧ hs.map (·.1) = groupsOf l ∧
        m.residents = hs.map (fun q => (G q.1).r) ∧ m.occupancy = .ok (hs.map fun q => occOf (G q.1, q.2)) ∧ m.activeOccupancy = .ok (hs.map fun q => actOf (G q.1, q.2)) ∧
        m.thermalGains = .ok (hs.map fun q => 84 * (occOf (G q.1, q.2) - actOf (G q.1, q.2)) + 147 * actOf (G q.1, q.2)) ∧
        (∀ b, (∀ q ∈ l, 0 < q.2 → b ∈ (G q.1).acts) → m.nDoing b = .ok (hs.map fun q => q.2 / 7 ^ (G q.1).acts.idxOf b % 7)) ∧
        ∀ (h : Nat) g lab, hs[h]? = some (g, lab) → ∃ t, SparseCourse (G g).D (G g).labels0 (G g).pdf (.of a.sevenDays a.weekEnds) a.quarters start (us.getD h 0)
          (((List.range n0).map e ++ uss).map fun us => us.getD h 0) t ∧ t (n0 + uss.length) = lab := by
  induction l generalizing us e with
  | nil =>
    refine ⟨[], rfl, by simp, fun uss _ => ⟨[], [], run_nil _ _ _, rfl, rfl, rfl, rfl, rfl, fun _ _ => rfl, fun h g lab hh => by simp at hh⟩⟩
  | cons q l ih =>
    obtain ⟨g, n⟩ := q
    simp only [List.map_cons, List.sum_cons] at hu he ⊢
    have hu2 : Draws (l.map (·.2)).sum (us.drop n) := ⟨by rw [List.length_drop, hu.1]; omega, fun u h => hu.2 u (List.mem_of_mem_drop h)⟩
    obtain ⟨m1, c1, c2, c3⟩ := ih (fun q hq => hG q (by simp [hq])) (us.drop n) hu2 (fun j => (e j).drop n) (fun k => posDraws_drop (he k))
    by_cases hn : 0 < n
    · obtain ⟨hg, hr⟩ := hG (g, n) (by simp) hn
      have hu1 : Draws n (us.take n) := ⟨by rw [List.length_take, hu.1]; omega, fun u h => hu.2 u (List.mem_of_mem_take h)⟩
      obtain ⟨s0, d1, d2, d3⟩ := create_spec a hg start ha (G g).r hr fuel hf n hn (us.take n) hu1 (fun j => (e j).take n) (fun k => posDraws_take (he k)) n0 hn0
      refine ⟨(g, s0) :: m1, ?_, ⟨fun h => (nomatch h), fun h => (by omega)⟩, ?_⟩
      · rw [createSubs, if_pos hn, d1]
        simp only [bind, Except.bind, c1]
      · intro uss huss
        obtain ⟨s, f1, f2, f3, f4⟩ := d3 (uss.map fun us => us.take n) (by
          intro us' h
          obtain ⟨v, hv, rfl⟩ := List.mem_map.1 h
          exact posDraws_take (huss v hv))
        obtain ⟨m, hs, g1, g2, g3, g4, g5, g6, g7, g8⟩ := c3 (uss.map fun us => us.drop n) (by
          intro us' h
          obtain ⟨v, hv, rfl⟩ := List.mem_map.1 h
          exact posDraws_drop (huss v hv))
        rw [List.length_map] at f2 f4 g8
        obtain ⟨a1, a2, a3, a4⟩ := hg.acts
        obtain ⟨labs, k1, k2, k3, k4⟩ := SparseSim.getters_spec s f2.states (by rw [f2.acts]; exact a1)
        rw [f2.acts, f2.residents] at k4
        rw [f2.acts] at k3
        obtain ⟨o1, o2, o3⟩ := k4 _ _ _ (idx_get _ _ a3) (idx_get _ _ a4) (idx_get _ _ a2)
        rw [f3] at k1
        refine ⟨(g, s) :: m, labs.map (fun l => (g, l)) ++ hs, ?_, ?_, ?_, ?_, ?_, ?_, ?_, ?_⟩
        · refine run_cons L fuel n g uss (fun us h => posDraws_take (huss us h)) s0 s m1 m ?_ f1 g1
          intro vss hv
          obtain ⟨s', e1, -, e2, -⟩ := d3 vss hv
          exact ⟨s', e1, e2⟩
        · rw [List.map_append, g2, List.map_map]
          unfold groupsOf
          rw [List.map_cons, List.flatten_cons]
          congr 1
          rw [List.eq_replicate_iff]
          refine ⟨by simpa using k1, ?_⟩
          intro b hb
          obtain ⟨x, -, rfl⟩ := List.mem_map.1 hb
          rfl
        · unfold residents at g3 ⊢
          rw [List.map_cons, List.flatten_cons, List.map_append, g3, f3, f2.residents, List.map_map]
          congr 1
          symm
          rw [List.eq_replicate_iff]
          refine ⟨by simpa using k1, ?_⟩
          intro b hb
          obtain ⟨x, -, rfl⟩ := List.mem_map.1 hb
          rfl
        · rw [List.map_append, List.map_map]
          exact collect_cons _ g s m _ _ o1 g4
        · rw [List.map_append, List.map_map]
          exact collect_cons _ g s m _ _ o2 g5
        · rw [List.map_append, List.map_map]
          exact collect_cons _ g s m _ _ o3 g6
        · intro b hb
          rw [List.map_append, List.map_map]
          exact collect_cons _ g s m _ _ (k3 b _ (idx_get _ _ (hb (g, n) (by simp) hn))) (g7 b fun q hq => hb q (by simp [hq]))
        · intro h g' lab hh
          have hdr : ∀ (xs : List (List Rat)), (xs.map fun us => us.getD h 0) = if h < n then (xs.map fun us => (us.take n).getD h 0) else xs.map fun us => (us.drop n).getD (h - n) 0 := by
            intro xs
            split
            · rename_i hc
              apply List.map_congr_left
              intro v _
              rw [List.getD_eq_getElem?_getD, List.getD_eq_getElem?_getD, List.getElem?_take_of_lt hc]
            · rename_i hc
              apply List.map_congr_left
              intro v _
              rw [List.getD_eq_getElem?_getD, List.getD_eq_getElem?_getD, List.getElem?_drop, show n + (h - n) = h by omega]
          have hdr1 : us.getD h 0 = if h < n then (us.take n).getD h 0 else (us.drop n).getD (h - n) 0 := by
            have := hdr [us]
            simp only [List.map_cons, List.map_nil] at this
            split at this
            · rename_i hc
              rw [if_pos hc]
              injection this
            · rename_i hc
              rw [if_neg hc]
              injection this
          rw [hdr, hdr1]
          by_cases hc : h < n
          · rw [List.getElem?_append_left (by simpa [k1] using hc), List.getElem?_map] at hh
            cases hl : labs[h]? with
            | none => rw [hl] at hh; cases hh
            | some x =>
              rw [hl, Option.map_some, Option.some.injEq, Prod.mk.injEq] at hh
              obtain ⟨rfl, rfl⟩ := hh
              obtain ⟨t, t1, t2⟩ := f4 h hc
              rw [k2, hl, Option.some.injEq] at t2
              refine ⟨t, ?_, t2.symm⟩
              rw [if_pos hc, if_pos hc]
              simpa [List.map_map, Function.comp_def] using t1
          · rw [List.getElem?_append_right (by simp [k1]; omega), List.length_map, k1] at hh
            obtain ⟨t, t1, t2⟩ := g8 (h - n) g' lab hh
            refine ⟨t, ?_, t2⟩
            rw [if_neg hc, if_neg hc]
            simpa [List.map_map, Function.comp_def] using t1
    · have h0 : n = 0 := by omega
      subst h0
      simp only [List.drop_zero, Nat.zero_add] at c1 c2 c3 ⊢
      refine ⟨m1, by rw [createSubs, if_neg hn]; exact c1, c2, fun uss huss => ?_⟩
      obtain ⟨m, hs, g1, g2, g3, g4, g5, g6, g7, g8⟩ := c3 uss huss
      exact ⟨m, hs, g1, by rw [g2]; simp [groupsOf], g3, g4, g5, g6, fun b hb => g7 b fun q hq => hb q (by simp [hq]), g8⟩

end SparseMulti
end Demod
