import Verif.Lemmas.SparseAct

/-!
# Property C117: the subgroups activity simulator with transit states

`SparseCourse`, `SparseStep`, `SparseMove`, `Relabel`, `DoingCount`, `SparseData`, `ValidDay` and `PosDraws` are defined in `Spec/SparseAct.lean`, `InSubgroup` in `Spec/Equip.lean`.
-/

namespace Demod

/-- **C117.** With valid data for the subgroups that have households and a start datetime, `SubgroupsActivitySimulator` can be made, and steps forever. The households of each subgroup are consecutive. Each household follows its own course of labels, by the matrices of the classes of days of its subgroup and from its
own draws; there are as many steps before the start as ten minutes since 4 am. With `w` residents in 'HWH', `o` in 'HOH' and `c` in 'active', the occupancy is the number of residents less `w + o`, the active occupancy the minimum of it and `c`, and the thermal gains are 147 W
for each active and 84 W for each other occupant. Missing: draws that are exactly 0, see `C117_zero_draw_counterexample`; and the data are those of the day of the simulator's clock, which runs ahead (C72). -/
theorem C117_run_partial (L : SparseLoad) (groups : List Subgroup) (counts : List Nat) (hl : counts.length = groups.length) (hn : 0 < counts.sum) (a : SparseArgs) (start : Int) (ha : a.start = some start)
    (fuel : Nat) (hf : 2 ≤ fuel) (labels0 : Subgroup → List Nat) (acts : Subgroup → List Str) (pdf : Subgroup → List Rat) (D : Subgroup → DayData) (r : Subgroup → Int)
    (hG : ∀ (k : Nat) g c, groups[k]? = some g → counts[k]? = some c → 0 < c → SparseData L g (labels0 g) (acts g) (pdf g) (.of a.sevenDays a.weekEnds) a.quarters (D g) ∧ ResidentsOf g (r g))
    (us : List Rat) (hu : Draws counts.sum us) (e : Nat → List Rat) (he : ∀ k, PosDraws counts.sum (e k)) (n0 : Nat) (hn0 : (n0 : Int) = (start - 4 * 3600000000) % 86400000000 / 600000000) :
    ∃ m0, SparseMulti.create L fuel groups counts a us e = .ok m0 ∧
      ∀ uss, (∀ us ∈ uss, PosDraws counts.sum us) → ∃ (m : SparseMulti) (occ act gains : List Int), SparseMulti.run L fuel m0 uss = .ok m ∧ m.occupancy = .ok occ ∧ m.activeOccupancy = .ok act ∧ m.thermalGains = .ok gains ∧
        m.residents.length = counts.sum ∧ occ.length = counts.sum ∧ act.length = counts.sum ∧ gains.length = counts.sum ∧ (∀ h < counts.sum, ∃ k, InSubgroup counts h k ∧ k < groups.length) ∧
        ∀ (h k : Nat) g, InSubgroup counts h k → groups[k]? = some g → m.residents[h]? = some (r g) ∧
          ∃ t, SparseCourse (D g) (labels0 g) (pdf g) (.of a.sevenDays a.weekEnds) a.quarters start (us.getD h 0) (((List.range n0).map e ++ uss).map fun us => us.getD h 0) t ∧
            (∀ w o c, DoingCount (acts g) "HWH".toList (t (n0 + uss.length)) w → DoingCount (acts g) "HOH".toList (t (n0 + uss.length)) o → DoingCount (acts g) "active".toList (t (n0 + uss.length)) c →
              occ[h]? = some (r g - w - o) ∧ act[h]? = some (min (r g - w - o) c) ∧ gains[h]? = some (84 * (r g - w - o - min (r g - w - o) c) + 147 * min (r g - w - o) c)) ∧
            ∀ b c, (∀ g ∈ groups, b ∈ acts g) → DoingCount (acts g) b (t (n0 + uss.length)) c → ∃ l, m.nDoing b = .ok l ∧ l.length = counts.sum ∧ l[h]? = some c := by
  obtain ⟨l, hll⟩ : ∃ l, l = groups.zip counts := ⟨_, rfl⟩
  have hsum : (l.map (·.2)).sum = counts.sum := by
    rw [hll, List.map_snd_zip (by omega)]
  have hGl : ∀ q ∈ l, 0 < q.2 → SparseData L q.1 (labels0 q.1) (acts q.1) (pdf q.1) (.of a.sevenDays a.weekEnds) a.quarters (D q.1) ∧ ResidentsOf q.1 (r q.1) := by
    rintro ⟨g, c⟩ hq hc
    rw [hll] at hq
    obtain ⟨k, hk⟩ := List.mem_iff_getElem?.1 hq
    rw [List.getElem?_zip_eq_some] at hk
    exact hG k g c hk.1 hk.2 hc
  obtain ⟨m0, c1, c2, c3⟩ := SparseMulti.subs_spec L a start ha fuel hf n0 hn0 (fun g => ⟨labels0 g, acts g, pdf g, D g, r g⟩) l hGl us (by rw [hsum]; exact hu) e (by rw [hsum]; exact he)
  refine ⟨m0, ?_, fun uss huss => ?_⟩
  · unfold SparseMulti.create
    rw [← hll, c1]
    simp only [bind, Except.bind]
    rw [if_neg]
    rw [List.isEmpty_iff, c2, hsum]
    omega
  obtain ⟨m, hs, g1, g2, g3, g4, g5, g6, g7, g8⟩ := c3 uss (by rw [hsum]; exact huss)
  have hlen : hs.length = counts.sum := by
    rw [← hsum, ← SparseMulti.groupsOf_length, ← g2, List.length_map]
  refine ⟨m, _, _, _, g1, g4, g5, g6, by rw [g3, List.length_map, hlen], by rw [List.length_map, hlen], by rw [List.length_map, hlen], by rw [List.length_map, hlen], ?_, ?_⟩
  · intro h hh
    obtain ⟨k, hk⟩ : ∃ k, (hhTypesFrom 0 counts)[h]? = some k := by
      have : (hhTypesFrom 0 counts).length = counts.sum := hhTypesFrom_length counts 0
      exact ⟨_, List.getElem?_eq_getElem (by omega)⟩
    have hin := ((hhTypesFrom_get counts 0 h k).1 hk).2
    rw [Nat.sub_zero] at hin
    refine ⟨k, hin, ?_⟩
    by_contra hlt
    obtain ⟨i1, i2⟩ := hin
    rw [List.take_of_length_le (by omega)] at i1 i2
    omega
  · intro h k g hin hg
    have hgrp : (hs.map (·.1))[h]? = some g := by
      rw [g2, hll, SparseMulti.groupsOf_get groups counts hl h k hin, hg]
    rw [List.getElem?_map] at hgrp
    cases hx : hs[h]? with
    | none => rw [hx] at hgrp; cases hgrp
    | some x =>
      obtain ⟨g', lab⟩ := x
      rw [hx, Option.map_some, Option.some.injEq] at hgrp
      subst hgrp
      obtain ⟨t, t1, t2⟩ := g8 h g' lab hx
      have hkc : k < counts.length := by rw [hl]; exact (List.getElem?_eq_some_iff.1 hg).1
      have hpos : 0 < counts[k] := by
        obtain ⟨i1, i2⟩ := hin
        rw [List.take_succ_eq_append_getElem hkc, List.sum_append] at i2
        simp at i2
        omega
      obtain ⟨hD, -⟩ := hG k g' _ hg (List.getElem?_eq_getElem hkc) hpos
      obtain ⟨hnd, -, -, -⟩ := hD.acts
      have hidx : ∀ b i, (acts g')[i]? = some b → (acts g').idxOf b = i := by
        intro b i hi
        have h1 := SparseMulti.idx_get (acts g') b (List.mem_of_getElem? hi)
        have hlt := (List.getElem?_eq_some_iff.1 hi).1
        have hlt1 := (List.getElem?_eq_some_iff.1 h1).1
        exact (List.Nodup.getElem_inj_iff hnd (hi := hlt1) (hj := hlt)).1 (by
          rw [(List.getElem?_eq_some_iff.1 hi).2, (List.getElem?_eq_some_iff.1 h1).2])
      refine ⟨by rw [g3, List.getElem?_map, hx]; rfl, t, t1, ?_, ?_⟩
      · rintro w o c ⟨kw, w1, w2⟩ ⟨ko, o1, o2⟩ ⟨kc, c1, c2⟩
        rw [t2] at w2 o2 c2
        have e1 : SparseMulti.occOf (⟨labels0 g', acts g', pdf g', D g', r g'⟩, lab) = r g' - w - o := by
          unfold SparseMulti.occOf SparseMulti.away
          simp only [hidx _ _ w1, hidx _ _ o1, ← w2, ← o2]
          push_cast
          ring
        have e2 : SparseMulti.actOf (⟨labels0 g', acts g', pdf g', D g', r g'⟩, lab) = min (r g' - w - o) c := by
          unfold SparseMulti.actOf
          rw [e1]
          simp only [hidx _ _ c1, ← c2]
        rw [List.getElem?_map, List.getElem?_map, List.getElem?_map, hx]
        simp only [Option.map_some, e1, e2, and_self]
      · rintro b c hb ⟨kb, b1, b2⟩
        refine ⟨_, g7 b ?_, by rw [List.length_map, hlen], ?_⟩
        · rintro ⟨g, c⟩ hq -
          rw [hll] at hq
          exact hb g (List.of_mem_zip hq).1
        · rw [List.getElem?_map, hx]
          simp only [Option.map_some, hidx _ _ b1, b2, t2]

/-- **C117 (the course).** With valid data a household has only one course for its draws. -/
theorem C117_course_unique (L : SparseLoad) (g : Subgroup) (labels0 : List Nat) (acts : List Str) (pdf : List Rat) (split : DaySplit) (quarters : Bool) (D : DayData)
    (hD : SparseData L g labels0 acts pdf split quarters D) (start : Int) (u0 : Rat) (us : List Rat) (t t' : Nat → Nat) (h : SparseCourse D labels0 pdf split quarters start u0 us t)
    (h' : SparseCourse D labels0 pdf split quarters start u0 us t') (j : Nat) (hj : j ≤ us.length) : t j = t' j := by
  have hrel : ∀ labels l m m', Relabel labels l m → Relabel labels l m' → m = m' := by
    rintro labels l m m' ⟨a1, a2⟩ ⟨b1, b2⟩
    by_cases hl : l ∈ labels
    · rw [a1 hl, b1 hl]
    · obtain ⟨x, x1, x2⟩ := a2 hl
      obtain ⟨y, y1, y2⟩ := b2 hl
      rw [x1, Option.some.injEq] at y1
      rw [← y1, x2, Option.some.injEq] at y2
      exact y2
  induction j with
  | zero =>
    obtain ⟨⟨i, l, i1, i2, i3⟩, -⟩ := h
    obtain ⟨⟨i', l', i1', i2', i3'⟩, -⟩ := h'
    have := Sampled.unique pdf hD.pdf.1.1 _ _ _ i1 i1'
    subst this
    rw [i2, Option.some.injEq] at i2'
    subst i2'
    exact hrel _ _ _ _ i3 i3'
  | succ j ih =>
    have hjl : j < us.length := by omega
    have e := ih (by omega)
    obtain ⟨m, a1, a2, a3⟩ := h.2 j _ (List.getElem?_eq_getElem hjl)
    obtain ⟨m', b1, b2, b3⟩ := h'.2 j _ (List.getElem?_eq_getElem hjl)
    rw [← e] at b1 b2
    have hmm : m = m' := by
      by_cases h0 : j % 144 = 0
      · exact hrel _ _ _ _ (a1 h0) (b1 h0)
      · rw [a2 h0, b2 h0]
    subst hmm
    have hv := hD.valid (loadTime start j)
    generalize (D (dayOf split quarters (loadTime start j))).1 = tpm at *
    generalize (D (dayOf split quarters (loadTime start j))).2 = labels at *
    obtain ⟨M, q, p, i, c1, c2, c3, c4, c5, c6, c7⟩ := a3
    obtain ⟨M', q', p', i', d1, d2, d3, d4, d5, d6, d7⟩ := b3
    rw [c1, Except.ok.injEq] at d1
    subst d1
    have hqq : q = q' := by
      obtain ⟨q1, q2⟩ := List.getElem?_eq_some_iff.1 c2
      obtain ⟨q3, q4⟩ := List.getElem?_eq_some_iff.1 d2
      exact (List.Nodup.getElem_inj_iff hv.nodup (hi := q1) (hj := q3)).1 (by rw [q2, q4])
    subst hqq
    have hp : p = p' := by
      by_cases hq : tpm.Leaves (j % tpm.nTimes) q
      · rw [c3 hq, d3 hq]
      · rw [c4 hq, d4 hq]
    subst hp
    have nn := SparseTPM.row_nonneg hv.wf j M c1 p (hv.rows j M p c1)
    have hmono : ∀ x y, x ≤ y → ((M.getD p []).take x).sum ≤ ((M.getD p []).take y).sum := fun x y hxy => take_sum_mono _ nn hxy
    have hii : i = i' := by
      rcases lt_trichotomy i i' with hlt | heq | hgt
      · have := hmono (i + 1) i' (by omega)
        linarith
      · exact heq
      · have := hmono (i' + 1) i (by omega)
        linarith
    subst hii
    rw [c5, Option.some.injEq] at d5
    exact d5

/-- **C117 (refusals).** It cannot be made without households (`ValueError`). With households in the first subgroup, it cannot be made if the labels do not fit the matrices (`ValueError`), if it shall know the time and no start is given (`TypeError`), or if the distribution of
the starting states has another length than the labels (`AssertionError`); an error in loading the data is passed on. -/
theorem C117_refuses (L : SparseLoad) (fuel : Nat) (a : SparseArgs) (us : List Rat) (e : Nat → List Rat) :
    (∀ groups counts, (∀ c ∈ counts, c = 0) → SparseMulti.create L fuel groups counts a us e = .error .valueError) ∧
    ∀ (g : Subgroup) groups (n : Nat) counts r, 0 < n → ResidentsOf g r →
      (∀ x, L g none = .error x → SparseMulti.create L fuel (g :: groups) (n :: counts) a us e = .error x) ∧
      ∀ tpm labels acts pdf, L g none = .ok (tpm, labels, acts, pdf) →
        (labels.length ≠ tpm.nStates → SparseMulti.create L fuel (g :: groups) (n :: counts) a us e = .error .valueError) ∧
        (labels.length = tpm.nStates → a.aware = true → a.start = none → SparseMulti.create L fuel (g :: groups) (n :: counts) a us e = .error .typeError) ∧
        (labels.length = tpm.nStates → a.start ≠ none → pdf.length ≠ labels.length → SparseMulti.create L fuel (g :: groups) (n :: counts) a us e = .error .assertionError) := by
  constructor
  · intro groups counts hc
    have : ∀ (l : List (Subgroup × Nat)) us e, (∀ q ∈ l, q.2 = 0) → SparseMulti.createSubs L fuel a l us e = .ok [] := by
      intro l
      induction l with
      | nil => intro us e _; rfl
      | cons q l ih =>
        intro us e h
        obtain ⟨g, n⟩ := q
        have hq : n = 0 := h (g, n) (by simp)
        rw [SparseMulti.createSubs, if_neg (by omega)]
        exact ih us e fun q hq => h q (by simp [hq])
    unfold SparseMulti.create
    rw [this _ us e fun q hq => hc q.2 (List.of_mem_zip (show (q.1, q.2) ∈ _ from hq)).2]
    rfl
  · intro g groups n counts r hn hr
    have hres : sparseResidents g = .ok r := by
      unfold sparseResidents
      rcases hr with h | ⟨h, rfl⟩
      · rw [show lookupA g kNResidents = _ from h]
      · rw [show lookupA g kNResidents = _ from h]
    have key : ∀ x, SparseSim.create L fuel n g a (us.take n) (fun j => (e j).take n) = .error x → SparseMulti.create L fuel (g :: groups) (n :: counts) a us e = .error x := by
      intro x hx
      unfold SparseMulti.create
      rw [List.zip_cons_cons, SparseMulti.createSubs, if_pos hn, hx]
      rfl
    refine ⟨fun x hx => key x ?_, fun tpm labels acts pdf hload => ⟨fun h1 => key _ ?_, fun h1 h2 h3 => key _ ?_, fun h1 h2 h3 => key _ ?_⟩⟩
    · unfold SparseSim.create
      rw [hres, hx]
      rfl
    · unfold SparseSim.create
      rw [hres, hload]
      simp only [bind, Except.bind]
      rw [if_neg (by omega), if_pos h1]
    · unfold SparseSim.create
      rw [hres, hload]
      simp only [bind, Except.bind]
      rw [if_neg (by omega), if_neg (by simp [h1]), if_pos (by simp [h2, h3])]
    · unfold SparseSim.create
      rw [hres, hload]
      simp only [bind, Except.bind]
      have h2' : (a.aware && a.start.isNone) = false := by
        cases hs : a.start with
        | none => exact absurd hs h2
        | some x => simp
      rw [if_neg (by omega), if_neg (by simp [h1]), if_neg (by rw [h2']; simp)]
      unfold sparseStart
      rw [if_pos (by rw [← h1]; exact h3)]

/-- The part of C117 that fails: for all draws in `[0, 1)`, a household in a state that can be left goes to a state of positive probability. -/
def C117_full : Prop :=
  ∀ (tpm : SparseTPM) (labels : List Nat), ValidDay tpm labels → ∀ (states : List Nat), (∀ q ∈ states, q < labels.length) → ∀ us, Draws states.length us → ∀ (j : Nat) M, tpm.getItem j = .ok M →
    (∀ q ∈ states, tpm.Leaves (j % tpm.nTimes) q ∨ tpm.Leaves (j % tpm.nTimes) 0) →
    ∃ old out, ({ tpm with dead := some 0 } : SparseTPM).sparseMC 1000 (j : Int) states us = .ok (old, out) ∧
      ∀ (h q i : Nat), states[h]? = some q → out[h]? = some i → tpm.Leaves (j % tpm.nTimes) q → 0 < (M.getD q []).getD i 0

/-! ## Example -/

/-- Valid data, by cases over the slots. -/
theorem validDay_of_check (tpm : SparseTPM) (labels : List Nat) (wf : tpm.WF) (h1 : ∀ t ∈ tpm.times, tpm.SortedAt t) (h2 : labels.length = tpm.nStates) (h3 : labels.Nodup)
    (h4 : ∃ l0, labels[0]? = some l0 ∧ l0 < labels.length) (h5 : ∀ t < tpm.nTimes, tpm.Leaves t 0)
    (h6 : ∀ t < tpm.nTimes, ∃ M, tpm.getItem t = .ok M ∧ ∀ q < tpm.nStates, tpm.Leaves t q → IsDist (M.getD q [])) : ValidDay tpm labels := by
  refine ⟨wf, ?_, h2, h3, h4, ?_, .inl h5⟩
  · intro t
    by_cases ht : t ∈ tpm.times
    · exact h1 t ht
    · unfold SparseTPM.SortedAt
      have : (tpm.entries.filter fun e => e.1 == t) = [] := by
        rw [List.filter_eq_nil_iff]
        intro e he hc
        have := (List.of_mem_zip (show (e.1, e.2) ∈ _ from he)).1
        have hc' : e.1 = t := by simpa using hc
        exact ht (hc' ▸ this)
      rw [this]
      exact List.Pairwise.nil
  · intro t M q hM hq
    obtain ⟨M', m1, m2⟩ := h6 (t % tpm.nTimes) (Nat.mod_lt _ wf.pos)
    have : tpm.getItem (t : Nat) = tpm.getItem ((t % tpm.nTimes : Nat) : Int) := by
      rw [SparseTPM.getItem_wf wf, SparseTPM.getItem_wf wf]
      congr 2
      push_cast
      rw [Int.emod_emod_of_dvd _ (dvd_refl _)]
    rw [this, m1, Except.ok.injEq] at hM
    subst hM
    refine m2 q ?_ hq
    obtain ⟨e, he, -, rfl⟩ := hq
    exact wf.bf _ (List.of_mem_zip (show (e.2.1, e.2.2) ∈ _ from (List.of_mem_zip (show (e.1, e.2) ∈ _ from he)).2)).1

namespace SparseDemo

/-- Activities 'active', 'HWH', 'HOH'; on week days the states are asleep, active, at work (label 7); from the state at work no transition is known in even slots. -/
def weekTpm : SparseTPM :=
  { times := [0, 0, 0, 1, 1, 1, 1], indsFrom := [0, 0, 1, 0, 1, 2, 2], indsTo := [0, 1, 2, 0, 1, 0, 1], values := [1/2, 1/2, 1, 1, 1, 3/4, 1/4], nStates := 3, nTimes := 2, dead := none, iterCount := 0 }

/-- Week-ends: asleep or active. -/
def endTpm : SparseTPM := { times := [0, 0], indsFrom := [0, 1], indsTo := [1, 0], values := [1, 1], nStates := 2, nTimes := 1, dead := none, iterCount := 0 }

/-- The data of the classes of days. -/
def days : DayData := fun c => if c.weekday = .list [6, 7] then (endTpm, [0, 1]) else (weekTpm, [0, 1, 7])

/-- The activities. -/
def acts : List Str := ["active".toList, "HWH".toList, "HOH".toList]

/-- The loader, the same for all subgroups. -/
def load : SparseLoad := fun _ c =>
  match c with
  | none => .ok (weekTpm, [0, 1, 7], acts, [1/4, 1/4, 1/2])
  | some c => .ok ((days c).1, (days c).2, acts, [])

/-- Households of one and of two residents. -/
def one : Subgroup := [(kNResidents, .int 1)]

/-- Households of unknown size. -/
def unknown : Subgroup := []

theorem week_valid : ValidDay weekTpm [0, 1, 7] := by
  refine validDay_of_check _ _ ⟨rfl, rfl, rfl, by decide, by decide, by decide⟩ (by decide +kernel) rfl (by decide) ⟨0, rfl, by decide⟩ ?_ ?_
  · unfold SparseTPM.Leaves
    decide +kernel
  · intro t ht
    refine ⟨_, SparseTPM.getItem_wf ⟨rfl, rfl, rfl, by decide, by decide, by decide⟩ t, ?_⟩
    have : t = 0 ∨ t = 1 := by
      have : t < 2 := ht
      omega
    rcases this with rfl | rfl
    all_goals
      unfold SparseTPM.Leaves IsDist
      decide +kernel

theorem end_valid : ValidDay endTpm [0, 1] := by
  refine validDay_of_check _ _ ⟨rfl, rfl, rfl, by decide, by decide, by decide⟩ (by decide +kernel) rfl (by decide) ⟨0, rfl, by decide⟩ ?_ ?_
  · unfold SparseTPM.Leaves
    decide +kernel
  · intro t ht
    refine ⟨_, SparseTPM.getItem_wf ⟨rfl, rfl, rfl, by decide, by decide, by decide⟩ t, ?_⟩
    have : t = 0 := by
      have : t < 1 := ht
      omega
    subst this
    unfold SparseTPM.Leaves IsDist
    decide +kernel

theorem data_ok (g : Subgroup) (split : DaySplit) (quarters : Bool) : SparseData load g [0, 1, 7] acts [1/4, 1/4, 1/2] split quarters days := by
  refine ⟨⟨weekTpm, rfl, rfl⟩, ⟨⟨by decide +kernel, by decide +kernel⟩, rfl⟩, fun t => ⟨_, rfl⟩, fun t => ?_, by decide +kernel, by decide +kernel, by decide +kernel, by decide +kernel⟩
  unfold days
  split
  · exact end_valid
  · exact week_valid

/-- The arguments: start on Friday 5 January of year 1, at 03:40 (slot 142). -/
def args : SparseArgs := { aware := false, start := some (4 * 86400000000 + 3 * 3600000000 + 40 * 60000000), quarters := false, sevenDays := false, weekEnds := true }

/-- The simulator of two subgroups with households and one without. -/
def made : Except PyErr SparseMulti := SparseMulti.create load 1000 [one, one, unknown] [2, 0, 1] args [1/8, 7/8, 3/8] (fun j => if j % 2 = 0 then [1/2, 3/4, 1/8] else [7/8, 1/2, 1/3])

end SparseDemo

open SparseDemo in
/-- **C117 (counterexample).** A draw of exactly 0: with the data of week-ends, the household that is active, and must fall asleep, stays active beside a household that is asleep. -/
theorem C117_zero_draw_counterexample : ¬ C117_full := by
  intro h
  obtain ⟨old, out, h1, h2⟩ := h endTpm [0, 1] end_valid [0, 1] (by decide) [1/2, 0] ⟨rfl, by decide +kernel⟩ 0 _ (SparseTPM.getItem_wf end_valid.wf _) (fun _ _ => .inr ⟨(0, 0, 1, 1), by decide, rfl, rfl⟩)
  have e : ({ endTpm with dead := some 0 } : SparseTPM).sparseMC 1000 ((0 : Nat) : Int) [0, 1] [1/2, 0] = .ok ([0, 1], [1, 1]) := by decide +kernel
  rw [e, Except.ok.injEq, Prod.mk.injEq] at h1
  obtain ⟨-, rfl⟩ := h1
  have := h2 1 1 1 rfl rfl ⟨(0, 1, 0, 1), by decide, rfl, rfl⟩
  revert this
  decide +kernel

open SparseDemo in
example : ∃ m0, made = .ok m0 ∧ ∀ uss, (∀ us ∈ uss, PosDraws 3 us) → ∃ m occ act gains, SparseMulti.run load 1000 m0 uss = .ok m ∧ m.occupancy = .ok occ ∧ m.activeOccupancy = .ok act ∧ m.thermalGains = .ok gains ∧
    occ.length = 3 ∧ act.length = 3 ∧ gains.length = 3 := by
  obtain ⟨m0, h1, h2⟩ := C117_run_partial load [one, one, unknown] [2, 0, 1] rfl (by decide) args _ rfl 1000 (by decide) (fun _ => [0, 1, 7]) (fun _ => acts) (fun _ => [1/4, 1/4, 1/2]) (fun _ => days)
    (fun g => if g = [] then 7 else 1) (by
      intro k g c hg _ _
      refine ⟨data_ok g _ _, ?_⟩
      have : g ∈ [one, one, unknown] := List.mem_of_getElem? hg
      simp only [List.mem_cons, List.not_mem_nil, or_false] at this
      rcases this with rfl | rfl | rfl
      · exact .inl rfl
      · exact .inl rfl
      · exact .inr ⟨rfl, rfl⟩) [1/8, 7/8, 3/8] ⟨rfl, by decide +kernel⟩ (fun j => if j % 2 = 0 then [1/2, 3/4, 1/8] else [7/8, 1/2, 1/3])
    (fun k => by
      split
      · exact ⟨rfl, by decide +kernel⟩
      · exact ⟨rfl, by decide +kernel⟩) 142 (by decide)
  refine ⟨m0, h1, fun uss hu => ?_⟩
  obtain ⟨m, occ, act, gains, g1, g2, g3, g4, -, g5, g6, g7, -⟩ := h2 uss hu
  exact ⟨m, occ, act, gains, g1, g2, g3, g4, g5, g6, g7⟩

/-- Two steps before the data of the week-end are loaded and two steps with them. -/
example : (SparseDemo.made.bind fun m => SparseMulti.run SparseDemo.load 1000 m [[1/4, 1/4, 1/4], [1/2, 1/2, 7/8], [1/4, 1/4, 1/4], [1/2, 1/2, 7/8]]).bind (fun m => m.occupancy) = .ok [1, 1, 7] := by
  decide +kernel

end Demod
