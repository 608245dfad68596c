import Verif.Spec.LoadSparse
import Verif.Lemmas.LoadHeat
import Verif.Props.SparseAct

/-! # Lemmas about the load simulator with transit-states activities -/

namespace Demod

variable {C H Opt : Type}

theorem LoadAct.run_sparse (D : LoadData C H Opt) (uss : List (List Rat)) : ∀ m : SparseMulti, (LoadAct.sparse m).run D uss = (SparseMulti.run D.sparse D.fuel m uss).map .sparse := by
  induction uss with
  | nil => intro s; rfl
  | cons us uss ih =>
    intro m
    simp only [LoadAct.run, LoadAct.step, SparseMulti.run, bind, Except.bind]
    cases SparseMulti.step D.sparse D.fuel m us with
    | error e => rfl
    | ok s' => exact ih s'

/-- The labels of a course are those of a class of days. -/
theorem course_mem (D : DayData) (labels0 : List Nat) (pdf : List Rat) (split : DaySplit) (quarters : Bool) (start : Int) (u0 : Rat) (us : List Rat) (t : Nat → Nat) (h : SparseCourse D labels0 pdf split quarters start u0 us t) (j : Nat) (hj : j ≤ us.length) :
    ∃ t', t j ∈ (D (dayOf split quarters t')).2 := by
  cases j with
  | zero =>
    obtain ⟨⟨i, l, -, -, h1, h2⟩, -⟩ := h
    refine ⟨start, ?_⟩
    by_cases hl : l ∈ (D (dayOf split quarters start)).2
    · rw [h1 hl]; exact hl
    · obtain ⟨l0, -, h3⟩ := h2 hl
      exact List.mem_of_getElem? h3
  | succ j =>
    obtain ⟨m, -, -, M, q, p, i, -, -, -, -, h5, -⟩ := h.2 j us[j] (List.getElem?_eq_getElem (by omega))
    exact ⟨_, List.mem_of_getElem? h5⟩

theorem course_prefix (D : DayData) (labels0 : List Nat) (pdf : List Rat) (split : DaySplit) (quarters : Bool) (start : Int) (u0 : Rat) (us us' : List Rat) (hp : us' <+: us) (t : Nat → Nat) (h : SparseCourse D labels0 pdf split quarters start u0 us t) :
    SparseCourse D labels0 pdf split quarters start u0 us' t := by
  refine ⟨h.1, fun j u hj => h.2 j u ?_⟩
  obtain ⟨x, rfl⟩ := hp
  rw [List.getElem?_append_left (List.getElem?_eq_some_iff.1 hj).1]
  exact hj

theorem doing_exists (acts : List Str) (a : Str) (h : a ∈ acts) (l : Nat) : ∃ c, DoingCount acts a l c := by
  obtain ⟨k, hk⟩ := List.mem_iff_getElem?.1 h
  exact ⟨_, k, hk, rfl⟩

theorem mapM_natOf (l : List Int) (h : ∀ x ∈ l, 0 ≤ x) : l.mapM LoadAct.natOf = .ok (l.map Int.toNat) := by
  induction l with
  | nil => rfl
  | cons x l ih =>
    rw [List.mapM_cons, ih fun y hy => h y (List.mem_cons_of_mem _ hy)]
    have : LoadAct.natOf x = .ok x.toNat := if_neg (not_lt.2 (h x List.mem_cons_self))
    rw [this]
    rfl

theorem inSubgroup_pos (counts : List Nat) (h k : Nat) (hin : InSubgroup counts h k) (hk : k < counts.length) : 0 < counts[k] := by
  obtain ⟨i1, i2⟩ := hin
  rw [List.take_succ_eq_append_getElem hk, List.sum_append] at i2
  simp at i2
  omega

namespace LoadSim

/-- What `C117` says of the activity simulator at any time. -/
theorem sparse_spec (D : LoadData C H Opt) (n : Nat) (counts : List Nat) (start : Int) (args : LoadArgs C) (labels0 : Subgroup → List Nat) (acts : Subgroup → List Str) (pdf : Subgroup → List Rat) (days : Subgroup → DayData) (r : Subgroup → Int)
    (hs : LoadSparse D n counts start args labels0 acts pdf days r) (n0 : Nat) (hn0 : (n0 : Int) = (start - 4 * 3600000000) % 86400000000 / 600000000) :
    ∃ a0, LoadAct.create D counts start args.activity args.activityInit = .ok a0 ∧ ∀ uss : List (List Rat), (∀ us ∈ uss, PosDraws n us) →
      ∃ a act gains, a0.run D uss = .ok a ∧ a.activeOccupancy = .ok act ∧ a.thermalGains = .ok gains ∧ act.length = n ∧ gains.length = n ∧ (∀ x ∈ act, x ≤ 6) ∧
        (∀ h < n, ∃ k, InSubgroup counts h k ∧ k < D.groups.length) ∧
        ∀ (h k : Nat) g, InSubgroup counts h k → D.groups[k]? = some g → a.residents[h]? = some (r g) ∧
          ∃ t, SparseCourse (days g) (labels0 g) (pdf g) .weekEnds false start (args.activity.getD h 0) (((List.range n0).map args.activityInit ++ uss).map fun us => us.getD h 0) t ∧
            ∀ w o c, DoingCount (acts g) "HWH".toList (t (n0 + uss.length)) w → DoingCount (acts g) "HOH".toList (t (n0 + uss.length)) o → DoingCount (acts g) "active".toList (t (n0 + uss.length)) c →
              (∃ x : Nat, act[h]? = some x ∧ (x : Int) = min (r g - w - o) c) ∧ gains[h]? = some (84 * (r g - w - o - min (r g - w - o) c) + 147 * min (r g - w - o) c) := by
  have hsum := C12_counts_sum n D.pdf .realPopulation counts (fun _ h => by cases h) hs.population
  obtain ⟨m0, c1, c2⟩ := C117_run_partial D.sparse D.groups counts hs.groups (by rw [hsum]; exact hs.inhabited) { aware := false, start := some start, quarters := false, sevenDays := false, weekEnds := true } start rfl D.fuel hs.fuel labels0 acts pdf days r
    hs.data args.activity (by rw [hsum]; exact hs.activity) args.activityInit (by rw [hsum]; exact hs.activityInit) n0 hn0
  refine ⟨.sparse m0, by unfold LoadAct.create; rw [c1], fun uss hu => ?_⟩
  obtain ⟨m, occ, act, gains, r1, -, r3, r4, -, -, r7, r8, r9, r10⟩ := c2 uss (by rw [hsum]; exact hu)
  have hent : ∀ (h k : Nat) g, InSubgroup counts h k → D.groups[k]? = some g → ∃ w o c : Nat, c ≤ 6 ∧ (w : Int) + o ≤ r g ∧ act[h]? = some (min (r g - w - o) c) := by
    intro h k g hin hg
    obtain ⟨-, t, t1, t2, -⟩ := r10 h k g hin hg
    have hkc : k < counts.length := by rw [hs.groups]; exact (List.getElem?_eq_some_iff.1 hg).1
    have hpos := inSubgroup_pos counts h k hin hkc
    obtain ⟨hD, -⟩ := hs.data k g _ hg (List.getElem?_eq_getElem hkc) hpos
    obtain ⟨t', ht'⟩ := course_mem _ _ _ _ _ _ _ _ _ t1 (n0 + uss.length) (by simp)
    obtain ⟨w, hw⟩ := doing_exists _ _ hD.acts.2.2.1 (t (n0 + uss.length))
    obtain ⟨o, ho⟩ := doing_exists _ _ hD.acts.2.2.2 (t (n0 + uss.length))
    obtain ⟨c, hc⟩ := doing_exists _ _ hD.acts.2.1 (t (n0 + uss.length))
    refine ⟨w, o, c, ?_, hs.home k g _ hg (List.getElem?_eq_getElem hkc) hpos t' _ w o ht' hw ho, (t2 w o c hw ho hc).2.1⟩
    obtain ⟨kc, -, rfl⟩ := hc
    have := Nat.mod_lt (t (n0 + uss.length) / 7 ^ kc) (by norm_num : 0 < 7)
    omega
  have hnn : ∀ x ∈ act, 0 ≤ x ∧ x ≤ 6 := by
    intro x hx
    obtain ⟨h, hh⟩ := List.mem_iff_getElem?.1 hx
    obtain ⟨k, q1, q2⟩ := r9 h (by rw [← r7]; exact (List.getElem?_eq_some_iff.1 hh).1)
    obtain ⟨w, o, c, h1, h2, h3⟩ := hent h k _ q1 (List.getElem?_eq_getElem q2)
    rw [hh, Option.some.injEq] at h3
    omega
  refine ⟨.sparse m, act.map Int.toNat, gains, ?_, ?_, r4, by rw [List.length_map, r7, hsum], by rw [r8, hsum], ?_, by rw [← hsum]; exact r9, ?_⟩
  · rw [LoadAct.run_sparse, r1]
    rfl
  · simp only [LoadAct.activeOccupancy, r3, bind, Except.bind]
    exact mapM_natOf act fun x hx => (hnn x hx).1
  · intro x hx
    obtain ⟨y, hy, rfl⟩ := List.mem_map.1 hx
    have := hnn y hy
    omega
  · intro h k g hin hg
    obtain ⟨t0, t, t1, t2, -⟩ := r10 h k g hin hg
    refine ⟨t0, t, t1, fun w o c hw ho hc => ?_⟩
    obtain ⟨-, u1, u2⟩ := t2 w o c hw ho hc
    refine ⟨⟨(min (r g - w - o) (c : Int)).toNat, by rw [List.getElem?_map, u1]; rfl, ?_⟩, u2⟩
    have := (hnn _ (List.mem_of_getElem? u1)).1
    omega

theorem sparse_acts (D : LoadData C H Opt) (n : Nat) (counts : List Nat) (start : Int) (args : LoadArgs C) (labels0 : Subgroup → List Nat) (acts : Subgroup → List Str) (pdf : Subgroup → List Rat) (days : Subgroup → DayData) (r : Subgroup → Int)
    (hs : LoadSparse D n counts start args labels0 acts pdf days r) (n0 : Nat) (hn0 : (n0 : Int) = (start - 4 * 3600000000) % 86400000000 / 600000000) :
    ∃ a0, LoadAct.create D counts start args.activity args.activityInit = .ok a0 ∧ Acts D n (PosDraws n) a0 := by
  obtain ⟨a0, h0, h1⟩ := sparse_spec D n counts start args labels0 acts pdf days r hs n0 hn0
  refine ⟨a0, h0, fun uss hu => ?_⟩
  obtain ⟨a, act, gains, r1, r2, r3, r4, r5, r6, -⟩ := h1 uss hu
  exact ⟨a, act, gains, r1, r2, r3, r4, r5, r6⟩

end LoadSim

end Demod
