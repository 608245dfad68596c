import Verif.Spec.LoadSim
import Verif.Props.CrestSim
import Verif.Props.OccSim
import Verif.Props.LightSim

/-! # Lemmas about the whole load simulator -/

namespace Demod

variable {C H Opt : Type}

theorem everyTen_snoc {α : Type} (l : List α) (x : α) : everyTen (l ++ [x]) = everyTen l ++ if l.length % 10 = 0 then [x] else [] := by
  unfold everyTen
  rw [List.zipIdx_append, List.filter_append, List.map_append]
  congr 1
  by_cases h : l.length % 10 = 0
  · simp [h]
  · simp [h]

theorem everyTen_length {α : Type} (l : List α) : (everyTen l).length = (l.length + 9) / 10 := by
  induction l using List.reverseRecOn with
  | nil => simp [everyTen]
  | append_singleton l x ih =>
    rw [everyTen_snoc, List.length_append, ih, List.length_append, List.length_singleton]
    split
    · rw [List.length_singleton]; omega
    · rw [List.length_nil]; omega

theorem everyTen_prefix {α : Type} (l : List α) (k : Nat) : everyTen (l.take k) <+: everyTen l := by
  induction l using List.reverseRecOn with
  | nil => simp
  | append_singleton l x ih =>
    by_cases hk : k ≤ l.length
    · rw [List.take_append_of_le_length hk, everyTen_snoc]
      exact ih.trans (List.prefix_append _ _)
    · rw [List.take_of_length_le (by rw [List.length_append, List.length_singleton]; omega)]

theorem everyTen_mem {α : Type} (l : List α) (x : α) (h : x ∈ everyTen l) : x ∈ l := by
  unfold everyTen at h
  obtain ⟨q, hq, rfl⟩ := List.mem_map.1 h
  exact List.fst_mem_of_mem_zipIdx (List.mem_filter.1 hq).1

theorem everyTen_map {α β : Type} (f : α → β) (l : List α) : everyTen (l.map f) = (everyTen l).map f := by
  induction l using List.reverseRecOn with
  | nil => rfl
  | append_singleton l x ih =>
    rw [List.map_append, List.map_singleton, everyTen_snoc, everyTen_snoc, ih, List.length_map, List.map_append]
    split <;> rfl

/-! ## Runs of the parts -/

theorem CrestSim.run_snoc (B : CrestBook) (refresh : Int) (l : List (List Rat)) (u : List Rat) : ∀ s : CrestSim, s.run (crestLoadTpm B) refresh (l ++ [u]) = (s.run (crestLoadTpm B) refresh l).bind fun s' => s'.step (crestLoadTpm B) refresh u := by
  induction l with
  | nil =>
    intro s
    simp only [List.nil_append, CrestSim.run, bind, Except.bind]
    cases s.step (crestLoadTpm B) refresh u <;> rfl
  | cons a l ih =>
    intro s
    simp only [List.cons_append, CrestSim.run, bind, Except.bind]
    cases s.step (crestLoadTpm B) refresh a with
    | error e => rfl
    | ok s' =>
      simp only
      rw [ih]
      rfl

theorem LoadAct.run_snoc (D : LoadData C H Opt) (l : List (List Rat)) (u : List Rat) : ∀ s : LoadAct, s.run D (l ++ [u]) = (s.run D l).bind fun s' => s'.step D u := by
  induction l with
  | nil =>
    intro s
    simp only [List.nil_append, LoadAct.run, bind, Except.bind]
    cases s.step D u <;> rfl
  | cons a l ih =>
    intro s
    simp only [List.cons_append, LoadAct.run, bind, Except.bind]
    cases s.step D a with
    | error e => rfl
    | ok s' =>
      simp only
      rw [ih]
      rfl

theorem LoadAct.run_crest (D : LoadData C H Opt) (uss : List (List Rat)) : ∀ s : CrestSim, (LoadAct.crest s).run D uss = (s.run (crestLoadTpm D.book) D.refresh uss).map .crest := by
  induction uss with
  | nil => intro s; rfl
  | cons us uss ih =>
    intro s
    simp only [LoadAct.run, LoadAct.step, CrestSim.run, bind, Except.bind]
    cases s.step (crestLoadTpm D.book) D.refresh us with
    | error e => rfl
    | ok s' => exact ih s'

/-- Sparse matrices that are not implemented for any subgroup. -/
theorem SparseMulti.noSparse (L : SparseLoad) (fuel : Nat) (a : SparseArgs) (l : List (Subgroup × Nat)) (hL : ∀ q ∈ l, L q.1 none = .error .notImplementedError) (hr : ∀ q ∈ l, ∃ r : Nat, q.1.at kNResidents = some (.int r)) (hn : 0 < (l.map fun q => q.2).sum) :
    ∀ us e, createSubs L fuel a l us e = .error .notImplementedError := by
  induction l with
  | nil => simp at hn
  | cons q l ih =>
    intro us e
    obtain ⟨g, n⟩ := q
    unfold createSubs
    by_cases h0 : 0 < n
    · rw [if_pos h0]
      obtain ⟨r, hr⟩ := hr _ (List.mem_cons_self)
      have : sparseResidents g = .ok r := by
        unfold sparseResidents
        have : lookupA g kNResidents = some (.int r) := hr
        rw [this]
      have h1 := hL _ (List.mem_cons_self)
      simp only at h1
      simp only [SparseSim.create, this, h1, bind, Except.bind]
    · rw [if_neg h0]
      refine ih (fun q hq => hL q (List.mem_cons_of_mem _ hq)) (fun q hq => hr q (List.mem_cons_of_mem _ hq)) ?_ us e
      simp only [List.map_cons, List.sum_cons] at hn
      omega

theorem OccSim.run_snoc (profiles : Subgroup → List (Str × List (List Rat))) (refresh : Int) (l : List (List Nat × OccDraws)) (i : List Nat × OccDraws) :
    ∀ s : OccSim, OccSim.run profiles refresh s (l ++ [i]) = (OccSim.run profiles refresh s l).bind fun s' => s'.step profiles refresh i.1 i.2 := by
  induction l with
  | nil =>
    intro s
    simp only [List.nil_append, OccSim.run, bind, Except.bind]
    cases s.step profiles refresh i.1 i.2 <;> rfl
  | cons a l ih =>
    intro s
    simp only [List.cons_append, OccSim.run, bind, Except.bind]
    cases s.step profiles refresh a.1 a.2 with
    | error e => rfl
    | ok s' =>
      simp only
      rw [ih]
      rfl

theorem LightSim.run_snoc (l : List (List Nat × Rat × LightDraws)) (i : List Nat × Rat × LightDraws) :
    ∀ s : LightSim, LightSim.run s (l ++ [i]) = (LightSim.run s l).bind fun q => (q.1.step i.1 i.2.1 i.2.2).bind fun r => .ok (r.1, q.2 ++ [r.2]) := by
  induction l with
  | nil =>
    intro s
    simp only [List.nil_append, LightSim.run, bind, Except.bind]
  | cons a l ih =>
    intro s
    simp only [List.cons_append, LightSim.run, bind, Except.bind]
    cases s.step a.1 a.2.1 a.2.2 with
    | error e => rfl
    | ok r =>
      simp only
      rw [ih]
      simp only [Except.bind]
      cases LightSim.run r.1 l with
      | error e => rfl
      | ok q =>
        simp only
        cases q.1.step i.1 i.2.1 i.2.2 <;> rfl

theorem LoadSim.run_snoc (D : LoadData C H Opt) (l : List (LoadStepIn Opt)) (i : LoadStepIn Opt) : ∀ s : LoadSim C H, LoadSim.run D s (l ++ [i]) = (LoadSim.run D s l).bind fun s' => s'.step D i := by
  induction l with
  | nil =>
    intro s
    simp only [List.nil_append, LoadSim.run, bind, Except.bind]
    cases s.step D i <;> rfl
  | cons a l ih =>
    intro s
    simp only [List.cons_append, LoadSim.run, bind, Except.bind]
    cases s.step D a with
    | error e => rfl
    | ok s' =>
      simp only
      rw [ih]
      rfl

/-! ## The course of a household is determined by the draws -/

theorem Sampled.unique (p : List Rat) (hp : ∀ x ∈ p, 0 ≤ x) (u : Rat) (i j : Nat) (hi : Sampled p u i) (hj : Sampled p u j) : i = j := by
  have key : ∀ i j, Sampled p u i → Sampled p u j → ¬ i < j := by
    intro i j hi hj hlt
    have hil : i < p.length := hi.1
    have h1 : (p.take (i + 1)).sum = (p.take i).sum + p.getD i 0 := by
      rw [List.take_add_one, List.sum_append, List.getD_eq_getElem?_getD, List.getElem?_eq_getElem hil]
      simp
    have h2 : (p.take (i + 1)).sum ≤ (p.take j).sum := by
      have : p.take j = p.take (i + 1) ++ (p.drop (i + 1)).take (j - (i + 1)) := by
        rw [← List.take_add]
        congr 1
        omega
      rw [this, List.sum_append]
      have : 0 ≤ ((p.drop (i + 1)).take (j - (i + 1))).sum := List.sum_nonneg fun x hx => hp x (List.mem_of_mem_drop (List.mem_of_mem_take hx))
      linarith
    have h3 := hi.2.2
    have h4 := hj.2.1
    linarith
  rcases lt_trichotomy i j with h | h | h
  · exact absurd h (key i j hi hj)
  · exact h
  · exact absurd h (key j i hj hi)

theorem startDist_nonneg (col : List Rat) (n : Nat) (h : ∀ x ∈ col, 0 ≤ x) : ∀ x ∈ startDist col n, 0 ≤ x := by
  intro x hx
  unfold startDist at hx
  obtain ⟨m, -, hm⟩ := List.mem_flatMap.1 hx
  obtain ⟨k, -, rfl⟩ := List.mem_map.1 hm
  rw [List.getD_eq_getElem?_getD]
  cases hc : col[7 * m + k]? with
  | none => simp
  | some v => exact h v (List.mem_of_getElem? hc)

theorem sheetDist_nonneg (sheet : List (List Rat)) (N t i : Nat) (h : ∀ row ∈ sheet, ∀ x ∈ row.take N, 0 ≤ x) : ∀ x ∈ sheetDist sheet N t i, 0 ≤ x := by
  have hr : ∀ x ∈ sheetRow sheet N t i, 0 ≤ x := by
    intro x hx
    unfold sheetRow at hx
    rw [List.getD_eq_getElem?_getD] at hx
    cases hc : sheet[t * N + i]? with
    | none => rw [hc] at hx; simp at hx
    | some v => rw [hc] at hx; exact h v (List.mem_of_getElem? hc) x hx
  intro x hx
  unfold sheetDist at hx
  split at hx
  · obtain ⟨j, -, rfl⟩ := List.mem_map.1 hx
    split <;> norm_num
  · obtain ⟨y, hy, rfl⟩ := List.mem_map.1 hx
    exact div_nonneg (hr y hy) (List.sum_nonneg hr)

theorem course_unique (B : CrestBook) (r : Nat) (hB : BookHas B r) (T : Int) (u0 : Rat) (us us' : List Rat) (hp : us' <+: us) (slot : Nat → Nat) (weekend : Nat → Bool) (traj traj' : Nat → Nat)
    (h : CrestCourse B r T u0 us slot weekend traj) (h' : CrestCourse B r T u0 us' slot weekend traj') : ∀ j ≤ us'.length, traj' j = traj j := by
  intro j
  induction j with
  | zero =>
    intro _
    obtain ⟨-, -, -, col, c1, -, c2, -⟩ := hB (decide (OnWeekend T))
    refine Sampled.unique _ (startDist_nonneg _ r ?_) u0 _ _ h'.1 h.1
    unfold startCol
    rw [c1]
    exact c2
  | succ j ih =>
    intro hj
    have e := ih (by omega)
    have q' := h'.2 j us'[j] (List.getElem?_eq_getElem (by omega))
    have q := h.2 j us'[j] (by obtain ⟨t, rfl⟩ := hp; rw [List.getElem?_append_left (by omega)]; exact List.getElem?_eq_getElem (by omega))
    rw [e] at q'
    exact Sampled.unique _ (sheetDist_nonneg _ _ _ _ fun row hr => ((hB (weekend j)).1.2.1 row hr).2) _ _ _ q' q

/-! ## The simulation -/

namespace LoadSim

/-- An activity simulator that, with the draws `okD`, can step forever and has up to six active persons in each of `n` households. -/
def Acts (D : LoadData C H Opt) (n : Nat) (okD : List Rat → Prop) (a0 : LoadAct) : Prop :=
  ∀ uss : List (List Rat), (∀ us ∈ uss, okD us) → ∃ a act gains, a0.run D uss = .ok a ∧ a.activeOccupancy = .ok act ∧ a.thermalGains = .ok gains ∧ act.length = n ∧ gains.length = n ∧ ∀ x ∈ act, x ≤ 6

/-- The activity simulator of the constructor is a four-states one. -/
theorem crest_create (D : LoadData C H Opt) (n : Nat) (counts : List Nat) (start : Int) (args : LoadArgs C) (hs : LoadBase D n counts start args) :
    ∃ a0, CrestSim.create (crestLoadTpm D.book) D.groups D.pdf 0 n .realPopulation false start args.activity args.activityInit = .ok a0 ∧ LoadAct.create D counts start args.activity args.activityInit = .ok (.crest a0) := by
  have h10 := hs.start10
  have hsum := C12_counts_sum n D.pdf .realPopulation counts (fun _ h => by cases h) hs.population
  obtain ⟨s0, c1, -⟩ := C113_run_partial D.book D.groups D.pdf n hs.inhabited .realPopulation (fun _ h => by cases h) counts hs.population hs.groups hs.residents start hs.start10 args.activity hs.activity args.activityInit hs.activityInit
    (start - start % 86400000000) rfl (start % 86400000000 / 600000000).toNat (by omega)
  refine ⟨s0, c1, ?_⟩
  unfold LoadAct.create SparseMulti.create
  rw [SparseMulti.noSparse]
  · simp only [bind, Except.bind]
    rw [hs.same.1, hs.same.2, hs.refresh, hsum, c1]
    rfl
  · intro q hq
    exact hs.noSparse _ (List.of_mem_zip hq).1
  · intro q hq
    obtain ⟨r, hr, -⟩ := hs.residents _ (List.of_mem_zip hq).1
    exact ⟨r, hr⟩
  · have hg := hs.groups
    have hi := hs.inhabited
    rw [List.map_snd_zip (by omega), hsum]
    exact hi

/-- What `C113` says of the activity simulator at any time. -/
theorem active_spec (D : LoadData C H Opt) (n : Nat) (counts : List Nat) (start : Int) (args : LoadArgs C) (hs : LoadBase D n counts start args) (a0 : LoadAct)
    (h0 : LoadAct.create D counts start args.activity args.activityInit = .ok a0) (uss : List (List Rat)) (hu : ∀ us ∈ uss, Draws n us) :
    ∃ a act gains, a0.run D uss = .ok a ∧ a.activeOccupancy = .ok act ∧ a.thermalGains = .ok gains ∧ act.length = n ∧ gains.length = n ∧ (∀ x ∈ act, x ≤ 6) ∧
      ∀ (h k : Nat) g (r : Nat), InSubgroup counts h k → D.groups[k]? = some g → g.at kNResidents = some (.int r) → a.residents[h]? = some (r : Int) ∧
        ∃ traj, CrestCourse D.book r (start - start % 86400000000) (args.activity.getD h 0) (((List.range (start % 86400000000 / 600000000).toNat).map args.activityInit ++ uss).map fun us => us.getD h 0)
            (crestSlot (start - start % 86400000000)) (crestWeekend (start - start % 86400000000)) traj ∧
          ∃ m k, IsState r (traj ((start % 86400000000 / 600000000).toNat + uss.length)) m k ∧ act[h]? = some (min m k) ∧ gains[h]? = some (84 * max ((m : Int) - k) 0 + 147 * (min m k : Nat)) := by
  have h10 := hs.start10
  obtain ⟨s0, c1, c2⟩ := C113_run_partial D.book D.groups D.pdf n hs.inhabited .realPopulation (fun _ h => by cases h) counts hs.population hs.groups hs.residents start hs.start10 args.activity hs.activity args.activityInit hs.activityInit
    (start - start % 86400000000) rfl (start % 86400000000 / 600000000).toNat (by omega)
  obtain ⟨b0, b1, b2⟩ := crest_create D n counts start args hs
  rw [h0] at b2
  obtain rfl := Except.ok.inj b2
  rw [b1] at c1
  obtain rfl := Except.ok.inj c1
  obtain ⟨a, labels, occ, act, gains, r1, -, -, -, r4, r5, -, -, -, r6, r7, r8, r9⟩ := c2 uss hu
  refine ⟨.crest a, act, gains, ?_, r4, r5, r6, r7, ?_, ?_⟩
  · rw [LoadAct.run_crest, hs.refresh, r1]
    rfl
  · intro x hx
    obtain ⟨h, hh⟩ := List.mem_iff_getElem?.1 hx
    obtain ⟨k, q1, q2⟩ := r8 h (by rw [← r6]; exact (List.getElem?_eq_some_iff.1 hh).1)
    obtain ⟨r, g1, g2, g3, -⟩ := hs.residents D.groups[k] (List.getElem_mem q2)
    obtain ⟨-, traj, -, m, a', st, -, -, z, -⟩ := r9 h k _ r q1 (List.getElem?_eq_getElem q2) g1
    rw [hh, Option.some.injEq] at z
    have := st.1
    omega
  · intro h k g r z1 z2 z3
    obtain ⟨y1, traj, y2, m, a', st, -, -, y3, y4⟩ := r9 h k g r z1 z2 z3
    refine ⟨?_, traj, y2, m, a', st, y3, y4⟩
    unfold LoadAct.residents
    rw [List.getElem?_map, y1]
    rfl

theorem crest_acts (D : LoadData C H Opt) (n : Nat) (counts : List Nat) (start : Int) (args : LoadArgs C) (hs : LoadBase D n counts start args) :
    ∃ a0, LoadAct.create D counts start args.activity args.activityInit = .ok a0 ∧ Acts D n (Draws n) a0 := by
  obtain ⟨b0, -, b2⟩ := crest_create D n counts start args hs
  refine ⟨_, b2, fun uss hu => ?_⟩
  obtain ⟨a, act, gains, r1, r2, r3, r4, r5, r6, -⟩ := active_spec D n counts start args hs _ b2 uss hu
  exact ⟨a, act, gains, r1, r2, r3, r4, r5, r6⟩

theorem setup_initial {D : LoadData C H Opt} {n : Nat} {counts : List Nat} {start : Int} {args : LoadArgs C} (hs : LoadCore D n counts start args) (act : List Nat) (hl : act.length = n) (h6 : ∀ x ∈ act, x ≤ 6) :
    OccSetup D.apps D.profiles D.switchedOn D.full D.refresh D.dataStep D.groups counts none start { args.appliances with initial := some act } 6 := by
  have hsum := C12_counts_sum n D.pdf .realPopulation counts (fun _ h => by cases h) hs.population
  have q := hs.appliances
  exact ⟨q.refresh0, q.refresh1, q.refresh10, q.fullMinute, q.inhabited, q.enough, q.someApp, q.stepOk, q.complete, q.some', fun occ ho => by
    cases ho
    exact ⟨by rw [hl, hsum], h6⟩, q.usable, q.known, q.notEmpty⟩

theorem create_spec (D : LoadData C H Opt) (n : Nat) (counts : List Nat) (start : Int) (args : LoadArgs C) (good : H → Prop) (optOk : Opt → Prop) (hs : LoadCore D n counts start args) (hh : HeatOk D n good optOk) (okD : List Rat → Prop) (ha : ∃ a0, LoadAct.create D counts start args.activity args.activityInit = .ok a0 ∧ Acts D n okD a0) :
    ∃ s0 act, create D n start args = .ok s0 ∧ s0.minute = 0 ∧ s0.time = start ∧ s0.climate = args.climate ∧ (s0.heating.isSome = args.heating ∧ ∀ x, s0.heating = some x → D.heatingInit n ((args.climate.map D.outside).getD args.initialOutside) = .ok x ∧ good x) ∧
      LoadAct.create D counts start args.activity args.activityInit = .ok s0.activity ∧ Acts D n okD s0.activity ∧ s0.activity.activeOccupancy = .ok act ∧
      OccSim.create D.apps D.profiles D.switchedOn D.full D.refresh D.dataStep D.groups counts none start { args.appliances with initial := some act } args.appliancesInit = .ok s0.appliances ∧
      OccSetup D.apps D.profiles D.switchedOn D.full D.refresh D.dataStep D.groups counts none start { args.appliances with initial := some act } 6 ∧
      LightSim.create D.lights n "off" "randn" args.light = .ok s0.light := by
  have hsum := C12_counts_sum n D.pdf .realPopulation counts (fun _ h => by cases h) hs.population
  obtain ⟨a0, c1, c1'⟩ := ha
  obtain ⟨a, act, gains, r1, r2, -, r4, -, r6⟩ := c1' [] (by simp)
  cases r1
  have hset := setup_initial hs act r4 r6
  obtain ⟨o0, o1, -⟩ := C109_create _ _ _ _ _ _ _ _ _ _ _ args.appliancesInit _ hset
  obtain ⟨l0, w, l1, -⟩ := C112_create D.lights n "randn" args.light hs.inhabited hs.bulbs
  obtain ⟨x0, hx0, hg0⟩ := hh.heatingInit ((args.climate.map D.outside).getD args.initialOutside)
  have hx1 : initHeating D n ((args.climate.map D.outside).getD args.initialOutside) args.heating = .ok (if args.heating then some x0 else none) := by
    unfold initHeating
    rw [hx0]
    cases args.heating <;> rfl
  refine ⟨{ minute := 0, time := start, activity := a0, appliances := o0, light := l0, climate := args.climate, heating := if args.heating then some x0 else none }, act, ?_, rfl, rfl, rfl, ?_, c1, c1', r2, o1, hset, l1⟩
  · unfold create
    have hn := hs.inhabited
    rw [if_neg (by omega)]
    have o1' : OccSim.create D.apps D.profiles D.switchedOn D.full D.refresh D.dataStep D.groups counts none start { args.appliances with initial := some act } args.appliancesInit = .ok o0 := by
      exact o1
    dsimp only at o1'
    simp only [bind, Except.bind, hs.population, c1, r2, o1', l1]
    revert hx1
    cases args.climate with
    | none =>
      intro hx1
      simp only [Option.map_none, Option.getD_none] at hx1 ⊢
      rw [hx1]
    | some c =>
      intro hx1
      simp only [Option.map_some, Option.getD_some] at hx1 ⊢
      rw [hx1]
  · cases args.heating with
    | false => exact ⟨rfl, fun x hx => by cases hx⟩
    | true =>
      refine ⟨rfl, fun x hx => ?_⟩
      obtain rfl := Option.some.inj hx
      exact ⟨hx0, hg0⟩

/-- The irradiance used in a step. -/
theorem weather_some (D : LoadData C H Opt) (c : Option C) (i : LoadStepIn Opt) (n : Nat) (optOk : Opt → Prop) (hi : LoadInOk D n c.isSome optOk i) :
    ∃ out irr, external i.outside (c.map D.climateStep) D.outside = .ok out ∧ external i.irradiance (c.map D.climateStep) D.irradiance = .ok irr ∧
    ((c.map D.climateStep).isNone && (i.irradiance.isNone || i.outside.isNone)) = false ∧
    (i.irradiance = some irr ∨ i.irradiance = none ∧ ∃ x, c.map D.climateStep = some x ∧ irr = D.irradiance x) ∧ (i.outside = some out ∨ i.outside = none ∧ ∃ x, c.map D.climateStep = some x ∧ out = D.outside x) := by
  have hw := hi.weather
  cases c with
  | none =>
    simp only [Option.isSome_none, Bool.false_eq_true, false_or] at hw
    obtain ⟨h1, h2⟩ := hw
    obtain ⟨o, ho⟩ := Option.isSome_iff_exists.1 h1
    obtain ⟨r, hr⟩ := Option.isSome_iff_exists.1 h2
    rw [ho, hr]
    exact ⟨o, r, rfl, rfl, rfl, .inl rfl, .inl rfl⟩
  | some x =>
    cases ho : i.outside with
    | none =>
      cases hr : i.irradiance with
      | none => exact ⟨_, _, rfl, rfl, rfl, .inr ⟨rfl, _, rfl, rfl⟩, .inr ⟨rfl, _, rfl, rfl⟩⟩
      | some r => exact ⟨_, r, rfl, rfl, rfl, .inl rfl, .inr ⟨rfl, _, rfl, rfl⟩⟩
    | some o =>
      cases hr : i.irradiance with
      | none => exact ⟨o, _, rfl, rfl, rfl, .inr ⟨rfl, _, rfl, rfl⟩, .inl rfl⟩
      | some r => exact ⟨o, r, rfl, rfl, rfl, .inl rfl, .inl rfl⟩

/-- A step with its parts. -/
structure StepOf (D : LoadData C H Opt) (n : Nat) (i : LoadStepIn Opt) (s s' : LoadSim C H) (act : List Nat) (irr : Rat) : Prop where
  minute : s'.minute = s.minute + 1
  time : s'.time = s.time + 60000000
  climate : s'.climate = s.climate.map D.climateStep
  irradiance : i.irradiance = some irr ∨ i.irradiance = none ∧ ∃ x, s'.climate = some x ∧ irr = D.irradiance x
  active : s'.activity.activeOccupancy = .ok act
  activity : s'.activity = s.activity ∧ s.minute % 10 ≠ 0 ∨ s.activity.step D i.activity = .ok s'.activity ∧ s.minute % 10 = 0
  appliances : s.appliances.step D.profiles D.refresh act i.appliances = .ok s'.appliances
  light : ∃ p, s.light.step act irr i.light = .ok (s'.light, p)
  sizes : s'.appliances.dhwDemand.length = n ∧ s'.light.powerDemand.length = n ∧ ∀ app, s'.appliances.powerDemand = .ok app → app.length = n
  heating : (s.heating = none ∧ s'.heating = none) ∨ ∃ x x' out gains app, s.heating = some x ∧ s'.heating = some x' ∧ (i.outside = some out ∨ i.outside = none ∧ ∃ x, s'.climate = some x ∧ out = D.outside x) ∧
    s'.activity.thermalGains = .ok gains ∧ s'.appliances.powerDemand = .ok app ∧
    D.heatingStep x { outside := out, irradiance := irr, dhw := s'.appliances.dhwDemand, occupancy := gains.map fun x : Int => (x : Rat), light := s'.light.powerDemand, appliances := app, opt := i.opt } = .ok x'

/-- The steps with the parts. -/
theorem run_spec (D : LoadData C H Opt) (n : Nat) (counts : List Nat) (start : Int) (args : LoadArgs C) (good : H → Prop) (optOk : Opt → Prop) (hs : LoadCore D n counts start args) (hh : HeatOk D n good optOk) (okD : List Rat → Prop) (ha : ∃ a0, LoadAct.create D counts start args.activity args.activityInit = .ok a0 ∧ Acts D n okD a0) (s0 : LoadSim C H) (h0 : create D n start args = .ok s0)
    (ins : List (LoadStepIn Opt)) (hi : ∀ i ∈ ins, LoadInOk D n args.climate.isSome optOk i) (hd : ∀ i ∈ ins, okD i.activity) :
    ∃ (s : LoadSim C H) (occs : List (List Nat)) (irrs P : List Rat), run D s0 ins = .ok s ∧ s.minute = ins.length ∧ s.time = start + ins.length * 60000000 ∧ s.climate = args.climate.map (D.climateStep^[ins.length]) ∧ s.heating.isSome = args.heating ∧ occs.length = ins.length ∧ irrs.length = ins.length ∧
      s0.activity.run D (everyTen (ins.map fun i => i.activity)) = .ok s.activity ∧
      OccSim.OkInputs counts.sum 6 (occs.zip (ins.map fun i => i.appliances)) ∧ DrawsOk (occs.zip (ins.map fun i => i.appliances)) ∧
      OccSim.run D.profiles D.refresh s0.appliances (occs.zip (ins.map fun i => i.appliances)) = .ok s.appliances ∧
      (∀ q ∈ occs.zip (irrs.zip (ins.map fun i => i.light)), LightInputOk n D.lights.lighting q) ∧
      (∃ log, LightSim.run s0.light (occs.zip (irrs.zip (ins.map fun i => i.light))) = .ok (s.light, log)) ∧ s.appliances.powerDemand = .ok P ∧
      (∀ j o, occs[j]? = some o → ∃ a, s0.activity.run D (everyTen ((ins.take (j + 1)).map fun i => i.activity)) = .ok a ∧ a.activeOccupancy = .ok o) ∧
      (∀ j i, ins[j]? = some i → ∃ s s' o irr, run D s0 (ins.take j) = .ok s ∧ run D s0 (ins.take (j + 1)) = .ok s' ∧ occs[j]? = some o ∧ irrs[j]? = some irr ∧ StepOf D n i s s' o irr) ∧ (∀ x, s.heating = some x → good x) := by
  have hsum := C12_counts_sum n D.pdf .realPopulation counts (fun _ h => by cases h) hs.population
  obtain ⟨s0', act0, c0, c1, c2, c3, ⟨c4, c4'⟩, c5, c5', c6, c7, c8, c9⟩ := create_spec D n counts start args good optOk hs hh okD ha
  rw [h0] at c0
  obtain rfl := Except.ok.inj c0
  have hgetters := fun inputs hi hu => C109_getters _ _ _ _ _ _ _ _ _ _ _ _ _ c8 hs.loads s0.appliances c7 hs.appliancesInit inputs hi hu
  obtain ⟨lamp, own, own', -, -, hlight⟩ := C112_run_partial D.lights n "randn" args.light hs.inhabited hs.bulbs hs.lights s0.light c9
  induction ins using List.reverseRecOn with
  | nil =>
    obtain ⟨s, P, g1, g2, -⟩ := hgetters [] (by intro i h; simp at h) (by intro i h; simp at h)
    cases g1
    exact ⟨s0, [], [], P, rfl, c1, by simpa using c2, by rw [c3]; simp, c4, rfl, rfl, rfl, by intro i h; simp at h, by intro i h; simp at h, rfl, by intro i h; simp at h, ⟨[], rfl⟩, g2, by intro j o h; simp at h, (by intro j o h; simp at h), fun x hx => (c4' x hx).2⟩
  | append_singleton ins i ih =>
    obtain ⟨s, occs, irrs, P, e1, e2, e3, e4, e5, e6, e7, e8, e9, e10, e11, e12, ⟨log, e13⟩, e14, e15, e16, e17⟩ := ih (fun j hj => hi j (List.mem_append_left _ hj)) (fun j hj => hd j (List.mem_append_left _ hj))
    have hii := hi i (by simp)
    have hacts : everyTen ((ins ++ [i]).map fun i => i.activity) = everyTen (ins.map fun i => i.activity) ++ if ins.length % 10 = 0 then [i.activity] else [] := by
      rw [List.map_append, List.map_singleton, everyTen_snoc, List.length_map]
    have hdr : ∀ us ∈ everyTen ((ins ++ [i]).map fun i => i.activity), okD us := by
      intro us hus
      obtain ⟨q, hq, rfl⟩ := List.mem_map.1 (everyTen_mem _ _ hus)
      exact hd q hq
    obtain ⟨a, act, gains, r1, r2, r3, r4, r5, r6⟩ := c5' _ hdr
    have e4' : s.climate.isSome = args.climate.isSome := by rw [e4, Option.isSome_map]
    rw [← e4'] at hii
    obtain ⟨out, irr, w1, w2, w3, w4, w5⟩ := weather_some D s.climate i n optOk hii
    have hact : (a = s.activity ∧ s.minute % 10 ≠ 0 ∨ s.activity.step D i.activity = .ok a ∧ s.minute % 10 = 0) := by
      rw [hacts] at r1
      rw [e2]
      by_cases hm : ins.length % 10 = 0
      · rw [if_pos hm, LoadAct.run_snoc, e8] at r1
        exact .inr ⟨r1, hm⟩
      · rw [if_neg hm, List.append_nil, e8] at r1
        exact .inl ⟨(Except.ok.inj r1).symm, hm⟩
    have hz1 : (occs ++ [act]).zip ((ins ++ [i]).map fun i => i.appliances) = occs.zip (ins.map fun i => i.appliances) ++ [(act, i.appliances)] := by
      rw [List.map_append, List.zip_append (by simp [e6])]
      rfl
    have hz2 : (occs ++ [act]).zip ((irrs ++ [irr]).zip ((ins ++ [i]).map fun i => i.light)) = occs.zip (irrs.zip (ins.map fun i => i.light)) ++ [(act, irr, i.light)] := by
      rw [List.map_append, List.zip_append (l₁ := irrs) (by simp [e7]), List.zip_append (by simp [e6, e7])]
      rfl
    have hok1 : OccSim.OkInputs counts.sum 6 ((occs ++ [act]).zip ((ins ++ [i]).map fun i => i.appliances)) := by
      rw [hz1]
      intro q hq
      rw [List.mem_append, List.mem_singleton] at hq
      rcases hq with hq | rfl
      · exact e9 q hq
      · exact ⟨by rw [hsum]; exact r4, r6⟩
    have hok2 : DrawsOk ((occs ++ [act]).zip ((ins ++ [i]).map fun i => i.appliances)) := by
      rw [hz1]
      intro q hq
      rw [List.mem_append, List.mem_singleton] at hq
      rcases hq with hq | rfl
      · exact e10 q hq
      · exact hii.appliances
    have hok3 : ∀ q ∈ (occs ++ [act]).zip ((irrs ++ [irr]).zip ((ins ++ [i]).map fun i => i.light)), LightInputOk n D.lights.lighting q := by
      rw [hz2]
      intro q hq
      rw [List.mem_append, List.mem_singleton] at hq
      rcases hq with hq | rfl
      · exact e12 q hq
      · exact ⟨r4, fun k hk => lt_of_le_of_lt (r6 k hk) hs.effective, hii.interval, hii.place⟩
    obtain ⟨o, P', g1, g2, g3, -, g5, -⟩ := hgetters _ hok1 hok2
    have g1' := g1
    rw [hz1, OccSim.run_snoc, e11] at g1'
    have g1'' : s.appliances.step D.profiles D.refresh act i.appliances = .ok o := g1'
    obtain ⟨-, l, log', q1, q2, -⟩ := hlight _ hok3
    have q1' : ∃ log, LightSim.run s0.light ((occs ++ [act]).zip ((irrs ++ [irr]).zip ((ins ++ [i]).map fun i => i.light))) = .ok (l, log) := by
      unfold LightSim.simulate at q1
      simp only [bind, Except.bind] at q1
      split at q1
      · cases q1
      · next q hq =>
        obtain ⟨rfl, -⟩ := Prod.mk.inj (Except.ok.inj q1)
        exact ⟨q.2, hq⟩
    obtain ⟨log'', q3⟩ := q1'
    have q4 : ∃ p, s.light.step act irr i.light = .ok (l, p) := by
      have q3' := q3
      rw [hz2, LightSim.run_snoc, e13] at q3'
      simp only [Except.bind] at q3'
      split at q3'
      · cases q3'
      · next r hr =>
        obtain ⟨rfl, -⟩ := Prod.mk.inj (Except.ok.inj q3')
        exact ⟨r.2, hr⟩
    obtain ⟨p, q4⟩ := q4
    have hheat : ∃ ht : Option H, stepHeating D s.heating out irr a o l i.opt = .ok ht ∧
        ((s.heating = none ∧ ht = none) ∨ ∃ x x', s.heating = some x ∧ ht = some x' ∧
          D.heatingStep x { outside := out, irradiance := irr, dhw := o.dhwDemand, occupancy := gains.map fun x : Int => (x : Rat), light := l.powerDemand, appliances := P', opt := i.opt } = .ok x' ∧ good x') := by
      cases hh' : s.heating with
      | none => exact ⟨none, rfl, .inl ⟨rfl, rfl⟩⟩
      | some x =>
        obtain ⟨x', hx', hg'⟩ := hh.heating x { outside := out, irradiance := irr, dhw := o.dhwDemand, occupancy := gains.map fun x : Int => (x : Rat), light := l.powerDemand, appliances := P', opt := i.opt } (e17 x hh')
          ⟨by rw [← hsum, ← g5]; simp [OccSim.dhwDemand], by rw [List.length_map]; exact r5, q2, by rw [g3, hsum]⟩ hii.opt
        exact ⟨some x', by simp only [stepHeating, r3, g2, hx', bind, Except.bind], .inr ⟨x, x', rfl, rfl, hx', hg'⟩⟩
    obtain ⟨ht, ht1, ht2⟩ := hheat
    have hstep : s.step D i = .ok { minute := s.minute + 1, time := s.time + 60000000, activity := a, appliances := o, light := l, climate := s.climate.map D.climateStep, heating := ht } := by
      have ha : s.stepActivity D i.activity = .ok a := by
        unfold stepActivity
        rcases hact with ⟨h1, h2⟩ | ⟨h1, h2⟩
        · rw [if_neg h2, h1]
        · rw [if_pos h2, h1]
      unfold step
      simp only [w3, w1, w2, ha, r2, g1'', q4, ht1, bind, Except.bind, Bool.false_eq_true, if_false]
    have hrun : run D s0 (ins ++ [i]) = .ok { minute := s.minute + 1, time := s.time + 60000000, activity := a, appliances := o, light := l, climate := s.climate.map D.climateStep, heating := ht } := by
      rw [run_snoc, e1]
      exact hstep
    refine ⟨_, occs ++ [act], irrs ++ [irr], P', hrun, by simp [e2], ?_, ?_, ?_, by simp [e6], by simp [e7], r1, hok1, hok2, g1, hok3, ⟨_, q3⟩, g2, ?_, ?_, ?_⟩
    · simp only [List.length_append, List.length_singleton, e3]
      push_cast
      ring
    · simp only [List.length_append, List.length_singleton, e4, Option.map_map]
      rw [Function.iterate_succ']
    · rcases ht2 with ⟨h1, h2⟩ | ⟨x, x', h1, h2, -, -⟩
      · rw [h1] at e5
        simp only [h2]
        exact e5
      · rw [h1] at e5
        simp only [h2]
        exact e5
    · intro j o' ho
      by_cases hj : j < ins.length
      · rw [List.getElem?_append_left (by omega)] at ho
        rw [List.take_append_of_le_length (by omega)]
        exact e15 j o' ho
      · have : j = ins.length := by
          have := (List.getElem?_eq_some_iff.1 ho).1
          rw [List.length_append, List.length_singleton, e6] at this
          omega
        subst this
        rw [List.getElem?_append_right (by omega), e6, Nat.sub_self] at ho
        cases ho
        rw [List.take_of_length_le (by simp)]
        exact ⟨a, r1, r2⟩
    · intro j i' hj
      by_cases hjl : j < ins.length
      · rw [List.getElem?_append_left hjl] at hj
        rw [List.take_append_of_le_length (by omega), List.take_append_of_le_length (by omega), List.getElem?_append_left (by omega), List.getElem?_append_left (by omega)]
        exact e16 j i' hj
      · have : j = ins.length := by
          have := (List.getElem?_eq_some_iff.1 hj).1
          rw [List.length_append, List.length_singleton] at this
          omega
        subst this
        rw [List.getElem?_append_right (by omega), Nat.sub_self] at hj
        cases hj
        rw [List.take_left, List.take_of_length_le (by simp)]
        refine ⟨s, _, act, irr, e1, hrun, by rw [← e6]; simp, by rw [← e7]; simp, ⟨rfl, rfl, rfl, w4, r2, hact, g1'', ⟨p, q4⟩, ⟨(by rw [← hsum, ← g5]; simp [OccSim.dhwDemand]), q2, fun app happ => (by rw [g2] at happ; cases happ; rw [g3, hsum])⟩, ?_⟩⟩
        rcases ht2 with h | ⟨x, x', h1, h2, h3, -⟩
        · exact .inl h
        · exact .inr ⟨x, x', out, gains, P', h1, h2, w5, r3, g2, h3⟩
    · intro y hy
      rcases ht2 with ⟨-, h2⟩ | ⟨x, x', -, h2, -, h4⟩
      · change ht = some y at hy
        rw [h2] at hy; cases hy
      · change ht = some y at hy
        rw [h2] at hy; cases hy; exact h4

end LoadSim

end Demod
