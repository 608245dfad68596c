import Verif.Spec.SemiIndividuals
import Verif.Lemmas.Individuals
import Verif.Lemmas.SemiRun

namespace Demod
variable {L : Type} [DecidableEq L]

theorem setTpm_nStates (m m' : Markov L) (tpms : List (List (List Rat))) (b : Bool) (nl : Option (List L)) (h : m.setTpm tpms b nl = .ok m') : m'.nStates = m.nStates := by
  have hn : ∀ (a : Markov L) q, a.next = .ok q → q.2.nStates = a.nStates := by
    intro a q hq
    unfold Markov.next at hq
    split at hq
    · exact absurd hq (by simp)
    · cases hp : pyGet a.cdfs (a.pos % a.cdfs.length) with
      | error e => rw [hp] at hq; exact absurd hq (by simp [Except.map])
      | ok c => rw [hp] at hq; rw [← Except.ok.inj hq]
  have ha : ∀ (a a' : Markov L) new, a.assignNewLabels new = .ok a' → a'.nStates = a.nStates := by
    intro a a' new hq
    unfold Markov.assignNewLabels at hq
    simp only [bind, Except.bind] at hq
    split at hq
    · exact absurd hq (by simp)
    · split at hq
      · exact absurd hq (by simp)
      · rw [← Except.ok.inj hq]
  have key : ∀ q, (do let (_, m) ← ({ m with cdfs := tpms.map fun mat => mat.map cumsum, pos := 0 } : Markov L).next
                      match nl with
                      | some new => m.assignNewLabels new
                      | none => Except.ok m) = Except.ok q → q.nStates = m.nStates := by
    intro q hq
    simp only [bind, Except.bind] at hq
    split at hq
    · exact absurd hq (by simp)
    · rename_i v hv
      have := hn _ _ hv
      cases nl with
      | none => rw [← Except.ok.inj hq]; exact this
      | some new => rw [ha _ _ _ hq]; exact this
  unfold Markov.setTpm at h
  cases b with
  | false => exact key m' h
  | true =>
    simp only [if_true, bind, Except.bind] at h
    split at h
    · exact absurd h (by simp)
    · exact key m' h

omit [DecidableEq L] in
theorem semiStep_keeps (m m' : SemiMarkov L) (u v : Nat → Rat) (h : m.step u v = .ok m') : m'.chain.labels = m.chain.labels ∧ m'.chain.nStates = m.chain.nStates := by
  have hn : ∀ (a : Markov L) q, a.next = .ok q → q.2.nStates = a.nStates ∧ q.2.labels = a.labels := by
    intro a q hq
    unfold Markov.next at hq
    split at hq
    · exact absurd hq (by simp)
    · cases hp : pyGet a.cdfs (a.pos % a.cdfs.length) with
      | error e => rw [hp] at hq; exact absurd hq (by simp [Except.map])
      | ok c => rw [hp] at hq; rw [← Except.ok.inj hq]; exact ⟨rfl, rfl⟩
  unfold SemiMarkov.step at h
  simp only [bind, Except.bind] at h
  split at h
  · exact absurd h (by simp)
  rename_i q hq
  obtain ⟨n1, n2⟩ := hn _ _ hq
  split at h
  · exact absurd h (by simp)
  split at h
  · exact absurd h (by simp)
  split at h
  · exact absurd h (by simp)
  split at h
  · exact absurd h (by simp)
  split at h
  · exact absurd h (by simp)
  rw [← Except.ok.inj h]
  exact ⟨n2, n1⟩

omit [DecidableEq L] in
theorem length_eq_of_same {a b : List L} (ha : a.Nodup) (hb : b.Nodup) (h : ∀ x, x ∈ a ↔ x ∈ b) : a.length = b.length := by
  apply Nat.le_antisymm
  · exact (ha.subperm fun x hx => (h x).1 hx).length_le
  · exact (hb.subperm fun x hx => (h x).2 hx).length_le

omit [DecidableEq L] in
theorem ValidSemi.load {labels : List L} {r : SemiData L} (h : ValidSemi labels r) : ValidLoad labels (r.tpm, r.labels, r.initial) :=
  ⟨h.nodup, h.same, h.rows, h.cols, h.tpms, h.initial.1, h.initial.2⟩

/-- A sub-simulator with `c` persons and the labels in some order. -/
structure OkSemi (labels : List L) (c : Nat) (m : SemiMarkov L) : Prop where
  good : ∃ mats pdfs, SemiMarkov.Good m c m.chain.labels.length mats pdfs
  n : m.chain.nStates = m.chain.labels.length
  nodup : m.chain.labels.Nodup
  same : ∀ a, a ∈ m.chain.labels ↔ a ∈ labels

omit [DecidableEq L] in
theorem OkSemi.okSim {labels : List L} {c : Nat} {m : SemiMarkov L} (h : OkSemi labels c m) : OkSim labels c m.chain := by
  obtain ⟨mats, pdfs, g⟩ := h.good
  exact ⟨⟨mats, g.chain⟩, h.nodup, h.same⟩

/-- The sub-simulator uses the data of `g`, at the `q`-th matrix and the `q`-th durations. -/
def HasSemi (load : SemiLoader L) (q : Nat) (g : Subgroup) (m : SemiMarkov L) : Prop :=
  ∃ r, load g = .ok r ∧ m.chain.cdfs = (r.tpm.mats.map fun mat => mat.map cumsum) ∧ m.durations = r.durations.cumsum ∧ m.chain.labels = r.labels ∧ m.chain.pos = q ∧ m.durPos = q

theorem semiUpdate_ok (load : SemiLoader L) (labels : List L) (c : Nat) (m : SemiMarkov L) (h : OkSemi labels c m) (g : Subgroup) (r : SemiData L) (hl : load g = .ok r) (hr : ValidSemi labels r) :
    ∃ m', SemiIndividuals.updateTpms load m g = .ok m' ∧ OkSemi labels c m' ∧ HasSemi load 1 g m' ∧ ((m'.chain.states.map fun s => m'.chain.labels[s]?) = m.chain.states.map fun s => m.chain.labels[s]?) ∧
      m'.timesLeft = m.timesLeft := by
  obtain ⟨c', a1, a2, a3, a4, a5, a6⟩ := subSet_ok labels c m.chain h.okSim _ hr.load
  simp only at a1 a3 a5
  have hn : c'.nStates = r.labels.length := by
    rw [setTpm_nStates _ _ _ _ _ a1, h.n]
    exact length_eq_of_same h.nodup hr.nodup fun x => (h.same x).trans (hr.same x).symm
  obtain ⟨mats, pdfs, gd⟩ := h.good
  obtain ⟨⟨mats', gd'⟩, -, -⟩ := a2
  refine ⟨{ m with chain := c', durations := r.durations.cumsum, durPos := 1 }, ?_, ⟨⟨mats', r.durations, ⟨gd', gd.len, rfl, ?_⟩⟩, ?_, ?_, ?_⟩, ⟨r, hl, a5, rfl, a3, a6, rfl⟩, a4, rfl⟩
  · unfold SemiIndividuals.updateTpms
    simp only [hl, bind, Except.bind, a1]
    exact setDurations_ok _ _ hn hr.durations
  · show IsDurations c'.labels.length r.durations
    rw [a3]; exact hr.durations
  · show c'.nStates = c'.labels.length
    rw [a3]; exact hn
  · show c'.labels.Nodup
    rw [a3]; exact hr.nodup
  · show ∀ a, a ∈ c'.labels ↔ a ∈ labels
    rw [a3]; exact hr.same

theorem semiCreate_ok (load : SemiLoader L) (labels : List L) (g : Subgroup) (c : Nat) (hc : 0 < c) (us vs : List Rat) (hu : Draws c us) (hv : Draws c vs) (r : SemiData L) (hl : load g = .ok r) (hr : ValidSemi labels r) :
    ∃ m, SemiIndividuals.createSub load g c us vs = .ok m ∧ OkSemi labels c m ∧ HasSemi load 1 g m ∧
      ∀ h < c, Sampled r.initial (us.getD h 0) (m.chain.states.getD h 0) ∧
        ∃ d : Nat, m.timesLeft.getD h 0 = (d : Int) - 1 ∧ Sampled (r.initialDurations.getD (m.chain.states.getD h 0) []) (vs.getD h 0) d := by
  have hcreate : Markov.create c r.labels.length r.tpm r.labels = .ok { nHouseholds := c, nStates := r.labels.length, tpms := r.tpm, labels := r.labels, cdfs := [], pos := 0, states := [] } := by
    unfold Markov.create
    rw [if_neg (by omega), if_neg (by rw [hr.rows, hr.cols]; simp), if_neg (by rw [hr.cols]; simp), if_neg (by simp)]
  obtain ⟨k, e, g1, hpos1, lab, hn, hs⟩ := Markov.initialise_good ({ nHouseholds := c, nStates := r.labels.length, tpms := r.tpm, labels := r.labels, cdfs := [], pos := 0, states := [] } : Markov L)
    r.labels.length r.initial true us rfl hr.initial.1 hr.initial.2 hr.tpms hu
  have lab' : k.labels = r.labels := lab
  obtain ⟨m, e2, g2, hch, hdp, ht⟩ := semi_initialise_good k c r.labels.length r.tpm.mats g1 hn r.initialDurations r.durations hr.durations hr.starts.1 hr.starts.2 vs hv
  refine ⟨m, ?_, ⟨⟨r.tpm.mats, r.durations, by rw [hch, lab']; exact g2⟩, by rw [hch, lab']; exact hn, by rw [hch, lab']; exact hr.nodup, by rw [hch, lab']; exact hr.same⟩,
    ⟨r, hl, by rw [hch]; exact g1.cdfs, g2.durs, by rw [hch, lab'], by rw [hch]; exact hpos1, hdp⟩, ?_⟩
  · unfold SemiIndividuals.createSub
    simp only [hl, bind, Except.bind, hcreate, e]
    exact e2
  · intro h hh
    rw [hch]
    exact ⟨hs h hh, ht h hh⟩

/-- One step of a person. -/
def PersonStep (r : SemiData L) (q : Nat) (us : (Nat → Rat) × (Nat → Rat)) (rank : Nat) (m m' : SemiMarkov L) (h : Nat) : Prop :=
  (¬ m.timesLeft.getD h 0 < 1 → (m'.chain.states.map fun s => m'.chain.labels[s]?)[h]? = (m.chain.states.map fun s => m.chain.labels[s]?)[h]? ∧ m'.timesLeft.getD h 0 = m.timesLeft.getD h 0 - 1) ∧
  (m.timesLeft.getD h 0 < 1 → ∃ j d : Nat, Sampled (rowOf r.tpm.mats (q % r.tpm.mats.length) (m.chain.states.getD h 0)) (us.1 rank) j ∧
    (m'.chain.states.map fun s => m'.chain.labels[s]?)[h]? = some (r.labels[j]?) ∧ m'.timesLeft.getD h 0 = (d : Int) - 1 ∧
    Sampled (durationRow r.durations (q % nDurations r.durations) (m.chain.states.getD h 0) j) (us.2 rank) d)

omit [DecidableEq L] in
theorem semiSub_ok (load : SemiLoader L) (labels : List L) (c : Nat) (m : SemiMarkov L) (h : OkSemi labels c m) (us : (Nat → Rat) × (Nat → Rat)) (hu : DrawStream us.1 ∧ DrawStream us.2) :
    ∃ m', m.step us.1 us.2 = .ok m' ∧ OkSemi labels c m' ∧ ∀ q g r, HasSemi load q g m → load g = .ok r → ValidSemi labels r →
      HasSemi load (q + 1) g m' ∧ ∀ k < c, PersonStep r q us (m.rank k) m m' k := by
  obtain ⟨mats, pdfs, gd⟩ := h.good
  obtain ⟨m', e, g', p1, p2, -⟩ := SemiMarkov.good_step gd us.1 us.2 hu.1 hu.2
  obtain ⟨k1, k2⟩ := semiStep_keeps m m' _ _ e
  refine ⟨m', e, ⟨⟨mats, pdfs, by rw [k1]; exact g'⟩, by rw [k1, k2]; exact h.n, by rw [k1]; exact h.nodup, by rw [k1]; exact h.same⟩, ?_⟩
  rintro q g r ⟨r', hl', hc, hd, hlab, hq1, hq2⟩ hl hv
  rw [hl] at hl'
  obtain rfl := Except.ok.inj hl'
  have gd2 : SemiMarkov.Good m c m.chain.labels.length r.tpm.mats r.durations := ⟨⟨by rw [hlab]; exact hv.tpms, hc, gd.chain.len, gd.chain.valid⟩, gd.len, hd, by rw [hlab]; exact hv.durations⟩
  obtain ⟨m'', e', g'', p1', p2', hs⟩ := SemiMarkov.good_step gd2 us.1 us.2 hu.1 hu.2
  rw [e] at e'
  obtain rfl := Except.ok.inj e'
  refine ⟨⟨r, hl, g''.chain.cdfs, g''.durs, by rw [k1, hlab], by rw [p1, hq1], by rw [p2, hq2]⟩, ?_⟩
  intro k hk
  obtain ⟨a, b⟩ := hs k hk
  have e1 : ∀ (x : SemiMarkov L), SemiMarkov.Good x c x.chain.labels.length r.tpm.mats r.durations → (x.chain.states.map fun s => x.chain.labels[s]?)[k]? = some (x.chain.labels[x.chain.states.getD k 0]?) := by
    intro x gx
    rw [List.getElem?_map, List.getD_eq_getElem?_getD, List.getElem?_eq_getElem (by rw [gx.chain.len]; exact hk)]
    rfl
  have gx' : SemiMarkov.Good m' c m'.chain.labels.length r.tpm.mats r.durations := by rw [k1]; exact g''
  rw [hq1] at b
  rw [hq2] at b
  unfold PersonStep
  rw [e1 m gd2, e1 m' gx', k1]
  constructor
  · intro hh
    obtain ⟨a1, a2⟩ := a hh
    rw [a1]
    exact ⟨rfl, a2⟩
  · intro hh
    obtain ⟨b1, d, b2, b3⟩ := b hh
    exact ⟨_, d, b1, by rw [hlab], b2, b3⟩

/-! ## The simulator -/

/-- All the sub-simulators. -/
def AllSemi (load : SemiLoader L) (q : Nat) (s : SemiIndividuals L) : Prop := ∀ (i : Nat) m g, s.sims[i]? = some m → s.subgroups[i]? = some g → HasSemi load q g m

structure SemiInv (labels : List L) (counts : List Nat) (types : List Subgroup) (asked : Subgroup → Prop) (s : SemiIndividuals L) : Prop where
  nsims : s.sims.length = counts.length
  nsubs : s.subgroups.length = counts.length
  ntypes : types.length = counts.length
  asked : ∀ g ∈ s.subgroups, asked g
  ok : ∀ (i : Nat) m c, s.sims[i]? = some m → counts[i]? = some c → OkSemi labels c m
  person : ∀ (i : Nat) g p, s.subgroups[i]? = some g → types[i]? = some p → SamePerson g p

theorem semiRefresh_inv (load : SemiLoader L) (f : DayFlags) (hf : f.Valid) (labels : List L) (counts : List Nat) (types : List Subgroup) (asked : Subgroup → Prop)
    (hclosed : ∀ g t g', asked g → addTime g t f.weekEndsDays f.weekSatSun f.sevenDays f.quarters = .ok g' → asked g') (hload : ∀ g, asked g → ∃ r, load g = .ok r ∧ ValidSemi labels r)
    (s : SemiIndividuals L) (h : SemiInv labels counts types asked s) :
    ∃ s', s.refreshDay load f = .ok s' ∧ SemiInv labels counts types asked s' ∧ (∀ (i : Nat) m, s.sims[i]? = some m → ∃ m', s'.sims[i]? = some m' ∧
        (m'.chain.states.map fun s => m'.chain.labels[s]?) = (m.chain.states.map fun s => m.chain.labels[s]?) ∧ m'.timesLeft = m.timesLeft) ∧ s'.time = s.time ∧
      s' = { s with sims := s'.sims, subgroups := s'.subgroups } ∧ (f.aware = true → Dated f types s'.subgroups (some s.time)) ∧ (f.aware = false → s' = s) ∧
      (f.aware = true → AllSemi load 1 s') := by
  unfold SemiIndividuals.refreshDay
  by_cases ha : f.aware = true
  · rw [if_pos ha]
    obtain ⟨subs, e1, l1, r1⟩ := mapM_rel (fun g => addTime g s.time f.weekEndsDays f.weekSatSun f.sevenDays f.quarters)
      (fun g out => addTime g s.time f.weekEndsDays f.weekSatSun f.sevenDays f.quarters = .ok out) s.subgroups
      (fun g _ => by obtain ⟨out, ho, -, -⟩ := addTime_at g s.time f hf; exact ⟨out, ho, ho⟩)
    have hsubs : ∀ (i : Nat) g', subs[i]? = some g' → ∃ g, s.subgroups[i]? = some g ∧ addTime g s.time f.weekEndsDays f.weekSatSun f.sevenDays f.quarters = .ok g' := by
      intro i g' hg'
      have hi : i < s.subgroups.length := by rw [← l1]; exact (List.getElem?_eq_some_iff.1 hg').1
      obtain ⟨y, hy, hr⟩ := r1 i _ (List.getElem?_eq_getElem hi)
      rw [hg'] at hy
      exact ⟨_, List.getElem?_eq_getElem hi, by rw [Option.some.inj hy]; exact hr⟩
    have hask : ∀ g ∈ subs, asked g := by
      intro g hg
      obtain ⟨i, hi⟩ := List.mem_iff_getElem?.1 hg
      obtain ⟨g0, e, a⟩ := hsubs i g hi
      exact hclosed g0 _ g (h.asked _ (List.mem_of_getElem? e)) a
    obtain ⟨sims, e2, l2, r2⟩ := mapM_rel (fun (q : SemiMarkov L × Subgroup) => SemiIndividuals.updateTpms load q.1 q.2)
      (fun q m' => ∀ c, OkSemi labels c q.1 → OkSemi labels c m' ∧ (m'.chain.states.map fun s => m'.chain.labels[s]?) = (q.1.chain.states.map fun s => q.1.chain.labels[s]?) ∧ m'.timesLeft = q.1.timesLeft ∧
        HasSemi load 1 q.2 m') (s.sims.zip subs) (by
        rintro ⟨m, g⟩ hq
        obtain ⟨i, hi⟩ := List.mem_iff_getElem?.1 hq
        obtain ⟨h1, h2⟩ := List.getElem?_zip_eq_some.1 hi
        have hic : i < counts.length := by rw [← h.nsims]; exact (List.getElem?_eq_some_iff.1 h1).1
        have hok := h.ok i m _ h1 (List.getElem?_eq_getElem hic)
        obtain ⟨r, hr, hv⟩ := hload g (hask g (List.mem_of_getElem? h2))
        obtain ⟨m', a, b, c, d, dt⟩ := semiUpdate_ok load labels _ m hok g r hr hv
        refine ⟨m', a, ?_⟩
        intro c' hc'
        refine ⟨?_, d, dt, c⟩
        obtain ⟨m'', a', b', -⟩ := semiUpdate_ok load labels c' m hc' g r hr hv
        rw [a] at a'
        rw [Except.ok.inj a']
        exact b')
    have hzl : (s.sims.zip subs).length = counts.length := by rw [List.length_zip, h.nsims, l1, h.nsubs, Nat.min_self]
    have hsims : ∀ (i : Nat) m', sims[i]? = some m' → ∃ m g, s.sims[i]? = some m ∧ subs[i]? = some g ∧ ∀ c, OkSemi labels c m → OkSemi labels c m' ∧
        (m'.chain.states.map fun s => m'.chain.labels[s]?) = (m.chain.states.map fun s => m.chain.labels[s]?) ∧ m'.timesLeft = m.timesLeft ∧ HasSemi load 1 g m' := by
      intro i m' hm'
      have hi : i < (s.sims.zip subs).length := by rw [← l2]; exact (List.getElem?_eq_some_iff.1 hm').1
      obtain ⟨y, hy, hr⟩ := r2 i _ (List.getElem?_eq_getElem hi)
      rw [hm'] at hy
      obtain ⟨z1, z2⟩ := List.getElem?_zip_eq_some.1 (List.getElem?_eq_getElem hi)
      exact ⟨_, _, z1, z2, by rw [Option.some.inj hy]; exact hr⟩
    refine ⟨{ s with sims := sims, subgroups := subs }, ?_, ⟨?_, ?_, h.ntypes, hask, ?_, ?_⟩, ?_, rfl, rfl, ?_, ?_, ?_⟩
    · simp only [e1, bind, Except.bind]
      rw [show (s.sims.zip subs).mapM (fun q => SemiIndividuals.updateTpms load q.1 q.2) = .ok sims from e2]
    · exact l2.trans hzl
    · exact l1.trans h.nsubs
    · intro i m' c hm' hc
      obtain ⟨m, g, z1, -, hh⟩ := hsims i m' hm'
      exact (hh c (h.ok i m c z1 hc)).1
    · intro i g p hg hp
      obtain ⟨g0, z1, a⟩ := hsubs i g hg
      obtain ⟨out, ho, hs, -⟩ := addTime_at g0 s.time f hf
      rw [a] at ho
      rw [Except.ok.inj ho]
      intro k k1 k2
      rw [hs k k1 k2]
      exact h.person i g0 p z1 hp k k1 k2
    · intro i m hm
      have hic : i < counts.length := by rw [← h.nsims]; exact (List.getElem?_eq_some_iff.1 hm).1
      have hsl : i < sims.length := by rw [l2, hzl]; exact hic
      obtain ⟨m0, g, z1, -, hh⟩ := hsims i _ (List.getElem?_eq_getElem hsl)
      rw [hm] at z1
      obtain rfl := Option.some.inj z1
      obtain ⟨-, y1, y2, -⟩ := hh _ (h.ok i m _ hm (List.getElem?_eq_getElem hic))
      exact ⟨_, List.getElem?_eq_getElem hsl, y1, y2⟩
    · intro _ i g p hg hp
      obtain ⟨g0, z1, a⟩ := hsubs i g hg
      obtain ⟨out, ho, -, hs⟩ := addTime_at g0 s.time f hf
      obtain ⟨outp, hop, -, -⟩ := addTime_at p s.time f hf
      rw [a] at ho
      refine ⟨outp, hop, ?_⟩
      rw [Except.ok.inj ho]
      exact hs p outp hop (h.person i g0 p z1 hp)
    · intro hna; rw [ha] at hna; exact absurd hna (by decide)
    · intro _ i m g hm hg
      obtain ⟨m0, g', z1, z2, hh⟩ := hsims i m hm
      have hic : i < counts.length := by rw [← h.nsims]; exact (List.getElem?_eq_some_iff.1 z1).1
      rw [hg] at z2
      rw [Option.some.inj z2]
      exact (hh _ (h.ok i m0 _ z1 (List.getElem?_eq_getElem hic))).2.2.2
  · rw [if_neg ha]
    have ha' : f.aware = false := by simpa using ha
    exact ⟨s, rfl, h, fun i m hm => ⟨m, hm, rfl, rfl⟩, rfl, rfl, fun hh => absurd hh ha, fun _ => rfl, fun hh => absurd hh ha⟩

theorem semiStep_inv (load : SemiLoader L) (f : DayFlags) (hf : f.Valid) (refresh : Int) (labels : List L) (counts : List Nat) (types : List Subgroup) (asked : Subgroup → Prop)
    (hclosed : ∀ g t g', asked g → addTime g t f.weekEndsDays f.weekSatSun f.sevenDays f.quarters = .ok g' → asked g') (hload : ∀ g, asked g → ∃ r, load g = .ok r ∧ ValidSemi labels r)
    (s : SemiIndividuals L) (h : SemiInv labels counts types asked s) (us : Nat → (Nat → Rat) × (Nat → Rat)) (hu : StreamsForTypes us) (d : Option Int) (hd : Dated f types s.subgroups d)
    (q : Nat) (hq : AllSemi load q s) :
    ∃ s', s.step load f refresh us = .ok s' ∧ SemiInv labels counts types asked s' ∧ s'.time = s.time + 600000000 ∧ s' = { s with sims := s'.sims, subgroups := s'.subgroups, time := s'.time } ∧
      Dated f types s'.subgroups (if f.aware = true ∧ s.time % 86400000000 = refresh then some (s.time + 600000000) else d) ∧
      AllSemi load (if f.aware = true ∧ s.time % 86400000000 = refresh then 1 else q + 1) s' ∧
      ∀ (i : Nat) m c g, s.sims[i]? = some m → counts[i]? = some c → s.subgroups[i]? = some g → ∃ m' r, s'.sims[i]? = some m' ∧ load g = .ok r ∧ ValidSemi labels r ∧ m.chain.labels = r.labels ∧
          ∀ k < c, PersonStep r q (us i) (m.rank k) m m' k := by
  obtain ⟨sims, e1, l1, r1⟩ := mapM_rel (fun (q : SemiMarkov L × Nat) => q.1.step (us q.2).1 (us q.2).2) (fun p m' => ∀ c, counts[p.2]? = some c → OkSemi labels c m' ∧
      ∀ g r, HasSemi load q g p.1 → load g = .ok r → ValidSemi labels r → HasSemi load (q + 1) g m' ∧ ∀ k < c, PersonStep r q (us p.2) (p.1.rank k) p.1 m' k) s.sims.zipIdx (by
    rintro ⟨m, i⟩ hq
    have hm := List.mem_zipIdx_iff_getElem?.1 hq
    have hic : i < counts.length := by rw [← h.nsims]; exact (List.getElem?_eq_some_iff.1 hm).1
    obtain ⟨m', a, b, bs⟩ := semiSub_ok load labels _ m (h.ok i m _ hm (List.getElem?_eq_getElem hic)) (us i) (hu i)
    refine ⟨m', a, ?_⟩
    intro c hc
    rw [List.getElem?_eq_getElem hic] at hc
    rw [← Option.some.inj hc]
    exact ⟨b, fun g r => bs q g r⟩)
  rw [List.length_zipIdx] at l1
  have hrel : ∀ (i : Nat) m, s.sims[i]? = some m → ∃ m', sims[i]? = some m' ∧ ∀ c, counts[i]? = some c → OkSemi labels c m' ∧
      ∀ g r, HasSemi load q g m → load g = .ok r → ValidSemi labels r → HasSemi load (q + 1) g m' ∧ ∀ k < c, PersonStep r q (us i) (m.rank k) m m' k := by
    intro i m hm
    obtain ⟨y, hy, hr⟩ := r1 i (m, i) (by rw [List.getElem?_zipIdx, hm]; simp)
    exact ⟨y, hy, hr⟩
  have hback : ∀ (i : Nat) m', sims[i]? = some m' → ∃ m c, s.sims[i]? = some m ∧ counts[i]? = some c ∧ OkSemi labels c m' ∧
      ∀ g r, HasSemi load q g m → load g = .ok r → ValidSemi labels r → HasSemi load (q + 1) g m' ∧ ∀ k < c, PersonStep r q (us i) (m.rank k) m m' k := by
    intro i m' hm'
    have hi : i < s.sims.length := by rw [← l1]; exact (List.getElem?_eq_some_iff.1 hm').1
    have hic : i < counts.length := by rw [← h.nsims]; exact hi
    obtain ⟨y, hy, hr⟩ := hrel i _ (List.getElem?_eq_getElem hi)
    rw [hm'] at hy
    obtain rfl := Option.some.inj hy
    obtain ⟨z1, z2⟩ := hr _ (List.getElem?_eq_getElem hic)
    exact ⟨_, _, List.getElem?_eq_getElem hi, List.getElem?_eq_getElem hic, z1, z2⟩
  have h' : SemiInv labels counts types asked { s with sims := sims, time := s.time + 600000000 } := by
    refine ⟨l1.trans h.nsims, h.nsubs, h.ntypes, h.asked, ?_, h.person⟩
    intro i m' c hm' hc
    obtain ⟨m, c', z1, z2, z3, -⟩ := hback i m' hm'
    rw [hc] at z2
    rw [Option.some.inj z2]
    exact z3
  have hdata' : AllSemi load (q + 1) { s with sims := sims, time := s.time + 600000000 } := by
    intro i m' g hm' hg
    obtain ⟨m, c', z1, z2, -, z3⟩ := hback i m' hm'
    obtain ⟨r, y1, y2⟩ := hload g (h.asked g (List.mem_of_getElem? hg))
    exact (z3 g r (hq i m g z1 hg) y1 y2).1
  have htrans : ∀ (i : Nat) m c g, s.sims[i]? = some m → counts[i]? = some c → s.subgroups[i]? = some g → ∃ m' r, sims[i]? = some m' ∧ load g = .ok r ∧ ValidSemi labels r ∧ m.chain.labels = r.labels ∧
          ∀ k < c, PersonStep r q (us i) (m.rank k) m m' k := by
    intro i m c g hm hc hg
    obtain ⟨m', hm', k0⟩ := hrel i m hm
    obtain ⟨r, y1, y2⟩ := hload g (h.asked g (List.mem_of_getElem? hg))
    have hs := hq i m g hm hg
    obtain ⟨r', w1, -, -, w2, -⟩ := hs
    rw [y1] at w1
    obtain rfl := Except.ok.inj w1
    exact ⟨m', r, hm', y1, y2, w2, ((k0 c hc).2 g r (hq i m g hm hg) y1 y2).2⟩
  unfold SemiIndividuals.step
  rw [show s.sims.zipIdx.mapM (fun q => q.1.step (us q.2).1 (us q.2).2) = .ok sims from e1]
  by_cases hfire : s.time % 86400000000 = refresh
  · obtain ⟨s', a, b, pl, t, i, dt, na, ad⟩ := semiRefresh_inv load f hf labels counts types asked hclosed hload _ h'
    refine ⟨s', ?_, b, t, ?_, ?_, ?_, ?_⟩
    · show (if firesAfterRefresh refresh s.time 600000000 = true then _ else _) = _
      rw [if_pos (by unfold firesAfterRefresh timeOfDay DAY; simpa using hfire)]
      exact a
    · rw [i]
    · by_cases ha : f.aware = true
      · rw [if_pos ⟨ha, hfire⟩]; exact dt ha
      · rw [if_neg (fun hh => ha hh.1), na (by simpa using ha)]; exact hd
    · by_cases ha : f.aware = true
      · rw [if_pos ⟨ha, hfire⟩]; exact ad ha
      · rw [if_neg (fun hh => ha hh.1), na (by simpa using ha)]; exact hdata'
    · intro i m c g hm hc hg
      obtain ⟨m1, r, y1, y2, yv, y3, y4⟩ := htrans i m c g hm hc hg
      obtain ⟨m2, z1, z2, z3⟩ := pl i m1 y1
      refine ⟨m2, r, z1, y2, yv, y3, ?_⟩
      intro k hk
      have := y4 k hk
      unfold PersonStep at this ⊢
      rw [z2, z3]
      exact this
  · refine ⟨_, ?_, h', rfl, rfl, ?_, ?_, htrans⟩
    · show (if firesAfterRefresh refresh s.time 600000000 = true then _ else _) = _
      rw [if_neg (by unfold firesAfterRefresh timeOfDay DAY; simpa using hfire)]
    · rw [if_neg (fun hh => hfire hh.2)]; exact hd
    · rw [if_neg (fun hh => hfire hh.2)]; exact hdata'

theorem semiRun_append (load : SemiLoader L) (f : DayFlags) (refresh : Int) (a b : List (Nat → (Nat → Rat) × (Nat → Rat))) (s : SemiIndividuals L) :
    s.run load f refresh (a ++ b) = (do let s1 ← s.run load f refresh a; s1.run load f refresh b) := by
  induction a generalizing s with
  | nil => rfl
  | cons u a ih =>
    rw [List.cons_append, SemiIndividuals.run, SemiIndividuals.run]
    cases s.step load f refresh u with
    | error e => rfl
    | ok s1 => exact ih s1

/-- A run is a sequence of states. -/
theorem semi_traj (load : SemiLoader L) (f : DayFlags) (hf : f.Valid) (refresh : Int) (labels : List L) (counts : List Nat) (types : List Subgroup) (asked : Subgroup → Prop)
    (hclosed : ∀ g t g', asked g → addTime g t f.weekEndsDays f.weekSatSun f.sevenDays f.quarters = .ok g' → asked g') (hload : ∀ g, asked g → ∃ r, load g = .ok r ∧ ValidSemi labels r)
    (uss : List (Nat → (Nat → Rat) × (Nat → Rat))) (hu : ∀ us ∈ uss, StreamsForTypes us) (s : SemiIndividuals L) (h : SemiInv labels counts types asked s) (d : Option Int) (hd : Dated f types s.subgroups d)
    (q : Nat) (hq : AllSemi load q s) :
    ∃ t : Nat → SemiIndividuals L, t 0 = s ∧ (∀ k ≤ uss.length, s.run load f refresh (uss.take k) = .ok (t k)) ∧
      (∀ k ≤ uss.length, SemiInv labels counts types asked (t k) ∧ (t k).time = s.time + k * 600000000 ∧ t k = { s with sims := (t k).sims, subgroups := (t k).subgroups, time := (t k).time } ∧
        Dated f types (t k).subgroups (datedAfter f refresh s.time d k) ∧ AllSemi load (posAfter f refresh s.time q k) (t k)) ∧
      ∀ k us, uss[k]? = some us → ∀ (i : Nat) m c g, (t k).sims[i]? = some m → counts[i]? = some c → (t k).subgroups[i]? = some g →
        ∃ m' r, (t (k + 1)).sims[i]? = some m' ∧ load g = .ok r ∧ ValidSemi labels r ∧ m.chain.labels = r.labels ∧ ∀ j < c, PersonStep r (posAfter f refresh s.time q k) (us i) (m.rank j) m m' j := by
  induction uss generalizing s d q with
  | nil =>
    refine ⟨fun _ => s, rfl, ?_, ?_, ?_⟩
    · intro k hk; rw [List.take_nil]; rfl
    · intro k hk
      have : k = 0 := by simpa using hk
      subst this
      exact ⟨h, by simp, rfl, hd, hq⟩
    · intro k us hk; simp at hk
  | cons us uss ih =>
    obtain ⟨s1, a1, b1, c1, i1, d1, q1, p1⟩ := semiStep_inv load f hf refresh labels counts types asked hclosed hload s h us (hu us List.mem_cons_self) d hd q hq
    obtain ⟨t, t0, tr, tg, ts⟩ := ih (fun u hh => hu u (List.mem_cons_of_mem _ hh)) s1 b1 _ d1 _ q1
    refine ⟨fun k => match k with | 0 => s | k + 1 => t k, rfl, ?_, ?_, ?_⟩
    · intro k hk
      cases k with
      | zero => rfl
      | succ k =>
        rw [List.take_succ_cons, SemiIndividuals.run, a1]
        exact tr k (by simpa using hk)
    · intro k hk
      cases k with
      | zero => exact ⟨h, by simp, rfl, hd, hq⟩
      | succ k =>
        obtain ⟨y1, y2, y3, y4, y5⟩ := tg k (by simpa using hk)
        refine ⟨y1, ?_, ?_, ?_, ?_⟩
        · simp only; rw [y2, c1]; push_cast; ring
        · simp only; rw [y3, i1]
        · rw [datedAfter_succ]; rw [c1] at y4; exact y4
        · rw [posAfter_succ]; rw [c1] at y5; exact y5
    · intro k us' hk
      cases k with
      | zero =>
        simp only [List.getElem?_cons_zero, Option.some.injEq] at hk
        subst hk
        intro i m c g hm hc hg
        obtain ⟨m', r, y⟩ := p1 i m c g hm hc hg
        refine ⟨m', r, ?_⟩
        simp only [t0]
        exact y
      | succ k =>
        have := ts k us' (by simpa using hk)
        rw [c1] at this
        rw [posAfter_succ]
        exact this

/-! ## Construction -/

theorem semiCreate_inv (load : SemiLoader L) (f : DayFlags) (refresh : Int) (hr : 0 ≤ refresh ∧ refresh < 86400000000) (groups : List (Subgroup × Nat)) (persons : List (List Subgroup))
    (hg : ValidGroups groups persons) (labels : List L) (asked : Subgroup → Prop) (hasked : ∀ p ∈ persons.flatten, asked p) (hload : ∀ g, asked g → ∃ r, load g = .ok r ∧ ValidSemi labels r)
    (start : Int) (d : Nat → List Rat × List Rat) (hd1 : DrawsForTypes groups persons fun i => (d i).1) (hd2 : DrawsForTypes groups persons fun i => (d i).2) (e : Nat → Nat → (Nat → Rat) × (Nat → Rat)) :
    ∃ (s : SemiIndividuals L) (i0 : Int), i0 ≤ start ∧ start < i0 + 86400000000 ∧ i0 % 86400000000 = refresh ∧
      SemiIndividuals.create load f refresh groups start 600000000 d e = s.run load f refresh ((List.range ((start - i0) / 600000000).toNat).map e) ∧
      s.time = i0 + (start - i0) % 600000000 ∧ s.subgroups = personTypes persons ∧
      SemiInv labels (parseSubgroups (persons.zip (groups.map fun g => g.2))).2.1 (personTypes persons) asked s ∧
      s.hhOfPersons = (parseSubgroups (persons.zip (groups.map fun g => g.2))).2.2 ∧ s.nHouseholds = (groups.map fun g => g.2).sum ∧
      s.nResidents = (allHouseholds groups persons).map (fun ps => (ps.length : Int)) ∧ s.activityLabels.Nodup ∧ (∀ a, a ∈ s.activityLabels ↔ a ∈ labels) ∧ AllSemi load 1 s ∧
      (∀ (i : Nat) c p, (parseSubgroups (persons.zip (groups.map fun g => g.2))).2.1[i]? = some c → (personTypes persons)[i]? = some p → c = timesIn p (allHouseholds groups persons).flatten) ∧
      ∀ (i : Nat) m p, s.sims[i]? = some m → (personTypes persons)[i]? = some p →
        ∃ r, load p = .ok r ∧ ValidSemi labels r ∧ m.chain.labels = r.labels ∧ ∀ h < timesIn p (allHouseholds groups persons).flatten, Sampled r.initial ((d i).1.getD h 0) (m.chain.states.getD h 0) ∧
          ∃ n : Nat, m.timesLeft.getD h 0 = (n : Int) - 1 ∧ Sampled (r.initialDurations.getD (m.chain.states.getD h 0) []) ((d i).2.getD h 0) n := by
  obtain ⟨hne, hlen, hgp⟩ := hg
  obtain ⟨i0, hi0, h1, h2, h3⟩ := init_le start refresh hr
  have hpers : groups.mapM (fun g => toPersons g.1) = .ok persons := by
    rw [mapM_ok_iff]
    refine ⟨hlen, ?_⟩
    intro k h h'
    exact (hgp k _ _ (List.getElem?_eq_getElem h) (List.getElem?_eq_getElem h')).1
  have hres : groups.mapM IndividualsSim.residents = .ok ((persons.zip (groups.map fun g => g.2)).map fun q => List.replicate q.2 (q.1.length : Int)) := by
    rw [mapM_ok_iff]
    refine ⟨by simp [hlen], ?_⟩
    intro k h h'
    have hk : k < persons.length := by omega
    have := (hgp k _ _ (List.getElem?_eq_getElem h) (List.getElem?_eq_getElem hk)).2.2.2
    unfold Subgroup.at at this
    unfold IndividualsSim.residents
    rw [show lookupA groups[k].1 kNResidents = _ from this]
    simp
  have hflat : ((persons.zip (groups.map fun g => g.2)).map fun q => List.replicate q.2 (q.1.length : Int)).flatten = (allHouseholds groups persons).map fun ps => (ps.length : Int) := by
    unfold allHouseholds households
    rw [List.map_flatMap, List.flatMap_def]
    congr 1
    apply List.map_congr_left
    intro q _
    simp
  have huniq := unique_types groups persons hlen
  obtain ⟨blocks, b1, b2, b3, b4, b5, b6⟩ := parse_blocks (persons.zip (groups.map fun g => g.2))
  generalize hP : parseSubgroups (persons.zip (groups.map fun g => g.2)) = parsed at *
  obtain ⟨uniq, counts, hh⟩ := parsed
  simp only at *
  subst huniq
  have hcl : counts.length = (personTypes persons).length := by rw [← b2, List.length_map, b3]
  have hcount : ∀ (i : Nat) c p, counts[i]? = some c → (personTypes persons)[i]? = some p → c = timesIn p (allHouseholds groups persons).flatten := by
    intro i c p hc hp
    rw [← b2, List.getElem?_map] at hc
    obtain ⟨b, hb, rfl⟩ := Option.map_eq_some_iff.1 hc
    exact (b6 i p b hp hb).1
  have hcpos : ∀ (i : Nat) c p, counts[i]? = some c → (personTypes persons)[i]? = some p → 0 < c := by
    intro i c p hc hp
    rw [hcount i c p hc hp]
    obtain ⟨g, hg, hpg⟩ := (b5 p).1 (List.mem_of_getElem? hp)
    obtain ⟨k, hk⟩ := List.mem_iff_getElem?.1 hg
    obtain ⟨z1, z2⟩ := List.getElem?_zip_eq_some.1 hk
    rw [List.getElem?_map] at z2
    obtain ⟨g0, hg0, e⟩ := Option.map_eq_some_iff.1 z2
    have := (hgp k g0 g.1 hg0 z1).2.2.1
    exact timesIn_pos _ _ (List.mem_flatten.2 ⟨g.1, mem_households _ g hg (by rw [← e]; exact this), hpg⟩)
  have hdr : ∀ (i : Nat) c, counts[i]? = some c → Draws c (d i).1 ∧ Draws c (d i).2 := by
    intro i c hc
    have hi : i < (personTypes persons).length := by rw [← hcl]; exact (List.getElem?_eq_some_iff.1 hc).1
    rw [hcount i c _ hc (List.getElem?_eq_getElem hi)]
    exact ⟨hd1 i _ (List.getElem?_eq_getElem hi), hd2 i _ (List.getElem?_eq_getElem hi)⟩
  have haskt : ∀ p ∈ personTypes persons, asked p := by
    intro p hp
    exact hasked p (mem_personTypes.1 hp)
  obtain ⟨sims, e1, l1, r1⟩ := mapM_rel (fun (q : (Subgroup × Nat) × Nat) => SemiIndividuals.createSub load q.1.1 q.1.2 (d q.2).1 (d q.2).2) (fun q m => OkSemi labels q.1.2 m ∧ HasSemi load 1 q.1.1 m ∧
      ∃ r, load q.1.1 = .ok r ∧ ValidSemi labels r ∧ m.chain.labels = r.labels ∧ ∀ h < q.1.2, Sampled r.initial ((d q.2).1.getD h 0) (m.chain.states.getD h 0) ∧
          ∃ n : Nat, m.timesLeft.getD h 0 = (n : Int) - 1 ∧ Sampled (r.initialDurations.getD (m.chain.states.getD h 0) []) ((d q.2).2.getD h 0) n)
    ((personTypes persons).zip counts).zipIdx (by
      rintro ⟨⟨p, c⟩, i⟩ hq
      obtain ⟨z1, z2⟩ := List.getElem?_zip_eq_some.1 (List.mem_zipIdx_iff_getElem?.1 hq)
      obtain ⟨r, hr, hv⟩ := hload p (haskt p (List.mem_of_getElem? z1))
      obtain ⟨m, a, b, bs, bt⟩ := semiCreate_ok load labels p c (hcpos i c p z2 z1) (d i).1 (d i).2 (hdr i c z2).1 (hdr i c z2).2 r hr hv
      obtain ⟨r', y1, -, -, y2, -⟩ := bs
      rw [hr] at y1
      obtain rfl := Except.ok.inj y1
      obtain ⟨m', a', -, bs', -⟩ := semiCreate_ok load labels p c (hcpos i c p z2 z1) (d i).1 (d i).2 (hdr i c z2).1 (hdr i c z2).2 r hr hv
      rw [a] at a'
      obtain rfl := Except.ok.inj a'
      exact ⟨m, a, b, bs', r, hr, hv, y2, bt⟩)
  rw [List.length_zipIdx, List.length_zip, hcl, Nat.min_self] at l1
  have htypes : 0 < (personTypes persons).length := by
    obtain ⟨g, gs, rfl⟩ := List.exists_cons_of_ne_nil hne
    obtain ⟨ps, pss, rfl⟩ : ∃ ps pss, persons = ps :: pss := List.exists_cons_of_ne_nil (by rintro rfl; simp at hlen)
    have := (hgp 0 g ps rfl rfl).2.1
    obtain ⟨p, ps', rfl⟩ := List.exists_cons_of_ne_nil this
    apply List.length_pos_of_mem (a := p)
    rw [mem_personTypes]
    simp
  obtain ⟨first, rest, rfl⟩ := List.exists_cons_of_ne_nil (List.ne_nil_of_length_pos (by rw [l1]; exact htypes) : sims ≠ [])
  have hall : ∀ (i : Nat) m p, (first :: rest)[i]? = some m → (personTypes persons)[i]? = some p → ∃ c, counts[i]? = some c ∧ OkSemi labels c m ∧ HasSemi load 1 p m ∧
      ∃ r, load p = .ok r ∧ ValidSemi labels r ∧ m.chain.labels = r.labels ∧ ∀ h < c, Sampled r.initial ((d i).1.getD h 0) (m.chain.states.getD h 0) ∧
          ∃ n : Nat, m.timesLeft.getD h 0 = (n : Int) - 1 ∧ Sampled (r.initialDurations.getD (m.chain.states.getD h 0) []) ((d i).2.getD h 0) n := by
    intro i m p hm hp
    have hi : i < counts.length := by rw [hcl]; exact (List.getElem?_eq_some_iff.1 hp).1
    have hz : ((personTypes persons).zip counts)[i]? = some (p, counts[i]) := List.getElem?_zip_eq_some.2 ⟨hp, List.getElem?_eq_getElem hi⟩
    obtain ⟨y, hy, hr⟩ := r1 i ((p, counts[i]), i) (by rw [List.getElem?_zipIdx, hz]; simp)
    rw [hm] at hy
    rw [Option.some.inj hy]
    exact ⟨_, List.getElem?_eq_getElem hi, hr⟩
  have hoks : ∀ (i : Nat) m c, (first :: rest)[i]? = some m → counts[i]? = some c → OkSemi labels c m := by
    intro i m c hm hc
    have hi : i < (personTypes persons).length := by rw [← hcl]; exact (List.getElem?_eq_some_iff.1 hc).1
    obtain ⟨c', z1, z2, -⟩ := hall i m _ hm (List.getElem?_eq_getElem hi)
    rw [hc] at z1
    rw [Option.some.inj z1]
    exact z2
  have hfirst : OkSemi labels (counts[0]'(by omega)) first := hoks 0 first _ rfl (List.getElem?_eq_getElem (by omega))
  have hdelta : 0 ≤ start - i0 := by omega
  refine ⟨⟨first :: rest, hh, (groups.map fun g => g.2).sum, (allHouseholds groups persons).map fun ps => (ps.length : Int), first.chain.labels, personTypes persons, i0 + (start - i0) % 600000000⟩,
    i0, h1, h2, h3, ?_, rfl, rfl, ⟨l1.trans hcl.symm, hcl.symm, hcl.symm, haskt, hoks, ?_⟩, rfl, rfl, rfl, hfirst.nodup, hfirst.same, ?_, hcount, ?_⟩
  · unfold SemiIndividuals.create
    rw [hpers, hres]
    show (if groups = [] then _ else _) = _
    rw [if_neg hne]
    simp only [hP]
    rw [show ((personTypes persons).zip counts).zipIdx.mapM (fun q => SemiIndividuals.createSub load q.1.1 q.1.2 (d q.2).1 (d q.2).2) = .ok (first :: rest) from e1]
    simp only [bind, Except.bind, ne_eq, not_true_eq_false, if_false, hi0]
    rw [hflat, Int.tdiv_eq_ediv_of_nonneg hdelta, Int.fmod_eq_emod_of_nonneg _ (by norm_num)]
  · intro i g p hg hp
    rw [show (personTypes persons)[i]? = some g from hg] at hp
    rw [Option.some.inj hp]
    intro k _ _; rfl
  · intro i m g hm hg
    obtain ⟨c, -, -, z, -⟩ := hall i m g hm hg
    exact z
  · intro i m p hm hp
    obtain ⟨c, z1, -, -, r, y1, y2, y3, y4⟩ := hall i m p hm hp
    refine ⟨r, y1, y2, y3, ?_⟩
    rw [← hcount i c p z1 hp]
    exact y4

end Demod
