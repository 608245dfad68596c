import Verif.Spec.Grouping
import Verif.Props.Parse
import Verif.Props.SurveyTpm
import Verif.Props.Similarity
import Verif.Props.Metrics
import Verif.Props.Bulbs
import Verif.Lemmas.Crest

/-! # The transitions of the households and the statistics of the bulbs -/

namespace Demod

/-! ## C131: transitions of the households -/

theorem lex_total {β : Type} [DecidableEq β] (lt : β → β → Bool) (h : StrictTotal lt) :
    StrictTotal (fun a b : Nat × β => decide (a.1 < b.1) || (decide (a.1 = b.1) && lt a.2 b.2)) := by
  refine ⟨?_, ?_, ?_⟩
  · intro a; simp [h.irrefl]
  · intro a b c
    simp only [Bool.or_eq_true, Bool.and_eq_true, decide_eq_true_eq]
    rintro (h1 | ⟨h1, h1'⟩) (h2 | ⟨h2, h2'⟩)
    · left; omega
    · left; omega
    · left; omega
    · right; exact ⟨by omega, h.trans _ _ _ h1' h2'⟩
  · intro a b
    simp only [Bool.or_eq_false_iff, Bool.and_eq_false_iff, decide_eq_false_iff_not]
    rintro ⟨h1, h1'⟩ ⟨h2, h2'⟩
    have e : a.1 = b.1 := by omega
    refine Prod.ext e (h.total _ _ ?_ ?_)
    · rcases h1' with h | h
      · exact absurd e h
      · exact h
    · rcases h2' with h | h
      · exact absurd e.symm h
      · exact h

theorem quintLt_total : StrictTotal quintLt := lex_total _ (lex_total _ tripleLt_total)

theorem mapM_pyGet (l : List Nat) : ∀ ps : List Nat, (∀ p ∈ ps, p < l.length) → (ps.mapM fun p => pyGet l p) = .ok (ps.map fun p => l.getD p 0) := by
  intro ps
  induction ps with
  | nil => intro _; rfl
  | cons p ps ih =>
    intro h
    have hp := h p (by simp)
    rw [List.mapM_cons, ih (fun q hq => h q (List.mem_cons_of_mem _ hq))]
    have : pyGet l p = .ok (l.getD p 0) := by
      unfold pyGet
      rw [List.getD_eq_getElem?_getD, List.getElem?_eq_getElem hp]
      rfl
    rw [this]
    rfl

/-- The columns of a list of records. -/
def hhCols (R : List (Nat × Nat × Nat × Nat)) (household day : List Nat) : List (Nat × Nat × Nat × Nat × Nat) :=
  R.map fun r => (r.1, r.2.2.2, r.2.2.1, household.getD r.2.1 0, day.getD r.2.1 0)

theorem groupTransitions_spec (R : List (Nat × Nat × Nat × Nat)) (household day : List Nat) (hh : ∀ r ∈ R, r.2.1 < household.length) (hd : ∀ r ∈ R, r.2.1 < day.length) :
    ∃ g, groupTransitions ⟨R.map (·.1), R.map (·.2.1), R.map (·.2.2.2), R.map (·.2.2.1)⟩ household day = .ok g ∧
      g.rows = (npUnique quintLt (hhCols R household day)).map (fun q => (q.1, q.2.1, q.2.2.1, q.2.2.2.1, q.2.2.2.2, (hhCols R household day).count q)) ∧
      g.counts = (npUnique quintLt (hhCols R household day)).map (fun q => (hhCols R household day).count q) ∧
      g.households.length = g.times.length ∧ g.newStates.length = g.times.length ∧ g.oldStates.length = g.times.length ∧ g.counts.length = g.times.length ∧ g.dayNrs.length = g.times.length := by
  unfold groupTransitions
  have h1 := mapM_pyGet household (R.map (·.2.1)) (by intro p hp; obtain ⟨r, hr, rfl⟩ := List.mem_map.1 hp; exact hh r hr)
  have h2 := mapM_pyGet day (R.map (·.2.1)) (by intro p hp; obtain ⟨r, hr, rfl⟩ := List.mem_map.1 hp; exact hd r hr)
  simp only [bind, Except.bind, h1, h2]
  have hc : (R.map (·.1)).zip ((R.map (·.2.2.2)).zip ((R.map (·.2.2.1)).zip (((R.map (·.2.1)).map fun p => household.getD p 0).zip ((R.map (·.2.1)).map fun p => day.getD p 0)))) = hhCols R household day := by
    unfold hhCols
    rw [List.map_map, List.map_map, List.zip_map', List.zip_map', List.zip_map', List.zip_map']
    rfl
  rw [hc]
  refine ⟨_, rfl, ?_, rfl, by simp, by simp, by simp, by simp, by simp⟩
  unfold HhTransitions.rows
  dsimp only
  rw [List.zip_map', List.zip_map', List.zip_map', List.zip_map', List.zip_map']

theorem hhCols_count (D : Diaries Nat) (household day : List Nat) (hl : household.length = D.nP) (hld : day.length = D.nP) (t n o h d : Nat) (ht : t < D.nT) :
    (hhCols (changes D false false) household day).count (t, n, o, h, d) = howMany D (changesTo D household day t n o h d) := by
  unfold hhCols changes List.count
  rw [List.countP_map, countP_flatMap_single D.nT t _ _ ht]
  · rw [List.countP_map, List.countP_filter]
    unfold howMany
    apply List.countP_congr
    intro p hp
    have hp' : p < D.nP := List.mem_range.1 hp
    have e1 : household[p]? = some (household.getD p 0) := by
      rw [List.getD_eq_getElem?_getD, List.getElem?_eq_getElem (by omega)]; rfl
    have e2 : day[p]? = some (day.getD p 0) := by
      rw [List.getD_eq_getElem?_getD, List.getElem?_eq_getElem (by omega)]; rfl
    unfold changesTo
    rw [e1, e2]
    simp only [Function.comp, Bool.false_or, Bool.and_eq_true, beq_iff_eq, decide_eq_true_eq, Prod.mk.injEq, true_and, Option.some.injEq]
    constructor
    · rintro ⟨⟨h1, h2, h3, h4⟩, h5⟩
      exact ⟨h3, h4, h2, h1, by rw [← h2, ← h1]; exact h5⟩
    · rintro ⟨h3, h4, h2, h1, h5⟩
      exact ⟨⟨h1, h2, h3, h4⟩, by rw [h2, h1]; exact h5⟩
  · intro s _ hst x hx
    obtain ⟨p, -, rfl⟩ := List.mem_map.1 hx
    simp only [Function.comp, beq_eq_false_iff_ne, ne_eq, Prod.mk.injEq, not_and]
    intro h; exact absurd h hst

theorem sum_count_beq {α : Type} [DecidableEq α] (B : BEq α) (hB : @LawfulBEq α B) (u xs : List α) (hu : u.Nodup) (h : ∀ x ∈ xs, x ∈ u) : (u.map fun v => @List.count α B v xs).sum = xs.length := by
  rw [← sum_count u xs hu h]
  congr 1
  apply List.map_congr_left
  intro v _
  unfold List.count
  apply List.countP_congr
  intro x _
  simp

/-- **C131.** Without secondary states: the rows are exactly the combinations of a time, a household, a day, an old and a new state for which a person of this household changes on this day between these states at this time; the count is the
number of these persons. No row is twice, the six arrays have the same length, and the counts add up to the number of all the changes in the diaries. -/
theorem C131_households_partial (D : Diaries Nat) (household day : List Nat) (hT : D.nT ≠ 0) (hl : household.length = D.nP) (hld : day.length = D.nP) :
    ∃ g, groupHhTransitions D household day none = .ok g ∧
      g.households.length = g.times.length ∧ g.newStates.length = g.times.length ∧ g.oldStates.length = g.times.length ∧ g.counts.length = g.times.length ∧ g.dayNrs.length = g.times.length ∧
      (g.rows.map fun q => (q.1, q.2.1, q.2.2.1, q.2.2.2.1, q.2.2.2.2.1)).Nodup ∧
      (∀ t n o h d c, (t, n, o, h, d, c) ∈ g.rows ↔ t < D.nT ∧ 0 < c ∧ c = howMany D (changesTo D household day t n o h d)) ∧
      g.counts.sum = ((List.range D.nT).map fun t => howMany D fun p => decide (D.before false p t ≠ D.at' p t)).sum := by
  have hmem : ∀ r ∈ changes D false false, r.1 < D.nT ∧ r.2.1 < D.nP := by
    intro r hr
    unfold changes at hr
    obtain ⟨t, ht, hr⟩ := List.mem_flatMap.1 hr
    obtain ⟨p, hp, rfl⟩ := List.mem_map.1 hr
    exact ⟨List.mem_range.1 ht, List.mem_range.1 (List.mem_filter.1 hp).1⟩
  obtain ⟨g, g1, g2, g3, l1, l2, l3, l4, l5⟩ := groupTransitions_spec (changes D false false) household day (fun r hr => by rw [hl]; exact (hmem r hr).2) (fun r hr => by rw [hld]; exact (hmem r hr).2)
  refine ⟨g, ?_, l1, l2, l3, l4, l5, ?_, ?_, ?_⟩
  · unfold groupHhTransitions
    simp only [bind, Except.bind, statesToTransitions_eq D false false hT]
    exact g1
  · rw [g2, List.map_map]
    have : (fun q : Nat × Nat × Nat × Nat × Nat × Nat => (q.1, q.2.1, q.2.2.1, q.2.2.2.1, q.2.2.2.2.1)) ∘
        (fun q : Nat × Nat × Nat × Nat × Nat => (q.1, q.2.1, q.2.2.1, q.2.2.2.1, q.2.2.2.2, (hhCols (changes D false false) household day).count q)) = id := rfl
    rw [this, List.map_id]
    exact npUnique_nodup quintLt_total _
  · intro t n o h d c
    rw [g2]
    constructor
    · intro hm
      obtain ⟨q, hq, e⟩ := List.mem_map.1 hm
      rw [mem_npUnique quintLt_total] at hq
      simp only [Prod.mk.injEq] at e
      obtain ⟨rfl, rfl, rfl, rfl, rfl, rfl⟩ := e
      have ht : q.1 < D.nT := by
        unfold hhCols at hq
        obtain ⟨r, hr, rfl⟩ := List.mem_map.1 hq
        exact (hmem r hr).1
      exact ⟨ht, List.count_pos_iff.2 hq, hhCols_count D household day hl hld _ _ _ _ _ ht⟩
    · rintro ⟨ht, hc, e⟩
      rw [← hhCols_count D household day hl hld t n o h d ht] at e
      rw [e] at hc
      refine List.mem_map.2 ⟨(t, n, o, h, d), (mem_npUnique quintLt_total _ _).2 (List.count_pos_iff.1 hc), ?_⟩
      rw [e]
  · rw [g3, sum_count_beq _ inferInstance _ _ (npUnique_nodup quintLt_total _) (fun x hx => (mem_npUnique quintLt_total x _).2 hx)]
    unfold hhCols changes
    rw [List.length_map, List.length_flatMap]
    congr 1
    apply List.map_congr_left
    intro t _
    unfold howMany
    rw [List.length_map, List.countP_eq_length_filter]
    simp

/-- Two households of two and one persons. -/
def demoHouseholds : Diaries Nat := ⟨3, 3, fun p t => if p = 2 then [1, 1, 0].getD t 0 else [0, 1, 1].getD t 0⟩

example : groupHhTransitions demoHouseholds [7, 7, 8] [1, 1, 4] none =
    .ok { times := [0, 0, 1, 2], households := [7, 8, 7, 8], newStates := [0, 1, 1, 0], oldStates := [1, 0, 0, 1], counts := [2, 1, 2, 1], dayNrs := [1, 4, 1, 4] } := by decide +kernel

/-- **C131 (refusals).** Diaries without time steps are an `IndexError`. -/
theorem C131_refuses (D : Diaries Nat) (household day : List Nat) (hT : D.nT = 0) : groupHhTransitions D household day none = .error .indexError := by
  unfold groupHhTransitions
  simp only [bind, Except.bind, (C17_lengths D false false).1 hT]

/-- **C131 (secondary states).** With secondary states, if no time step has both a vanished primary and a vanished secondary state: a row for each combination with an event, the count is the number of these events. -/
theorem C131_secondary_partial (P S : Diaries Nat) (hn : S.nP = P.nP) (htt : S.nT = P.nT) (household day : List Nat) (hT : P.nT ≠ 0) (hl : household.length = P.nP) (hld : day.length = P.nP)
    (hone : ∀ t, t < P.nT → vanished P P S t = [] ∨ vanished S P S t = []) :
    ∃ g, groupHhTransitions P household day (some S) = .ok g ∧
      ∀ t n o h d c, (t, n, o, h, d, c) ∈ g.rows ↔ 0 < c ∧
        c = ((List.range P.nT).flatMap (eventsAt P S)).countP fun r => decide (r.1 = t ∧ r.2.2.1 = o ∧ r.2.2.2 = n ∧ household[r.2.1]? = some h ∧ day[r.2.1]? = some d) := by
  have hp : ((List.range P.nT).flatMap fun t => vanished S P S t ++ vanished P P S t) = (((List.range P.nT).flatMap (eventsAt P S)).map (·.2.1)) := by
    rw [List.map_flatMap]
    apply List.flatMap_congr
    intro t ht
    simp only [eventsAt, List.map_append, List.map_map, Function.comp_def, List.map_id']
    rcases hone t (List.mem_range.1 ht) with h | h <;> simp [h]
  have htr := secondary_eq P S hn htt hT
  rw [hp] at htr
  have hmem : ∀ r ∈ (List.range P.nT).flatMap (eventsAt P S), r.2.1 < P.nP := by
    intro r hr
    obtain ⟨t, -, hr⟩ := List.mem_flatMap.1 hr
    unfold eventsAt at hr
    rcases List.mem_append.1 hr with hr | hr
    · obtain ⟨p, hp, rfl⟩ := List.mem_map.1 hr
      exact List.mem_range.1 (List.mem_filter.1 hp).1
    · obtain ⟨p, hp, rfl⟩ := List.mem_map.1 hr
      exact List.mem_range.1 (List.mem_filter.1 hp).1
  obtain ⟨g, g1, g2, -⟩ := groupTransitions_spec ((List.range P.nT).flatMap (eventsAt P S)) household day (fun r hr => by rw [hl]; exact hmem r hr) (fun r hr => by rw [hld]; exact hmem r hr)
  have hcount : ∀ t n o h d, (hhCols ((List.range P.nT).flatMap (eventsAt P S)) household day).count (t, n, o, h, d) =
      ((List.range P.nT).flatMap (eventsAt P S)).countP fun r => decide (r.1 = t ∧ r.2.2.1 = o ∧ r.2.2.2 = n ∧ household[r.2.1]? = some h ∧ day[r.2.1]? = some d) := by
    intro t n o h d
    unfold hhCols List.count
    rw [List.countP_map]
    apply List.countP_congr
    intro r hr
    have hp' := hmem r hr
    have e1 : household[r.2.1]? = some (household.getD r.2.1 0) := by
      rw [List.getD_eq_getElem?_getD, List.getElem?_eq_getElem (by omega)]; rfl
    have e2 : day[r.2.1]? = some (day.getD r.2.1 0) := by
      rw [List.getD_eq_getElem?_getD, List.getElem?_eq_getElem (by omega)]; rfl
    rw [e1, e2]
    simp only [Function.comp, beq_iff_eq, decide_eq_true_eq, Prod.mk.injEq, Option.some.injEq]
    constructor
    · rintro ⟨a, b, c, d, e⟩; exact ⟨a, c, b, d, e⟩
    · rintro ⟨a, c, b, d, e⟩; exact ⟨a, b, c, d, e⟩
  refine ⟨g, ?_, ?_⟩
  · unfold groupHhTransitions
    simp only [bind, Except.bind, htr]
    exact g1
  · intro t n o h d c
    rw [g2, ← hcount]
    constructor
    · intro hm
      obtain ⟨q, hq, e⟩ := List.mem_map.1 hm
      rw [mem_npUnique quintLt_total] at hq
      simp only [Prod.mk.injEq] at e
      obtain ⟨rfl, rfl, rfl, rfl, rfl, rfl⟩ := e
      exact ⟨List.count_pos_iff.2 hq, rfl⟩
    · rintro ⟨hc, e⟩
      rw [e] at hc
      refine List.mem_map.2 ⟨(t, n, o, h, d), (mem_npUnique quintLt_total _ _).2 (List.count_pos_iff.1 hc), ?_⟩
      rw [e]

/-- The full property with secondary states: a household has a row only for an event of one of its persons. -/
def C131_full : Prop := ∀ (P S : Diaries Nat) (household day : List Nat) (g : HhTransitions), S.nP = P.nP → S.nT = P.nT → household.length = P.nP → day.length = P.nP →
  groupHhTransitions P household day (some S) = .ok g → ∀ t n o h d c, (t, n, o, h, d, c) ∈ g.rows → ∃ p, household[p]? = some h ∧ (t, p, o, n) ∈ (List.range P.nT).flatMap (eventsAt P S)

/-- **C131, what fails.** If at a time the primary state of one person and the secondary state of another one vanish, their transitions are attributed to the households of each other. -/
theorem C131_counterexample : ¬ C131_full := by
  intro h
  have hg : groupHhTransitions primaryExample [7, 8] [1, 1] (some secondaryExample) =
      .ok { times := [1, 1], households := [8, 7], newStates := [2, 8], oldStates := [0, 7], counts := [1, 1], dayNrs := [1, 1] } := by decide +kernel
  obtain ⟨p, hp, hm⟩ := h primaryExample secondaryExample [7, 8] [1, 1] _ rfl rfl rfl rfl hg 1 2 0 8 1 1 (by decide)
  have hm' : (1, p, 0, 2) ∈ [(1, 0, 0, 2), (1, 1, 7, 8)] := by
    have e : (List.range primaryExample.nT).flatMap (eventsAt primaryExample secondaryExample) = [(1, 0, 0, 2), (1, 1, 7, 8)] := by decide +kernel
    rw [← e]; exact hm
  simp at hm'
  subst hm'
  simp at hp

/-! ## C132: statistics of the bulbs -/

theorem bulbsOfHouse_mem (row : List (Option Rat)) (w : Rat) : w ∈ bulbsOfHouse row ↔ some w ∈ row ∧ 0 < w := by
  unfold bulbsOfHouse
  rw [List.mem_filterMap]
  constructor
  · rintro ⟨x, hx, e⟩
    obtain ⟨v, rfl, e'⟩ := Option.bind_eq_some_iff.1 e
    rw [Option.bind_some] at e
    split at e
    · rename_i h; injection e with e; subst e; exact ⟨hx, h⟩
    · cases e
  · rintro ⟨h1, h2⟩
    exact ⟨some w, h1, by rw [Option.bind_some, if_pos h2]⟩

theorem bulbsOfHouse_cons (x : Option Rat) (row : List (Option Rat)) :
    bulbsOfHouse (x :: row) = (match x with | some w => if 0 < w then [w] else [] | none => []) ++ bulbsOfHouse row := by
  unfold bulbsOfHouse
  rw [List.filterMap_cons]
  cases x with
  | none => rfl
  | some w =>
    by_cases h : 0 < w
    · simp [h]
    · simp [h]

theorem bulbsOfHouse_length (row : List (Option Rat)) : (bulbsOfHouse row).length = bulbsIn row := by
  unfold bulbsIn
  induction row with
  | nil => rfl
  | cons x row ih =>
    rw [bulbsOfHouse_cons, List.length_append, ih, List.countP_cons]
    cases x with
    | none => simp
    | some w => by_cases h : 0 < w <;> simp [h]; omega

theorem bulbsOfHouse_count (row : List (Option Rat)) (w : Rat) (hw : 0 < w) : (bulbsOfHouse row).count w = bulbsOfPower row w := by
  unfold bulbsOfPower
  induction row with
  | nil => rfl
  | cons x row ih =>
    rw [bulbsOfHouse_cons, List.count_append, ih, List.countP_cons]
    cases x with
    | none => simp
    | some v =>
      by_cases h : 0 < v
      · simp only [h, if_true, List.count_singleton]
        by_cases e : v = w
        · simp [e]; omega
        · simp [e]
      · have : v ≠ w := fun e => h (by rw [e]; exact hw)
        simp [h, this]

theorem bulbsOfHouse_sum (row : List (Option Rat)) : (bulbsOfHouse row).sum = powerOf row := by
  unfold powerOf
  induction row with
  | nil => rfl
  | cons x row ih =>
    rw [bulbsOfHouse_cons, List.sum_append, ih, List.map_cons, List.sum_cons]
    cases x with
    | none => simp
    | some v =>
      by_cases h : 0 < v
      · simp [h, max_eq_left h.le]
      · simp [h, max_eq_right (not_lt.1 h)]

theorem length_flatMap_cast (config : List (List (Option Rat))) : (config.flatMap bulbsOfHouse).length = (config.map bulbsIn).sum := by
  induction config with
  | nil => rfl
  | cons r c ih => rw [List.flatMap_cons, List.length_append, ih, List.map_cons, List.sum_cons, bulbsOfHouse_length]

theorem count_flatMap_bulbs (config : List (List (Option Rat))) (w : Rat) (hw : 0 < w) : (config.flatMap bulbsOfHouse).count w = (config.map fun row => bulbsOfPower row w).sum := by
  induction config with
  | nil => rfl
  | cons r c ih => rw [List.flatMap_cons, List.count_append, ih, List.map_cons, List.sum_cons, bulbsOfHouse_count r w hw]

theorem sum_flatMap_bulbs (config : List (List (Option Rat))) : (config.flatMap bulbsOfHouse).sum = (config.map powerOf).sum := by
  induction config with
  | nil => rfl
  | cons r c ih => rw [List.flatMap_cons, List.sum_append, ih, List.map_cons, List.sum_cons, bulbsOfHouse_sum]

theorem sum_weighted_count (u xs : List Rat) (hu : u.Nodup) (h : ∀ x ∈ xs, x ∈ u) : (u.map fun v => v * (xs.count v : Rat)).sum = xs.sum := by
  induction xs with
  | nil => simp
  | cons x xs ih =>
    have hx := h x (by simp)
    have hone : ∀ l : List Rat, l.Nodup → x ∈ l → (l.map fun v => v * (if x = v then (1 : Rat) else 0)).sum = x := by
      intro l
      induction l with
      | nil => intro _ hm; simp at hm
      | cons a l ihl =>
        intro hn hm
        rw [List.nodup_cons] at hn
        rw [List.map_cons, List.sum_cons]
        by_cases e : x = a
        · subst e
          have : (l.map fun v => v * (if x = v then (1 : Rat) else 0)) = l.map fun _ => 0 := by
            apply List.map_congr_left
            intro v hv
            rw [if_neg (fun e => hn.1 (by rw [e]; exact hv)), mul_zero]
          rw [this, if_pos rfl]
          simp
        · rw [if_neg e, mul_zero, zero_add]
          exact ihl hn.2 (by rcases List.mem_cons.1 hm with h | h; exact absurd h e; exact h)
    have hsplit : (u.map fun v => v * ((x :: xs).count v : Rat)) = u.map fun v => v * (if x = v then (1 : Rat) else 0) + v * (xs.count v : Rat) := by
      apply List.map_congr_left
      intro v _
      rw [List.count_cons]
      by_cases e : x = v
      · simp [e]; ring
      · simp [e]
    rw [hsplit, List.sum_map_add, hone u hu hx, ih (fun y hy => h y (List.mem_cons_of_mem _ hy)), List.sum_cons]

/-- **C132 (kinds of bulbs).** The powers are those of the bulbs of the houses, above 0, in increasing order, each once. The penetration of a power is the number of bulbs of this power over the number of all the bulbs; if there is a bulb, the
penetrations are above 0 and sum to 1. -/
theorem C132_penetration (config : List (List (Option Rat))) :
    (bulbStats config).consumptions.Pairwise (· < ·) ∧
    (∀ w, w ∈ (bulbStats config).consumptions ↔ 0 < w ∧ ∃ row ∈ config, some w ∈ row) ∧
    (bulbStats config).penetration.length = (bulbStats config).consumptions.length ∧
    (∀ (i : Nat) (w : Rat), (bulbStats config).consumptions[i]? = some w →
      (bulbStats config).penetration[i]? = some ((((config.map fun row => bulbsOfPower row w).sum : Nat) : Rat) / (((config.map bulbsIn).sum : Nat) : Rat))) ∧
    (0 < (config.map bulbsIn).sum → (∀ p ∈ (bulbStats config).penetration, 0 < p) ∧ (bulbStats config).penetration.sum = 1) := by
  have hmem : ∀ w, w ∈ (bulbStats config).consumptions ↔ 0 < w ∧ ∃ row ∈ config, some w ∈ row := by
    intro w
    show w ∈ npUnique ratLt _ ↔ _
    rw [mem_npUnique ratLt_total, List.mem_flatMap]
    constructor
    · rintro ⟨row, hr, hw⟩
      obtain ⟨h1, h2⟩ := (bulbsOfHouse_mem row w).1 hw
      exact ⟨h2, row, hr, h1⟩
    · rintro ⟨h2, row, hr, h1⟩
      exact ⟨row, hr, (bulbsOfHouse_mem row w).2 ⟨h1, h2⟩⟩
  have htot : ((npUnique ratLt (config.flatMap bulbsOfHouse)).map fun w => (config.flatMap bulbsOfHouse).count w).sum = (config.map bulbsIn).sum := by
    rw [sum_count _ _ (npUnique_nodup ratLt_total _) (fun x hx => (mem_npUnique ratLt_total x _).2 hx), length_flatMap_cast]
  have hpen : (bulbStats config).penetration = (bulbStats config).consumptions.map fun w => ((config.flatMap bulbsOfHouse).count w : Rat) / ((config.map bulbsIn).sum : Nat) := by
    unfold bulbStats
    dsimp only
    rw [htot]
  refine ⟨?_, hmem, by rw [hpen, List.length_map], ?_, ?_⟩
  · have := npUnique_sorted ratLt_total (config.flatMap bulbsOfHouse)
    refine List.Pairwise.imp ?_ this
    intro a b h
    simpa [ratLt] using h
  · intro i w hi
    have hw := ((hmem w).1 (List.mem_iff_getElem?.2 ⟨i, hi⟩)).1
    rw [hpen, List.getElem?_map, hi, Option.map_some, count_flatMap_bulbs config w hw]
  · intro hpos
    have hpos' : (0 : Rat) < ((config.map bulbsIn).sum : Nat) := by exact_mod_cast hpos
    constructor
    · intro p hp
      rw [hpen] at hp
      obtain ⟨w, hw, rfl⟩ := List.mem_map.1 hp
      apply div_pos _ hpos'
      have : 0 < (config.flatMap bulbsOfHouse).count w := List.count_pos_iff.2 ((mem_npUnique ratLt_total w _).1 hw)
      exact_mod_cast this
    · rw [hpen]
      have hdiv : ∀ (l : List Rat) (c : Rat), (l.map fun w => ((config.flatMap bulbsOfHouse).count w : Rat) / c).sum = ((l.map fun w => (config.flatMap bulbsOfHouse).count w).sum : Nat) / c := by
        intro l c
        induction l with
        | nil => simp
        | cons a l ih => rw [List.map_cons, List.sum_cons, ih, List.map_cons, List.sum_cons]; push_cast; ring
      rw [hdiv]
      show ((((npUnique ratLt (config.flatMap bulbsOfHouse)).map fun w => (config.flatMap bulbsOfHouse).count w).sum : Nat) : Rat) / _ = 1
      rw [htot]
      exact div_self hpos'.ne'

/-- **C132 (installed bulbs).** The mean times the number of houses is the number of the bulbs; the variance is the mean of the squares of the deviations: it is not negative, and 0 exactly if all the houses have the same number of bulbs. -/
theorem C132_installed (config : List (List (Option Rat))) (hne : config ≠ []) :
    ∃ m v, (bulbStats config).mean = some m ∧ (bulbStats config).variance = some v ∧ m * config.length = ((config.map bulbsIn).sum : Nat) ∧
      v * config.length = (config.map fun row => ((bulbsIn row : Rat) - m) ^ 2).sum ∧ 0 ≤ v ∧ (v = 0 ↔ ∀ r ∈ config, ∀ r' ∈ config, bulbsIn r = bulbsIn r') := by
  have hcounts : (config.map fun row => ((bulbsOfHouse row).length : Rat)) = config.map fun row => (bulbsIn row : Rat) := by
    apply List.map_congr_left
    intro row _
    rw [bulbsOfHouse_length]
  have hL : (0 : Rat) < config.length := by
    have := List.length_pos_of_ne_nil hne
    exact_mod_cast this
  have hmean : (bulbStats config).mean = some ((config.map fun row => (bulbsIn row : Rat)).sum / config.length) := by
    unfold bulbStats npMean
    dsimp only
    rw [hcounts, if_neg (by simpa using hne), List.length_map]
  obtain ⟨m, hm⟩ : ∃ m, m = (config.map fun row => (bulbsIn row : Rat)).sum / config.length := ⟨_, rfl⟩
  have hvar : (bulbStats config).variance = some ((config.map fun row => ((bulbsIn row : Rat) - m) ^ 2).sum / config.length) := by
    have : (bulbStats config).variance = (bulbStats config).mean.bind fun m => npMean ((config.map fun row => ((bulbsOfHouse row).length : Rat)).map fun c => (c - m) * (c - m)) := rfl
    rw [this, hmean, ← hm, Option.bind_some, hcounts]
    unfold npMean
    rw [if_neg (by simpa using hne), List.map_map, List.length_map]
    congr 3
    apply List.map_congr_left
    intro row _
    simp only [Function.comp]
    ring
  have hsq : ∀ x ∈ config.map (fun row => ((bulbsIn row : Rat) - m) ^ 2), 0 ≤ x := by
    intro x hx
    obtain ⟨row, -, rfl⟩ := List.mem_map.1 hx
    positivity
  refine ⟨m, _, by rw [hm]; exact hmean, hvar, ?_, div_mul_cancel₀ _ hL.ne', div_nonneg (List.sum_nonneg hsq) hL.le, ?_⟩
  · rw [hm, div_mul_cancel₀ _ hL.ne']
    clear hm hvar hsq hmean hcounts hne hL
    induction config with
    | nil => simp
    | cons r c ih => rw [List.map_cons, List.sum_cons, ih, List.map_cons, List.sum_cons]; push_cast; rfl
  · rw [div_eq_zero_iff]
    constructor
    · rintro (h | h)
      · have hz := sum_zero_nonneg _ hsq h
        have he : ∀ r ∈ config, (bulbsIn r : Rat) = m := by
          intro r hr
          have := hz _ (List.mem_map.2 ⟨r, hr, rfl⟩)
          have h0 : (bulbsIn r : Rat) - m = 0 := by simpa using this
          linarith
        intro r hr r' hr'
        have := (he r hr).trans (he r' hr').symm
        exact_mod_cast this
      · exact absurd h hL.ne'
    · intro h
      left
      obtain ⟨r0, hr0⟩ := List.exists_mem_of_ne_nil _ hne
      have hm0 : m = bulbsIn r0 := by
        rw [hm, div_eq_iff hL.ne']
        have : (config.map fun row => (bulbsIn row : Rat)) = config.map fun _ => (bulbsIn r0 : Rat) := by
          apply List.map_congr_left
          intro r hr
          rw [h r hr r0 hr0]
        rw [this]
        simp [mul_comm]
      have : (config.map fun row => ((bulbsIn row : Rat) - m) ^ 2) = config.map fun _ => (0 : Rat) := by
        apply List.map_congr_left
        intro r hr
        rw [hm0, h r hr r0 hr0]
        simp
      rw [this]
      simp

/-- **C132 (power).** The mean number of bulbs times the mean power of the kinds of bulbs, weighted by their penetration, is the mean power of the bulbs of a house. -/
theorem C132_power (config : List (List (Option Rat))) (hb : 0 < (config.map bulbsIn).sum) (m : Rat) (hm : (bulbStats config).mean = some m) :
    m * (List.zipWith (fun w p => w * p) (bulbStats config).consumptions (bulbStats config).penetration).sum = (config.map powerOf).sum / config.length := by
  have hne : config ≠ [] := by rintro rfl; simp at hb
  obtain ⟨m', v, h1, -, h2, -⟩ := C132_installed config hne
  rw [hm] at h1
  injection h1 with h1
  subst h1
  have hL : (0 : Rat) < config.length := by
    have := List.length_pos_of_ne_nil hne
    exact_mod_cast this
  have hpos' : (0 : Rat) < ((config.map bulbsIn).sum : Nat) := by exact_mod_cast hb
  have htot : ((npUnique ratLt (config.flatMap bulbsOfHouse)).map fun w => (config.flatMap bulbsOfHouse).count w).sum = (config.map bulbsIn).sum := by
    rw [sum_count _ _ (npUnique_nodup ratLt_total _) (fun x hx => (mem_npUnique ratLt_total x _).2 hx), length_flatMap_cast]
  have hz : (List.zipWith (fun w p => w * p) (bulbStats config).consumptions (bulbStats config).penetration).sum = (config.map powerOf).sum / ((config.map bulbsIn).sum : Nat) := by
    unfold bulbStats
    dsimp only
    rw [htot, List.zipWith_map_right, List.zipWith_self, ← sum_flatMap_bulbs, ← sum_weighted_count _ _ (npUnique_nodup ratLt_total (config.flatMap bulbsOfHouse)) (fun x hx => (mem_npUnique ratLt_total x _).2 hx)]
    generalize npUnique ratLt (config.flatMap bulbsOfHouse) = u
    induction u with
    | nil => simp
    | cons a u ih => rw [List.map_cons, List.sum_cons, ih, List.map_cons, List.sum_cons]; ring
  rw [hz, ← h2, ← mul_div_assoc, div_eq_div_iff (by rw [h2]; exact hpos'.ne') hL.ne']
  ring

/-- **C132 (households).** Households whose bulbs are drawn with these statistics only have bulbs of the houses of the table. -/
theorem C132_sampled (config : List (List (Option Rat))) (hb : 0 < (config.map bulbsIn).sum) (mean std : Rat) (zs : List Rat) (hz : zs ≠ []) (u : Nat → Nat → Rat) (h0 : ∀ h k, 0 ≤ u h k) (h1 : ∀ h k, u h k < 1) :
    ∃ out, bulbsRandn mean std (bulbStats config).consumptions (bulbStats config).penetration zs u = .ok out ∧ out.length = zs.length ∧
      ∀ row ∈ out, ∀ w ∈ row, w ≠ 0 → 0 < w ∧ ∃ r ∈ config, some w ∈ r := by
  obtain ⟨-, p2, p3, -, p5⟩ := C132_penetration config
  obtain ⟨p6, p7⟩ := p5 hb
  obtain ⟨out, o1, o2, width, o3⟩ := C91_randn mean std (bulbStats config).consumptions (bulbStats config).penetration (by omega) (fun x hx => (p6 x hx).le) p7 zs hz u h0 h1
  refine ⟨out, o1, o2, ?_⟩
  intro row hrow w hw hw0
  obtain ⟨h, hh⟩ := List.mem_iff_getElem?.1 hrow
  have hlt : h < zs.length := by rw [← o2]; exact (List.getElem?_eq_some_iff.1 hh).1
  obtain ⟨row', n, r1, r2, -, -, -, -, r3, r4⟩ := o3 h zs[h] (List.getElem?_eq_getElem hlt)
  rw [hh] at r1
  injection r1 with r1
  subst r1
  obtain ⟨k, hk⟩ := List.mem_iff_getElem?.1 hw
  have hkl : k < row.length := (List.getElem?_eq_some_iff.1 hk).1
  by_cases hkn : k < n
  · obtain ⟨j, p, -, -, -, e⟩ := r3 k hkn
    rw [hk] at e
    exact (p2 w).1 (List.mem_iff_getElem?.2 ⟨j, e.symm⟩)
  · have := r4 k (by omega) (by omega)
    rw [hk] at this
    injection this with this
    exact absurd this hw0

/-- The bulbs of two houses; the second one has a single bulb. -/
example : bulbStats [[some 60, some 10, some 60], [some 10, some 0, none]] = ⟨some 2, some 1, [10, 60], [1 / 2, 1 / 2]⟩ := by decide +kernel

end Demod
