import Verif.Lemmas.ParseTpm

/-! # Properties of the parsing of diaries (C17–C22)

`D : Diaries σ` is an array of diaries: `D.nP` persons, `D.nT` time steps and the state
`D.at' p t`. The specification is in `Verif/Spec/Parse.lean`. -/

namespace Demod

section
variable {σ : Type} [DecidableEq σ]

/-- The records `(time, person, old state, new state)` returned. -/
def Transitions.records (tr : Transitions σ) : List (Nat × Nat × σ × σ) :=
  tr.times.zip (tr.persons.zip (tr.oldStates.zip tr.newStates))

/-! ## C17 -/

theorem zip4 {α β γ δ ε : Type} (C : List ε) (f : ε → α) (g : ε → β) (h : ε → γ) (k : ε → δ) :
    (C.map f).zip ((C.map g).zip ((C.map h).zip (C.map k))) = C.map fun r => (f r, g r, h r, k r) := by
  rw [List.zip_map', List.zip_map', List.zip_map']

theorem records_eq (D : Diaries σ) (inc ign : Bool) (tr : Transitions σ) (h : statesToTransitions D inc ign = .ok tr) :
    tr.records = changes D inc ign := by
  have hT : D.nT ≠ 0 := by
    intro hc; unfold statesToTransitions at h; rw [if_pos hc] at h; cases h
  rw [statesToTransitions_eq D inc ign hT] at h
  have h := (Except.ok.inj h).symm
  subst h
  unfold Transitions.records
  rw [zip4]
  exact List.map_id _

/-- The extraction succeeds exactly when the diaries have time steps, and the four arrays have the same
length. -/
theorem C17_lengths (D : Diaries σ) (inc ign : Bool) :
    (D.nT = 0 → statesToTransitions D inc ign = .error .indexError) ∧
    (D.nT ≠ 0 → ∃ tr, statesToTransitions D inc ign = .ok tr ∧ tr.persons.length = tr.times.length ∧
      tr.oldStates.length = tr.times.length ∧ tr.newStates.length = tr.times.length) := by
  constructor
  · intro h; unfold statesToTransitions; rw [if_pos h]
  · intro h
    exact ⟨_, statesToTransitions_eq D inc ign h, by simp, by simp, by simp⟩

/-- A record is returned exactly when the diary of that person changes from the old to the new
state at that time (any step, with `include_same_state`). -/
theorem C17_records (D : Diaries σ) (inc ign : Bool) (tr : Transitions σ)
    (h : statesToTransitions D inc ign = .ok tr) (t p : Nat) (o n : σ) :
    (t, p, o, n) ∈ tr.records ↔
      t < D.nT ∧ p < D.nP ∧ o = D.before ign p t ∧ n = D.at' p t ∧ (inc = true ∨ o ≠ n) := by
  rw [records_eq D inc ign tr h]
  unfold changes
  rw [List.mem_flatMap]
  constructor
  · rintro ⟨t', ht', hm⟩
    obtain ⟨p', hp', he⟩ := List.mem_map.1 hm
    have hp' := List.mem_filter.1 hp'
    injection he with h1 h2
    injection h2 with h2 h3
    injection h3 with h3 h4
    subst h1 h2 h3 h4
    refine ⟨List.mem_range.1 ht', List.mem_range.1 hp'.1, rfl, rfl, ?_⟩
    simpa using hp'.2
  · rintro ⟨h1, h2, rfl, rfl, h3⟩
    refine ⟨t, List.mem_range.2 h1, List.mem_map.2 ⟨p, List.mem_filter.2 ⟨List.mem_range.2 h2, ?_⟩, rfl⟩⟩
    simpa using h3

/-- The records come by increasing time, and at one time by increasing person, so none is repeated. -/
theorem C17_ordered_once (D : Diaries σ) (inc ign : Bool) (tr : Transitions σ)
    (h : statesToTransitions D inc ign = .ok tr) :
    tr.records.Pairwise (fun a b => a.1 < b.1 ∨ (a.1 = b.1 ∧ a.2.1 < b.2.1)) ∧ tr.records.Nodup := by
  have key : tr.records.Pairwise (fun a b => a.1 < b.1 ∨ (a.1 = b.1 ∧ a.2.1 < b.2.1)) := by
    rw [records_eq D inc ign tr h]
    unfold changes
    rw [List.pairwise_flatMap]
    constructor
    · intro t _
      rw [List.pairwise_map]
      refine (List.Pairwise.filter _ List.pairwise_lt_range).imp ?_
      intro a b hab
      exact Or.inr ⟨rfl, hab⟩
    · refine List.pairwise_lt_range.imp ?_
      intro a b hab x hx y hy
      obtain ⟨_, _, rfl⟩ := List.mem_map.1 hx
      obtain ⟨_, _, rfl⟩ := List.mem_map.1 hy
      exact Or.inl hab
  refine ⟨key, key.imp ?_⟩
  rintro a b hab rfl
  omega

theorem rebuild_spec (D : Diaries σ) (ign : Bool) (p t : Nat) (hp : p < D.nP) (ht : t < D.nT) :
    rebuild (fun p => D.at' p 0) (changes D false ign) p t = D.at' p t := by
  unfold rebuild
  have e : (changes D false ign).filter (fun r => decide (r.2.1 = p ∧ r.1 ≤ t)) =
      (((changeTimes D ign p).filter fun u => decide (u ≤ t)).map fun u => (u, p, D.before ign p u, D.at' p u)) := by
    have := changes_person D ign p hp
    have e2 : (changes D false ign).filter (fun r => decide (r.2.1 = p ∧ r.1 ≤ t)) =
        ((changes D false ign).filter (fun r => r.2.1 == p)).filter fun r => decide (r.1 ≤ t) := by
      rw [List.filter_filter]
      apply List.filter_congr
      intro r _
      by_cases h1 : r.2.1 = p <;> by_cases h2 : r.1 ≤ t <;> simp [h1, h2]
    rw [e2, this, List.filter_map]
    rfl
  rw [e]
  cases hl : (changeTimes D ign p).filter fun u => decide (u ≤ t) with
  | nil =>
    simp only [List.map_nil, List.getLast?_nil]
    refine (const_of_no_change D ign p 0 (t + 1) ?_ t (by omega) (by omega)).symm
    intro x h1 h2
    by_contra hc
    have : x ∈ (changeTimes D ign p).filter fun u => decide (u ≤ t) := by
      rw [List.mem_filter]
      exact ⟨(mem_changeTimes D ign p x).2 ⟨by omega, hc⟩, by simp; omega⟩
    rw [hl] at this
    cases this
  | cons a l =>
    rw [← hl, List.getLast?_map]
    have hne : (changeTimes D ign p).filter (fun u => decide (u ≤ t)) ≠ [] := by rw [hl]; simp
    rw [List.getLast?_eq_getLast_of_ne_nil hne]
    simp only [Option.map_some]
    have hmem := List.getLast_mem hne
    have hu := List.mem_filter.1 hmem
    refine (const_of_no_change D ign p _ (t + 1) ?_ t (by simpa using hu.2) (by omega)).symm
    intro x h1 h2
    by_contra hc
    have hx : x ∈ (changeTimes D ign p).filter fun u => decide (u ≤ t) := by
      rw [List.mem_filter]
      exact ⟨(mem_changeTimes D ign p x).2 ⟨by omega, hc⟩, by simp; omega⟩
    have hs : ((changeTimes D ign p).filter fun u => decide (u ≤ t)).Pairwise (· < ·) :=
      List.Pairwise.filter _ (changeTimes_sorted D ign p)
    have hle : x ≤ ((changeTimes D ign p).filter fun u => decide (u ≤ t)).getLast hne := by
      obtain ⟨i, hi, rfl⟩ := List.getElem_of_mem hx
      rw [List.getLast_eq_getElem]
      rcases Nat.lt_or_ge i (((changeTimes D ign p).filter fun u => decide (u ≤ t)).length - 1) with h3 | h3
      · exact Nat.le_of_lt (List.pairwise_iff_getElem.1 hs _ _ hi (by omega) h3)
      · have : i = ((changeTimes D ign p).filter fun u => decide (u ≤ t)).length - 1 := by omega
        simp only [this]; exact le_refl _
    omega

/-- The first states and the transitions determine the diaries. -/
theorem C17_rebuild (D : Diaries σ) (ign : Bool) (tr : Transitions σ)
    (h : statesToTransitions D false ign = .ok tr) (p t : Nat) (hp : p < D.nP) (ht : t < D.nT) :
    rebuild (fun p => D.at' p 0) tr.records p t = D.at' p t := by
  rw [records_eq D false ign tr h]
  exact rebuild_spec D ign p t hp ht

/-! ## C18 -/

/-- Every transition carries the time during which its new state is kept, around midnight. With
`ignore_end_start_transitions` the last transition of a diary that does not end in its first
state carries 0. -/
theorem C18_durations [Inhabited σ] (D : Diaries σ) (ign : Bool) (tr : Transitions σ)
    (h : statesToTransitions D false ign = .ok tr) :
    (transitionDurations D.nT ign tr).length = tr.records.length ∧
    ∀ t p o n d, ((t, p, o, n), d) ∈ tr.records.zip (transitionDurations D.nT ign tr) →
      d = keptFor D ign p t ∧
      ((ign = false ∨ D.at' p 0 = D.at' p (D.nT - 1) ∨ ∃ x, t ≤ x ∧ x < D.nT ∧ D.at' p x ≠ n) → IsRun D p t d) ∧
      (ign = true → D.at' p 0 ≠ D.at' p (D.nT - 1) → (∀ x, t ≤ x → x < D.nT → D.at' p x = n) → d = 0) := by
  rw [records_eq D false ign tr h]
  have hl := (durations_person D ign tr h).1
  refine ⟨hl, ?_⟩
  intro t p o n d hm
  obtain ⟨k, hk, he⟩ := List.getElem_of_mem hm
  have hk1 : k < (changes D false ign).length := by simp at hk; omega
  rw [List.getElem_zip] at he
  injection he with he1 he2
  obtain ⟨j, hj, hpn, hr, hd⟩ := duration_mem D ign tr h k hk1 (by omega)
  rw [he1] at hpn
  have hj' : j < (changeTimes D ign p).length := by simpa [he1] using hj
  have ht : t = (changeTimes D ign p)[j] := by
    have := congrArg Prod.fst hr
    simpa [he1] using this
  have hn : n = D.at' p t := by
    have := congrArg (·.2.2.2) hr
    rw [ht]
    simpa [he1] using this
  have hkd : d = keptFor D ign p t := by
    rw [← he2]
    simp [transitionDurations_eq D ign tr h, he1]
  have htl : t < D.nT := by rw [ht]; exact ((mem_changeTimes D ign p _).1 (List.getElem_mem hj')).1
  refine ⟨hkd, ?_, ?_⟩
  · intro hc
    have hrl : ∃ d', IsRun D p t d' := by
      rw [ht]
      refine ⟨_, personDurations_run D ign p j hj' ?_⟩
      intro hje
      have hje2 : j = (changeTimes D ign p).length - 1 := by omega
      have hpos : 0 < (changeTimes D ign p).length := by omega
      cases ign with
      | false => subst hje2; exact first_eq_last_of_wrap D p hpos
      | true =>
        rw [(first_ignored D p hpos).2]
        have hend := const_of_no_change D true p _ D.nT (fun x a b => no_change_after D true p hpos x a b)
        rcases hc with hc | hc | ⟨x, hx1, hx2, hx3⟩
        · cases hc
        · rw [hc, last_change_state D true p hpos]; subst hje2; rfl
        · exfalso; apply hx3
          rw [hn, ht]
          have := hend x (by subst hje2; rw [ht] at hx1; exact hx1) hx2
          subst hje2
          exact this
    obtain ⟨d', hd'⟩ := hrl
    have hrun := (runLength_of_isRun D p t d' htl hd').1
    have hkept : keptFor D ign p t = runLength D p t := by
      unfold keptFor
      rw [if_neg]
      rintro ⟨h1, h2, h3⟩
      rw [List.all_eq_true] at h3
      rcases hc with hc | hc | ⟨x, hx1, hx2, hx3⟩
      · rw [h1] at hc; cases hc
      · exact h2 hc
      · have := h3 x (List.mem_range.2 hx2)
        simp only [decide_eq_true_eq] at this
        exact hx3 (by rw [this hx1, hn])
    rw [hkd, hkept, hrun]
    exact hd'
  · intro h1 h2 h3
    rw [hkd]
    unfold keptFor
    rw [if_pos]
    refine ⟨h1, h2, ?_⟩
    rw [List.all_eq_true]
    intro x hx
    simp only [decide_eq_true_eq]
    intro hle
    rw [h3 x hle (List.mem_range.1 hx), hn]

omit [DecidableEq σ] in
theorem sum_filter_zip (A : List (Nat × Nat × σ × σ)) (B : List Nat) (h : A.length = B.length) (p : Nat) :
    ((A.zip B).filter (fun x => x.1.2.1 == p)).map (·.2) = maskSel (A.map fun r => r.2.1 == p) B := by
  induction A generalizing B with
  | nil => simp [maskSel]
  | cons a A ih =>
    cases B with
    | nil => simp at h
    | cons b B =>
      have := ih B (by simpa using h)
      unfold maskSel at this ⊢
      rw [List.zip_cons_cons, List.map_cons, List.zip_cons_cons, List.filter_cons, List.filterMap_cons]
      by_cases hp : a.2.1 = p
      · simp [hp, this]
      · simp [hp, this]

/-- The durations of a diary with a transition tile the day: without the `ignore` option always, with
it when the diary ends in its first state. -/
theorem C18_tile [Inhabited σ] (D : Diaries σ) (ign : Bool) (tr : Transitions σ)
    (h : statesToTransitions D false ign = .ok tr) (p : Nat) (hp : p < D.nP)
    (hch : ∃ t o n, (t, p, o, n) ∈ tr.records) (hw : ign = false ∨ D.at' p 0 = D.at' p (D.nT - 1)) :
    (((tr.records.zip (transitionDurations D.nT ign tr)).filter (fun x => x.1.2.1 == p)).map (·.2)).sum = D.nT := by
  obtain ⟨t, o, n, hm⟩ := hch
  have hr := (C17_records D false ign tr h t p o n).1 hm
  have hne : changeTimes D ign p ≠ [] := by
    intro hc
    have : t ∈ changeTimes D ign p := by
      rw [mem_changeTimes]
      obtain ⟨h1, _, rfl, rfl, h5⟩ := hr
      exact ⟨h1, by simpa using h5⟩
    rw [hc] at this; cases this
  have hpos : 0 < (changeTimes D ign p).length := List.length_pos_iff.2 hne
  rw [records_eq D false ign tr h]
  have hd := durations_person D ign tr h
  rw [sum_filter_zip _ _ hd.1.symm, hd.2 p hp hne,
    personDurations_sum D.nT ign _ _ _ (changeTimes_sorted D ign p) hne
      (fun t ht => ((mem_changeTimes D ign p t).1 ht).1), headD_getElem _ _ hpos, getLastD_getElem _ _ hpos, if_pos]
  cases ign with
  | false => exact first_eq_last_of_wrap D p hpos
  | true =>
    rw [(first_ignored D p hpos).2]
    rcases hw with hw | hw
    · cases hw
    · rw [hw, last_change_state D true p hpos]

end

/-- Two diaries of 4 steps. -/
def exampleDiaries : Diaries Nat := ⟨2, 4, fun p t => if p = 0 then [0, 1, 1, 2].getD t 0 else [1, 1, 0, 1].getD t 0⟩

example : (statesToTransitions exampleDiaries false false).map Transitions.records =
    .ok [(0, 0, 2, 0), (1, 0, 0, 1), (2, 1, 1, 0), (3, 0, 1, 2), (3, 1, 0, 1)] := by decide

example : (statesToTransitions exampleDiaries false false).map (transitionDurations 4 false) = .ok [1, 2, 1, 1, 3] := by decide

/-- With `ignore_end_start_transitions` durations need not be positive: the last stretch of the
first diary gets 0 and its durations do not sum to the day. -/
theorem C18_ignore_counterexample :
    (statesToTransitions exampleDiaries false true).map (fun tr => (tr.records, transitionDurations 4 true tr)) =
      .ok ([(1, 0, 0, 1), (2, 1, 1, 0), (3, 0, 1, 2), (3, 1, 0, 1)], [2, 1, 0, 3]) := by decide

/-! ## C19 -/

/-- Two persons; at the second time step the primary state of person 0 disappears and the secondary
state of person 1 disappears: the event `(1, person 0, 'a' → 'c')` is returned as
`(1, person 1, 'a' → 'c')`. -/
def primaryExample : Diaries Nat := ⟨2, 2, fun p t => if p = 0 then [0, 2].getD t 0 else 5⟩
def secondaryExample : Diaries Nat := ⟨2, 2, fun p t => if p = 0 then 9 else [7, 8].getD t 0⟩

theorem C19_counterexample :
    (statesToTransitionsSecondary primaryExample secondaryExample).map Transitions.records =
      .ok [(1, 1, 0, 2), (1, 0, 7, 8)] ∧
    (∀ t, primaryExample.at' 1 t = 5 ∧ secondaryExample.at' 1 t ≠ 2) ∧
    (∀ t, primaryExample.at' 0 t ≠ 8 ∧ secondaryExample.at' 0 t = 9) := by
  refine ⟨by decide, ?_, ?_⟩
  · intro t
    simp only [primaryExample, secondaryExample]
    refine ⟨rfl, ?_⟩
    rcases t with _ | _ | t <;> simp
  · intro t
    simp only [primaryExample, secondaryExample]
    refine ⟨?_, rfl⟩
    rcases t with _ | _ | t <;> simp

/-- The times, the old and the new states are those of the events, in order; only the persons are
permuted within a time step. Missing for the full property: the alignment of the persons, which is false. -/
theorem C19_states_partial {σ : Type} [DecidableEq σ] (P S : Diaries σ) (hn : S.nP = P.nP) (ht : S.nT = P.nT)
    (tr : Transitions σ) (h : statesToTransitionsSecondary P S = .ok tr) :
    tr.times.zip (tr.oldStates.zip tr.newStates) =
      ((List.range P.nT).flatMap (eventsAt P S)).map (fun r => (r.1, r.2.2.1, r.2.2.2)) ∧
    tr.persons.length = tr.times.length ∧
    tr.persons.Perm (((List.range P.nT).flatMap (eventsAt P S)).map (·.2.1)) := by
  have hT : P.nT ≠ 0 := by
    intro hc; unfold statesToTransitionsSecondary at h; rw [if_pos hc] at h; cases h
  rw [secondary_eq P S hn ht hT] at h
  have h := (Except.ok.inj h).symm
  subst h
  have hperm : ((List.range P.nT).flatMap fun t => vanished S P S t ++ vanished P P S t).Perm
      (((List.range P.nT).flatMap (eventsAt P S)).map (·.2.1)) := by
    rw [List.map_flatMap]
    apply List.Perm.flatMap_left
    intro t _
    simp only [eventsAt, List.map_append, List.map_map, Function.comp_def, List.map_id']
    exact List.perm_append_comm
  refine ⟨?_, ?_, hperm⟩
  · simp only
    rw [List.zip_map', List.zip_map']
  · simp only
    rw [hperm.length_eq]; simp

/-- If no time step has both a vanished primary and a vanished secondary state, person, old and new
state describe the same event. Missing: time steps with both, where the property is false
(`C19_counterexample`). -/
theorem C19_aligned_partial {σ : Type} [DecidableEq σ] (P S : Diaries σ) (hn : S.nP = P.nP) (ht : S.nT = P.nT)
    (tr : Transitions σ) (h : statesToTransitionsSecondary P S = .ok tr)
    (hone : ∀ t, t < P.nT → vanished P P S t = [] ∨ vanished S P S t = []) :
    tr.records = (List.range P.nT).flatMap (eventsAt P S) := by
  have hT : P.nT ≠ 0 := by
    intro hc; unfold statesToTransitionsSecondary at h; rw [if_pos hc] at h; cases h
  rw [secondary_eq P S hn ht hT] at h
  have h := (Except.ok.inj h).symm
  subst h
  have hp : ((List.range P.nT).flatMap fun t => vanished S P S t ++ vanished P P S t) =
      (((List.range P.nT).flatMap (eventsAt P S)).map (·.2.1)) := by
    rw [List.map_flatMap]
    apply List.flatMap_congr
    intro t ht
    simp only [eventsAt, List.map_append, List.map_map, Function.comp_def, List.map_id']
    rcases hone t (List.mem_range.1 ht) with h | h <;> simp [h]
  unfold Transitions.records
  simp only
  rw [hp, zip4]
  exact List.map_id _

/-- A case of the hypothesis with events of both kinds. -/
example : ∃ P S : Diaries Nat, (∀ t, t < P.nT → vanished P P S t = [] ∨ vanished S P S t = []) ∧
    (statesToTransitionsSecondary P S).map Transitions.records = .ok [(1, 0, 0, 2), (2, 1, 7, 8)] :=
  ⟨⟨2, 3, fun p t => if p = 0 then [0, 2, 2].getD t 0 else 5⟩, ⟨2, 3, fun p t => if p = 0 then 9 else [7, 7, 8].getD t 0⟩,
    by decide, by decide⟩

/-! ## C20 -/

/-- `convert_states` raises `KeyError` exactly when a raw state has no entry in the merge
dictionary, and `ValueError` exactly on an empty array. -/
theorem C20_raises {α β : Type} [DecidableEq α] [DecidableEq β] (ltA : α → α → Bool) (ltB : β → β → Bool)
    (hA : StrictTotal ltA) (merge : α → Option β) (raw : List α) :
    ((∃ x ∈ raw, merge x = none) → convertStates ltA ltB merge raw = .error .keyError) ∧
    (raw ≠ [] → (∀ x ∈ raw, ∃ y, merge x = some y) → ∃ r, convertStates ltA ltB merge raw = .ok r) ∧
    (raw = [] → convertStates ltA ltB merge raw = .error .valueError) := by
  refine ⟨?_, ?_, fun h => by subst h; rfl⟩
  · rintro ⟨x, hx, hm⟩
    have hu := (mem_npUnique hA x raw).2 hx
    have herr : ∀ l : List α, x ∈ l → (l.mapM (dictGet merge)) = .error PyErr.keyError := by
      intro l hl
      induction l with
      | nil => cases hl
      | cons a l ih =>
        rw [List.mapM_cons]
        cases ha : merge a with
        | none => simp only [dictGet, ha]; rfl
        | some y =>
          have : x ∈ l := by
            rcases List.mem_cons.1 hl with rfl | h
            · rw [hm] at ha; cases ha
            · exact h
          simp only [dictGet, ha, ih this]; rfl
    unfold convertStates
    rw [if_neg (List.ne_nil_of_mem hx)]
    simp only [herr _ hu]; rfl
  · intro hne h
    have hok : ∀ l : List α, (∀ x ∈ l, ∃ y, merge x = some y) → ∃ ys, (l.mapM (dictGet merge)) = (.ok ys : Except PyErr (List β)) := by
      intro l hl
      induction l with
      | nil => exact ⟨[], rfl⟩
      | cons a l ih =>
        obtain ⟨ys, hys⟩ := ih fun x hx => hl x (List.mem_cons_of_mem _ hx)
        obtain ⟨y, hy⟩ := hl a List.mem_cons_self
        refine ⟨y :: ys, ?_⟩
        rw [List.mapM_cons]
        simp only [dictGet, hy, hys]; rfl
    obtain ⟨ys, hys⟩ := hok (npUnique ltA raw) fun x hx => h x ((mem_npUnique hA x raw).1 hx)
    unfold convertStates
    rw [if_neg hne]
    simp only [hys]
    exact ⟨_, rfl⟩

theorem mapM_merge {α β : Type} (merge : α → Option β) (l : List α) (ys : List β)
    (h : (l.mapM (dictGet merge)) = (.ok ys : Except PyErr (List β))) :
    ys.length = l.length ∧ ∀ i (hi : i < l.length) (hi' : i < ys.length), merge l[i] = some ys[i] := by
  induction l generalizing ys with
  | nil =>
    rw [List.mapM_nil] at h
    have := Except.ok.inj h
    subst this
    simp
  | cons a l ih =>
    rw [List.mapM_cons] at h
    cases ha : merge a with
    | none => simp only [dictGet, ha] at h; cases h
    | some y =>
      have hg : dictGet merge a = .ok y := by simp [dictGet, ha]
      rw [hg] at h
      cases hl : (l.mapM (dictGet merge) : Except PyErr (List β)) with
      | error e => rw [hl] at h; cases h
      | ok zs =>
        rw [hl] at h
        have := Except.ok.inj h
        subst this
        obtain ⟨h1, h2⟩ := ih zs hl
        refine ⟨by simp [h1], ?_⟩
        intro i hi hi'
        cases i with
        | zero => simpa using ha
        | succ i => simpa using h2 i (by simpa using hi) (by simpa using hi')

/-- The label of the code of every entry is its (merged) raw state; the labels are sorted, without
repetition, and are exactly the merged states that occur. -/
theorem C20_lossless {α β : Type} [DecidableEq α] [DecidableEq β] (ltA : α → α → Bool) (ltB : β → β → Bool)
    (hA : StrictTotal ltA) (hB : StrictTotal ltB) (merge : α → Option β) (raw : List α) (codes : List Nat) (labels : List β)
    (h : convertStates ltA ltB merge raw = .ok (codes, labels)) :
    codes.length = raw.length ∧
    (∀ i (hi : i < raw.length) (hi' : i < codes.length),
      ∃ hc : codes[i] < labels.length, merge raw[i] = some labels[codes[i]]) ∧
    labels.Pairwise (fun x y => ltB x y = true) ∧ labels.Nodup ∧
    ∀ y, y ∈ labels ↔ ∃ x ∈ raw, merge x = some y := by
  unfold convertStates at h
  by_cases hne : raw = []
  · rw [if_pos hne] at h; cases h
  rw [if_neg hne] at h
  cases hl : ((npUnique ltA raw).mapM (dictGet merge) : Except PyErr (List β)) with
  | error e => simp only [hl] at h; cases h
  | ok ys =>
    simp only [hl] at h
    have h := Except.ok.inj h
    injection h with h1 h2
    obtain ⟨hlen, hget⟩ := mapM_merge merge _ _ hl
    subst h2
    refine ⟨by rw [← h1]; simp, ?_, npUnique_sorted hB ys, npUnique_nodup hB ys, ?_⟩
    · intro i hi hi'
      have hmem := (mem_npUnique hA raw[i] raw).2 (List.getElem_mem hi)
      have hk : (npUnique ltA raw).idxOf raw[i] < (npUnique ltA raw).length := List.idxOf_lt_length_iff.2 hmem
      have hk' : (npUnique ltA raw).idxOf raw[i] < ys.length := by omega
      have hcode : codes[i] = (npUnique ltB ys).idxOf ys[(npUnique ltA raw).idxOf raw[i]] := by
        simp only [← h1]
        simp [List.getElem?_eq_getElem hk']
      have hmy := (mem_npUnique hB ys[(npUnique ltA raw).idxOf raw[i]] ys).2 (List.getElem_mem hk')
      have hlt := List.idxOf_lt_length_iff.2 hmy
      refine ⟨by rw [hcode]; exact hlt, ?_⟩
      have e1 := hget _ hk hk'
      rw [List.getElem_idxOf] at e1
      rw [e1]
      simp only [hcode, List.getElem_idxOf]
    · intro y
      rw [mem_npUnique hB]
      constructor
      · intro hy
        obtain ⟨i, hi, rfl⟩ := List.getElem_of_mem hy
        exact ⟨_, (mem_npUnique hA _ raw).1 (List.getElem_mem (by omega)), hget i (by omega) hi⟩
      · rintro ⟨x, hx, hm⟩
        have hmem := (mem_npUnique hA x raw).2 hx
        obtain ⟨i, hi, rfl⟩ := List.getElem_of_mem hmem
        have := hget i hi (by omega)
        rw [hm] at this
        have := Option.some.inj this
        rw [this]
        exact List.getElem_mem _

example : StrictTotal (fun a b : Nat => decide (a < b)) :=
  ⟨by simp, by simp; omega, by simp; omega⟩

example : convertStates (fun a b : Nat => decide (a < b)) (fun a b : Nat => decide (a < b))
    (fun x => some (x / 10)) [35, 12, 31, 7, 12] = .ok ([2, 1, 2, 0, 1], [0, 1, 3]) := by decide

/-! ## C21 -/

theorem prev_eq {σ : Type} (D : Diaries σ) (p t : Nat) : D.prev p t = D.before false p t := by
  unfold Diaries.prev Diaries.before
  by_cases h : t = 0 <;> simp [h]

/-- Matrix `t` describes the transitions of time `sourceTime t`: rows are probability
distributions, a row with observations is the empirical frequency, a row without is the
identity. -/
theorem C21_tpm (D : Diaries Nat) (algo : FirstTpm) (labels : Option Nat) (n : Nat) (tpm : Nat → Nat → Nat → Rat)
    (h : statesToTpms D algo labels = .ok (n, tpm)) (t i : Nat) (ht : t < D.nT) (hi : i < n) :
    IsPdf n (tpm t i) ∧
    (∀ j, j < n → 0 < howMany D (fun p => decide (D.before false p (sourceTime D algo t) = i)) →
      tpm t i j = (howMany D fun p => decide (D.before false p (sourceTime D algo t) = i ∧ D.at' p (sourceTime D algo t) = j) : Rat) /
        (howMany D fun p => decide (D.before false p (sourceTime D algo t) = i) : Rat)) ∧
    (∀ j, j < n → howMany D (fun p => decide (D.before false p (sourceTime D algo t) = i)) = 0 →
      tpm t i j = if j = i then 1 else 0) := by
  simp only [← prev_eq]
  unfold statesToTpms at h
  rw [if_neg (by omega)] at h
  split at h
  · cases h
  rename_i hnP
  simp only at h
  split at h
  · cases h
  rename_i hmax
  have hmax : maxState D < labels.getD (maxState D + 1) := by omega
  have hsrc : ∃ c, firstTpmChange D.nT algo (fun t i j => (tpmCounts D t i j : Rat)) = .ok c ∧
      ∀ i j, c t i j = (tpmCounts D (sourceTime D algo t) i j : Rat) := by
    cases algo with
    | last =>
      refine ⟨_, by unfold firstTpmChange; simp only; rw [if_neg (by omega)], ?_⟩
      intro i j
      unfold sourceTime
      by_cases h0 : t = 0 <;> simp [h0]
    | nothing => exact ⟨_, rfl, fun i j => by unfold sourceTime; simp⟩
    | other => unfold firstTpmChange at h; simp only at h; cases h
  obtain ⟨c, hc, hcs⟩ := hsrc
  rw [hc] at h
  have h := Except.ok.inj h
  injection h with h1 h2
  subst h1 h2
  have hst : sourceTime D algo t < D.nT := by unfold sourceTime; split <;> omega
  generalize sourceTime D algo t = s at hcs hst
  have hnn : ∀ i j, 0 ≤ c t i j := by intro i j; rw [hcs]; exact Nat.cast_nonneg _
  have hsum : sumTo (labels.getD (maxState D + 1)) (c t i) = (howMany D fun p => decide (D.prev p s = i) : Rat) := by
    have e : c t i = fun j => (tpmCounts D s i j : Rat) := funext fun j => hcs i j
    rw [e]
    have := sumTo_countP (labels.getD (maxState D + 1)) (List.range D.nP) (fun p => decide (D.prev p s = i)) (fun p => D.at' p s)
      (fun p hp _ => by have := le_maxState D p s (List.mem_range.1 hp) hst; omega)
    unfold howMany
    rw [← this]
    apply sumTo_congr
    intro j _
    unfold tpmCounts
    congr 1
    apply List.countP_congr
    intro p _; simp
  refine ⟨⟨fun j => countsToTpm_nonneg _ _ hnn i j, countsToTpm_sum _ _ i hi⟩, ?_, ?_⟩
  · intro j hj hpos
    simp only
    rw [countsToTpm_row, hsum, if_neg, hcs]
    · rfl
    · exact_mod_cast (by omega : ¬ howMany D (fun p => decide (D.prev p s = i)) = 0)
  · intro j hj hz
    simp only
    rw [countsToTpm_row, hsum, if_pos]
    exact_mod_cast hz

/-- The estimation succeeds on every non-empty array of states below the number of labels (any, if
there are no labels), with a known option. -/
theorem C21_total (D : Diaries Nat) (algo : FirstTpm) (labels : Option Nat) (hT : 0 < D.nT) (hP : 0 < D.nP)
    (ha : algo ≠ .other) (hl : ∀ n, labels = some n → ∀ p t, p < D.nP → t < D.nT → D.at' p t < n) :
    ∃ n tpm, statesToTpms D algo labels = .ok (n, tpm) ∧ ∀ k, labels = some k → n = k := by
  unfold statesToTpms
  rw [if_neg (by omega), if_neg (by omega)]
  have hmax : maxState D < labels.getD (maxState D + 1) := by
    cases labels with
    | none => simp
    | some n =>
      have := hl n rfl
      exact maxState_lt D n (by have := this 0 0 hP hT; omega) this
  simp only
  rw [if_neg (by omega)]
  cases algo with
  | last =>
    unfold firstTpmChange
    simp only
    rw [if_neg (by omega)]
    exact ⟨_, _, rfl, by rintro k rfl; rfl⟩
  | nothing => exact ⟨_, _, rfl, by rintro k rfl; rfl⟩
  | other => exact absurd rfl ha

example : (statesToTpms exampleDiaries .nothing none).map (fun r => (List.range 3).map fun i => (List.range 3).map (r.2 1 i)) =
    .ok [[0, 1, 0], [0, 1, 0], [0, 0, 1]] := by decide +kernel
example : (statesToTpms exampleDiaries .last none).map (fun r => (List.range 3).map fun i => (List.range 3).map (r.2 0 i)) =
    .ok [[0, 1, 0], [0, 0, 1], [0, 0, 1]] := by decide +kernel

/-- With the default `last` option the first matrix is not the transitions from the end of the day
to its start: here nobody ends in state 0 or starts in state 2, yet matrix 0 is the last one. -/
theorem C21_first_matrix_counterexample :
    howMany exampleDiaries (fun p => decide (exampleDiaries.before false p 0 = 1 ∧ exampleDiaries.at' p 0 = 1)) = 1 ∧
    (statesToTpms exampleDiaries .last none).map (fun r => r.2 0 1 1) = .ok 0 := by
  constructor
  · decide
  · decide +kernel

/-! ## C22 -/

theorem firstTpmChange_ok {α : Type} (D : Diaries Nat) (algo : FirstTpm) (m m' : Nat → α)
    (h : firstTpmChange D.nT algo m = .ok m') (t : Nat) : m' t = m (sourceTime D algo t) := by
  cases algo with
  | last =>
    unfold firstTpmChange at h
    simp only at h
    split at h
    · cases h
    · have h := Except.ok.inj h
      subst h
      unfold sourceTime
      by_cases h0 : t = 0 <;> simp [h0]
  | nothing =>
    have h := Except.ok.inj h
    subst h
    unfold sourceTime; simp
  | other => cases h

theorem durations_records (D : Diaries Nat) (ign : Bool) (tr : Transitions Nat) (h : statesToTransitions D false ign = .ok tr) :
    tr.times.zip (tr.oldStates.zip (tr.newStates.zip (transitionDurations D.nT ign tr))) =
      (changes D false ign).map fun r => (r.1, r.2.2.1, r.2.2.2, keptFor D ign r.2.1 r.1) := by
  rw [transitionDurations_eq D ign tr h]
  have hT : D.nT ≠ 0 := by
    intro hc; unfold statesToTransitions at h; rw [if_pos hc] at h; cases h
  rw [statesToTransitions_eq D false ign hT] at h
  have h := (Except.ok.inj h).symm
  subst h
  simp only
  rw [zip4]

theorem countP_records (D : Diaries Nat) (ign : Bool) (t : Nat) (ht : t < D.nT) (Q : Nat × Nat × Nat × Nat → Bool) :
    ((changes D false ign).map fun r => (r.1, r.2.2.1, r.2.2.2, keptFor D ign r.2.1 r.1)).countP
      (fun r => decide (r.1 = t) && Q r) =
      howMany D fun p => decide (D.before ign p t ≠ D.at' p t) && Q (t, D.before ign p t, D.at' p t, keptFor D ign p t) := by
  rw [List.countP_map]
  exact changes_countP D ign t ht (fun r => Q (r.1, r.2.2.1, r.2.2.2, keptFor D ign r.2.1 r.1))

theorem sumTo_howMany (D : Diaries Nat) (n : Nat) (P : Nat → Bool) (f : Nat → Nat)
    (h : ∀ p, p < D.nP → P p = true → f p < n) :
    sumTo n (fun j => (howMany D (fun p => P p && decide (f p = j)) : Rat)) = (howMany D P : Rat) :=
  sumTo_countP n (List.range D.nP) P f (fun p hp => h p (List.mem_range.1 hp))

/-- Every row of the TPMs and of the duration pdfs is a probability distribution, and the duration
pdfs are the empirical ones: the diaries that enter `j` at the source time, and at time 0 those that stay
in `j` the whole day, counted by duration. -/
theorem C22_durations (D : Diaries Nat) (algo : FirstTpm) (n : Nat) (ign : Bool)
    (tpm dur : Nat → Nat → Nat → Rat) (durP : Nat → Nat → Nat → Nat → Rat)
    (h : statesToTpmsWithDurations D algo n ign = .ok (tpm, dur, durP)) (t : Nat) (ht : t < D.nT) :
    (∀ i, i < n → IsPdf n (tpm t i)) ∧
    (∀ j, IsPdf (D.nT + 1) (dur t j)) ∧
    (∀ i j, IsPdf (D.nT + 1) (durP t i j)) ∧
    ∀ j d, d ≤ D.nT →
      let total := howMany D (enters D ign (sourceTime D algo t) j) + if t = 0 then howMany D (staysIn D j) else 0
      dur t j d = if total = 0 then (if d = 0 then 1 else 0) else
        ((howMany D (entersFor D ign (sourceTime D algo t) j d) + if t = 0 ∧ d = D.nT then howMany D (staysIn D j) else 0 : Nat) : Rat) /
          (total : Rat) := by
  unfold statesToTpmsWithDurations at h
  cases htr : statesToTransitions D false ign with
  | error e => rw [htr] at h; cases h
  | ok tr =>
    rw [htr] at h
    simp only [bind, Except.bind] at h
    split at h
    · cases h
    rename_i hmax
    rw [durations_records D ign tr htr] at h
    generalize h1 : firstTpmChange D.nT algo (fun t i j => (((changes D false ign).map fun r => (r.1, r.2.2.1, r.2.2.2, keptFor D ign r.2.1 r.1)).countP
      (fun r => decide (r.1 = t ∧ r.2.1 = i ∧ r.2.2.1 = j)) : Rat)) = R1 at h
    generalize h2 : firstTpmChange D.nT algo (fun t j d => (((changes D false ign).map fun r => (r.1, r.2.2.1, r.2.2.2, keptFor D ign r.2.1 r.1)).countP
      (fun r => decide (r.1 = t ∧ r.2.2.1 = j ∧ r.2.2.2 = d)) : Rat)) = R2 at h
    generalize h3 : firstTpmChange D.nT algo (fun t i j d => (((changes D false ign).map fun r => (r.1, r.2.2.1, r.2.2.2, keptFor D ign r.2.1 r.1)).countP
      (fun r => decide (r.1 = t ∧ r.2.1 = i ∧ r.2.2.1 = j ∧ r.2.2.2 = d)) : Rat)) = R3 at h
    cases R1 with
    | error e => cases h
    | ok m1 =>
    cases R2 with
    | error e => cases h
    | ok m2 =>
    cases R3 with
    | error e => cases h
    | ok m3 =>
    have h := Except.ok.inj h
    injection h with ha hb
    injection hb with hb hc
    subst ha hb hc
    have e1 := firstTpmChange_ok D algo _ _ h1 t
    have e2 := firstTpmChange_ok D algo _ _ h2 t
    have e3 := firstTpmChange_ok D algo _ _ h3 t
    have hs : sourceTime D algo t < D.nT := by unfold sourceTime; split <;> omega
    refine ⟨?_, ?_, ?_, ?_⟩
    · intro i hi
      refine ⟨fun j => countsToTpm_nonneg _ _ ?_ i j, countsToTpm_sum _ _ i hi⟩
      intro i j
      split
      · exact Nat.cast_nonneg _
      · rw [e1]; exact Nat.cast_nonneg _
    · intro j
      refine countsToPdf_isPdf _ _ ?_ (by omega)
      intro d
      split
      · exact Nat.cast_nonneg _
      · rw [e2]; exact Nat.cast_nonneg _
    · intro i j
      refine countsToPdf_isPdf _ _ ?_ (by omega)
      intro d
      split
      · exact Nat.cast_nonneg _
      · rw [e3]; exact Nat.cast_nonneg _
    · intro j d hd
      have hcnt : ∀ d, m2 t j d = (howMany D (entersFor D ign (sourceTime D algo t) j d) : Rat) := by
        intro d
        rw [e2]
        simp only
        congr 1
        have := countP_records D ign (sourceTime D algo t) hs (fun r => decide (r.2.2.1 = j ∧ r.2.2.2 = d))
        refine Eq.trans ?_ (this.trans ?_)
        · apply List.countP_congr
          intro r _; simp
        · unfold howMany
          apply List.countP_congr
          intro p _
          simp [entersFor]
      have hfull : howMany D (entersFor D ign (sourceTime D algo t) j D.nT) = 0 := by
        unfold howMany
        rw [List.countP_eq_zero]
        intro p _ hp
        simp only [entersFor, decide_eq_true_eq] at hp
        have := keptFor_lt D ign p (sourceTime D algo t) hs hp.1
        omega
      have hrow : (fun d => if t = 0 ∧ d = D.nT then (howMany D (staysIn D j) : Rat) else m2 t j d) =
          fun d => (howMany D (entersFor D ign (sourceTime D algo t) j d) : Rat) +
            if d = D.nT then (if t = 0 then (howMany D (staysIn D j) : Rat) else 0) else 0 := by
        funext d
        rw [hcnt]
        by_cases h0 : t = 0
        · by_cases hd : d = D.nT
          · subst hd; simp [h0]
            rw [h0] at hfull; exact hfull
          · simp [hd]
        · simp [h0]
      have hnn : ∀ d, 0 ≤ (if t = 0 ∧ d = D.nT then (howMany D (staysIn D j) : Rat) else m2 t j d) := by
        intro d
        split
        · exact Nat.cast_nonneg _
        · rw [hcnt]; exact Nat.cast_nonneg _
      have htot : sumTo (D.nT + 1) (fun d => if t = 0 ∧ d = D.nT then (howMany D (staysIn D j) : Rat) else m2 t j d) =
          ((howMany D (enters D ign (sourceTime D algo t) j) + if t = 0 then howMany D (staysIn D j) else 0 : Nat) : Rat) := by
        rw [hrow, sumTo_add, sumTo_single, if_pos (by omega)]
        have := sumTo_howMany D (D.nT + 1) (enters D ign (sourceTime D algo t) j) (fun p => keptFor D ign p (sourceTime D algo t))
          (fun p _ _ => by have := keptFor_le D ign p (sourceTime D algo t); omega)
        have e : (fun d => (howMany D (entersFor D ign (sourceTime D algo t) j d) : Rat)) =
            fun d => (howMany D (fun p => enters D ign (sourceTime D algo t) j p && decide (keptFor D ign p (sourceTime D algo t) = d)) : Rat) := by
          funext d
          congr 2
          funext p
          simp only [entersFor, enters]
          rw [Bool.eq_iff_iff]
          simp [and_assoc]
        rw [e, this]
        push_cast
        split <;> simp
      intro total
      have hrow' := countsToPdf_row (D.nT + 1) _ hnn (by omega) d (by omega)
      refine hrow'.trans ?_
      rw [htot]
      by_cases hz : total = 0
      · rw [if_pos hz, if_pos]
        exact_mod_cast hz
      · rw [if_neg hz, if_neg (by exact_mod_cast hz)]
        congr 1
        have := congrFun hrow d
        rw [this]
        push_cast
        congr 1
        by_cases h0 : t = 0 <;> by_cases hd : d = D.nT <;> simp [h0, hd]

/-- Without the `ignore` option, an observed row has no mass on duration 0: its support is within
`1 … n_times`. Missing for the full property: the rows without observations and the `ignore` option, where
it is false (`C22_zero_duration_counterexample`). -/
theorem C22_support_partial (D : Diaries Nat) (algo : FirstTpm) (n : Nat)
    (tpm dur : Nat → Nat → Nat → Rat) (durP : Nat → Nat → Nat → Nat → Rat)
    (h : statesToTpmsWithDurations D algo n false = .ok (tpm, dur, durP)) (t j : Nat) (ht : t < D.nT)
    (hobs : 0 < howMany D (enters D false (sourceTime D algo t) j)) : dur t j 0 = 0 := by
  have hs : sourceTime D algo t < D.nT := by unfold sourceTime; split <;> omega
  have hf := (C22_durations D algo n false tpm dur durP h t ht).2.2.2 j 0 (by omega)
  simp only at hf
  rw [hf, if_neg (by omega)]
  have hz : howMany D (entersFor D false (sourceTime D algo t) j 0) = 0 := by
    unfold howMany
    rw [List.countP_eq_zero]
    intro p _ hp
    simp only [entersFor, decide_eq_true_eq] at hp
    obtain ⟨h1, h2, h3⟩ := hp
    unfold keptFor at h3
    rw [if_neg (by simp)] at h3
    have hmem : sourceTime D algo t ∈ changeTimes D false p := (mem_changeTimes D false p _).2 ⟨hs, h1⟩
    obtain ⟨k, hk, hke⟩ := List.getElem_of_mem hmem
    have hrun := personDurations_run D false p k hk (fun hje => by
      have : k = (changeTimes D false p).length - 1 := by omega
      subst this
      exact first_eq_last_of_wrap D p (by omega))
    rw [hke] at hrun
    have := (runLength_of_isRun D p _ _ hs hrun).1
    rw [h3] at this
    have := hrun.1
    omega
  rw [hz, if_neg (by omega)]
  simp

/-- The pdf of the initial durations is the empirical one: among the diaries that start in `i`, the
frequency of those that keep it for `d` time steps, `1 ≤ d ≤ n_times`. -/
theorem C22_initial (D : Diaries Nat) (nStates : Nat) (pdf : Nat → Nat → Rat)
    (h : initialDurationsPdfs D nStates = .ok pdf) (i : Nat) :
    IsPdf (D.nT + 1) (pdf i) ∧
    (0 < howMany D (fun p => decide (D.at' p 0 = i)) → pdf i 0 = 0 ∧ ∀ d, d ≤ D.nT →
      pdf i d = (howMany D fun p => decide (D.at' p 0 = i) && decide (firstDuration D p = d) : Rat) /
        (howMany D fun p => decide (D.at' p 0 = i) : Rat)) := by
  unfold initialDurationsPdfs at h
  split at h
  · cases h
  rename_i hT
  split at h
  · cases h
  have h := Except.ok.inj h
  subst h
  obtain ⟨h1, h2⟩ := initial_loop D D.nT
  have hrow : ∀ d, d ≤ D.nT → (if d = D.nT then ((List.range D.nP).countP (fun p =>
        ((List.range D.nT).foldl (initialStep D) (fun _ => true, fun _ _ => 0)).1 p && decide (D.at' p 0 = i)) : Rat)
      else ((List.range D.nT).foldl (initialStep D) (fun _ => true, fun _ _ => 0)).2 i d) =
      (howMany D fun p => decide (D.at' p 0 = i) && decide (firstDuration D p = d) : Rat) := by
    intro d hd
    split
    · rename_i hd2
      subst hd2
      unfold howMany
      congr 1
      apply List.countP_congr
      intro p _
      rw [h1]
      simp only [Bool.and_eq_true, List.all_eq_true, List.mem_range, decide_eq_true_eq, firstDuration_full]
      tauto
    · rw [h2, if_pos (by omega)]
      unfold howMany
      congr 1
      apply List.countP_congr
      intro p _
      have := firstDuration_iff D p d (by omega)
      simp only [Bool.and_eq_true, List.all_eq_true, List.mem_range, decide_eq_true_eq, this]
      tauto
  have hnn : ∀ d, 0 ≤ (if d = D.nT then ((List.range D.nP).countP (fun p =>
        ((List.range D.nT).foldl (initialStep D) (fun _ => true, fun _ _ => 0)).1 p && decide (D.at' p 0 = i)) : Rat)
      else ((List.range D.nT).foldl (initialStep D) (fun _ => true, fun _ _ => 0)).2 i d) := by
    intro d
    split
    · exact Nat.cast_nonneg _
    · rw [h2]; split
      · exact Nat.cast_nonneg _
      · exact le_refl _
  have htot := sumTo_congr (D.nT + 1) _ _ (fun d (hd : d < D.nT + 1) => hrow d (by omega))
  rw [sumTo_howMany D (D.nT + 1) (fun p => decide (D.at' p 0 = i)) (firstDuration D)
    (fun p _ _ => by have := firstDuration_le D p; omega)] at htot
  refine ⟨countsToPdf_isPdf _ _ hnn (by omega), ?_⟩
  intro hpos
  have key : ∀ d, d ≤ D.nT → countsToPdf (D.nT + 1) (fun d => if d = D.nT then ((List.range D.nP).countP (fun p =>
        ((List.range D.nT).foldl (initialStep D) (fun _ => true, fun _ _ => 0)).1 p && decide (D.at' p 0 = i)) : Rat)
      else ((List.range D.nT).foldl (initialStep D) (fun _ => true, fun _ _ => 0)).2 i d) d =
      (howMany D fun p => decide (D.at' p 0 = i) && decide (firstDuration D p = d) : Rat) /
        (howMany D fun p => decide (D.at' p 0 = i) : Rat) := by
    intro d hd
    rw [countsToPdf_row _ _ hnn (by omega) d (by omega), htot, if_neg, hrow d hd]
    exact_mod_cast (by omega : ¬ howMany D (fun p => decide (D.at' p 0 = i)) = 0)
  refine ⟨?_, key⟩
  simp only
  rw [key 0 (by omega)]
  have hz : (howMany D fun p => decide (D.at' p 0 = i) && decide (firstDuration D p = 0)) = 0 := by
    unfold howMany
    rw [List.countP_eq_zero]
    intro p _ hp
    simp only [Bool.and_eq_true, decide_eq_true_eq] at hp
    exact ((firstDuration_iff D p 0 (by omega)).1 hp.2).1 rfl
  rw [hz]; simp

example : (initialDurationsPdfs exampleDiaries 2).map (fun f => (List.range 2).map fun i => (List.range 5).map (f i)) =
    .ok [[0, 1, 0, 0, 0], [0, 0, 1, 0, 0]] := by decide +kernel

example : (statesToTpmsWithDurations exampleDiaries .nothing 3 false).map (fun r => (List.range 3).map fun j => (List.range 5).map (r.2.1 3 j)) =
    .ok [[1, 0, 0, 0, 0], [0, 0, 0, 1, 0], [0, 1, 0, 0, 0]] := by decide +kernel

/-- With the default `ignore_end_start_transitions` option, an observed pdf can have all its mass
on duration 0, and rows without observation always have it. -/
theorem C22_zero_duration_counterexample :
    (statesToTpmsWithDurations exampleDiaries .last 3 true).map (fun r => (r.2.1 3 2 0, r.2.1 3 0 0)) = .ok (1, 1) ∧
    howMany exampleDiaries (enters exampleDiaries true 3 2) = 1 := by
  constructor <;> decide +kernel

end Demod
