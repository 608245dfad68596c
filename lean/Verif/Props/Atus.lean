import Verif.Lemmas.Atus
import Verif.Props.Parse

/-! # C126, C127: states from transitions

`transitions_to_states` and `get_mask_remove_fake_transitions` of the american diaries. The specification is in
`Verif/Spec/Atus.lean`. -/

namespace Demod

open Atus

theorem assert_ok (c : Bool) (u : Unit) : Atus.assert c = .ok u ↔ c = true := by
  unfold Atus.assert; cases c <;> simp

theorem assert_error (c : Bool) (e : PyErr) (h : Atus.assert c = .error e) : c = false ∧ e = .assertionError := by
  unfold Atus.assert at h; cases c
  · exact ⟨rfl, (Except.error.inj h).symm⟩
  · cases h

theorem checkInitial_ok (n : Nat) (initial : Option (List Nat)) :
    checkInitial n initial = .ok () ↔ ∃ i, initial = some i ∧ i ≠ [] ∧ ∀ s ∈ i, s < n := by
  unfold checkInitial
  cases initial with
  | none => simp
  | some i =>
    cases i with
    | nil => simp [maxOf]; intro h; cases h
    | cons x xs =>
      obtain ⟨h1, h2⟩ := maxOf_spec x xs
      show (if n > xs.foldl max x then Except.ok () else Except.error PyErr.assertionError) = .ok () ↔ _
      generalize xs.foldl max x = m at *
      by_cases h : n > m
      · rw [if_pos h]
        refine ⟨fun _ => ⟨_, rfl, by simp, fun s hs => Nat.lt_of_le_of_lt (h1 s hs) h⟩, fun _ => rfl⟩
      · rw [if_neg h]
        constructor
        · intro hc; cases hc
        · rintro ⟨i, hi, _, hs⟩
          have := Option.some.inj hi
          subst this
          exact absurd (hs m h2) h

theorem states_ok (given : Option Nat) (new : List Nat) (initial : Option (List Nat)) (n : Nat) :
    Atus.states given new initial = .ok n ↔
      AxisSize given new n ∧ (given = some n → ∃ i, initial = some i ∧ i ≠ [] ∧ ∀ s ∈ i, s < n) := by
  unfold Atus.states
  rw [← size_ok]
  cases hs : size given new with
  | error e => simp [bind, Except.bind]
  | ok m =>
    cases given with
    | none => simp [bind, Except.bind]
    | some g =>
      have hg : g = m := by
        obtain ⟨_, x, _, h | h⟩ := (size_ok _ _ _).1 hs
        · exact Option.some.inj h
        · cases h.1
      subst hg
      simp only [bind, Except.bind]
      rw [← checkInitial_ok]
      constructor
      · intro h
        cases hc : checkInitial g initial with
        | error e => rw [hc] at h; cases h
        | ok u =>
          rw [hc] at h
          have h := Except.ok.inj h
          subst h
          exact ⟨rfl, fun _ => hc⟩
      · rintro ⟨h1, h2⟩
        have h1 := Except.ok.inj h1
        subst h1
        rw [h2 rfl]

theorem agrees_ok (times persons new first : List Nat) (h1 : times.length = persons.length) (h2 : times.length = new.length)
    (hp : ∀ p ∈ persons, p < first.length) :
    agrees times persons new first = true ↔ ∀ p s, (0, p, s) ∈ changeList times persons new → first[p]? = some s := by
  unfold agrees
  rw [mask_recs times persons new h1 h2, List.all_eq_true]
  constructor
  · intro h p s hm
    have := h (p, s) (List.mem_map.2 ⟨(0, p, s), List.mem_filter.2 ⟨hm, by simp⟩, rfl⟩)
    have hlt : p < first.length := by
      apply hp
      have := (unzip_changes times persons new h1.symm h2.symm).2.1
      rw [← this]
      exact List.mem_map.2 ⟨_, hm, rfl⟩
    simp only [beq_iff_eq] at this
    rw [this]
    simp [List.getD_eq_getElem?_getD, List.getElem?_eq_getElem hlt]
  · intro h q hq
    obtain ⟨r, hr, rfl⟩ := List.mem_map.1 hq
    obtain ⟨hm, h0⟩ := List.mem_filter.1 hr
    obtain ⟨t, p, s⟩ := r
    simp only [beq_iff_eq] at h0
    subst h0
    simp [List.getD_eq_getElem?_getD, h p s hm]

theorem bindOk {α β : Type} (x : Except PyErr α) (f : α → Except PyErr β) (b : β) : (x >>= f) = .ok b ↔ ∃ a, x = .ok a ∧ f a = .ok b := by
  cases x with
  | error e => simp [bind, Except.bind]
  | ok a => simp [bind, Except.bind]

/-- The outcome of `transitions_to_states`, for arguments that fit or not. -/
theorem toStates_iff (times persons new : List Nat) (initial : Option (List Nat)) (nTimes nPersons nStates : Option Nat) (D : Diaries Nat) :
    transitionsToStates times persons new initial nTimes nPersons nStates = .ok D ↔
      ∃ nP nT, TransitionsFit times persons new initial nTimes nPersons nStates nP nT ∧
        D = transposed nP nT (loop times persons new nT 0 (firstStates (changeList times persons new) initial)) := by
  unfold transitionsToStates
  simp only [bindOk, assert_ok, beq_iff_eq, size_ok, states_ok]
  constructor
  · rintro ⟨nT, hT, nP, hP, n, hn, _, h1, _, h2, _, h3, _, h4, h5⟩
    have hf : initial.getD (maskSel (atTime times 0) new) = firstStates (changeList times persons new) initial := by
      unfold firstStates
      rw [sel_recs times persons new h1 h2]
    rw [hf] at h3 h4 h5
    refine ⟨nP, nT, ⟨h1.symm, h2.symm, hT, hP, ⟨n, hn.1, fun h => ?_⟩, h3, ?_⟩, (Except.ok.inj h5).symm⟩
    · obtain ⟨i, a, _, b⟩ := hn.2 h
      exact ⟨i, a, b⟩
    · exact (agrees_ok times persons new _ h1 h2 (fun p hp => by rw [h3]; exact hP.1 p hp)).1 h4
  · rintro ⟨nP, nT, F, rfl⟩
    have h1 := F.persons_length.symm
    have h2 := F.new_length.symm
    have hf : initial.getD (maskSel (atTime times 0) new) = firstStates (changeList times persons new) initial := by
      unfold firstStates
      rw [sel_recs times persons new h1 h2]
    obtain ⟨n, hn, hi⟩ := F.states_size
    refine ⟨nT, F.times_size, nP, F.persons_size, n, ⟨hn, fun h => ?_⟩, (), h1, (), h2, (), ?_, (), ?_, ?_⟩
    · obtain ⟨i, a, b⟩ := hi h
      refine ⟨i, a, ?_, b⟩
      rintro rfl
      have := F.first_length
      unfold firstStates at this
      rw [a] at this
      obtain ⟨hx, x, hm, _⟩ := F.persons_size
      have := hx x hm
      simp at *
      omega
    · rw [hf]; exact F.first_length
    · rw [hf]
      exact (agrees_ok times persons new _ h1 h2 (fun p hp => by rw [F.first_length]; exact F.persons_size.1 p hp)).2 F.first_agree
    · rw [hf]

/-- **C126.** `transitions_to_states` succeeds exactly for arguments that describe persons and times, and the array has one row per
person and one column per time. -/
theorem C126_accepts (times persons new : List Nat) (initial : Option (List Nat)) (nTimes nPersons nStates : Option Nat) (nP nT : Nat) :
    (∃ D, transitionsToStates times persons new initial nTimes nPersons nStates = .ok D ∧ D.nP = nP ∧ D.nT = nT) ↔
      TransitionsFit times persons new initial nTimes nPersons nStates nP nT := by
  constructor
  · rintro ⟨D, h, rfl, rfl⟩
    obtain ⟨nP, nT, F, rfl⟩ := (toStates_iff ..).1 h
    exact F
  · intro F
    exact ⟨_, (toStates_iff ..).2 ⟨nP, nT, F, rfl⟩, rfl, rfl⟩

/-- **C126.** Every entry of the array is the state that the first states and the transitions give that person at that time. -/
theorem C126_states (times persons new : List Nat) (initial : Option (List Nat)) (nTimes nPersons nStates : Option Nat) (D : Diaries Nat)
    (h : transitionsToStates times persons new initial nTimes nPersons nStates = .ok D) (p t : Nat) (hp : p < D.nP) (ht : t < D.nT) :
    Shown (changeList times persons new) (fun p => (firstStates (changeList times persons new) initial).getD p 0) p t (D.at' p t) := by
  obtain ⟨nP, nT, F, rfl⟩ := (toStates_iff ..).1 h
  have hp : p < nP := hp
  have ht : t < nT := ht
  obtain ⟨row, hr, _, hs⟩ := loop_shown times persons new F.persons_length.symm F.new_length.symm
    (fun p => (firstStates (changeList times persons new) initial).getD p 0) nT 0 (firstStates (changeList times persons new) initial)
    (fun p _ => Or.inl ⟨fun _ _ _ => Nat.zero_le _, rfl⟩) t ht
  have := hs p (by rw [F.first_length]; exact hp)
  rw [Nat.zero_add] at this
  show Shown _ _ p t (((loop times persons new nT 0 (firstStates (changeList times persons new) initial)).getD t []).getD p 0)
  rw [List.getD_eq_getElem?_getD (l := loop ..), hr]
  exact this

/-- **C126.** With the initial states given and no empty list, arguments that do not fit raise `AssertionError`; an empty list of transitions raises
`ValueError`, even if all the sizes and the initial states are given. -/
theorem C126_errors (times persons new : List Nat) (initial : Option (List Nat)) (nTimes nPersons nStates : Option Nat) :
    (times = [] → transitionsToStates times persons new initial nTimes nPersons nStates = .error .valueError) ∧
    (times ≠ [] → persons ≠ [] → new ≠ [] → (∃ i, initial = some i ∧ i ≠ []) →
      (¬ ∃ nP nT, TransitionsFit times persons new initial nTimes nPersons nStates nP nT) →
      transitionsToStates times persons new initial nTimes nPersons nStates = .error .assertionError) := by
  constructor
  · rintro rfl
    unfold transitionsToStates size maxOf
    rfl
  · rintro h1 h2 h3 ⟨i, rfl, hi⟩ hno
    cases hr : transitionsToStates times persons new (some i) nTimes nPersons nStates with
    | ok D =>
      obtain ⟨nP, nT, F, _⟩ := (toStates_iff ..).1 hr
      exact absurd ⟨nP, nT, F⟩ hno
    | error e =>
      congr 1
      unfold transitionsToStates at hr
      cases a1 : size nTimes times with
      | error e1 =>
        rw [a1] at hr
        rcases size_error _ _ _ a1 with ⟨h, _⟩ | ⟨_, h⟩
        · exact absurd h h1
        · exact (Except.error.inj hr).symm.trans h
      | ok nT =>
        cases a2 : size nPersons persons with
        | error e1 =>
          rw [a1, a2] at hr
          rcases size_error _ _ _ a2 with ⟨h, _⟩ | ⟨_, h⟩
          · exact absurd h h2
          · exact (Except.error.inj hr).symm.trans h
        | ok nP =>
          cases a3 : Atus.states nStates new (some i) with
          | error e1 =>
            rw [a1, a2, a3] at hr
            have : e1 = .assertionError := by
              unfold Atus.states at a3
              cases b : size nStates new with
              | error e2 =>
                rw [b] at a3
                rcases size_error _ _ _ b with ⟨h, _⟩ | ⟨_, h⟩
                · exact absurd h h3
                · exact (Except.error.inj a3).symm.trans h
              | ok n =>
                rw [b] at a3
                cases nStates with
                | none => cases a3
                | some g =>
                  cases i with
                  | nil => exact absurd rfl hi
                  | cons x xs =>
                    simp only [bind, Except.bind, checkInitial, maxOf] at a3
                    split at a3
                    · rename_i heq
                      split at heq
                      · cases heq
                      · rw [← Except.error.inj a3, ← Except.error.inj heq]
                    · cases a3
            exact (Except.error.inj hr).symm.trans this
          | ok n =>
            rw [a1, a2, a3] at hr
            replace hr : (Atus.assert (times.length == persons.length) >>= fun _ => Atus.assert (times.length == new.length) >>= fun _ =>
                Atus.assert (((some i).getD (maskSel (atTime times 0) new)).length == nP) >>= fun _ =>
                Atus.assert (agrees times persons new ((some i).getD (maskSel (atTime times 0) new))) >>= fun _ =>
                Except.ok (transposed nP nT (loop times persons new nT 0 ((some i).getD (maskSel (atTime times 0) new))))) = .error e := hr
            have key : ∀ (c : Bool) (k : Except PyErr (Diaries Nat)), (Atus.assert c >>= fun _ => k) = .error e → k = .error e ∨ e = .assertionError := by
              intro c k hk
              cases c
              · exact Or.inr (Except.error.inj hk).symm
              · exact Or.inl hk
            rcases key _ _ hr with hr | h
            · rcases key _ _ hr with hr | h
              · rcases key _ _ hr with hr | h
                · rcases key _ _ hr with hr | h
                  · cases hr
                  · exact h
                · exact h
              · exact h
            · exact h

/-- **C126.** Diaries with at least one transition are rebuilt from their transitions (with or without those to the same state, and around
midnight or not) and their first states, when the sizes of the array are given. -/
theorem C126_rebuild_partial (D : Diaries Nat) (inc ign : Bool) (tr : Transitions Nat) (h : statesToTransitions D inc ign = .ok tr)
    (hne : tr.times ≠ []) (nStates : Option Nat) (hs : ∀ n, nStates = some n → ∀ p t, p < D.nP → t < D.nT → D.at' p t < n) :
    ∃ D', transitionsToStates tr.times tr.persons tr.newStates (some ((List.range D.nP).map fun p => D.at' p 0)) (some D.nT) (some D.nP) nStates = .ok D' ∧
      D'.nP = D.nP ∧ D'.nT = D.nT ∧ ∀ p t, p < D.nP → t < D.nT → D'.at' p t = D.at' p t := by
  have hT : D.nT ≠ 0 := by
    intro hc; unfold statesToTransitions at h; rw [if_pos hc] at h; cases h
  have hT' : 0 < D.nT := Nat.pos_of_ne_zero hT
  have heq := statesToTransitions_eq D inc ign hT
  rw [h] at heq
  have heq := Except.ok.inj heq
  have hrec : changeList tr.times tr.persons tr.newStates = (changes D inc ign).map fun r => (r.1, r.2.1, r.2.2.2) := by
    rw [heq]
    unfold changeList
    rw [List.zip_map', List.zip_map']
  have hmem : ∀ t p n, (t, p, n) ∈ changeList tr.times tr.persons tr.newStates ↔
      t < D.nT ∧ p < D.nP ∧ n = D.at' p t ∧ (inc = true ∨ D.before ign p t ≠ n) := by
    intro t p n
    rw [hrec, ← records_eq D inc ign tr h, List.mem_map]
    constructor
    · rintro ⟨⟨t', p', o, n'⟩, hm, he⟩
      obtain ⟨a1, a2, a3, a4, a5⟩ := (C17_records D inc ign tr h t' p' o n').1 hm
      simp only [Prod.mk.injEq] at he
      obtain ⟨rfl, rfl, rfl⟩ := he
      exact ⟨a1, a2, a4, a5.imp_right fun x => by rwa [a3] at x⟩
    · rintro ⟨a1, a2, a3, a4⟩
      exact ⟨(t, p, D.before ign p t, n), (C17_records D inc ign tr h t p _ n).2 ⟨a1, a2, rfl, a3, a4⟩, rfl⟩
  obtain ⟨l1, l2⟩ : tr.persons.length = tr.times.length ∧ tr.newStates.length = tr.times.length := by
    rw [heq]; simp
  obtain ⟨u1, u2, u3, _, _⟩ := unzip_changes _ _ _ l1 l2
  obtain ⟨⟨t0, p0, n0⟩, hr0⟩ : ∃ r, r ∈ changeList tr.times tr.persons tr.newStates := by
    apply List.exists_mem_of_ne_nil
    intro hc
    rw [hc] at u1
    exact hne u1.symm
  have m0 := (hmem t0 p0 n0).1 hr0
  have hall : ∀ x ∈ tr.newStates, ∃ p t, p < D.nP ∧ t < D.nT ∧ x = D.at' p t := by
    intro x hx
    rw [← u3] at hx
    obtain ⟨⟨t, p, n⟩, hr, rfl⟩ := List.mem_map.1 hx
    have := (hmem t p n).1 hr
    exact ⟨p, t, this.2.1, this.1, this.2.2.1⟩
  have F : TransitionsFit tr.times tr.persons tr.newStates (some ((List.range D.nP).map fun p => D.at' p 0)) (some D.nT) (some D.nP) nStates D.nP D.nT := by
    refine ⟨l1, l2, ⟨?_, t0, ?_, Or.inl rfl⟩, ⟨?_, p0, ?_, Or.inl rfl⟩, ?_, ?_, ?_⟩
    · intro x hx
      rw [← u1] at hx
      obtain ⟨⟨t, p, n⟩, hr, rfl⟩ := List.mem_map.1 hx
      exact ((hmem t p n).1 hr).1
    · rw [← u1]; exact List.mem_map.2 ⟨_, hr0, rfl⟩
    · intro x hx
      rw [← u2] at hx
      obtain ⟨⟨t, p, n⟩, hr, rfl⟩ := List.mem_map.1 hx
      exact ((hmem t p n).1 hr).2.1
    · rw [← u2]; exact List.mem_map.2 ⟨_, hr0, rfl⟩
    · have hn0 : n0 ∈ tr.newStates := by rw [← u3]; exact List.mem_map.2 ⟨_, hr0, rfl⟩
      cases nStates with
      | some n =>
        refine ⟨n, ⟨fun x hx => ?_, n0, hn0, Or.inl rfl⟩, fun _ => ⟨_, rfl, fun s hs' => ?_⟩⟩
        · obtain ⟨p, t, a, b, rfl⟩ := hall x hx
          exact hs n rfl p t a b
        · obtain ⟨p, hp, rfl⟩ := List.mem_map.1 hs'
          exact hs n rfl p 0 (List.mem_range.1 hp) hT'
      | none =>
        obtain ⟨n, hn⟩ : ∃ n, size none tr.newStates = .ok n := by
          cases hc : tr.newStates with
          | nil => rw [hc] at hn0; cases hn0
          | cons x xs => exact ⟨_, rfl⟩
        exact ⟨n, (size_ok _ _ _).1 hn, fun hc => by cases hc⟩
    · unfold firstStates; simp
    · intro p s hm
      obtain ⟨_, hp, hv, _⟩ := (hmem 0 p s).1 hm
      unfold firstStates
      simp [hp, hv]
  obtain ⟨D', hD', e1, e2⟩ := (C126_accepts ..).2 F
  refine ⟨D', hD', e1, e2, fun p t hp ht => ?_⟩
  have hsh := C126_states _ _ _ _ _ _ _ D' hD' p t (by omega) (by omega)
  refine shown_unique _ _ _ _ _ _ hsh ?_
  have hfirst : (firstStates (changeList tr.times tr.persons tr.newStates) (some ((List.range D.nP).map fun p => D.at' p 0))).getD p 0 = D.at' p 0 := by
    unfold firstStates
    simp [List.getD_eq_getElem?_getD, hp]
  have hsorted : (changeList tr.times tr.persons tr.newStates).Pairwise (fun a b => a.1 < b.1 ∨ (a.1 = b.1 ∧ a.2.1 < b.2.1)) := by
    rw [hrec, ← records_eq D inc ign tr h, List.pairwise_map]
    exact (C17_ordered_once D inc ign tr h).1
  -- by induction on the time
  induction t with
  | zero =>
    by_cases hc : inc = true ∨ D.before ign p 0 ≠ D.at' p 0
    · obtain ⟨k, hk⟩ := List.mem_iff_getElem?.1 ((hmem 0 p (D.at' p 0)).2 ⟨hT', hp, rfl, hc⟩)
      refine Or.inr ⟨k, _, hk, rfl, le_refl _, rfl, fun j q hj hq hqt => ?_⟩
      have hq0 : q.1 = 0 := by omega
      refine Or.inr ⟨hq0, ?_⟩
      by_contra hlt
      obtain ⟨a1, a2⟩ := List.getElem?_eq_some_iff.1 hj
      obtain ⟨b1, b2⟩ := List.getElem?_eq_some_iff.1 hk
      have := List.pairwise_iff_getElem.1 hsorted k j b1 a1 (by omega)
      rw [a2, b2] at this
      simp only at this
      omega
    · refine Or.inl ⟨fun r hr hrp => ?_, ?_⟩
      · obtain ⟨t, p', n⟩ := r
        obtain ⟨_, _, a3, a4⟩ := (hmem t p' n).1 hr
        simp only at hrp ⊢
        subst hrp
        rcases Nat.eq_zero_or_pos t with rfl | h
        · rw [a3] at a4; exact absurd a4 hc
        · exact h
      · exact hfirst.symm
  | succ t ih =>
    have ih := ih (by omega) (C126_states _ _ _ _ _ _ _ D' hD' p t (by omega) (by omega))
    by_cases hc : inc = true ∨ D.before ign p (t + 1) ≠ D.at' p (t + 1)
    · obtain ⟨k, hk⟩ := List.mem_iff_getElem?.1 ((hmem (t + 1) p (D.at' p (t + 1))).2 ⟨ht, hp, rfl, hc⟩)
      refine Or.inr ⟨k, _, hk, rfl, le_refl _, rfl, fun j q hj hq hqt => ?_⟩
      rcases Nat.lt_or_eq_of_le hqt with h' | h'
      · exact Or.inl h'
      · refine Or.inr ⟨h', ?_⟩
        by_contra hlt
        obtain ⟨a1, a2⟩ := List.getElem?_eq_some_iff.1 hj
        obtain ⟨b1, b2⟩ := List.getElem?_eq_some_iff.1 hk
        have := List.pairwise_iff_getElem.1 hsorted k j b1 a1 (by omega)
        rw [a2, b2] at this
        simp only at this
        omega
    · have hno : ∀ r ∈ changeList tr.times tr.persons tr.newStates, r.2.1 = p → r.1 ≠ t + 1 := by
        rintro ⟨t', p', n⟩ hr hrp ht'
        obtain ⟨_, _, a3, a4⟩ := (hmem t' p' n).1 hr
        simp only at hrp ht'
        subst hrp ht'
        rw [a3] at a4
        exact hc a4
      have hsame : D.at' p (t + 1) = D.at' p t := by
        push Not at hc
        have := hc.2
        unfold Diaries.before at this
        rw [if_neg (by omega), Nat.add_sub_cancel] at this
        exact this.symm
      rw [hsame]
      rcases ih with ⟨a, b⟩ | ⟨k, r, hk, h1, h2, h3, h4⟩
      · refine Or.inl ⟨fun r hr hrp => ?_, b⟩
        have := a r hr hrp
        have := hno r hr hrp
        omega
      · refine Or.inr ⟨k, r, hk, h1, by omega, h3, fun j q hj hq hqt => h4 j q hj hq ?_⟩
        have := hno q (List.mem_of_getElem? hj) hq
        omega

/-- Two persons during three times: the first one is in state 1, then 2, then 1; the second one is always in state 3. -/
def demoVisits : Diaries Nat := ⟨2, 3, fun p t => if p = 0 then (if t = 1 then 2 else 1) else 3⟩

example : ∃ tr, statesToTransitions demoVisits false true = .ok tr ∧ tr.times = [1, 2] ∧ tr.persons = [0, 0] ∧ tr.newStates = [2, 1] ∧
    ∃ D', transitionsToStates tr.times tr.persons tr.newStates (some [1, 3]) (some 3) (some 2) (some 4) = .ok D' ∧ D'.at' 0 1 = 2 ∧ D'.at' 1 2 = 3 := by
  obtain ⟨tr, h, _⟩ := (C17_lengths demoVisits false true).2 (by decide)
  have e : statesToTransitions demoVisits false true = .ok ⟨[1, 2], [0, 0], [2, 1], [1, 2]⟩ := by decide +kernel
  rw [e] at h
  obtain ⟨D', hD, _, _, hv⟩ := C126_rebuild_partial demoVisits false true _ e (by decide) (some 4) (by
    intro n hn p t _ _
    have := Option.some.inj hn
    subst this
    unfold demoVisits
    dsimp only
    split_ifs <;> decide)
  exact ⟨_, e, rfl, rfl, rfl, D', hD, hv 0 1 (by decide) (by decide), hv 1 2 (by decide) (by decide)⟩

/-- **C126.** What a user expects: all diaries are rebuilt from their transitions, their first states and their sizes. -/
def C126_full : Prop :=
  ∀ (D : Diaries Nat) (inc ign : Bool) (tr : Transitions Nat), statesToTransitions D inc ign = .ok tr →
    ∃ D', transitionsToStates tr.times tr.persons tr.newStates (some ((List.range D.nP).map fun p => D.at' p 0)) (some D.nT) (some D.nP) none = .ok D' ∧
      D'.nP = D.nP ∧ D'.nT = D.nT ∧ ∀ p t, p < D.nP → t < D.nT → D'.at' p t = D.at' p t

/-- **C126.** Diaries without any transition cannot be rebuilt: `max([])` raises `ValueError`. -/
theorem C126_no_transition_counterexample : ¬ C126_full := by
  intro h
  obtain ⟨D', hD, _⟩ := h ⟨1, 2, fun _ _ => 5⟩ false false ⟨[], [], [], []⟩ (by decide +kernel)
  rw [(C126_errors [] [] [] _ _ _ _).1 rfl] at hD
  cases hD

/-- **C126.** Without `n_times`, the times after the last transition are lost. -/
theorem C126_no_sizes_counterexample :
    ∃ tr, statesToTransitions ⟨1, 4, fun _ t => if t = 0 then 0 else 1⟩ false true = .ok tr ∧
      ∃ D', transitionsToStates tr.times tr.persons tr.newStates (some [0]) none none none = .ok D' ∧ D'.nT = 2 := by
  refine ⟨⟨[1], [0], [1], [0]⟩, by decide +kernel, ?_⟩
  obtain ⟨D', h, _, e⟩ := (C126_accepts [1] [0] [1] (some [0]) none none none 1 2).2
    ⟨rfl, rfl, by unfold AxisSize; decide, by unfold AxisSize; decide, ⟨2, by unfold AxisSize; decide, by decide⟩, rfl, by
      intro p s hm; simp [changeList] at hm⟩
  exact ⟨D', h, e⟩

/-- **C126.** Without initial states, and with at most one transition per person at time 0: every person has one, which gives its state at time 0,
whatever the order of the list. -/
theorem C126_first_partial (times persons new : List Nat) (nTimes nPersons nStates : Option Nat) (D : Diaries Nat)
    (h : transitionsToStates times persons new none nTimes nPersons nStates = .ok D)
    (hd : (((changeList times persons new).filter fun r => r.1 == 0).map fun r => r.2.1).Nodup) (p : Nat) (hp : p < D.nP) :
    (0, p, D.at' p 0) ∈ changeList times persons new := by
  obtain ⟨nP, nT, F, e⟩ := (toStates_iff ..).1 h
  have e1 : D.nP = nP := by rw [e]; rfl
  have e2 : D.nT = nT := by rw [e]; rfl
  have hlen : (((changeList times persons new).filter fun r => r.1 == 0).map fun r => r.2.1).length = nP := by
    have := F.first_length
    unfold firstStates at this
    simpa using this
  have hu := (unzip_changes _ _ _ F.persons_length F.new_length).2.1
  have hsub : ∀ x ∈ ((changeList times persons new).filter fun r => r.1 == 0).map fun r => r.2.1, x ∈ List.range nP := by
    intro x hx
    obtain ⟨r, hr, rfl⟩ := List.mem_map.1 hx
    rw [List.mem_range]
    apply F.persons_size.1
    rw [← hu]
    exact List.mem_map.2 ⟨r, (List.mem_filter.1 hr).1, rfl⟩
  have hperm := (List.subperm_of_subset hd hsub).perm_of_length_le (by rw [hlen, List.length_range])
  obtain ⟨r, hr, hrp⟩ := List.mem_map.1 (hperm.mem_iff.2 (List.mem_range.2 (by omega : p < nP)))
  obtain ⟨hm, h0⟩ := List.mem_filter.1 hr
  have h0 : r.1 = 0 := by simpa using h0
  have ht : 0 < D.nT := by
    obtain ⟨a, x, hx, _⟩ := F.times_size
    have := a x hx
    omega
  rcases C126_states _ _ _ _ _ _ _ D h p 0 hp ht with ⟨a, _⟩ | ⟨k, q, hk, h1, h2, h3, _⟩
  · have := a r hm hrp
    omega
  · have hq := List.mem_of_getElem? hk
    obtain ⟨t', p', s'⟩ := q
    simp only at h1 h2 h3
    have : t' = 0 := by omega
    subst this h1 h3
    exact hq

example : ∃ D, transitionsToStates [0, 0, 1] [0, 1, 1] [4, 5, 6] none none none none = .ok D ∧ (0, 1, D.at' 1 0) ∈ changeList [0, 0, 1] [0, 1, 1] [4, 5, 6] := by
  obtain ⟨D, h, e1, e2⟩ := (C126_accepts [0, 0, 1] [0, 1, 1] [4, 5, 6] none none none none 2 2).2
    ⟨rfl, rfl, by unfold AxisSize; decide, by unfold AxisSize; decide, ⟨7, by unfold AxisSize; decide, by decide⟩, by decide, by
      intro p s hm
      simp [changeList] at hm
      rcases hm with ⟨rfl, rfl⟩ | ⟨rfl, rfl⟩ <;> decide⟩
  exact ⟨D, h, C126_first_partial _ _ _ _ _ _ D h (by decide) 1 (by omega)⟩

/-- **C126.** With two equal transitions of one person at time 0, another person that has none is given their state. -/
theorem C126_invented_state_counterexample :
    ∃ D, transitionsToStates [0, 0, 1] [0, 0, 1] [3, 3, 4] none none none none = .ok D ∧ D.nP = 2 ∧ D.at' 1 0 = 3 ∧
      ∀ r ∈ changeList [0, 0, 1] [0, 0, 1] [3, 3, 4], r.2.1 = 1 → r.1 = 1 ∧ r.2.2 = 4 := by
  obtain ⟨D, h, e1, e2⟩ := (C126_accepts [0, 0, 1] [0, 0, 1] [3, 3, 4] none none none none 2 2).2
    ⟨rfl, rfl, by unfold AxisSize; decide, by unfold AxisSize; decide, ⟨5, by unfold AxisSize; decide, by decide⟩, by decide, by
      intro p s hm
      simp [changeList] at hm
      obtain ⟨rfl, rfl⟩ := hm
      decide⟩
  refine ⟨D, h, e1, ?_, by decide⟩
  refine shown_unique _ _ _ _ _ _ (C126_states _ _ _ _ _ _ _ D h 1 0 (by omega) (by omega)) (Or.inl ⟨by decide, by decide⟩)

/-! ## C127 -/

theorem real_get (L : List (Nat × Nat)) (prev : Option (Nat × Nat)) (k : Nat) (hk : k < L.length) :
    (realLoop prev L)[k]? = some (decide ((if k = 0 then prev else L[k - 1]?) ≠ L[k]?)) := by
  induction L generalizing prev k with
  | nil => simp at hk
  | cons q L ih =>
    rw [realLoop]
    cases k with
    | zero => by_cases h : prev = some q <;> simp [h]
    | succ k =>
      rw [List.getElem?_cons_succ, ih (some q) k (by simpa using hk)]
      cases k with
      | zero => simp
      | succ k => simp

theorem mask_iff (times persons new : List Nat) (nTimes nPersons nStates : Option Nat) (m : List Bool) :
    maskRemoveFake times persons new nTimes nPersons nStates = .ok m ↔
      (∃ nT nP nS, AxisSize nTimes times nT ∧ AxisSize nPersons persons nP ∧ AxisSize nStates new nS) ∧
      persons.length = times.length ∧ new.length = times.length ∧ ByPerson (changeList times persons new) ∧
      m = realLoop none ((changeList times persons new).map (·.2)) := by
  unfold maskRemoveFake
  simp only [bindOk, assert_ok, beq_iff_eq, size_ok]
  constructor
  · rintro ⟨nT, hT, nP, hP, nS, hS, _, h1, _, h2, _, h3, _, h4, h5⟩
    obtain ⟨u1, u2, u3, u4, _⟩ := unzip_changes _ _ _ h1.symm h2.symm
    have hz : (changeList times persons new).map (fun r => (r.2.1, r.1)) = persons.zip times := by
      have := List.zip_map' (l := changeList times persons new) (f := fun r : Change => r.2.1) (g := fun r : Change => r.1)
      rw [u1, u2] at this
      exact this.symm
    refine ⟨⟨nT, nP, nS, hT, hP, hS⟩, h1.symm, h2.symm, (byPerson_iff _).1 ⟨by rw [u2]; exact h3, ?_⟩, ?_⟩
    · rw [hz]; exact h4
    · rw [u4]
      exact (Except.ok.inj h5).symm
  · rintro ⟨⟨nT, nP, nS, hT, hP, hS⟩, h1, h2, h3, h4⟩
    obtain ⟨u1, u2, u3, u4, _⟩ := unzip_changes _ _ _ h1 h2
    have hz : (changeList times persons new).map (fun r => (r.2.1, r.1)) = persons.zip times := by
      have := List.zip_map' (l := changeList times persons new) (f := fun r : Change => r.2.1) (g := fun r : Change => r.1)
      rw [u1, u2] at this
      exact this.symm
    obtain ⟨a, b⟩ := (byPerson_iff _).2 h3
    refine ⟨nT, hT, nP, hP, nS, hS, (), h1.symm, (), h2.symm, (), by rw [u2] at a; exact a, (), ?_, ?_⟩
    · rw [hz] at b; exact b
    · rw [h4, u4]

/-- **C127.** `get_mask_remove_fake_transitions` accepts exactly the lists of transitions sorted by person and then by time, with sizes that fit; the mask
drops exactly the transitions that follow, in the list, a transition of the same person to the same state. -/
theorem C127_mask (times persons new : List Nat) (nTimes nPersons nStates : Option Nat) :
    ((∃ m, maskRemoveFake times persons new nTimes nPersons nStates = .ok m) ↔
      (∃ nT nP nS, AxisSize nTimes times nT ∧ AxisSize nPersons persons nP ∧ AxisSize nStates new nS) ∧
      persons.length = times.length ∧ new.length = times.length ∧ ByPerson (changeList times persons new)) ∧
    ∀ m, maskRemoveFake times persons new nTimes nPersons nStates = .ok m → m.length = times.length ∧
      ∀ k, k < times.length → (m[k]? = some false ↔ 0 < k ∧ persons[k - 1]? = persons[k]? ∧ new[k - 1]? = new[k]?) := by
  constructor
  · constructor
    · rintro ⟨m, h⟩
      obtain ⟨a, b, c, d, _⟩ := (mask_iff ..).1 h
      exact ⟨a, b, c, d⟩
    · rintro ⟨a, b, c, d⟩
      exact ⟨_, (mask_iff ..).2 ⟨a, b, c, d, rfl⟩⟩
  · intro m h
    obtain ⟨_, h1, h2, _, rfl⟩ := (mask_iff ..).1 h
    obtain ⟨u1, u2, u3, u4, u5⟩ := unzip_changes _ _ _ h1 h2
    refine ⟨by rw [realLoop_length, List.length_map, u5], fun k hk => ?_⟩
    have hz : ∀ j, j < times.length → ((changeList times persons new).map (·.2))[j]? = some (persons.getD j 0, new.getD j 0) := by
      intro j hj
      rw [u4]
      have a : j < persons.length := by omega
      have b : j < new.length := by omega
      simp [List.getElem?_zip_eq_some, List.getD_eq_getElem?_getD, List.getElem?_eq_getElem a, List.getElem?_eq_getElem b]
    have hg : ∀ (xs : List Nat) (j : Nat), j < xs.length → xs[j]? = some (xs.getD j 0) := by
      intro xs j hj
      simp [List.getD_eq_getElem?_getD, List.getElem?_eq_getElem hj]
    rw [real_get _ _ _ (by rw [List.length_map, u5]; exact hk), hz k hk]
    rcases Nat.eq_zero_or_pos k with rfl | hpos
    · simp
    · rw [if_neg (by omega), hz (k - 1) (by omega), hg persons (k - 1) (by omega), hg persons k (by omega), hg new (k - 1) (by omega), hg new k (by omega)]
      simp only [Option.some.injEq, Prod.mk.injEq, ne_eq, decide_eq_false_iff_not, Decidable.not_not]
      exact ⟨fun x => ⟨hpos, x⟩, fun x => x.2⟩

/-- **C127.** Dropping the transitions that the mask does not keep never changes the states that `transitions_to_states` rebuilds, when the initial states and
the sizes of the array are given. -/
theorem C127_same_states_partial (times persons new : List Nat) (nTimes nPersons nStates : Option Nat) (m : List Bool)
    (h : maskRemoveFake times persons new nTimes nPersons nStates = .ok m)
    (initial : List Nat) (nT nP : Nat) (nS : Option Nat) (D : Diaries Nat)
    (hD : transitionsToStates times persons new (some initial) (some nT) (some nP) nS = .ok D) :
    ∃ D', transitionsToStates (keptBy m times) (keptBy m persons) (keptBy m new) (some initial) (some nT) (some nP) nS = .ok D' ∧
      D'.nP = D.nP ∧ D'.nT = D.nT ∧ ∀ p t, p < D.nP → t < D.nT → D'.at' p t = D.at' p t := by
  obtain ⟨_, h1, h2, hR, hm⟩ := (mask_iff ..).1 h
  obtain ⟨u1, u2, u3, u4, u5⟩ := unzip_changes _ _ _ h1 h2
  obtain ⟨nP', nT', F, e⟩ := (toStates_iff ..).1 hD
  have eP : nP' = nP := by
    obtain ⟨_, x, _, h | h⟩ := F.persons_size
    · exact (Option.some.inj h).symm
    · cases h.1
  have eT : nT' = nT := by
    obtain ⟨_, x, _, h | h⟩ := F.times_size
    · exact (Option.some.inj h).symm
    · cases h.1
  subst eP eT
  have dP : D.nP = nP' := by rw [e]; rfl
  have dT : D.nT = nT' := by rw [e]; rfl
  have k1 : keptBy m times = (keptBy m (changeList times persons new)).map (·.1) := by rw [← kept_map, u1]
  have k2 : keptBy m persons = (keptBy m (changeList times persons new)).map (·.2.1) := by rw [← kept_map, u2]
  have k3 : keptBy m new = (keptBy m (changeList times persons new)).map (·.2.2) := by rw [← kept_map, u3]
  have hkl : changeList (keptBy m times) (keptBy m persons) (keptBy m new) = keptBy m (changeList times persons new) := by
    rw [k1, k2, k3, zip_changes]
  obtain ⟨r0, hr0⟩ : ∃ r, r ∈ keptBy m (changeList times persons new) := by
    cases hc : changeList times persons new with
    | nil =>
      rw [hc] at u1
      obtain ⟨_, x, hx, _⟩ := F.times_size
      rw [← u1] at hx
      cases hx
    | cons r R =>
      rw [hm, hc, List.map_cons, realLoop, kept_cons]
      exact ⟨r, by simp⟩
  have F' : TransitionsFit (keptBy m times) (keptBy m persons) (keptBy m new) (some initial) (some nT') (some nP') nS nP' nT' := by
    refine ⟨by rw [k1, k2]; simp, by rw [k1, k3]; simp, ⟨?_, r0.1, ?_, Or.inl rfl⟩, ⟨?_, r0.2.1, ?_, Or.inl rfl⟩, ?_, ?_, ?_⟩
    · exact fun x hx => F.times_size.1 x ((kept_sublist m times).subset hx)
    · rw [k1]; exact List.mem_map.2 ⟨r0, hr0, rfl⟩
    · exact fun x hx => F.persons_size.1 x ((kept_sublist m persons).subset hx)
    · rw [k2]; exact List.mem_map.2 ⟨r0, hr0, rfl⟩
    · have hm0 : r0.2.2 ∈ keptBy m new := by rw [k3]; exact List.mem_map.2 ⟨r0, hr0, rfl⟩
      cases nS with
      | some n =>
        obtain ⟨n', hn, hi⟩ := F.states_size
        obtain ⟨a, x, _, hx | hx⟩ := hn
        · have := Option.some.inj hx
          subst this
          exact ⟨n, ⟨fun x hx => a x ((kept_sublist m new).subset hx), _, hm0, Or.inl rfl⟩, hi⟩
        · cases hx.1
      | none =>
        obtain ⟨n, hn⟩ : ∃ n, size none (keptBy m new) = .ok n := by
          cases hc : keptBy m new with
          | nil => rw [hc] at hm0; cases hm0
          | cons x xs => exact ⟨_, rfl⟩
        exact ⟨n, (size_ok _ _ _).1 hn, fun hc => by cases hc⟩
    · exact F.first_length
    · intro p s hps
      rw [hkl] at hps
      exact F.first_agree p s ((kept_sublist m _).subset hps)
  obtain ⟨D', hD', e1, e2⟩ := (C126_accepts ..).2 F'
  refine ⟨D', hD', by omega, by omega, fun p t hp ht => ?_⟩
  have a := C126_states _ _ _ _ _ _ _ D' hD' p t (by omega) (by omega)
  have b := C126_states _ _ _ _ _ _ _ D hD p t hp ht
  rw [hkl] at a
  have hfe : (fun p => (firstStates (keptBy m (changeList times persons new)) (some initial)).getD p 0) =
      fun p => (firstStates (changeList times persons new) (some initial)).getD p 0 := rfl
  rw [hfe] at a
  rw [(shown_iff_val _ (List.Pairwise.sublist (kept_sublist m _) hR) _ _ _ _).1 a, (shown_iff_val _ hR _ _ _ _).1 b, hm,
    keep_val p t _ hR none none (by intro q hq; cases hq)]

example : maskRemoveFake [0, 1, 3, 0, 2] [0, 0, 0, 1, 1] [5, 6, 6, 6, 6] none none none = .ok [true, true, false, true, false] := by decide +kernel

example : ∃ D D', transitionsToStates [0, 1, 3, 0, 2] [0, 0, 0, 1, 1] [5, 6, 6, 6, 6] (some [5, 6]) (some 4) (some 2) none = .ok D ∧
    transitionsToStates [0, 1, 0] [0, 0, 1] [5, 6, 6] (some [5, 6]) (some 4) (some 2) none = .ok D' ∧ D'.at' 0 3 = D.at' 0 3 := by
  obtain ⟨D, h, e1, e2⟩ := (C126_accepts [0, 1, 3, 0, 2] [0, 0, 0, 1, 1] [5, 6, 6, 6, 6] (some [5, 6]) (some 4) (some 2) none 2 4).2
    ⟨rfl, rfl, by unfold AxisSize; decide, by unfold AxisSize; decide, ⟨7, by unfold AxisSize; decide, by decide⟩, by decide, by
      intro p s hm
      simp [changeList] at hm
      rcases hm with ⟨rfl, rfl⟩ | ⟨rfl, rfl⟩ <;> decide⟩
  obtain ⟨D', h', _, _, hv⟩ := C127_same_states_partial _ _ _ none none none [true, true, false, true, false] (by decide +kernel) _ _ _ _ D h
  exact ⟨D, D', h, h', hv 0 3 (by omega) (by omega)⟩

/-- **C127.** What a user expects: the mask never changes the rebuilt states, also when the sizes are deduced. -/
def C127_full : Prop :=
  ∀ (times persons new : List Nat) (m : List Bool) (initial : List Nat) (nT nP nS : Option Nat) (D : Diaries Nat),
    maskRemoveFake times persons new none none none = .ok m → transitionsToStates times persons new (some initial) nT nP nS = .ok D →
    ∃ D', transitionsToStates (keptBy m times) (keptBy m persons) (keptBy m new) (some initial) nT nP nS = .ok D' ∧
      D'.nP = D.nP ∧ D'.nT = D.nT ∧ ∀ p t, p < D.nP → t < D.nT → D'.at' p t = D.at' p t

/-- **C127.** When the last transition is dropped, the deduced number of times shrinks. -/
theorem C127_counterexample : ¬ C127_full := by
  intro hf
  obtain ⟨D, h, e1, e2⟩ := (C126_accepts [0, 2] [0, 0] [5, 5] (some [5]) none none none 1 3).2
    ⟨rfl, rfl, by unfold AxisSize; decide, by unfold AxisSize; decide, ⟨6, by unfold AxisSize; decide, by decide⟩, by decide, by
      intro p s hm
      simp [changeList] at hm
      obtain ⟨rfl, rfl⟩ := hm
      decide⟩
  obtain ⟨D', h', _, e3, _⟩ := hf [0, 2] [0, 0] [5, 5] [true, false] [5] none none none D (by decide +kernel) h
  obtain ⟨_, x, hx, hy | ⟨_, hy⟩⟩ := ((C126_accepts [0] [0] [5] (some [5]) none none none D'.nP D'.nT).1 ⟨D', h', rfl, rfl⟩).times_size
  · cases hy
  · simp at hx
    omega

/-! ## C128 -/

theorem axis_unique (given : Option Nat) (xs : List Nat) (n m : Nat) (h1 : AxisSize given xs n) (h2 : AxisSize given xs m) : n = m := by
  rw [← size_ok] at h1 h2
  rw [h1] at h2
  exact Except.ok.inj h2

theorem build_iff (initial times persons new : List Nat) (nTimes nPersons nStates : Option Nat) (strategy : FirstTpm)
    (out : Nat × Nat × (Nat → Nat → Nat → Option Rat) × List (List Nat)) :
    buildTransitionMatrices initial times persons new nTimes nPersons nStates strategy = .ok out ↔
      ∃ nP nT n m, TransitionsFit times persons new (some initial) nTimes nPersons nStates nP nT ∧ AxisSize nStates new n ∧ (∀ s ∈ initial, s < n) ∧
        firstTpmChange nT strategy (fun t => (countLoop times persons new nT 0 initial).getD t fun _ _ => 0) = .ok m ∧
        out = (nT, n, fun t => probabilities n (m t), loop times persons new nT 0 initial) := by
  unfold buildTransitionMatrices
  simp only [bindOk, assert_ok, beq_iff_eq, size_ok, states_ok]
  have hany : ∀ n, ((initial.any fun s => decide (n ≤ s)) = true) ↔ ¬ ∀ s ∈ initial, s < n := by
    intro n
    simp
  constructor
  · rintro ⟨nT, hT, nP, hP, n, hn, _, h3, _, h1, _, h2, _, h4, h5⟩
    split at h5
    · cases h5
    · rename_i ha
      rw [hany, Decidable.not_not] at ha
      obtain ⟨m, hm, he⟩ := (bindOk _ _ _).1 h5
      refine ⟨nP, nT, n, m, ⟨h1.symm, h2.symm, hT, hP, ⟨n, hn.1, fun h => ?_⟩, h3, ?_⟩, hn.1, ha, hm, (Except.ok.inj he).symm⟩
      · obtain ⟨i, a, _, b⟩ := hn.2 h
        exact ⟨i, a, b⟩
      · exact (agrees_ok times persons new initial h1 h2 (fun p hp => by rw [h3]; exact hP.1 p hp)).1 h4
  · rintro ⟨nP, nT, n, m, F, hn, ha, hm, rfl⟩
    have hl : initial.length = nP := F.first_length
    refine ⟨nT, F.times_size, nP, F.persons_size, n, ⟨hn, fun h => ⟨initial, rfl, ?_, ha⟩⟩, (), hl, (), F.persons_length.symm, (), F.new_length.symm, (), ?_, ?_⟩
    · rintro rfl
      obtain ⟨hx, x, hxm, _⟩ := F.persons_size
      have := hx x hxm
      simp at hl
      omega
    · exact (agrees_ok times persons new _ F.persons_length.symm F.new_length.symm (fun p hp => by rw [hl]; exact F.persons_size.1 p hp)).2 F.first_agree
    · rw [if_neg (by rw [hany, Decidable.not_not]; exact ha), hm]
      rfl

/-- **C128.** `build_transition_matrices` succeeds exactly when `transitions_to_states` would with those initial states, all initial states are
states of the matrices, and the strategy for the first matrix is known. -/
theorem C128_accepts (initial times persons new : List Nat) (nTimes nPersons nStates : Option Nat) (strategy : FirstTpm) :
    (∃ out, buildTransitionMatrices initial times persons new nTimes nPersons nStates strategy = .ok out) ↔
      (∃ nP nT, TransitionsFit times persons new (some initial) nTimes nPersons nStates nP nT) ∧
      (∃ n, AxisSize nStates new n ∧ ∀ s ∈ initial, s < n) ∧ strategy ≠ .other := by
  constructor
  · rintro ⟨out, h⟩
    obtain ⟨nP, nT, n, m, F, hn, ha, hm, _⟩ := (build_iff ..).1 h
    refine ⟨⟨nP, nT, F⟩, ⟨n, hn, ha⟩, ?_⟩
    rintro rfl
    cases hm
  · rintro ⟨⟨nP, nT, F⟩, ⟨n, hn, ha⟩, hs⟩
    have hpos : nT ≠ 0 := by
      obtain ⟨hx, x, hxm, _⟩ := F.times_size
      have := hx x hxm
      omega
    obtain ⟨m, hm⟩ : ∃ m, firstTpmChange nT strategy (fun t => (countLoop times persons new nT 0 initial).getD t fun _ _ => 0) = .ok m := by
      unfold firstTpmChange
      cases strategy with
      | last => exact ⟨_, if_neg hpos⟩
      | nothing => exact ⟨_, rfl⟩
      | other => exact absurd rfl hs
    exact ⟨_, (build_iff ..).2 ⟨nP, nT, n, m, F, hn, ha, hm, rfl⟩⟩

theorem zip_count (a b : List Nat) (h : a.length = b.length) (i j : Nat) :
    (a.zip b).count (i, j) = (List.range a.length).countP fun p => decide (a.getD p 0 = i ∧ b.getD p 0 = j) := by
  induction a generalizing b with
  | nil => simp
  | cons x a ih =>
    cases b with
    | nil => simp at h
    | cons y b =>
      rw [List.zip_cons_cons, List.count_cons, ih b (by simpa using h), List.length_cons, List.range_succ_eq_map, List.countP_cons, List.countP_map]
      simp only [Function.comp_def, List.getD_cons_succ, List.getD_cons_zero]
      congr 1
      simp [Prod.ext_iff]

theorem atus_sum_count (n : Nat) (L : List Nat) (P : Nat → Bool) (b : Nat → Nat) (hb : ∀ p ∈ L, b p < n) :
    ((List.range n).map fun j => L.countP fun p => P p && decide (b p = j)).sum = L.countP P := by
  induction L with
  | nil => simp
  | cons x L ih =>
    replace ih := ih fun p hp => hb p (by simp [hp])
    simp only [List.countP_cons]
    rw [List.sum_map_add, ih]
    congr 1
    by_cases hP : P x = true
    · simp only [hP, Bool.true_and, decide_eq_true_eq, if_true]
      have hx := hb x (by simp)
      clear ih hb hP
      induction n with
      | zero => omega
      | succ n ihn =>
        rw [List.range_succ, List.map_append, List.sum_append]
        rcases Nat.lt_or_eq_of_le (Nat.lt_succ_iff.1 hx) with h | h
        · rw [ihn h]; simp; omega
        · subst h
          have : (List.range (b x)).map (fun j => if b x = j then 1 else 0) = (List.range (b x)).map fun _ => 0 := by
            apply List.map_congr_left
            intro j hj
            have := List.mem_range.1 hj
            rw [if_neg (by omega)]
          rw [this]; simp
    · simp [hP]

theorem countLoop_get (times persons new : List Nat) (n t : Nat) (s : List Nat) (j : Nat) (hj : j < n) :
    (countLoop times persons new n t s)[j]? = some (pairCount (if j = 0 then s else (loop times persons new n t s).getD (j - 1) [])
      ((loop times persons new n t s).getD j [])) := by
  induction n generalizing t s j with
  | zero => omega
  | succ n ih =>
    rw [countLoop, loop]
    cases j with
    | zero => simp
    | succ j =>
      rw [List.getElem?_cons_succ, ih (t + 1) _ j (by omega)]
      cases j with
      | zero => simp
      | succ j => simp

/-- **C128.** The states returned are those of `transitions_to_states`. The matrix of a time gives, for every state `i` that somebody has just before, the share of
them that have state `j` then, and NaN for the other states; before the first time everybody has their initial state, so that the first matrix with
the strategy `nothing` keeps all states, and with the strategy `last` it is the last matrix. -/
theorem C128_matrices (initial times persons new : List Nat) (nTimes nPersons nStates : Option Nat) (strategy : FirstTpm)
    (nT n : Nat) (P : Nat → Nat → Nat → Option Rat) (rows : List (List Nat))
    (h : buildTransitionMatrices initial times persons new nTimes nPersons nStates strategy = .ok (nT, n, P, rows)) :
    ∃ D, transitionsToStates times persons new (some initial) nTimes nPersons nStates = .ok D ∧ D.nT = nT ∧ D.nP = initial.length ∧
      (∀ p t, p < D.nP → t < D.nT → D.at' p t < n) ∧
      (∀ p, p < D.nP → D.at' p 0 = initial.getD p 0) ∧
      rows = (List.range nT).map (fun t => (List.range D.nP).map fun p => D.at' p t) ∧
      (∀ t i j, 0 < t → t < nT → P t i j =
        if (List.range D.nP).countP (fun p => decide (D.at' p (t - 1) = i)) = 0 then none
        else some (((List.range D.nP).countP (fun p => decide (D.at' p (t - 1) = i ∧ D.at' p t = j)) : Rat) /
          ((List.range D.nP).countP (fun p => decide (D.at' p (t - 1) = i)) : Rat))) ∧
      (strategy = .last → 1 < nT → P 0 = P (nT - 1)) ∧
      (strategy = .nothing ∨ nT = 1 → ∀ i j, P 0 i j = if i ∈ initial then some (if i = j then 1 else 0) else none) := by
  obtain ⟨nP, nT', n', m, F, hn, ha, hm, he⟩ := (build_iff ..).1 h
  simp only [Prod.mk.injEq] at he
  obtain ⟨rfl, rfl, hP, hrows⟩ := he
  have hl : initial.length = nP := F.first_length
  have hpos : 0 < nT := by
    obtain ⟨hx, x, hxm, _⟩ := F.times_size
    have := hx x hxm
    omega
  have hD : transitionsToStates times persons new (some initial) nTimes nPersons nStates = .ok (transposed nP nT (loop times persons new nT 0 initial)) :=
    (toStates_iff ..).2 ⟨nP, nT, F, rfl⟩
  obtain ⟨u1, u2, u3, _, _⟩ := unzip_changes _ _ _ F.persons_length F.new_length
  -- the entries
  have hlt : ∀ p t, p < nP → t < nT → (transposed nP nT (loop times persons new nT 0 initial)).at' p t < n := by
    intro p t hp ht
    have hs := C126_states _ _ _ _ _ _ _ _ hD p t hp ht
    rcases hs with ⟨_, hv⟩ | ⟨k, r, hk, _, _, hv, _⟩
    · rw [hv]
      apply ha
      show initial.getD p 0 ∈ initial
      rw [List.getD_eq_getElem?_getD, List.getElem?_eq_getElem (by omega)]
      exact List.getElem_mem _
    · rw [← hv]
      apply hn.1
      rw [← u3]
      exact List.mem_map.2 ⟨r, List.mem_of_getElem? hk, rfl⟩
  have hzero : ∀ p, p < nP → (transposed nP nT (loop times persons new nT 0 initial)).at' p 0 = initial.getD p 0 := by
    intro p hp
    rcases C126_states _ _ _ _ _ _ _ _ hD p 0 hp hpos with ⟨_, hv⟩ | ⟨k, r, hk, h1, h2, hv, _⟩
    · exact hv
    · obtain ⟨t', p', s'⟩ := r
      simp only at h1 h2 hv
      have : t' = 0 := by omega
      subst this h1
      have := F.first_agree p' s' (List.mem_of_getElem? hk)
      have e : firstStates (changeList times persons new) (some initial) = initial := rfl
      rw [e] at this
      rw [← hv, List.getD_eq_getElem?_getD, this]
      rfl
  -- the rows
  have hrow : ∀ t, t < nT → ((loop times persons new nT 0 initial).getD t []).length = nP := by
    intro t ht
    obtain ⟨row, hr, hrl, _⟩ := loop_shown times persons new F.persons_length.symm F.new_length.symm (fun p => initial.getD p 0) nT 0 initial
      (fun p _ => Or.inl ⟨fun _ _ _ => Nat.zero_le _, rfl⟩) t ht
    rw [List.getD_eq_getElem?_getD, hr]
    simp only [Option.getD_some]
    omega
  have hcount : ∀ t i j, t < nT → ((countLoop times persons new nT 0 initial).getD t fun _ _ => 0) i j =
      (List.range nP).countP fun p => decide ((if t = 0 then initial.getD p 0 else (transposed nP nT (loop times persons new nT 0 initial)).at' p (t - 1)) = i ∧
        (transposed nP nT (loop times persons new nT 0 initial)).at' p t = j) := by
    intro t i j ht
    rw [List.getD_eq_getElem?_getD, countLoop_get _ _ _ _ _ _ _ ht, Option.getD_some]
    unfold pairCount
    have hlen : (if t = 0 then initial else (loop times persons new nT 0 initial).getD (t - 1) []).length = nP := by
      split
      · exact hl
      · exact hrow (t - 1) (by omega)
    rw [zip_count _ _ (by rw [hlen, hrow t ht]), hlen]
    by_cases h0 : t = 0
    · simp only [h0, if_true]; rfl
    · simp only [h0, if_false]; rfl
  have hprob : ∀ t i j, t < nT → probabilities n ((countLoop times persons new nT 0 initial).getD t fun _ _ => 0) i j =
      if (List.range nP).countP (fun p => decide ((if t = 0 then initial.getD p 0 else (transposed nP nT (loop times persons new nT 0 initial)).at' p (t - 1)) = i)) = 0 then none
      else some (((List.range nP).countP (fun p => decide ((if t = 0 then initial.getD p 0 else (transposed nP nT (loop times persons new nT 0 initial)).at' p (t - 1)) = i ∧
          (transposed nP nT (loop times persons new nT 0 initial)).at' p t = j)) : Rat) /
        ((List.range nP).countP (fun p => decide ((if t = 0 then initial.getD p 0 else (transposed nP nT (loop times persons new nT 0 initial)).at' p (t - 1)) = i)) : Rat)) := by
    intro t i j ht
    unfold probabilities
    have hsum : ((List.range n).map (((countLoop times persons new nT 0 initial).getD t fun _ _ => 0) i)).sum =
        (List.range nP).countP (fun p => decide ((if t = 0 then initial.getD p 0 else (transposed nP nT (loop times persons new nT 0 initial)).at' p (t - 1)) = i)) := by
      rw [← atus_sum_count n (List.range nP) _ (fun p => (transposed nP nT (loop times persons new nT 0 initial)).at' p t) (fun p hp => hlt p t (List.mem_range.1 hp) ht)]
      congr 1
      apply List.map_congr_left
      intro j _
      rw [hcount t i j ht]
      congr 1
      funext p
      rw [Bool.decide_and]
    dsimp only
    rw [hsum, hcount t i j ht]
  refine ⟨_, hD, rfl, hl.symm, hlt, hzero, ?_, ?_, ?_, ?_⟩
  · rw [hrows]
    apply List.ext_getElem?
    intro t
    rcases Nat.lt_or_ge t nT with ht | ht
    · have hlen := hrow t ht
      rw [List.getElem?_map, List.getElem?_range ht, Option.map_some]
      have hg : (loop times persons new nT 0 initial)[t]? = some ((loop times persons new nT 0 initial).getD t []) := by
        rw [List.getD_eq_getElem?_getD, List.getElem?_eq_getElem (by rw [loop_length]; exact ht)]
        rfl
      rw [hg]
      congr 1
      apply List.ext_getElem?
      intro p
      rcases Nat.lt_or_ge p nP with hp | hp
      · show _ = ((List.range nP).map _)[p]?
        rw [List.getElem?_map, List.getElem?_range hp, Option.map_some, List.getElem?_eq_getElem (by rw [hlen]; exact hp)]
        congr 1
        show _ = ((loop times persons new nT 0 initial).getD t []).getD p 0
        rw [List.getD_eq_getElem?_getD (i := p), List.getElem?_eq_getElem (by rw [hlen]; exact hp)]
        rfl
      · show _ = ((List.range nP).map _)[p]?
        rw [List.getElem?_eq_none (by rw [hlen]; exact hp), List.getElem?_eq_none (by simpa using hp)]
    · rw [List.getElem?_eq_none (by rw [loop_length]; exact ht), List.getElem?_eq_none (by simpa using ht)]
  · intro t i j h0 ht
    have hmt : m t = (countLoop times persons new nT 0 initial).getD t fun _ _ => 0 := by
      unfold firstTpmChange at hm
      cases strategy with
      | last =>
        dsimp only at hm
        rw [if_neg (by omega)] at hm
        rw [← Except.ok.inj hm]
        dsimp only
        rw [if_neg (by omega)]
      | nothing => rw [← Except.ok.inj hm]
      | other => cases hm
    rw [hP]
    dsimp only
    rw [hmt, hprob t i j ht]
    simp only [if_neg (show ¬ t = 0 by omega)]
    rfl
  · rintro rfl hnT
    unfold firstTpmChange at hm
    dsimp only at hm
    rw [if_neg (by omega)] at hm
    rw [hP, ← Except.ok.inj hm]
    dsimp only
    rw [if_pos rfl, if_neg (by omega)]
  · intro hc i j
    have hmt : m 0 = (countLoop times persons new nT 0 initial).getD 0 fun _ _ => 0 := by
      unfold firstTpmChange at hm
      cases strategy with
      | last =>
        dsimp only at hm
        rw [if_neg (by omega)] at hm
        rw [← Except.ok.inj hm]
        dsimp only
        rw [if_pos rfl]
        rcases hc with hc | hc
        · cases hc
        · rw [hc]
      | nothing => rw [← Except.ok.inj hm]
      | other => cases hm
    rw [hP]
    dsimp only
    rw [hmt, hprob 0 i j hpos]
    simp only [if_true]
    have hcz : (List.range nP).countP (fun p => decide (initial.getD p 0 = i)) = 0 ↔ i ∉ initial := by
      rw [List.countP_eq_zero]
      constructor
      · intro hx hi
        obtain ⟨p, hp, rfl⟩ := List.getElem_of_mem hi
        apply hx p (List.mem_range.2 (by omega))
        simp [List.getD_eq_getElem?_getD, List.getElem?_eq_getElem hp]
      · intro hx p hp hc
        apply hx
        have hp : p < initial.length := by rw [hl]; exact List.mem_range.1 hp
        rw [← of_decide_eq_true hc, List.getD_eq_getElem?_getD, List.getElem?_eq_getElem hp]
        exact List.getElem_mem _
    by_cases hi : i ∈ initial
    · rw [if_neg (by rw [hcz]; exact fun x => x hi), if_pos hi]
      have hne : ((List.range nP).countP (fun p => decide (initial.getD p 0 = i)) : Rat) ≠ 0 := by
        have : ¬ (List.range nP).countP (fun p => decide (initial.getD p 0 = i)) = 0 := by rw [hcz]; exact fun x => x hi
        exact_mod_cast this
      congr 1
      by_cases hij : i = j
      · subst hij
        rw [if_pos rfl]
        have : (List.range nP).countP (fun p => decide (initial.getD p 0 = i ∧ (transposed nP nT (loop times persons new nT 0 initial)).at' p 0 = i)) =
            (List.range nP).countP (fun p => decide (initial.getD p 0 = i)) := by
          apply List.countP_congr
          intro p hp
          rw [hzero p (List.mem_range.1 hp)]
          simp
        rw [this]
        exact div_self hne
      · rw [if_neg hij]
        have : (List.range nP).countP (fun p => decide (initial.getD p 0 = i ∧ (transposed nP nT (loop times persons new nT 0 initial)).at' p 0 = j)) = 0 := by
          rw [List.countP_eq_zero]
          intro p hp
          rw [hzero p (List.mem_range.1 hp)]
          simp only [decide_eq_true_eq, not_and]
          intro h1 h2
          exact hij (h1.symm.trans h2)
        rw [this]
        simp
    · rw [if_pos (by rw [hcz]; exact hi), if_neg hi]

example : ∃ P rows, buildTransitionMatrices [0, 0, 1] [0, 0, 0, 1] [0, 1, 2, 1] [0, 0, 1, 1] none none none .nothing = .ok (2, 2, P, rows) ∧
    P 1 0 1 = some (1 / 2) ∧ P 0 0 0 = some 1 ∧ rows = [[0, 0, 1], [0, 1, 1]] := by
  refine ⟨_, _, rfl, ?_, ?_, ?_⟩ <;> decide +kernel

end Demod
