import Verif.Spec.Destatis
import Verif.Lemmas.Crest
import Verif.Props.Utils

/-! # Lemmas on the tables of the German statistical office -/

namespace Demod

theorem lookup_dictSet {α : Type} (d : List (Str × α)) (k k' : Str) (v : α) : lookupA (dictSet d k v) k' = if k' = k then some v else lookupA d k' := by
  unfold dictSet
  by_cases h : (lookupA d k).isSome
  · rw [if_pos h]
    induction d with
    | nil => simp [lookupA_nil] at h
    | cons q d ih =>
      rw [List.map_cons, lookupA_cons, lookupA_cons]
      by_cases hq : q.1 = k
      · rw [if_pos hq]
        by_cases hk : k' = k
        · subst hk; simp
        · rw [if_neg (fun e => hk e.symm), if_neg hk, if_neg (fun e => hk (by rw [← e, hq]))]
          by_cases h' : (lookupA d k).isSome
          · rw [ih h', if_neg hk]
          · rw [Option.not_isSome_iff_eq_none, lookupA_none] at h'
            congr 1
            conv_rhs => rw [← List.map_id d]
            apply List.map_congr_left
            intro r hr
            rw [if_neg]
            · rfl
            · intro e
              exact h' (List.mem_map.2 ⟨r, hr, e⟩)
      · rw [if_neg hq]
        rw [lookupA_cons, if_neg hq] at h
        rw [ih h]
        by_cases hk : k' = k
        · rw [if_pos hk, if_pos hk, if_neg (fun e => hq (by rw [e, hk]))]
        · simp only [if_neg hk]
  · rw [if_neg h]
    rw [Option.not_isSome_iff_eq_none] at h
    by_cases hk : k' = k
    · subst hk
      rw [lookupA_append d (k', v) k' h, if_pos rfl, if_pos rfl]
    · rw [if_neg hk]
      clear h
      induction d with
      | nil => rw [List.nil_append, lookupA_cons, if_neg (fun e => hk e.symm)]
      | cons q d ih => rw [List.cons_append, lookupA_cons, lookupA_cons, ih]

theorem dictSet_nodup {α : Type} (d : List (Str × α)) (k : Str) (v : α) (h : (d.map (·.1)).Nodup) : ((dictSet d k v).map (·.1)).Nodup := by
  unfold dictSet
  by_cases hk : (lookupA d k).isSome
  · rw [if_pos hk, List.map_map]
    have : (fun q : Str × α => q.1) ∘ (fun q => if q.1 = k then (k, v) else q) = fun q => q.1 := by
      funext q
      simp only [Function.comp]
      by_cases hq : q.1 = k
      · rw [if_pos hq, hq]
      · rw [if_neg hq]
    rw [this]
    exact h
  · rw [if_neg hk, List.map_append, List.nodup_append]
    rw [Option.not_isSome_iff_eq_none, lookupA_none] at hk
    refine ⟨h, by simp, ?_⟩
    intro a ha b hb e
    simp only [List.map_cons, List.map_nil, List.mem_singleton] at hb
    subst hb
    exact hk (e ▸ ha)

theorem lookup_filter {α : Type} (d : List (Str × α)) (k k' : Str) : lookupA (d.filter fun q => decide (q.1 ≠ k)) k' = if k' = k then none else lookupA d k' := by
  induction d with
  | nil => simp [lookupA_nil]
  | cons q d ih =>
    rw [List.filter_cons]
    by_cases hq : q.1 = k
    · rw [if_neg (by simpa using hq), ih, lookupA_cons]
      by_cases hk : k' = k
      · rw [if_pos hk, if_pos hk]
      · rw [if_neg hk, if_neg hk, if_neg (fun e => hk (by rw [← e, hq]))]
    · rw [if_pos (by simpa using hq), lookupA_cons, lookupA_cons, ih]
      by_cases hk : k' = k
      · rw [if_pos hk, if_neg (fun e => hq (by rw [e, hk]))]; simp [hk]
      · simp only [if_neg hk]

/-- The name of the number `k` of a type, before the first one is renamed. -/
def numbered (t : Str) (k : Nat) : Str := t ++ '_' :: decimal k

theorem numbered_inj (t : Str) (j k : Nat) (h : numbered t j = numbered t k) : j = k := by
  unfold numbered at h
  exact decimal_inj _ _ (append_cons_unique '_' t t _ _ (decimal_no_underscore _) (decimal_no_underscore _) h).2

theorem numbered_inj2 (t t' : Str) (j k : Nat) (h : numbered t j = numbered t' k) : t = t' ∧ j = k := by
  unfold numbered at h
  obtain ⟨h1, h2⟩ := append_cons_unique '_' t t' _ _ (decimal_no_underscore _) (decimal_no_underscore _) h
  exact ⟨h1, decimal_inj _ _ h2⟩

theorem numbered_ne (t : Str) (k : Nat) : numbered t k ≠ t := by
  unfold numbered
  intro h
  have := congrArg List.length h
  simp at this

/-- The loop over the copies. -/
theorem copies_fold (t : Str) (probs : List (Option Rat)) (d : List (Str × Rat)) (hd : (d.map (·.1)).Nodup) :
    ((probs.zipIdx.foldl (fun d q => dictSet d (t ++ '_' :: decimal (q.2 + 1)) (q.1.getD 0)) d).map (·.1)).Nodup ∧
    (∀ i p, probs[i]? = some p → lookupA (probs.zipIdx.foldl (fun d q => dictSet d (t ++ '_' :: decimal (q.2 + 1)) (q.1.getD 0)) d) (numbered t (i + 1)) = some (p.getD 0)) ∧
    (∀ k', (∀ i < probs.length, k' ≠ numbered t (i + 1)) → lookupA (probs.zipIdx.foldl (fun d q => dictSet d (t ++ '_' :: decimal (q.2 + 1)) (q.1.getD 0)) d) k' = lookupA d k') := by
  induction probs using List.reverseRecOn with
  | nil => simpa using hd
  | append_singleton probs p ih =>
    rw [List.zipIdx_append, List.foldl_append]
    simp only [List.zipIdx_singleton, Nat.zero_add, List.foldl_cons, List.foldl_nil]
    obtain ⟨h1, h2, h3⟩ := ih
    refine ⟨dictSet_nodup _ _ _ h1, ?_, ?_⟩
    · intro i q hi
      rw [lookup_dictSet]
      change (if numbered t (i + 1) = numbered t (probs.length + 1) then _ else _) = _
      by_cases hlt : i < probs.length
      · rw [List.getElem?_append_left hlt] at hi
        rw [if_neg, h2 i q hi]
        intro e
        have := numbered_inj _ _ _ e
        omega
      · have hil : i = probs.length := by
          have := (List.getElem?_eq_some_iff.1 hi).1
          simp at this
          omega
        subst hil
        rw [if_pos rfl]
        simp at hi
        rw [hi]
    · intro k' hk
      rw [lookup_dictSet]
      change (if k' = numbered t (probs.length + 1) then _ else _) = _
      rw [if_neg (hk probs.length (by simp)), h3 k' (fun i hi => hk i (by simp; omega))]

/-- The values of a row. -/
theorem assignCell_ok (number share : Option Rat) (h : PossibleRow number share) :
    ∃ probs, assignCell (share.map fun x => x / 100) (number.map fun x => x / 100) = .ok probs ∧ 2 ≤ probs.length ∧ IsOwnership number share (probs.map fun p => p.getD 0) := by
  obtain ⟨h1, h2, h3⟩ := h
  cases share with
  | none =>
    refine ⟨[none, none], ?_, by simp, by simp, by simp, ?_⟩
    · cases number with
      | none => rfl
      | some n =>
        have : ¬ n / 100 < 0 := not_lt.2 (div_nonneg (h1 n rfl) (by norm_num))
        simp only [Option.map_some, Option.map_none, assignCell, if_neg this]
    · cases number <;> simp [averageNumber]
  | some p =>
    obtain ⟨p0, p1⟩ := h2 p rfl
    have a0 : 0 ≤ p / 100 := div_nonneg p0 (by norm_num)
    have a1 : p / 100 ≤ 1 := by rw [div_le_one (by norm_num)]; exact p1
    cases number with
    | none =>
      have : ¬ (p / 100 < 0 ∨ p / 100 > 1) := by rintro (h | h) <;> linarith
      refine ⟨[some (p / 100), none], ?_, by simp, by simp, ?_, by simp [averageNumber]⟩
      · simp only [Option.map_some, Option.map_none, assignCell, if_neg this]
      · intro x hx
        simp only [List.map_cons, Option.getD_some, Option.getD_none, List.map_nil, List.mem_cons, List.not_mem_nil, or_false] at hx
        rcases hx with rfl | rfl
        · exact ⟨a0, a1⟩
        · exact ⟨le_refl 0, by norm_num⟩
    | some n =>
      obtain ⟨c1, c2, -⟩ := C32_sum (p / 100) (some (n / 100)) true
      obtain ⟨l, hl⟩ := c1.2 ⟨rfl, a0, a1, fun m hm => by
        injection hm with hm
        subst hm
        exact ⟨by have := h3 n p rfl rfl; linarith, div_nonneg (h1 n rfl) (by norm_num)⟩⟩
      obtain ⟨d1, d2, d3⟩ := c2 l hl
      refine ⟨l.map some, ?_, ?_, ?_, ?_, ?_⟩
      · simp only [Option.map_some, assignCell, hl]
        rfl
      · rw [List.length_map]
        unfold assignOwnership at hl
        simp only [Option.getD_some, if_true] at hl
        split at hl
        · cases hl
        · injection hl with hl
          rw [← hl]
          simp
      · rw [List.map_map]
        simpa using d1
      · rw [List.map_map]
        simpa using d2
      · rw [List.map_map]
        simpa [averageNumber] using d3

/-- What is in the dictionary after some rows. -/
structure Filled (rows : List (Str × Option Rat × Option Rat)) (d : List (Str × Rat)) : Prop where
  nodup : (d.map (·.1)).Nodup
  keys : ∀ k ∈ d.map (·.1), ∃ r ∈ rows, ∃ j, 1 ≤ j ∧ k = copyKey r.1 j
  values : ∀ r ∈ rows, ∃ probs, IsOwnership r.2.1 r.2.2 probs ∧ ∀ j, 1 ≤ j → lookupA d (copyKey r.1 j) = probs[j - 1]?

theorem copyKey_numbered (t : Str) (k : Nat) (h : 2 ≤ k) : copyKey t k = numbered t k := by
  unfold copyKey numbered
  rw [if_neg (by omega)]

theorem destatisStep_ok (column : List (Option Rat)) (rows : List (Str × Option Rat × Option Rat)) (d : List (Str × Rat)) (hF : Filled rows d) (it : Nat) (s : Str) (number share : Option Rat)
    (h1 : column[it]? = some number) (h2 : column[it + 51]? = some share) (hp : PossibleRow number share) (hnew : ∀ r ∈ rows, r.1 ≠ trimmed s)
    (hno : ∀ r ∈ rows, ∀ k, 1 ≤ k → r.1 ≠ numbered (trimmed s) k ∧ trimmed s ≠ numbered r.1 k) :
    ∃ d', destatisStep column d it (some s) = .ok d' ∧ Filled (rows ++ [(trimmed s, number, share)]) d' := by
  obtain ⟨probs, a1, a2, a3⟩ := assignCell_ok number share hp
  obtain ⟨f1, f2, f3⟩ := copies_fold (trimmed s) probs d hF.nodup
  generalize hD : probs.zipIdx.foldl (fun d q => dictSet d (trimmed s ++ '_' :: decimal (q.2 + 1)) (q.1.getD 0)) d = D at f1 f2 f3
  have hg : ∀ i : Nat, probs[i]? = none ∨ ∃ p, probs[i]? = some p := fun i => by cases probs[i]? <;> simp
  obtain ⟨p0, hp0⟩ : ∃ p, probs[0]? = some p := ⟨_, List.getElem?_eq_getElem (by omega)⟩
  have hlook1 : lookupA D (trimmed s ++ '_' :: decimal 1) = some (p0.getD 0) := f2 0 p0 hp0
  refine ⟨dictSet (D.filter fun q => decide (q.1 ≠ trimmed s ++ '_' :: decimal 1)) (trimmed s) (p0.getD 0), ?_, ?_⟩
  · unfold destatisStep
    have e1 : pyGet column it = .ok number := by unfold pyGet; rw [h1]
    have e2 : pyGet column (it + 51) = .ok share := by unfold pyGet; rw [h2]
    simp only [bind, Except.bind, e1, e2, a1]
    have ht : (s.filter fun c => decide (c ≠ ' ')) = trimmed s := rfl
    rw [ht, hD]
    unfold dictPop
    rw [hlook1]
  · -- the content of the new dictionary
    have hL : ∀ k', lookupA (dictSet (D.filter fun q => decide (q.1 ≠ trimmed s ++ '_' :: decimal 1)) (trimmed s) (p0.getD 0)) k' =
        if k' = trimmed s then some (p0.getD 0) else if k' = numbered (trimmed s) 1 then none else lookupA D k' := by
      intro k'
      rw [lookup_dictSet, lookup_filter]
      rfl
    have hnone : ∀ j, 1 ≤ j → lookupA d (copyKey (trimmed s) j) = none ∧ lookupA d (numbered (trimmed s) j) = none := by
      intro j hj
      constructor
      · rw [lookupA_none]
        intro hc
        obtain ⟨r, hr, i, hi, he⟩ := hF.keys _ hc
        by_cases hj1 : j = 1
        · subst hj1
          by_cases hi1 : i = 1
          · subst hi1
            exact hnew r hr he.symm
          · rw [copyKey_numbered r.1 i (by omega)] at he
            exact (hno r hr i (by omega)).2 he
        · rw [copyKey_numbered _ j (by omega)] at he
          by_cases hi1 : i = 1
          · subst hi1
            exact (hno r hr j (by omega)).1 he.symm
          · rw [copyKey_numbered r.1 i (by omega)] at he
            exact hnew r hr (numbered_inj2 _ _ _ _ he).1.symm
      · rw [lookupA_none]
        intro hc
        obtain ⟨r, hr, i, hi, he⟩ := hF.keys _ hc
        by_cases hi1 : i = 1
        · subst hi1
          exact (hno r hr j hj).1 he.symm
        · rw [copyKey_numbered r.1 i (by omega)] at he
          exact hnew r hr (numbered_inj2 _ _ _ _ he).1.symm
    refine ⟨dictSet_nodup _ _ _ (f1.sublist (List.Sublist.map _ List.filter_sublist)), ?_, ?_⟩
    · intro k hk
      have hk' : lookupA (dictSet (D.filter fun q => decide (q.1 ≠ trimmed s ++ '_' :: decimal 1)) (trimmed s) (p0.getD 0)) k ≠ none := by
        rw [Ne, lookupA_none]
        exact fun h => h hk
      rw [hL] at hk'
      by_cases e1 : k = trimmed s
      · exact ⟨_, List.mem_append_right _ (List.mem_singleton.2 rfl), 1, le_refl 1, e1⟩
      rw [if_neg e1] at hk'
      by_cases e2 : k = numbered (trimmed s) 1
      · exact absurd (if_pos e2) hk'
      rw [if_neg e2] at hk'
      by_cases e3 : ∃ i < probs.length, k = numbered (trimmed s) (i + 1)
      · obtain ⟨i, hi, rfl⟩ := e3
        have hi0 : i ≠ 0 := fun h => e2 (by rw [h])
        exact ⟨_, List.mem_append_right _ (List.mem_singleton.2 rfl), i + 1, by omega, (copyKey_numbered _ _ (by omega)).symm⟩
      · push Not at e3
        rw [f3 k e3, Ne, lookupA_none, not_not] at hk'
        obtain ⟨r, hr, j, hj, he⟩ := hF.keys k hk'
        exact ⟨r, List.mem_append_left _ hr, j, hj, he⟩
    · intro r hr
      rcases List.mem_append.1 hr with hr | hr
      · obtain ⟨pr, q1, q2⟩ := hF.values r hr
        refine ⟨pr, q1, fun j hj => ?_⟩
        rw [← q2 j hj, hL]
        have n1 : copyKey r.1 j ≠ trimmed s := by
          by_cases hj1 : j = 1
          · subst hj1; exact hnew r hr
          · rw [copyKey_numbered _ _ (by omega)]
            exact fun e => (hno r hr j (by omega)).2 e.symm
        have n2 : ∀ i, copyKey r.1 j ≠ numbered (trimmed s) (i + 1) := by
          intro i
          by_cases hj1 : j = 1
          · subst hj1; exact (hno r hr (i + 1) (by omega)).1
          · rw [copyKey_numbered _ _ (by omega)]
            exact fun e => hnew r hr (numbered_inj2 _ _ _ _ e).1
        rw [if_neg n1, if_neg (n2 0), f3 _ (fun i _ => n2 i)]
      · rw [List.mem_singleton] at hr
        subst hr
        refine ⟨probs.map fun p => p.getD 0, a3, fun j hj => ?_⟩
        rw [List.getElem?_map, hL]
        by_cases hj1 : j = 1
        · subst hj1
          rw [if_pos (by rfl), hp0]
          rfl
        · rw [copyKey_numbered _ _ (by omega), if_neg (numbered_ne _ _), if_neg (fun e => hj1 (numbered_inj _ _ _ e))]
          rcases hg (j - 1) with h | ⟨p, h⟩
          · rw [h]
            have hlen := List.getElem?_eq_none_iff.1 h
            rw [f3, (hnone j hj).2]
            · rfl
            · intro i hi e
              have := numbered_inj _ _ _ e
              omega
          · rw [h]
            have := f2 (j - 1) p h
            rw [Nat.sub_add_cancel hj] at this
            rw [this]
            rfl

/-- The rows of the types that are done. -/
theorem destatisLoop_ok (column : List (Option Rat)) (types : List (Option Str)) (hC : PossibleColumn types column) (hT : DistinctTypes types) :
    ∀ (ts : List (Option Str)) (it : Nat) (rows : List (Str × Option Rat × Option Rat)) (d : List (Str × Rat)), types = types.take it ++ ts → it ≤ types.length → it ≤ 56 → Filled rows d →
      (∀ r ∈ rows, ∃ i < it, IsRow types column i r.1 r.2.1 r.2.2) → (∀ i < it, ∀ s, types[i]? = some (some s) → ∃ r ∈ rows, r.1 = trimmed s ∧ column[i]? = some r.2.1 ∧ column[i + 51]? = some r.2.2) →
      ∃ d' rows', destatisLoop column d it ts = .ok d' ∧ Filled rows' d' ∧ (∀ r ∈ rows', ∃ i, IsRow types column i r.1 r.2.1 r.2.2) ∧
        ∀ i < 56, ∀ s, types[i]? = some (some s) → ∃ r ∈ rows', r.1 = trimmed s ∧ column[i]? = some r.2.1 ∧ column[i + 51]? = some r.2.2 := by
  intro ts
  induction ts with
  | nil =>
    intro it rows d ht hle h56 hF hr hc
    refine ⟨d, rows, rfl, hF, fun r h => (hr r h).imp fun i hi => hi.2, fun i hi s hs => hc i ?_ s hs⟩
    rw [List.append_nil] at ht
    have := (List.getElem?_eq_some_iff.1 hs).1
    have hl := congrArg List.length ht
    rw [List.length_take] at hl
    omega
  | cons t ts ih =>
    intro it rows d ht hle h56 hF hr hc
    rw [destatisLoop]
    by_cases hend : it = 51 + 5
    · rw [if_pos hend]
      exact ⟨d, rows, rfl, hF, fun r h => (hr r h).imp fun i hi => hi.2, fun i hi s hs => hc i (by omega) s hs⟩
    · rw [if_neg hend]
      have hget : types[it]? = some t := by
        rw [ht, List.getElem?_append_right (by rw [List.length_take]; omega), List.length_take, Nat.min_eq_left hle]
        simp
      have hlt : it < types.length := (List.getElem?_eq_some_iff.1 hget).1
      have ht' : types = types.take (it + 1) ++ ts := by
        rw [List.take_add_one, hget, List.append_assoc]
        exact ht
      cases t with
      | none =>
        obtain ⟨d', rows', g⟩ := ih (it + 1) rows d ht' (by omega) (by omega) hF (fun r h => (hr r h).imp fun i hi => ⟨by omega, hi.2⟩) (by
          intro i hi s hs
          by_cases e : i = it
          · subst e; rw [hget] at hs; cases hs
          · exact hc i (by omega) s hs)
        exact ⟨d', rows', g⟩
      | some s =>
        obtain ⟨number, share, c1, c2, c3⟩ := hC it (by omega) s hget
        have hmem : ∀ i s', i < 56 → types[i]? = some (some s') → some s' ∈ types.take 56 := by
          intro i s' hi hs'
          rw [List.mem_iff_getElem?]
          exact ⟨i, by rw [List.getElem?_take, if_pos hi]; exact hs'⟩
        have hnew : ∀ r ∈ rows, r.1 ≠ trimmed s := by
          intro r hr' he
          obtain ⟨i, hi, h0, ⟨s', hs', hst⟩, -⟩ := hr r hr'
          have hnd := hT.1
          have hA : types.take 56 = types.take it ++ (some s :: (types.drop (it + 1)).take (56 - (it + 1))) := by
            rw [show (some s :: (types.drop (it + 1)).take (56 - (it + 1))) = (types.drop it).take (56 - it) by
              rw [List.drop_eq_getElem_cons hlt, show 56 - it = (56 - (it + 1)) + 1 by omega, List.take_succ_cons]
              congr 1
              rw [List.getElem?_eq_getElem hlt] at hget
              exact (Option.some.inj hget).symm]
            rw [← List.take_append_drop it (types.take 56), List.take_take, List.drop_take, Nat.min_eq_left (by omega)]
          rw [hA, List.filterMap_append, List.map_append, List.nodup_append] at hnd
          refine hnd.2.2 (trimmed s') ?_ (trimmed s) ?_ (by rw [hst, he])
          · refine List.mem_map.2 ⟨s', List.mem_filterMap.2 ⟨some s', ?_, rfl⟩, rfl⟩
            rw [List.mem_iff_getElem?]
            exact ⟨i, by rw [List.getElem?_take, if_pos hi]; exact hs'⟩
          · exact List.mem_map.2 ⟨s, List.mem_filterMap.2 ⟨some s, by simp, rfl⟩, rfl⟩
        have hno : ∀ r ∈ rows, ∀ k, 1 ≤ k → r.1 ≠ numbered (trimmed s) k ∧ trimmed s ≠ numbered r.1 k := by
          intro r hr' k hk
          obtain ⟨i, hi, h0, ⟨s', hs', hst⟩, -⟩ := hr r hr'
          rw [← hst]
          have m1 := hmem i s' h0 hs'
          have m2 := hmem it s (by omega) hget
          exact ⟨hT.2 s' s m1 m2 k hk, hT.2 s s' m2 m1 k hk⟩
        obtain ⟨d1, e1, e2⟩ := destatisStep_ok column rows d hF it s number share c1 c2 c3 hnew hno
        obtain ⟨d', rows', g⟩ := ih (it + 1) (rows ++ [(trimmed s, number, share)]) d1 ht' (by omega) (by omega) e2 (by
            intro r h
            rcases List.mem_append.1 h with h | h
            · exact (hr r h).imp fun i hi => ⟨by omega, hi.2⟩
            · rw [List.mem_singleton] at h
              subst h
              exact ⟨it, by omega, by omega, ⟨s, hget, rfl⟩, c1, c2⟩) (by
            intro i hi s' hs'
            by_cases e : i = it
            · subst e
              rw [hget] at hs'
              injection hs' with hs'
              injection hs' with hs'
              subst hs'
              exact ⟨_, List.mem_append_right _ (List.mem_singleton.2 rfl), rfl, c1, c2⟩
            · obtain ⟨r, h, h'⟩ := hc i (by omega) s' hs'
              exact ⟨r, List.mem_append_left _ h, h'⟩)
        refine ⟨d', rows', ?_, g.2⟩
        simp only [bind, Except.bind, e1]
        exact g.1

theorem assignCell_error (number share : Option Rat) (h : ¬ PossibleRow number share) : assignCell (share.map fun x => x / 100) (number.map fun x => x / 100) = .error .valueError := by
  cases share with
  | none =>
    cases number with
    | none => exact absurd ⟨by simp, by simp, by simp⟩ h
    | some n =>
      have hn : n / 100 < 0 := by
        by_contra hc
        refine h ⟨?_, by simp, by simp⟩
        intro m hm
        injection hm with hm
        linarith
      simp only [Option.map_some, Option.map_none, assignCell, if_pos hn]
  | some p =>
    cases number with
    | none =>
      have hn : p / 100 < 0 ∨ p / 100 > 1 := by
        by_contra hc
        push Not at hc
        refine h ⟨by simp, ?_, by simp⟩
        intro m hm
        injection hm with hm
        constructor <;> linarith [hc.1, hc.2]
      simp only [Option.map_some, Option.map_none, assignCell, if_pos hn]
    | some n =>
      have hn : p / 100 > n / 100 ∨ p / 100 < 0 ∨ p / 100 > 1 ∨ n / 100 < 0 := by
        by_contra hc
        push Not at hc
        obtain ⟨c1, c2, c3, c4⟩ := hc
        refine h ⟨?_, ?_, ?_⟩
        · intro m hm
          injection hm with hm
          linarith
        · intro m hm
          injection hm with hm
          constructor <;> linarith
        · intro m q hm hq
          injection hm with hm
          injection hq with hq
          linarith
      simp only [Option.map_some, assignCell, assignOwnership, Option.getD_some, if_pos hn]
      rfl

theorem destatisStep_cases (column : List (Option Rat)) (d : List (Str × Rat)) (it : Nat) (s : Str) (number share : Option Rat) (h1 : column[it]? = some number) (h2 : column[it + 51]? = some share) :
    (PossibleRow number share → ∃ d', destatisStep column d it (some s) = .ok d') ∧ (¬ PossibleRow number share → destatisStep column d it (some s) = .error .valueError) := by
  have e1 : pyGet column it = .ok number := by unfold pyGet; rw [h1]
  have e2 : pyGet column (it + 51) = .ok share := by unfold pyGet; rw [h2]
  have ht : (s.filter fun c => decide (c ≠ ' ')) = trimmed s := rfl
  constructor
  · intro h
    obtain ⟨probs, a1, a2, -⟩ := assignCell_ok number share h
    have hfold : ∀ (l : List (Option Rat × Nat)) (d : List (Str × Rat)) (k : Str), (lookupA d k).isSome →
        (lookupA (l.foldl (fun d q => dictSet d (trimmed s ++ '_' :: decimal (q.2 + 1)) (q.1.getD 0)) d) k).isSome := by
      intro l
      induction l with
      | nil => intro d k h; exact h
      | cons q l ih =>
        intro d k h
        rw [List.foldl_cons]
        apply ih
        rw [lookup_dictSet]
        split
        · rfl
        · exact h
    obtain ⟨p0, rest, hp⟩ : ∃ p0 rest, probs = p0 :: rest := by
      match probs, a2 with
      | p0 :: rest, _ => exact ⟨p0, rest, rfl⟩
    have hsome : (lookupA (probs.zipIdx.foldl (fun d q => dictSet d (trimmed s ++ '_' :: decimal (q.2 + 1)) (q.1.getD 0)) d) (trimmed s ++ '_' :: decimal 1)).isSome := by
      rw [hp, List.zipIdx_cons, List.foldl_cons]
      apply hfold
      rw [lookup_dictSet, if_pos rfl]
      rfl
    obtain ⟨v, hv⟩ := Option.isSome_iff_exists.1 hsome
    unfold destatisStep
    simp only [bind, Except.bind, e1, e2, a1, ht]
    unfold dictPop
    rw [hv]
    exact ⟨_, rfl⟩
  · intro h
    unfold destatisStep
    simp only [bind, Except.bind, e1, e2, assignCell_error number share h]

theorem destatisLoop_error (column : List (Option Rat)) (types : List (Option Str)) (hcells : ∀ it < 56, ∀ u, types[it]? = some (some u) → it + 51 < column.length) (hbad : ¬ PossibleColumn types column) :
    ∀ (ts : List (Option Str)) (it : Nat) (d : List (Str × Rat)), types = types.take it ++ ts → it ≤ types.length → it ≤ 56 →
      (∀ i < it, ∀ s, types[i]? = some (some s) → ∃ number share, column[i]? = some number ∧ column[i + 51]? = some share ∧ PossibleRow number share) →
      destatisLoop column d it ts = .error .valueError := by
  intro ts
  induction ts with
  | nil =>
    intro it d ht hle h56 hc
    exfalso
    apply hbad
    intro i hi s hs
    apply hc i _ s hs
    rw [List.append_nil] at ht
    have := (List.getElem?_eq_some_iff.1 hs).1
    have hl := congrArg List.length ht
    rw [List.length_take] at hl
    omega
  | cons t ts ih =>
    intro it d ht hle h56 hc
    rw [destatisLoop]
    by_cases hend : it = 51 + 5
    · exact absurd (fun i hi s hs => hc i (by omega) s hs) hbad
    · rw [if_neg hend]
      have hget : types[it]? = some t := by
        rw [ht, List.getElem?_append_right (by rw [List.length_take]; omega), List.length_take, Nat.min_eq_left hle]
        simp
      have hlt : it < types.length := (List.getElem?_eq_some_iff.1 hget).1
      have ht' : types = types.take (it + 1) ++ ts := by
        rw [List.take_add_one, hget, List.append_assoc]
        exact ht
      cases t with
      | none =>
        apply ih (it + 1) d ht' (by omega) (by omega)
        intro i hi s hs
        by_cases e : i = it
        · subst e; rw [hget] at hs; cases hs
        · exact hc i (by omega) s hs
      | some s =>
        have hl := hcells it (by omega) s hget
        have c1 : column[it]? = some (column[it]'(by omega)) := List.getElem?_eq_getElem _
        have c2 : column[it + 51]? = some (column[it + 51]'hl) := List.getElem?_eq_getElem _
        obtain ⟨s1, s2⟩ := destatisStep_cases column d it s _ _ c1 c2
        by_cases hp : PossibleRow (column[it]'(by omega)) (column[it + 51]'hl)
        · obtain ⟨d', hd'⟩ := s1 hp
          simp only [bind, Except.bind, hd']
          apply ih (it + 1) d' ht' (by omega) (by omega)
          intro i hi s' hs'
          by_cases e : i = it
          · subst e
            exact ⟨_, _, c1, c2, hp⟩
          · exact hc i (by omega) s' hs'
        · simp only [bind, Except.bind, s2 hp]

end Demod
