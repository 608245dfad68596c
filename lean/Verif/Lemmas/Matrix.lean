import Verif.Model.OccSim
import Mathlib.Data.List.Basic
import Mathlib.Data.List.GetD
import Mathlib.Data.List.Nodup

/-! # Entries of arrays of households and appliances -/

namespace Demod

/-- The entry at `h, a`, if there is one. -/
def ent {α : Type} (m : List (List α)) (h a : Nat) : Option α := (m[h]?).bind fun r => r[a]?

/-- `n` rows of length `k`. -/
def Rect {α : Type} (n k : Nat) (m : List (List α)) : Prop := m.length = n ∧ ∀ r ∈ m, r.length = k

theorem Rect.row {α : Type} {n k : Nat} {m : List (List α)} (hm : Rect n k m) {h : Nat} (hh : h < n) : ∃ r, m[h]? = some r ∧ r.length = k := by
  have hl : h < m.length := by rw [hm.1]; exact hh
  exact ⟨m[h], List.getElem?_eq_getElem hl, hm.2 _ (List.getElem_mem hl)⟩

theorem Rect.ent {α : Type} {n k : Nat} {m : List (List α)} (hm : Rect n k m) {h a : Nat} (hh : h < n) (ha : a < k) : ∃ x, ent m h a = some x := by
  obtain ⟨r, e, l⟩ := hm.row hh
  exact ⟨r[a]'(by omega), by rw [Demod.ent, e]; exact List.getElem?_eq_getElem (by omega)⟩

theorem Rect.of_ent {α : Type} {n k : Nat} {m : List (List α)} (hm : Rect n k m) {h a : Nat} {x : α} (e : Demod.ent m h a = some x) : h < n ∧ a < k := by
  unfold Demod.ent at e
  obtain ⟨r, e1, e2⟩ := Option.bind_eq_some_iff.1 e
  have h1 := (List.getElem?_eq_some_iff.1 e1).1
  have h2 := (List.getElem?_eq_some_iff.1 e2).1
  rw [hm.2 r (List.mem_of_getElem? e1)] at h2
  rw [hm.1] at h1
  exact ⟨h1, h2⟩

theorem ent_getD {α : Type} {m : List (List α)} {h a : Nat} {x d : α} (e : ent m h a = some x) : (m.getD h []).getD a d = x := by
  unfold ent at e
  obtain ⟨r, e1, e2⟩ := Option.bind_eq_some_iff.1 e
  rw [List.getD_eq_getElem?_getD (l := m), e1, Option.getD_some, List.getD_eq_getElem?_getD, e2, Option.getD_some]

theorem ent_ext {α : Type} {n k : Nat} {m m' : List (List α)} (hm : Rect n k m) (hm' : Rect n k m') (h : ∀ i < n, ∀ j < k, ent m i j = ent m' i j) : m = m' := by
  refine List.ext_getElem (by rw [hm.1, hm'.1]) fun i h1 h2 => ?_
  have l1 := hm.2 _ (List.getElem_mem h1)
  have l2 := hm'.2 _ (List.getElem_mem h2)
  refine List.ext_getElem (by rw [l1, l2]) fun j h3 h4 => ?_
  have := h i (by rw [hm.1] at h1; exact h1) j (by omega)
  unfold ent at this
  rw [List.getElem?_eq_getElem h1, List.getElem?_eq_getElem h2] at this
  simp only [Option.bind_some] at this
  rw [List.getElem?_eq_getElem h3, List.getElem?_eq_getElem h4] at this
  exact Option.some.inj this

theorem ent_mapIdx {α β : Type} (m : List (List α)) (f : Nat → Nat → α → β) (h a : Nat) :
    ent (m.zipIdx.map fun r => r.1.zipIdx.map fun q => f r.2 q.2 q.1) h a = (ent m h a).map (f h a) := by
  unfold ent
  rw [List.getElem?_map, List.getElem?_zipIdx]
  cases m[h]? with
  | none => rfl
  | some r =>
    simp only [Option.map_some, Option.bind_some, Nat.zero_add]
    rw [List.getElem?_map, List.getElem?_zipIdx]
    cases r[a]? with
    | none => rfl
    | some x => simp

theorem rect_mapIdx {α β : Type} {n k : Nat} {m : List (List α)} (hm : Rect n k m) (f : Nat → Nat → α → β) :
    Rect n k (m.zipIdx.map fun r => r.1.zipIdx.map fun q => f r.2 q.2 q.1) := by
  refine ⟨by simpa using hm.1, fun r hr => ?_⟩
  obtain ⟨q, hq, e⟩ := List.mem_map.1 hr
  rw [← e, List.length_map, List.length_zipIdx]
  exact hm.2 _ (List.fst_mem_of_mem_zipIdx hq)

theorem ent_map {α β : Type} (m : List (List α)) (f : α → β) (h a : Nat) : ent (m.map fun r => r.map f) h a = (ent m h a).map f := by
  unfold ent
  rw [List.getElem?_map]
  cases m[h]? with
  | none => rfl
  | some r => simp

theorem rect_map {α β : Type} {n k : Nat} {m : List (List α)} (hm : Rect n k m) (f : α → β) : Rect n k (m.map fun r => r.map f) := by
  refine ⟨by simpa using hm.1, fun r hr => ?_⟩
  obtain ⟨q, hq, e⟩ := List.mem_map.1 hr
  rw [← e, List.length_map]
  exact hm.2 _ hq

/-! ## Assignments -/

theorem rect_setEntry {α : Type} {n k : Nat} {m : List (List α)} (hm : Rect n k m) (q : Nat × Nat) (v : α) : Rect n k (setEntry m q v) := by
  unfold setEntry
  refine ⟨by simpa using hm.1, fun r hr => ?_⟩
  by_cases hq : q.1 < m.length
  · rcases List.mem_or_eq_of_mem_set hr with h | h
    · exact hm.2 r h
    · rw [h, List.length_set, List.getD_eq_getElem?_getD, List.getElem?_eq_getElem hq, Option.getD_some]
      exact hm.2 _ (List.getElem_mem hq)
  · rw [List.set_eq_of_length_le (by omega)] at hr
    exact hm.2 r hr

theorem ent_setEntry {α : Type} {n k : Nat} {m : List (List α)} (hm : Rect n k m) (q : Nat × Nat) (v : α) (h a : Nat) (hh : h < n) (ha : a < k) :
    ent (setEntry m q v) h a = if q = (h, a) then some v else ent m h a := by
  obtain ⟨r, e, l⟩ := hm.row hh
  have hl : h < m.length := by rw [hm.1]; exact hh
  unfold ent setEntry
  rw [List.getElem?_set]
  by_cases h1 : q.1 = h
  · subst h1
    rw [if_pos rfl, if_pos hl, List.getD_eq_getElem?_getD, e]
    simp only [Option.getD_some, Option.bind_some]
    rw [List.getElem?_set]
    by_cases h2 : q.2 = a
    · rw [if_pos h2, if_pos (by omega), if_pos (by rw [← h2])]
    · rw [if_neg h2, if_neg (fun c => h2 (by rw [c]))]
  · rw [if_neg h1, if_neg (fun c => h1 (by rw [c])), e]

theorem rect_setEntries {α : Type} {n k : Nat} (at' : List (Nat × Nat)) (vs : List α) {m : List (List α)} (hm : Rect n k m) : Rect n k (setEntries m at' vs) := by
  unfold setEntries
  induction at' generalizing vs m with
  | nil => exact hm
  | cons q at' ih =>
    cases vs with
    | nil => exact hm
    | cons v vs => exact ih vs (rect_setEntry hm q v)

theorem setEntries_miss {α : Type} {n k : Nat} (at' : List (Nat × Nat)) (vs : List α) {m : List (List α)} (hm : Rect n k m) (h a : Nat) (hh : h < n) (ha : a < k) (hq : (h, a) ∉ at') :
    ent (setEntries m at' vs) h a = ent m h a := by
  unfold setEntries
  induction at' generalizing vs m with
  | nil => rfl
  | cons q at' ih =>
    cases vs with
    | nil => rfl
    | cons v vs =>
      have := ih vs (rect_setEntry hm q v) (fun c => hq (List.mem_cons_of_mem _ c))
      simp only [List.zip_cons_cons, List.foldl_cons] at this ⊢
      rw [this, ent_setEntry hm q v h a hh ha, if_neg (fun c => hq (by rw [c]; exact List.mem_cons_self))]

theorem setEntries_hit {α : Type} {n k : Nat} (at' : List (Nat × Nat)) (vs : List α) {m : List (List α)} (hm : Rect n k m) (hnd : at'.Nodup) (h a : Nat) (hh : h < n) (ha : a < k)
    (i : Nat) (v : α) (hi : at'[i]? = some (h, a)) (hv : vs[i]? = some v) : ent (setEntries m at' vs) h a = some v := by
  unfold setEntries
  induction at' generalizing vs m i with
  | nil => simp at hi
  | cons q at' ih =>
    cases vs with
    | nil => simp at hv
    | cons w vs =>
      simp only [List.zip_cons_cons, List.foldl_cons]
      cases i with
      | zero =>
        simp only [List.getElem?_cons_zero, Option.some.injEq] at hi hv
        subst hi
        subst hv
        have := setEntries_miss at' vs (rect_setEntry hm (h, a) w) h a hh ha (List.nodup_cons.1 hnd).1
        unfold setEntries at this
        rw [this, ent_setEntry hm _ w h a hh ha, if_pos rfl]
      | succ i => exact ih vs (rect_setEntry hm q w) (List.nodup_cons.1 hnd).2 i (by simpa using hi) (by simpa using hv)

/-! ## The positions of `True` -/

theorem mem_trueAt (mask : List (List Bool)) (h a : Nat) : (h, a) ∈ trueAt mask ↔ ent mask h a = some true := by
  unfold trueAt ent
  rw [List.mem_flatMap]
  constructor
  · rintro ⟨⟨r, i⟩, hr, hq⟩
    obtain ⟨⟨b, j⟩, hj, e⟩ := List.mem_map.1 hq
    obtain ⟨hj, hb⟩ := List.mem_filter.1 hj
    simp only at hb e hj
    obtain ⟨rfl, rfl⟩ := Prod.mk.inj e
    subst hb
    rw [List.mem_zipIdx_iff_getElem?] at hr hj
    simp only at hr hj
    rw [hr]
    exact hj
  · intro e
    obtain ⟨r, e1, e2⟩ := Option.bind_eq_some_iff.1 e
    refine ⟨(r, h), ?_, ?_⟩
    · rw [List.mem_zipIdx_iff_getElem?]; exact e1
    · refine List.mem_map.2 ⟨(true, a), List.mem_filter.2 ⟨?_, rfl⟩, rfl⟩
      rw [List.mem_zipIdx_iff_getElem?]; exact e2

theorem nodup_zipIdx {α : Type} (l : List α) (k : Nat) : ((l.zipIdx k).map fun q => q.2).Nodup := by
  rw [show (fun q : α × Nat => q.2) = Prod.snd from rfl, List.zipIdx_map_snd]
  exact List.nodup_range'

theorem trueAt_nodup (mask : List (List Bool)) : (trueAt mask).Nodup := by
  unfold trueAt
  rw [List.nodup_flatMap]
  constructor
  · intro r _
    have h : ((r.1.zipIdx.filter fun q => q.1).map fun q => q.2).Nodup := ((nodup_zipIdx r.1 0).sublist (List.Sublist.map _ List.filter_sublist))
    have : (r.1.zipIdx.filter fun q => q.1).map (fun q => (r.2, q.2)) = ((r.1.zipIdx.filter fun q => q.1).map fun q => q.2).map fun j => (r.2, j) := by
      rw [List.map_map]; rfl
    rw [this]
    exact h.map (fun x y e => (Prod.mk.inj e).2)
  · have := nodup_zipIdx mask 0
    rw [List.Nodup, List.pairwise_map] at this
    refine this.imp ?_
    intro x y hne
    intro q hx hy
    obtain ⟨a, -, rfl⟩ := List.mem_map.1 hx
    obtain ⟨b, -, e⟩ := List.mem_map.1 hy
    exact hne (Prod.mk.inj e).1.symm

end Demod
