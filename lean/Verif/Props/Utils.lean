import Verif.Lemmas.Ownership
import Verif.Lemmas.Subgroup
import Verif.Lemmas.Calendar

/-! # Properties of the utilities (C29-C37) -/

namespace Demod

/-! ## C29 -/

/-- No external array leaves the base unchanged; an external array of the same length overrides exactly where
it is not NaN; another length is an error. -/
theorem C29_array (base e : List (Option Rat)) :
    assignExternalArray base none = .ok base ∧
    (e.length = base.length → ∃ out, assignExternalArray base (some e) = .ok out ∧ out.length = base.length ∧
      ∀ i < base.length, out[i]? = if e[i]? = some none then base[i]? else e[i]?) ∧
    (e.length ≠ base.length → assignExternalArray base (some e) = .error .indexError) := by
  refine ⟨rfl, ?_, ?_⟩
  · intro h
    refine ⟨_, by unfold assignExternalArray; simp only; rw [if_pos h], by simp [h], ?_⟩
    intro i hi
    rw [List.getElem?_zipWith, List.getElem?_eq_getElem hi, List.getElem?_eq_getElem (h ▸ hi)]
    rcases e[i]'(h ▸ hi) with _ | v <;> simp
  · intro h
    unfold assignExternalArray
    simp only
    rw [if_neg h]

example : assignExternalArray [some 1, some 2, none, some 4] (some [some 5, none, some 6, none]) =
    .ok [some 5, some 2, some 6, some 4] := by decide +kernel

/-- The dictionary version: no external dictionary leaves the base unchanged; an external dictionary with known keys and
fitting arrays overrides the arrays of its keys as above, and no other; an unknown key is an error. -/
theorem C29_dict {κ : Type} [DecidableEq κ] (base : Dict κ (List (Option Rat))) (items : List (κ × List (Option Rat)))
    (hn : (items.map (·.1)).Nodup) :
    assignExternalDict base none = .ok base ∧
    ((∀ q ∈ items, ∃ b, base q.1 = some b ∧ b.length = q.2.length) → ∃ out, assignExternalDict base (some items) = .ok out) ∧
    (∀ out, assignExternalDict base (some items) = .ok out →
      (∀ k, k ∉ items.map (·.1) → out k = base k) ∧
      ∀ k e, (k, e) ∈ items → ∃ b r, base k = some b ∧ out k = some r ∧ e.length = b.length ∧ r.length = b.length ∧
        ∀ i < b.length, r[i]? = if e[i]? = some none then b[i]? else e[i]?) := by
  refine ⟨rfl, ?_, ?_⟩
  · intro h
    exact assignDict_ok base items hn h
  · intro out h
    refine ⟨fun k hk => assignDict_none base items out h k hk, ?_⟩
    intro k e hk
    obtain ⟨b, r, h1, h2, h3⟩ := assignDict_some base items hn out h k e hk
    have hc := C29_array b e
    by_cases hl : e.length = b.length
    · obtain ⟨o, ho, hol, hoi⟩ := hc.2.1 hl
      rw [h2] at ho
      injection ho with ho
      rw [← ho] at hol hoi
      exact ⟨b, r, h1, h3, hl, hol, hoi⟩
    · rw [hc.2.2 hl] at h2; cases h2

example : ∃ out, assignExternalDict (κ := Nat) (fun k => if k < 2 then some [some 1, some 2] else none)
    (some [(1, [none, some 7])]) = .ok out ∧ out 0 = some [some 1, some 2] ∧ out 1 = some [some 1, some 7] :=
  ⟨_, rfl, by decide +kernel, by decide +kernel⟩

/-! ## C30 -/

/-- `find_closest_type` returns the longest non-empty `'_'`-suffix that is in the list, and `False` exactly when there
is none. -/
theorem C30_closest (s : Str) (types : List Str) :
    (∀ r, findClosestType s types = some r ↔
      r ≠ [] ∧ r ∈ types ∧ IsParent s r ∧ ∀ t, t ≠ [] → t ∈ types → IsParent s t → t.length ≤ r.length) ∧
    (findClosestType s types = none ↔ ∀ t, t ≠ [] → t ∈ types → ¬ IsParent s t) := by
  have h := closestLoop_spec types (s.length + 1) s (by omega)
  have huniq : ∀ a b : Str, IsParent s a → IsParent s b → a.length = b.length → a = b := by
    intro a b ha hb hl
    have hsuf : ∀ t, IsParent s t → t <:+ s := by
      rintro t (rfl | ⟨x, rfl⟩)
      · exact List.suffix_refl _
      · exact ⟨x ++ ['_'], by simp⟩
    have h1 := hsuf a ha
    have h2 := hsuf b hb
    rw [List.suffix_iff_eq_drop] at h1 h2
    rw [h1, h2, hl]
  constructor
  · intro r
    unfold findClosestType
    constructor
    · intro hr
      rw [hr] at h
      exact h
    · rintro ⟨r1, r2, r3, r4⟩
      split at h
      · rename_i r' hr'
        obtain ⟨p1, p2, p3, p4⟩ := h
        rw [hr', huniq r r' r3 p3 (le_antisymm (p4 r r1 r2 r3) (r4 r' p1 p2 p3))]
      · exact absurd r2 (h r r1 r3)
  · unfold findClosestType
    constructor
    · intro hr
      rw [hr] at h
      intro t t1 t2 t3
      exact h t t1 t3 t2
    · intro ha
      split at h
      · rename_i r hr
        exact absurd h.2.2.1 (ha r h.1 h.2.1)
      · assumption

example : findClosestType "big_chest_freezer".toList ["freezer".toList, "chest_freezer".toList, "chest".toList] =
    some "chest_freezer".toList ∧ findClosestType "freezer_big".toList ["freezer".toList] = none := by decide +kernel

/-! ## C31 -/

/-- One value per appliance; the `k`-th appliance whose closest type is `T` gets the entry `T`, `T_2`, `T_3`, … (0 if
missing); an appliance without any closest type gets its default. -/
theorem C31_ownership (types : List Str) (dict : List (Str × Rat)) (default : List Rat) (hd : default.length = types.length) :
    ∃ out, getOwnership types dict default = .ok out ∧ out.length = types.length ∧
      ∀ i (hi : i < types.length),
        (findClosestType types[i] (dict.map (·.1)) = none → out[i]? = default[i]?) ∧
        (∀ T, findClosestType types[i] (dict.map (·.1)) = some T →
          out[i]? = some ((dict.lookup (copyKey T (copyNumber (types.map fun t => findClosestType t (dict.map (·.1))) i T))).getD 0)) := by
  obtain ⟨out, h1, h2, h3⟩ := ownershipLoop_spec dict default types Dict.empty [] (by intro T; rfl) (by
    intro j t hj _
    have := (List.getElem?_eq_some_iff.1 hj).1
    simp only [List.length_nil]
    omega)
  have hlook : ∀ k, dict.lookup k = lookupA dict k := lookup_eq dict
  refine ⟨out, h1, h2, ?_⟩
  intro i hi
  have hi' : i < out.length := by omega
  have hex := h3 i out[i] (List.getElem?_eq_getElem hi')
  simp only [List.nil_append, List.length_nil, Nat.zero_add] at hex
  unfold expected at hex
  rw [List.getElem?_map, List.getElem?_eq_getElem hi, Option.map_some] at hex
  rw [List.getElem?_eq_getElem hi']
  constructor
  · intro hn
    rw [hn] at hex
    exact hex.symm
  · intro T hT
    rw [hT] at hex
    rw [hlook]
    exact congrArg some hex

example : getOwnership ["hob".toList, "electric_hob".toList, "oven".toList, "gas_hob".toList]
    [("hob".toList, 9 / 10), ("hob_2".toList, 1 / 10)] [1, 1, 1 / 2, 1] = .ok [9 / 10, 1 / 10, 1 / 2, 0] := by decide +kernel

/-- Without enough default values, an appliance without closest type is an error. -/
theorem C31_missing_default (types : List Str) (dict : List (Str × Rat)) (default out : List Rat)
    (h : getOwnership types dict default = .ok out) (i : Nat) (hi : i < types.length)
    (hn : findClosestType types[i] (dict.map (·.1)) = none) : i < default.length := by
  have := ownershipLoop_fail dict default types Dict.empty 0 out h i types[i] (List.getElem?_eq_getElem hi) hn
  omega

example : getOwnership ["oven".toList] [] [] = .error .indexError := by decide +kernel

/-! ## C32 -/

/-- Inputs are accepted exactly when `0 ≤ p ≤ 1`, `p ≤ n`, `0 ≤ n` and the algorithm is `'floor'`; NaN stands for `p`. The
probabilities are in `[0, 1]`, start with `p` and sum to `n`. -/
theorem C32_sum (p : Rat) (number : Option Rat) (floorAlgo : Bool) :
    ((∃ l, assignOwnership p number floorAlgo = .ok l) ↔ (floorAlgo = true ∧ 0 ≤ p ∧ p ≤ 1 ∧ ∀ n, number = some n → p ≤ n ∧ 0 ≤ n)) ∧
    (∀ l, assignOwnership p number floorAlgo = .ok l → l.head? = some p ∧ (∀ x ∈ l, 0 ≤ x ∧ x ≤ 1) ∧
      l.sum = match number with | some n => n | none => p) ∧
    ∀ e, assignOwnership p number floorAlgo = .error e → e = .valueError := by
  have hm : (match number with | some n => n | none => p) = number.getD p := by cases number <;> rfl
  rw [hm]
  have hiff : (0 ≤ p ∧ p ≤ 1 ∧ ∀ n, number = some n → p ≤ n ∧ 0 ≤ n) ↔ ¬ (p > number.getD p ∨ p < 0 ∨ p > 1 ∨ number.getD p < 0) := by
    rcases number with _ | n
    · simp only [Option.getD_none, gt_iff_lt, lt_self_iff_false, false_or, not_or, not_lt, reduceCtorEq, false_implies, implies_true, and_true]
      tauto
    · simp only [Option.getD_some, gt_iff_lt, not_or, not_lt, Option.some.injEq, forall_eq']
      tauto
  rw [hiff]
  have hspec : assignOwnership p number floorAlgo = if p > number.getD p ∨ p < 0 ∨ p > 1 ∨ number.getD p < 0 then .error .valueError
      else if floorAlgo then .ok (p :: min (number.getD p - p) 1 :: remainingLoop (number.getD p - p).ceil.toNat (number.getD p - p))
      else .error .valueError := rfl
  rw [hspec]
  generalize number.getD p = n
  by_cases hbad : p > n ∨ p < 0 ∨ p > 1 ∨ n < 0
  · rw [if_pos hbad]
    refine ⟨⟨fun ⟨l, h⟩ => (nomatch h), fun h => absurd hbad h.2⟩, fun l h => (nomatch h), fun e h => by injection h with h; exact h.symm⟩
  · rw [if_neg hbad]
    cases floorAlgo with
    | false =>
      refine ⟨⟨fun ⟨l, h⟩ => (nomatch h), fun h => absurd h.1 (by simp)⟩, fun l h => (nomatch h), fun e h => by injection h with h; exact h.symm⟩
    | true =>
      refine ⟨⟨fun _ => ⟨rfl, hbad⟩, fun _ => ⟨_, rfl⟩⟩, ?_, fun e h => by cases h⟩
      intro l h
      injection h with h
      subst h
      simp only [not_or, not_lt, gt_iff_lt] at hbad
      obtain ⟨b1, b2, b3, b4⟩ := hbad
      have hs := remainingLoop_spec (n - p).ceil.toNat (n - p) (by linarith) (by
        have h1 : (n - p) ≤ ((n - p).ceil : Rat) := Rat.le_ceil
        have h2 : (n - p).ceil ≤ ((n - p).ceil.toNat : Int) := Int.self_le_toNat _
        have h3 : ((n - p).ceil : Rat) ≤ (((n - p).ceil.toNat : Int) : Rat) := by exact_mod_cast h2
        exact le_trans h1 (by exact_mod_cast h3))
      refine ⟨rfl, ?_, ?_⟩
      · intro x hx
        rcases List.mem_cons.1 hx with rfl | hx
        · exact ⟨b2, b3⟩
        rcases List.mem_cons.1 hx with rfl | hx
        · exact ⟨le_min (by linarith) (by norm_num), min_le_right _ _⟩
        · exact hs.2 x hx
      · rw [List.sum_cons, List.sum_cons, hs.1]; ring

example : assignOwnership (9 / 10) (some (7 / 2)) true = .ok [9 / 10, 1, 1, 3 / 5] ∧
    assignOwnership (1 / 2) none true = .ok [1 / 2, 0] ∧ assignOwnership (1 / 2) (some (1 / 4)) true = .error .valueError := by
  decide +kernel

/-! ## C33 -/

/-- The merged dictionary has exactly the common keys, their arrays are concatenated, the numbers are added. -/
theorem C33_merge {α : Type} (d e : ApplianceDict α) (k : Str) :
    (d.merge e).arrays.lookup k = (match d.arrays.lookup k, e.arrays.lookup k with
      | some a, some b => some (a ++ b)
      | _, _ => none) ∧ (d.merge e).number = d.number + e.number := by
  refine ⟨?_, rfl⟩
  rw [lookup_eq, lookup_eq, lookup_eq]
  unfold ApplianceDict.merge
  simp only
  have h := lookupA_filterMap d.arrays (fun (k : Str) (a : List α) => (lookupA e.arrays k).map fun b => a ++ b)
    (by intro k a b; cases lookupA e.arrays k <;> rfl) k
  have hfun : (fun (q : Str × List α) => Option.map (fun b => (q.1, q.2 ++ b)) (lookupA e.arrays q.1)) =
      fun q => ((lookupA e.arrays q.1).map fun b => q.2 ++ b).map fun b => (q.1, b) := by
    funext q
    cases lookupA e.arrays q.1 <;> rfl
  rw [hfun, h]
  rcases lookupA d.arrays k with _ | a
  · rfl
  · rcases lookupA e.arrays k with _ | b <;> rfl

example : ((⟨[("type".toList, [1, 2]), ("x".toList, [3, 4])], 2⟩ : ApplianceDict Nat).merge ⟨[("y".toList, [0]), ("type".toList, [5])], 1⟩) =
    ⟨[("type".toList, [1, 2, 5])], 3⟩ := by decide +kernel

/-- Merging dictionaries whose arrays have one entry per appliance gives such a dictionary. -/
theorem C33_consistent {α : Type} (d e : ApplianceDict α) (hd : ∀ q ∈ d.arrays, q.2.length = d.number)
    (he : ∀ q ∈ e.arrays, q.2.length = e.number) : ∀ q ∈ (d.merge e).arrays, q.2.length = (d.merge e).number := by
  intro q hq
  unfold ApplianceDict.merge at hq
  obtain ⟨x, hx, hxq⟩ := List.mem_filterMap.1 hq
  rcases hl : lookupA e.arrays x.1 with _ | b
  · rw [hl] at hxq; cases hxq
  · rw [hl] at hxq
    injection hxq with hxq
    rw [← hxq]
    simp only [List.length_append, ApplianceDict.merge]
    rw [hd x hx, he _ (lookupA_some_mem _ _ _ hl)]

example : let d : ApplianceDict Nat := ⟨[("type".toList, [1, 2])], 2⟩
    (∀ q ∈ d.arrays, q.2.length = d.number) ∧ (d.merge d).number = 4 := by decide +kernel

/-- Merging is associative. -/
theorem C33_associative {α : Type} (d e f : ApplianceDict α) : (d.merge e).merge f = d.merge (e.merge f) := by
  have hn : ((d.merge e).merge f).number = (d.merge (e.merge f)).number := Nat.add_assoc _ _ _
  have ha : ((d.merge e).merge f).arrays = (d.merge (e.merge f)).arrays := by
    have hlook : ∀ k, lookupA (e.merge f).arrays k = (lookupA e.arrays k).bind fun a => (lookupA f.arrays k).map fun b => a ++ b := by
      intro k
      rw [← lookup_eq, (C33_merge e f k).1, lookup_eq, lookup_eq]
      rcases lookupA e.arrays k with _ | a
      · rfl
      · rcases lookupA f.arrays k with _ | b <;> rfl
    show List.filterMap _ (List.filterMap _ d.arrays) = List.filterMap _ d.arrays
    rw [List.filterMap_filterMap]
    congr 1
    funext q
    rw [hlook]
    rcases h1 : lookupA e.arrays q.1 with _ | b
    · rfl
    · rcases h2 : lookupA f.arrays q.1 with _ | c <;> simp [h2]
  exact ApplianceDict.ext ha hn

/-! ## C34 -/

/-- Subgroups whose values have the type that belongs to their key are strictly totally ordered by `>`. -/
theorem C34_strict_total_order (ty : Str → Bool) (a b c : Subgroup) (ha : WellTyped ty a) (hb : WellTyped ty b) (hc : WellTyped ty c)
    (da : DistinctKeys a) (db : DistinctKeys b) :
    (∃ r, a.gt b = .ok r) ∧ a.gt a = .ok false ∧ (a.gt b = .ok true → b.gt a = .ok false) ∧
    (a.gt b = .ok true → b.gt c = .ok true → a.gt c = .ok true) ∧
    (a.gt b = .ok false → b.gt a = .ok false → ∀ k, a.at k = b.at k) ∧
    ((∀ k, a.at k = b.at k) → a.gt b = .ok false ∧ b.gt a = .ok false) := by
  have irr : ∀ x : Subgroup, WellTyped ty x → ¬ FirstAbove x x := fun x hx h => firstAbove_asymm ty x x hx hx h h
  have eqn : ∀ x y : Subgroup, (∀ k, x.at k = y.at k) → ¬ FirstAbove x y := by
    intro x y h ⟨k, _, h2⟩
    rw [h k] at h2; exact above_irrefl _ h2
  have sab := gt_spec ty a b ha hb
  have sba := gt_spec ty b a hb ha
  have saa := gt_spec ty a a ha ha
  have sbc := gt_spec ty b c hb hc
  have sac := gt_spec ty a c ha hc
  refine ⟨?_, ?_, ?_, ?_, ?_, ?_⟩
  · rcases sab with ⟨_, h⟩ | ⟨_, h⟩ | ⟨_, ⟨h, _⟩ | ⟨h, _⟩ | ⟨h, _⟩⟩ <;> exact ⟨_, h⟩
  · rcases saa with ⟨h, _⟩ | ⟨_, h⟩ | ⟨_, ⟨_, h⟩ | ⟨h, _⟩ | ⟨h, _⟩⟩
    · omega
    · exact h
    · exact absurd h (irr a ha)
    · exact h
    · exact h
  · intro h
    rcases sab with ⟨l1, _⟩ | ⟨l1, g⟩ | ⟨l1, ⟨_, f1⟩ | ⟨g, _⟩ | ⟨g, _⟩⟩
    · rcases sba with ⟨l2, _⟩ | ⟨_, g⟩ | ⟨l2, _⟩
      · omega
      · exact g
      · omega
    · rw [g] at h; cases h
    · rcases sba with ⟨l2, _⟩ | ⟨_, g⟩ | ⟨_, ⟨_, f2⟩ | ⟨g, _⟩ | ⟨g, _⟩⟩
      · omega
      · exact g
      · exact (firstAbove_asymm ty a b ha hb f1 f2).elim
      · exact g
      · exact g
    · rw [g] at h; cases h
    · rw [g] at h; cases h
  · intro h1 h2
    rcases sab with ⟨l1, _⟩ | ⟨_, g⟩ | ⟨l1, ⟨_, f1⟩ | ⟨g, _⟩ | ⟨g, _⟩⟩
    · have : b.length ≤ c.length := by
        rcases sbc with ⟨l2, _⟩ | ⟨_, g⟩ | ⟨l2, _⟩
        · omega
        · rw [g] at h2; cases h2
        · omega
      rcases sac with ⟨_, g⟩ | ⟨l3, _⟩ | ⟨l3, _⟩
      · exact g
      · omega
      · omega
    · rw [g] at h1; cases h1
    · rcases sbc with ⟨l2, _⟩ | ⟨_, g⟩ | ⟨l2, ⟨_, f2⟩ | ⟨g, _⟩ | ⟨g, _⟩⟩
      · rcases sac with ⟨_, g⟩ | ⟨l3, _⟩ | ⟨l3, _⟩
        · exact g
        · omega
        · omega
      · rw [g] at h2; cases h2
      · have f3 := firstAbove_trans ty a b c ha hb hc f1 f2
        rcases sac with ⟨_, g⟩ | ⟨l3, _⟩ | ⟨_, ⟨g, _⟩ | ⟨_, f4⟩ | ⟨_, f4⟩⟩
        · exact g
        · omega
        · exact g
        · exact (firstAbove_asymm ty a c ha hc f3 f4).elim
        · exact absurd f3 (eqn a c f4)
      · rw [g] at h2; cases h2
      · rw [g] at h2; cases h2
    · rw [g] at h1; cases h1
    · rw [g] at h1; cases h1
  · intro h1 h2
    rcases sab with ⟨_, g⟩ | ⟨l1, _⟩ | ⟨l1, ⟨g, _⟩ | ⟨_, f1⟩ | ⟨_, e⟩⟩
    · rw [g] at h1; cases h1
    · rcases sba with ⟨_, g⟩ | ⟨l2, _⟩ | ⟨l2, _⟩
      · rw [g] at h2; cases h2
      · omega
      · omega
    · rw [g] at h1; cases h1
    · rcases sba with ⟨l2, _⟩ | ⟨l2, _⟩ | ⟨_, ⟨g, _⟩ | ⟨_, f2⟩ | ⟨_, e⟩⟩
      · omega
      · omega
      · rw [g] at h2; cases h2
      · exact (firstAbove_asymm ty b a hb ha f1 f2).elim
      · exact fun k => (e k).symm
    · exact e
  · intro e
    have hl := length_of_at a b da db e
    constructor
    · rcases sab with ⟨l, _⟩ | ⟨l, _⟩ | ⟨_, ⟨_, f⟩ | ⟨g, _⟩ | ⟨g, _⟩⟩
      · omega
      · omega
      · exact absurd f (eqn a b e)
      · exact g
      · exact g
    · rcases sba with ⟨l, _⟩ | ⟨l, _⟩ | ⟨_, ⟨_, f⟩ | ⟨g, _⟩ | ⟨g, _⟩⟩
      · omega
      · omega
      · exact absurd f (eqn b a fun k => (e k).symm)
      · exact g
      · exact g

/-- The typing of the keys used in the example. -/
example : let ty : Str → Bool := fun k => decide (k = "weekday".toList)
    let a : Subgroup := [("n".toList, .int 2), ("weekday".toList, .list [1, 2, 3, 4, 5])]
    let b : Subgroup := [("weekday".toList, .list [6, 7]), ("n".toList, .int 2)]
    WellTyped ty a ∧ WellTyped ty b ∧ DistinctKeys a ∧ DistinctKeys b ∧ a.gt b = .ok true := by
  refine ⟨?_, ?_, ?_, ?_, by decide +kernel⟩
  · intro q hq
    simp only [List.mem_cons, List.not_mem_nil, or_false] at hq
    rcases hq with rfl | rfl <;> simp
  · intro q hq
    simp only [List.mem_cons, List.not_mem_nil, or_false] at hq
    rcases hq with rfl | rfl <;> simp
  · simp [DistinctKeys]
  · simp [DistinctKeys]

/-- The comparison does not depend on the insertion order of the keys. -/
theorem C34_insertion_order (a a' b b' : Subgroup) (da : DistinctKeys a) (db : DistinctKeys b) (ha : a.Perm a') (hb : b.Perm b') :
    a.gt b = a'.gt b' := by
  have hla : ∀ k, lookupA a k = lookupA a' k := lookupA_perm a a' da ha
  have hlb : ∀ k, lookupA b k = lookupA b' k := lookupA_perm b b' db hb
  have hloop : ∀ ks, gtLoop a b ks = gtLoop a' b' ks := by
    intro ks
    induction ks with
    | nil => rfl
    | cons k ks ih => rw [gtLoop, gtLoop, hla, hlb, ih]
  have hsort : sortStr (a.map (·.1) ++ b.map (·.1)) = sortStr (a'.map (·.1) ++ b'.map (·.1)) := by
    apply List.Perm.eq_of_pairwise (le := fun x y => x ≤ y) (fun x y _ _ h1 h2 => le_antisymm h1 h2)
      (sortStr_sorted _) (sortStr_sorted _)
    exact (List.perm_insertionSort _ _).trans (((ha.map _).append (hb.map _)).trans (List.perm_insertionSort _ _).symm)
  unfold Subgroup.gt
  rw [ha.length_eq, hb.length_eq, hsort, hloop]

example : DistinctKeys [("n".toList, SubVal.int 2), ("a".toList, .int 1)] ∧
    ([("n".toList, SubVal.int 2), ("a".toList, .int 1)] : Subgroup).Perm [("a".toList, .int 1), ("n".toList, .int 2)] :=
  ⟨by simp [DistinctKeys], List.Perm.swap _ _ _⟩

/-- The documentation says that more keys, and then larger values, are greater: the code does the converse. -/
theorem C34_inverted_counterexample :
    Subgroup.gt [] [("n".toList, .int 2)] = .ok true ∧ Subgroup.gt [("n".toList, .int 2)] [] = .ok false ∧
    Subgroup.gt [("n".toList, .int 2)] [("n".toList, .int 3)] = .ok true := by decide +kernel

/-- Subgroups that `add_time` makes for Monday 2021-01-04 and for Saturday 2021-01-09 (scheme week/saturday/sunday) cannot be
compared. -/
theorem C34_mixed_counterexample :
    ∃ a b, addTime [] (737793 * DAY) false true false false = .ok a ∧ addTime [] ((737793 + 5) * DAY) false true false false = .ok b ∧
      DistinctKeys a ∧ DistinctKeys b ∧ a.gt b = .error .typeError ∧ b.gt a = .error .typeError := by
  exact ⟨[(kWeekday, .list [1, 2, 3, 4, 5])], [(kWeekday, .int 6)], by decide +kernel, by decide +kernel, by simp [DistinctKeys], by simp [DistinctKeys],
    by decide +kernel, by decide +kernel⟩

/-! ## C35 -/

/-- The string of a subgroup does not depend on the insertion order of its keys. -/
theorem C35_insertion_order (s t : Subgroup) (hs : DistinctKeys s) (h : s.Perm t) : subgroupString s = subgroupString t := by
  unfold subgroupString
  rw [sortSubgroup_congr s t hs h]

example : subgroupString [("n_residents".toList, .int 2), ("household_type".toList, .int 3)] = "household_type_3__n_residents_2".toList ∧
    subgroupString [("household_type".toList, .int 3), ("n_residents".toList, .int 2)] = "household_type_3__n_residents_2".toList := by
  decide +kernel

/-- Two usual subgroups with the same string have the same content. -/
theorem C35_injective (s t : Subgroup) (hs : Usual s) (ht : Usual t) (h : subgroupString s = subgroupString t) : ∀ k, s.at k = t.at k := by
  have e : sortSubgroup s = sortSubgroup t := by
    apply encode_inj
    · intro q hq
      exact hs.2 q ((sortSubgroup_perm s).mem_iff.1 hq)
    · intro q hq
      exact ht.2 q ((sortSubgroup_perm t).mem_iff.1 hq)
    · exact h
  have hp : s.Perm t := (sortSubgroup_perm s).symm.trans (e ▸ sortSubgroup_perm t)
  exact lookupA_perm s t hs.1 hp

example : Usual [("n_residents".toList, .int 2), ("weekday".toList, .list [1, 2, 3, 4, 5]), ("age".toList, .int (-3))] := by
  refine ⟨by simp [DistinctKeys], ?_⟩
  intro q hq
  simp only [List.mem_cons, List.not_mem_nil, or_false] at hq
  rcases hq with rfl | rfl | rfl
  · exact ⟨by decide, by intro l hl; cases hl⟩
  · exact ⟨by decide, by intro l hl; injection hl with hl; subst hl; decide⟩
  · exact ⟨by decide, by intro l hl; cases hl⟩

/-- The restrictions are needed: a list of one element, an empty list, and keys that contain values collide. -/
theorem C35_counterexample :
    subgroupString [("a".toList, .list [1])] = subgroupString [("a".toList, .int 1)] ∧
    subgroupString [("a_1__b".toList, .int 2)] = subgroupString [("a".toList, .int 1), ("b".toList, .int 2)] := by decide +kernel

/-! ## C36 -/

/-- The attributes of a household other than its size and type. -/
def otherAttributes (hh : Subgroup) (k : Str) : Option SubVal := if k = kNResidents ∨ k = kHouseholdType then none else hh.at k

/-- A household of consistent size and type 2 (couple), 3 (single parent) or 4 (parents and children): as many persons as
residents; one main income (1), a spouse (2) exactly for types 2 and 4, all the others children (3); the other attributes are kept. -/
theorem C36_members (hh : Subgroup) (n : Nat) (ty : Int) (hn : hh.at kNResidents = some (.int n)) (hty : hh.at kHouseholdType = some (.int ty))
    (hc : (ty = 2 ∧ n = 2) ∨ (ty = 3 ∧ 2 ≤ n) ∨ (ty = 4 ∧ 2 ≤ n)) :
    ∃ ps, toPersons hh = .ok ps ∧ ps.length = n ∧
      (ps.map position = some (.int 1) :: (if ty = 3 then List.replicate (n - 1) (some (.int 3)) else some (.int 2) :: List.replicate (n - 2) (some (.int 3)))) ∧
      ∀ p ∈ ps, ∀ k, k ≠ kPosition → p.at k = otherAttributes hh k := by
  unfold Subgroup.at at hn hty
  have hat : ∀ v k, k ≠ kPosition → lookupA (setKey (popKey (popKey hh kNResidents) kHouseholdType) kPosition v) k = otherAttributes hh k := by
    intro v k hk
    rw [lookup_setKey, if_neg hk, lookup_popKey, lookup_popKey]
    unfold otherAttributes
    by_cases h1 : k = kHouseholdType
    · rw [if_pos h1, if_pos (Or.inr h1)]
    · by_cases h2 : k = kNResidents
      · rw [if_neg h1, if_pos h2, if_pos (Or.inl h2)]
      · rw [if_neg h1, if_neg h2, if_neg (not_or.2 ⟨h2, h1⟩)]
  have hpos : ∀ v, position (setKey (popKey (popKey hh kNResidents) kHouseholdType) kPosition v) = some v := by
    intro v
    unfold position
    rw [lookup_setKey, if_pos rfl]
  have h1 : ¬ (lookupA hh kHouseholdType = some (.int 1) ∨ lookupA hh kNResidents = some (.int 1)) := by
    rw [hn, hty]
    simp only [Option.some.injEq, SubVal.int.injEq]
    omega
  unfold toPersons
  simp only
  rw [if_neg h1, hn, hty]
  rcases hc with ⟨rfl, rfl⟩ | ⟨rfl, h2⟩ | ⟨rfl, h2⟩
  · refine ⟨_, by simp; rfl, rfl, ?_, ?_⟩
    · simp [hpos]
    · intro p hp k hk
      simp only [List.mem_cons, List.not_mem_nil, or_false] at hp
      rcases hp with rfl | rfl <;> exact hat _ k hk
  · refine ⟨_, by simp [rangeResidents]; rfl, ?_, ?_, ?_⟩
    · simp; omega
    · simp [hpos]
    · intro p hp k hk
      rcases List.mem_cons.1 hp with rfl | hp
      · exact hat _ k hk
      · rw [(List.mem_replicate.1 hp).2]; exact hat _ k hk
  · refine ⟨_, by simp [rangeResidents]; rfl, ?_, ?_, ?_⟩
    · simp; omega
    · simp [hpos]; omega
    · intro p hp k hk
      rcases List.mem_cons.1 hp with rfl | hp
      · exact hat _ k hk
      rcases List.mem_cons.1 hp with rfl | hp
      · exact hat _ k hk
      · rw [(List.mem_replicate.1 hp).2]; exact hat _ k hk

example : toPersons [(kNResidents, .int 4), ("a".toList, .int 7), (kHouseholdType, .int 4)] =
    .ok [[("a".toList, .int 7), (kPosition, .int 1)], [("a".toList, .int 7), (kPosition, .int 2)],
      [("a".toList, .int 7), (kPosition, .int 3)], [("a".toList, .int 7), (kPosition, .int 3)]] := by decide +kernel

/-- A single person household gives one person with the other attributes (the mean age becomes the age when there
is none), and no position. -/
theorem C36_single (hh : Subgroup) (h : hh.at kHouseholdType = some (.int 1) ∨ hh.at kNResidents = some (.int 1)) :
    ∃ p, toPersons hh = .ok [p] ∧ (∀ k, k ≠ kAge → k ≠ kMeanAge → p.at k = otherAttributes hh k) ∧
      p.at kAge = (if hh.at kAge = none then hh.at kMeanAge else hh.at kAge) ∧
      p.at kMeanAge = (if hh.at kAge = none then none else hh.at kMeanAge) := by
  have hs : ∀ k, lookupA (popKey (popKey hh kNResidents) kHouseholdType) k = otherAttributes hh k := by
    intro k
    rw [lookup_popKey, lookup_popKey]
    unfold otherAttributes
    by_cases h1 : k = kHouseholdType
    · rw [if_pos h1, if_pos (Or.inr h1)]
    · by_cases h2 : k = kNResidents
      · rw [if_neg h1, if_pos h2, if_pos (Or.inl h2)]
      · rw [if_neg h1, if_neg h2, if_neg (not_or.2 ⟨h2, h1⟩)]
  have oa : otherAttributes hh kAge = lookupA hh kAge := by unfold otherAttributes; rw [if_neg (by decide)]
  have om : otherAttributes hh kMeanAge = lookupA hh kMeanAge := by unfold otherAttributes; rw [if_neg (by decide)]
  have hne : kAge ≠ kMeanAge := by decide
  unfold toPersons
  simp only
  rw [if_pos h]
  have sa : lookupA (popKey (popKey hh kNResidents) kHouseholdType) kAge = lookupA hh kAge := (hs _).trans oa
  have sm : lookupA (popKey (popKey hh kNResidents) kHouseholdType) kMeanAge = lookupA hh kMeanAge := (hs _).trans om
  unfold Subgroup.at
  rw [sa, sm]
  rcases ha : lookupA hh kAge with _ | a
  · rcases hm : lookupA hh kMeanAge with _ | m
    · exact ⟨_, rfl, fun k _ _ => hs k, by rw [sa, ha]; rfl, by rw [sm, hm]; rfl⟩
    · refine ⟨_, rfl, ?_, ?_, ?_⟩
      · intro k k1 k2
        rw [lookup_setKey, if_neg k1, lookup_popKey, if_neg k2, hs]
      · rw [lookup_setKey, if_pos rfl]; rfl
      · rw [lookup_setKey, if_neg (Ne.symm hne), lookup_popKey, if_pos rfl]; rfl
  · rcases hm : lookupA hh kMeanAge with _ | m
    · exact ⟨_, rfl, fun k _ _ => hs k, by rw [sa, ha]; rfl, by rw [sm, hm]; rfl⟩
    · exact ⟨_, rfl, fun k _ _ => hs k, by rw [sa, ha]; rfl, by rw [sm, hm]; rfl⟩

example : toPersons [(kNResidents, .int 1), (kMeanAge, .int 30)] = .ok [[(kAge, .int 30)]] := by decide +kernel

/-- Another type of household: `n_residents` persons with the other attributes, without a position; an error when the
number of residents is missing. -/
theorem C36_other (hh : Subgroup) (h : ∀ i ∈ [1, 2, 3, 4], hh.at kHouseholdType ≠ some (.int i)) (h1 : hh.at kNResidents ≠ some (.int 1)) :
    (∀ n : Nat, hh.at kNResidents = some (.int n) →
      ∃ ps, toPersons hh = .ok ps ∧ ps.length = n ∧ ∀ p ∈ ps, ∀ k, p.at k = otherAttributes hh k) ∧
    (hh.at kNResidents = none → toPersons hh = .error .typeError) := by
  have hs : ∀ k, lookupA (popKey (popKey hh kNResidents) kHouseholdType) k = otherAttributes hh k := by
    intro k
    rw [lookup_popKey, lookup_popKey]
    unfold otherAttributes
    by_cases h1 : k = kHouseholdType
    · rw [if_pos h1, if_pos (Or.inr h1)]
    · by_cases h2 : k = kNResidents
      · rw [if_neg h1, if_pos h2, if_pos (Or.inl h2)]
      · rw [if_neg h1, if_neg h2, if_neg (not_or.2 ⟨h2, h1⟩)]
  have e1 : ¬ (lookupA hh kHouseholdType = some (.int 1) ∨ lookupA hh kNResidents = some (.int 1)) := by
    rw [not_or]; exact ⟨h 1 (by simp), h1⟩
  have e2 : lookupA hh kHouseholdType ≠ some (.int 2) := h 2 (by simp)
  have e3 : lookupA hh kHouseholdType ≠ some (.int 3) := h 3 (by simp)
  have e4 : lookupA hh kHouseholdType ≠ some (.int 4) := h 4 (by simp)
  unfold toPersons
  simp only
  rw [if_neg e1, if_neg e2, if_neg e3, if_neg e4]
  constructor
  · intro n hn
    unfold Subgroup.at at hn
    rw [hn]
    refine ⟨_, by simp [rangeResidents]; rfl, by simp, ?_⟩
    intro p hp k
    rw [(List.mem_replicate.1 hp).2]; exact hs k
  · intro hn
    unfold Subgroup.at at hn
    rw [hn]; rfl

example : toPersons [(kNResidents, .int 2), ("a".toList, .int 7)] = .ok [[("a".toList, .int 7)], [("a".toList, .int 7)]] := by decide +kernel

/-- The claim about the main income person fails for a household without type, and the number of persons is wrong for a
"couple" of three. -/
theorem C36_counterexample :
    (∃ p q, toPersons [(kNResidents, .int 2)] = .ok [p, q] ∧ position p = none ∧ position q = none) ∧
    (∃ p q, toPersons [(kNResidents, .int 3), (kHouseholdType, .int 2)] = .ok [p, q]) :=
  ⟨⟨[], [], by decide +kernel, rfl, rfl⟩, ⟨[(kPosition, .int 1)], [(kPosition, .int 2)], by decide +kernel⟩⟩

/-! ## C37 -/

theorem addTime_other (s : Subgroup) (t : Int) (ends satSun seven quarters : Bool) (k : Str) (k1 : k ≠ kWeekday) (k2 : k ≠ kQuarter) :
    lookupA (let s :=
      if ends then
        if isoWeekday t ≤ 5 then setKey s kWeekday (.list [1, 2, 3, 4, 5]) else setKey s kWeekday (.list [6, 7])
      else if satSun then
        if isoWeekday t ≤ 5 then setKey s kWeekday (.list [1, 2, 3, 4, 5]) else setKey s kWeekday (.int (isoWeekday t))
      else if seven then setKey s kWeekday (.int (isoWeekday t))
      else popKey s kWeekday
      if quarters then setKey s kQuarter (.int (((dateAt t).month - 1) / 3 + 1 : Nat)) else popKey s kQuarter) k = lookupA s k := by
  simp only
  split <;> [rw [lookup_setKey, if_neg k2]; rw [lookup_popKey, if_neg k2]] <;>
  · split
    · split <;> rw [lookup_setKey, if_neg k1]
    split
    · split <;> rw [lookup_setKey, if_neg k1]
    split
    · rw [lookup_setKey, if_neg k1]
    · rw [lookup_popKey, if_neg k1]

theorem removeTime_at (s : Subgroup) (k : Str) : (removeTime s).at k = if k = kWeekday ∨ k = kQuarter then none else s.at k := by
  unfold removeTime Subgroup.at
  rw [lookup_popKey, lookup_popKey]
  by_cases h1 : k = kQuarter
  · rw [if_pos h1, if_pos (Or.inr h1)]
  · by_cases h2 : k = kWeekday
    · rw [if_neg h1, if_pos h2, if_pos (Or.inl h2)]
    · rw [if_neg h1, if_neg h2, if_neg (not_or.2 ⟨h2, h1⟩)]

/-- Two selected schemes of days are rejected; in the default call (`use_week_ends_days=True`) this includes asking for
`use_7days=True` or `use_week_sat_sun=True`. -/
theorem C37_rejects (s : Subgroup) (t : Int) (ends satSun seven quarters : Bool) :
    addTime s t ends satSun seven quarters = .error .valueError ↔ (ends && satSun || ends && seven || satSun && seven) = true := by
  unfold addTime
  cases ends <;> cases satSun <;> cases seven <;> simp

example : addTime [] 0 true false true false = .error .valueError := by decide +kernel

/-- The weekday (1 is Monday) of a day, counted from Monday 0001-01-01. -/
def isoDay (t : Int) : Int := (t / 86400000000) % 7 + 1

/-- With at most one scheme, on a date of year `y`, month `m`: the weekday entry is the class of the day, the quarter is
set if requested, nothing else changes; removing the time attributes leaves the other attributes. -/
theorem C37_time (s : Subgroup) (t : Int) (y m d : Nat) (hm1 : 1 ≤ m) (hm2 : m ≤ 12) (hd1 : 1 ≤ d) (hd2 : d ≤ monthLength y m) (hy : 1 ≤ y)
    (ht : t / 86400000000 = daysBefore y m d) (ends satSun seven quarters : Bool)
    (h : (ends && satSun || ends && seven || satSun && seven) = false) :
    ∃ out, addTime s t ends satSun seven quarters = .ok out ∧
      (out.at kWeekday =
        if ends then some (if isoDay t ≤ 5 then .list [1, 2, 3, 4, 5] else .list [6, 7])
        else if satSun then some (if isoDay t ≤ 5 then .list [1, 2, 3, 4, 5] else .int (isoDay t))
        else if seven then some (.int (isoDay t)) else none) ∧
      (out.at kQuarter = if quarters then some (.int (if m ≤ 3 then 1 else if m ≤ 6 then 2 else if m ≤ 9 then 3 else 4)) else none) ∧
      (∀ k, k ≠ kWeekday → k ≠ kQuarter → out.at k = s.at k) ∧
      (removeTime out).at kWeekday = none ∧ (removeTime out).at kQuarter = none ∧
      ∀ k, k ≠ kWeekday → k ≠ kQuarter → (removeTime out).at k = s.at k := by
  have hiso : ((isoWeekday t : Nat) : Int) = isoDay t := by
    unfold isoWeekday isoDay dayNumber DAY
    have : 0 ≤ (t / 86400000000) % 7 := Int.emod_nonneg _ (by norm_num)
    push_cast
    rw [Int.toNat_of_nonneg this]
  have hle : isoWeekday t ≤ 5 ↔ isoDay t ≤ 5 := by rw [← hiso]; omega
  have hdate : (dateAt t).month = m := by
    unfold dateAt dayNumber DAY
    rw [ht, Int.toNat_natCast, dateOf_daysBefore y m d hy ⟨hm1, hm2⟩ ⟨hd1, hd2⟩]
  have hq : ((((dateAt t).month - 1) / 3 + 1 : Nat) : Int) = if m ≤ 3 then 1 else if m ≤ 6 then 2 else if m ≤ 9 then 3 else 4 := by
    rw [hdate]
    split
    · omega
    split
    · omega
    split
    · omega
    omega
  have hne : kWeekday ≠ kQuarter := by decide
  have hnb : ¬ ((if seven then 1 else 0) + (if ends then 1 else 0) + (if satSun then 1 else 0) > 1) := by
    revert h; cases ends <;> cases satSun <;> cases seven <;> simp
  unfold addTime
  rw [if_neg hnb]
  refine ⟨_, rfl, ?_, ?_, ?_, ?_, ?_, ?_⟩
  · have houter : ∀ u : Subgroup, lookupA (if quarters then setKey u kQuarter (.int (((dateAt t).month - 1) / 3 + 1 : Nat)) else popKey u kQuarter) kWeekday =
        lookupA u kWeekday := by
      intro u
      split
      · rw [lookup_setKey, if_neg hne]
      · rw [lookup_popKey, if_neg hne]
    unfold Subgroup.at
    rw [houter]
    simp only [hle, hiso]
    split
    · split <;> rw [lookup_setKey, if_pos rfl]
    split
    · split <;> rw [lookup_setKey, if_pos rfl]
    split
    · rw [lookup_setKey, if_pos rfl]
    · rw [lookup_popKey, if_pos rfl]
  · unfold Subgroup.at
    split
    · rw [lookup_setKey, if_pos rfl, hq]
    · rw [lookup_popKey, if_pos rfl]
  · intro k k1 k2
    exact addTime_other s t ends satSun seven quarters k k1 k2
  · rw [removeTime_at]; simp
  · rw [removeTime_at]; simp
  · intro k k1 k2
    rw [removeTime_at, if_neg (not_or.2 ⟨k1, k2⟩)]
    exact addTime_other s t ends satSun seven quarters k k1 k2

example : let t := 488 * DAY
    t / 86400000000 = daysBefore 2 5 4 ∧ isoDay t = 6 ∧
    addTime [("a".toList, .int 3), (kQuarter, .int 9)] t false true false true = .ok [("a".toList, .int 3), (kQuarter, .int 2), (kWeekday, .int 6)] := by
  decide +kernel

/-- The two checks of the weekday format agree with what `add_time` makes with its default scheme. -/
theorem C37_format (s : Subgroup) (t : Int) (quarters : Bool) :
    ∃ out, addTime s t true false false quarters = .ok out ∧ checkWeekendDayFormat out = .ok () ∧
      isWeekend out = .ok (decide (6 ≤ isoDay t)) ∧ isWeekday out = .ok (decide (isoDay t ≤ 5)) := by
  have hiso : ((isoWeekday t : Nat) : Int) = isoDay t := by
    unfold isoWeekday isoDay dayNumber DAY
    have : 0 ≤ (t / 86400000000) % 7 := Int.emod_nonneg _ (by norm_num)
    push_cast
    rw [Int.toNat_of_nonneg this]
  have hne : kWeekday ≠ kQuarter := by decide
  refine ⟨_, rfl, ?_⟩
  have houter : ∀ u : Subgroup, lookupA (if quarters then setKey u kQuarter (.int (((dateAt t).month - 1) / 3 + 1 : Nat)) else popKey u kQuarter) kWeekday =
      lookupA u kWeekday := by
    intro u
    split
    · rw [lookup_setKey, if_neg hne]
    · rw [lookup_popKey, if_neg hne]
  unfold checkWeekendDayFormat isWeekend isWeekday
  simp only [if_true]
  rw [houter]
  by_cases h : isoWeekday t ≤ 5
  · have h1 : isoDay t ≤ 5 := by rw [← hiso]; omega
    have h2 : ¬ 6 ≤ isoDay t := by omega
    rw [if_pos h, lookup_setKey, if_pos rfl]
    simp [h1, h2]
  · have h1 : ¬ isoDay t ≤ 5 := by rw [← hiso]; omega
    have h2 : 6 ≤ isoDay t := by omega
    rw [if_neg h, lookup_setKey, if_pos rfl]
    simp [h1, h2]

example : isoDay (737798 * DAY) = 6 := by decide +kernel

/-- **C37.** Of any subgroup with a weekday entry, `check_weekend_day_format` accepts exactly the lists `[1, 2, 3, 4, 5]` and
`[6, 7]` (a `ValueError` otherwise), `is_weekend` is true exactly for `[6, 7]` and `is_weekday` exactly for
`[1, 2, 3, 4, 5]`; without a weekday entry all three raise `KeyError`. -/
theorem C37_formats (s : Subgroup) (hs : (s.map (·.1)).Nodup) :
    (∀ v, ("weekday".toList, v) ∈ s →
      (v = .list [1, 2, 3, 4, 5] → checkWeekendDayFormat s = .ok () ∧ isWeekday s = .ok true ∧ isWeekend s = .ok false) ∧
      (v = .list [6, 7] → checkWeekendDayFormat s = .ok () ∧ isWeekday s = .ok false ∧ isWeekend s = .ok true) ∧
      (v ≠ .list [1, 2, 3, 4, 5] → v ≠ .list [6, 7] →
        checkWeekendDayFormat s = .error .valueError ∧ isWeekday s = .ok false ∧ isWeekend s = .ok false)) ∧
    ((∀ v, ("weekday".toList, v) ∉ s) →
      checkWeekendDayFormat s = .error .keyError ∧ isWeekday s = .error .keyError ∧ isWeekend s = .error .keyError) := by
  refine ⟨fun v hv => ?_, fun h => ?_⟩
  · have hl : lookupA s kWeekday = some v := (lookupA_mem s hs kWeekday v).2 hv
    unfold checkWeekendDayFormat isWeekend isWeekday
    rw [hl]
    refine ⟨fun e => ?_, fun e => ?_, fun e1 e2 => ?_⟩
    · subst e; decide
    · subst e; decide
    · simp [e1, e2]
  · have hl : lookupA s kWeekday = none := by
      rw [lookupA_none]
      intro hm
      obtain ⟨q, hq, he⟩ := List.mem_map.1 hm
      exact h q.2 (by rw [show "weekday".toList = q.1 from he.symm]; exact hq)
    unfold checkWeekendDayFormat isWeekend isWeekday
    rw [hl]
    exact ⟨rfl, rfl, rfl⟩

example : checkWeekendDayFormat [("weekday".toList, .int 6)] = .error .valueError :=
  (((C37_formats [("weekday".toList, .int 6)] (by decide)).1 (.int 6) (by decide)).2.2 (by decide) (by decide)).1

end Demod
