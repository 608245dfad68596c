import Verif.Lemmas.Destatis
import Verif.Props.Crest

/-! # The data of the German statistical office -/

namespace Demod

/-! ## C107: the groups of households -/

/-- **C107, what holds.** For every subgroup that describes households of the report — up to three children, up to five persons, an income that is not 0 — the column under the heading of these households is used. -/
theorem C107_column_partial (g : Subgroup) (s : Stratum) (h : Describes g s) (hc : s.Covered) : destatisColumn g = .ok (reportColumn s) := by
  cases h with
  | alone h1 h2 => unfold Subgroup.at at h1 h2; simp [destatisColumn, h1, h2, reportColumn]
  | man h1 h2 => unfold Subgroup.at at h1 h2; simp [destatisColumn, h1, h2, reportColumn]
  | woman h1 h2 => unfold Subgroup.at at h1 h2; simp [destatisColumn, h1, h2, reportColumn]
  | couple h1 => unfold Subgroup.at at h1; simp [destatisColumn, h1, reportColumn]
  | lone c h0 h1 h2 =>
    unfold Subgroup.at at h1 h2
    have hc' : c ≤ 3 := hc
    have : c = 1 ∨ c = 2 ∨ c = 3 := by omega
    rcases this with rfl | rfl | rfl <;> simp [destatisColumn, h1, h2, reportColumn]
  | family c h0 h1 h2 =>
    unfold Subgroup.at at h1 h2
    have hc' : c ≤ 3 := hc
    have : c = 1 ∨ c = 2 ∨ c = 3 := by omega
    rcases this with rfl | rfl | rfl <;> simp [destatisColumn, h1, h2, reportColumn]
  | persons n h0 h1 h2 =>
    unfold Subgroup.at at h1 h2
    have hc' : n ≤ 5 := hc
    have a1 : n ≠ 0 := by omega
    have a2 : 0 < n ∧ n < 6 := by omega
    have a3 : min n 5 = n := by omega
    simp [destatisColumn, h1, h2, reportColumn, truthy, a1, a3]
    omega
  | income r h1 h2 h3 =>
    unfold Subgroup.at at h1 h2 h3
    have hc' : r ≠ 0 := hc
    have : revenueColumn (r : Int) = reportColumn (.income r) := by
      unfold revenueColumn reportColumn
      refine congrArg (fun x => 27 + x) ?_
      by_cases h1 : r < 900
      · rw [if_pos (by exact_mod_cast h1), List.countP_eq_zero.2]
        intro b hb
        have : 900 ≤ b := by revert b; decide
        simp; omega
      rw [if_neg (by exact_mod_cast h1)]
      by_cases h2 : r < 1300
      · rw [if_pos (by exact_mod_cast h2)]
        simp [List.countP_cons, show 900 ≤ r by omega, show ¬ 1300 ≤ r by omega, show ¬ 1500 ≤ r by omega, show ¬ 2000 ≤ r by omega, show ¬ 2600 ≤ r by omega, show ¬ 3600 ≤ r by omega, show ¬ 5000 ≤ r by omega]
      rw [if_neg (by exact_mod_cast h2)]
      by_cases h3 : r < 1500
      · rw [if_pos (by exact_mod_cast h3)]
        simp [List.countP_cons, show 900 ≤ r by omega, show 1300 ≤ r by omega, show ¬ 1500 ≤ r by omega, show ¬ 2000 ≤ r by omega, show ¬ 2600 ≤ r by omega, show ¬ 3600 ≤ r by omega, show ¬ 5000 ≤ r by omega]
      rw [if_neg (by exact_mod_cast h3)]
      by_cases h4 : r < 2000
      · rw [if_pos (by exact_mod_cast h4)]
        simp [List.countP_cons, show 900 ≤ r by omega, show 1300 ≤ r by omega, show 1500 ≤ r by omega, show ¬ 2000 ≤ r by omega, show ¬ 2600 ≤ r by omega, show ¬ 3600 ≤ r by omega, show ¬ 5000 ≤ r by omega]
      rw [if_neg (by exact_mod_cast h4)]
      by_cases h5 : r < 2600
      · rw [if_pos (by exact_mod_cast h5)]
        simp [List.countP_cons, show 900 ≤ r by omega, show 1300 ≤ r by omega, show 1500 ≤ r by omega, show 2000 ≤ r by omega, show ¬ 2600 ≤ r by omega, show ¬ 3600 ≤ r by omega, show ¬ 5000 ≤ r by omega]
      rw [if_neg (by exact_mod_cast h5)]
      by_cases h6 : r < 3600
      · rw [if_pos (by exact_mod_cast h6)]
        simp [List.countP_cons, show 900 ≤ r by omega, show 1300 ≤ r by omega, show 1500 ≤ r by omega, show 2000 ≤ r by omega, show 2600 ≤ r by omega, show ¬ 3600 ≤ r by omega, show ¬ 5000 ≤ r by omega]
      rw [if_neg (by exact_mod_cast h6)]
      by_cases h7 : r < 5000
      · rw [if_pos (by exact_mod_cast h7)]
        simp [List.countP_cons, show 900 ≤ r by omega, show 1300 ≤ r by omega, show 1500 ≤ r by omega, show 2000 ≤ r by omega, show 2600 ≤ r by omega, show 3600 ≤ r by omega, show ¬ 5000 ≤ r by omega]
      rw [if_neg (by exact_mod_cast h7)]
      simp [List.countP_cons, show 900 ≤ r by omega, show 1300 ≤ r by omega, show 1500 ≤ r by omega, show 2000 ≤ r by omega, show 2600 ≤ r by omega, show 3600 ≤ r by omega, show 5000 ≤ r by omega]
    simp [destatisColumn, h1, h2, h3, truthy, hc', this]
  | year y hy h1 h2 h3 h4 =>
    unfold Subgroup.at at h1 h2 h3 h4
    rcases hy with rfl | rfl | rfl <;> simp [destatisColumn, h1, h2, h3, h4, truthy, reportColumn]

/-- **C107 (refusals).** A subgroup that says nothing about type, residents, income and year is a `ValueError`, and so is a year without report. -/
theorem C107_rejected (g : Subgroup) (h1 : g.at kHouseholdType = none) (h2 : g.at kNResidents = none) (h3 : g.at kRevenue = none) :
    (g.at kYear = none → destatisColumn g = .error .valueError) ∧ ∀ y, g.at kYear = some (.int y) → y ≠ 2008 → y ≠ 2013 → y ≠ 2018 → destatisColumn g = .error .valueError := by
  unfold Subgroup.at at *
  refine ⟨fun h => by simp [destatisColumn, h1, h2, h3, h, truthy], fun y h a b c => ?_⟩
  simp [destatisColumn, h1, h2, h3, h, truthy, a, b, c]

/-- **C107 (impossible values).** A number of residents or an income below zero is an `AssertionError` (for a subgroup without household type), never silently a column. -/
theorem C107_impossible (g : Subgroup) (x : Int) (hx : x < 0) (h1 : g.at kHouseholdType = none) :
    (g.at kNResidents = some (.int x) → destatisColumn g = .error .assertionError) ∧
    (g.at kNResidents = none → g.at kRevenue = some (.int x) → destatisColumn g = .error .assertionError) := by
  unfold Subgroup.at at *
  have hx0 : x ≠ 0 := by omega
  refine ⟨fun h => ?_, fun h h' => ?_⟩
  · simp [destatisColumn, h1, h, truthy, hx0]
    omega
  · simp [destatisColumn, h1, h, h', truthy, hx0]
    omega

example : destatisColumn [(kNResidents, .int (-2))] = .error .assertionError ∧ destatisColumn [(kRevenue, .int (-300))] = .error .assertionError :=
  ⟨(C107_impossible _ (-2) (by decide) rfl).1 rfl, (C107_impossible _ (-300) (by decide) rfl).2 rfl rfl⟩

/-- **C107 (time).** Weekday and quarter have no influence. -/
theorem C107_time (types : List (Option Str)) (columns : Nat → List (Option Rat)) (g g' : Subgroup) (h : ∀ k, k ≠ kWeekday → k ≠ kQuarter → g.at k = g'.at k) :
    destatisOwnership types columns g = destatisOwnership types columns g' := by
  unfold Subgroup.at at h
  have hl : ∀ k, lookupA (removeTime g) k = lookupA (removeTime g') k := by
    intro k
    unfold removeTime
    rw [lookup_popKey, lookup_popKey, lookup_popKey, lookup_popKey]
    by_cases h1 : k = kQuarter
    · rw [if_pos h1, if_pos h1]
    · rw [if_neg h1, if_neg h1]
      by_cases h2 : k = kWeekday
      · rw [if_pos h2, if_pos h2]
      · rw [if_neg h2, if_neg h2, h k h2 h1]
  have : destatisColumn (removeTime g) = destatisColumn (removeTime g') := by
    unfold destatisColumn
    simp only [hl]
  unfold destatisOwnership
  rw [this]

/-- The full property, for all the households of the report. -/
def C107_full : Prop := ∀ (g : Subgroup) (s : Stratum), Describes g s → destatisColumn g = .ok (reportColumn s)

/-- No income is not an income under 900. -/
theorem C107_income_counterexample : Describes [(kRevenue, .int 0)] (.income 0) ∧ destatisColumn [(kRevenue, .int 0)] = .error .valueError := ⟨.income 0 rfl rfl rfl, by decide⟩

/-- Six residents are not five or more. -/
theorem C107_residents_counterexample : Describes [(kNResidents, .int 6)] (.persons 6) ∧ destatisColumn [(kNResidents, .int 6)] = .error .assertionError := ⟨.persons 6 (by omega) rfl rfl, by decide⟩

/-- A lone parent of four children is taken for five persons of any kind (column 17 instead of 59). -/
theorem C107_children_counterexample : Describes (residentsType 5 3) (.lone 4) ∧ destatisColumn (residentsType 5 3) = .ok 17 ∧ reportColumn (.lone 4) = 59 := ⟨.lone 4 (by omega) rfl rfl, by decide, rfl⟩

theorem C107_full_fails : ¬ C107_full := by
  intro h
  have := h _ _ C107_income_counterexample.1
  rw [C107_income_counterexample.2] at this
  cases this

example : Describes [(kNResidents, .int 3), (kHouseholdType, .int 4), (kWeekday, .list [6, 7])] (.family 1) ∧ (Stratum.family 1).Covered ∧ reportColumn (.family 1) = 61 ∧
    Describes [(kRevenue, .int 1300)] (.income 1300) ∧ (Stratum.income 1300).Covered ∧ reportColumn (.income 1300) = 29 :=
  ⟨.family 1 (by omega) rfl rfl, by unfold Stratum.Covered; omega, rfl, .income 1300 rfl rfl rfl, by unfold Stratum.Covered; omega, by decide⟩

/-- **C107 (populations).** The known populations are exactly six. The probabilities of the subgroups are not negative and sum to 1, the subgroups are distinct, and each of them can be split in as many persons as it has residents and is a group of the report. -/
theorem C107_population (name : Str) :
    (name ∉ ["resident_number".toList, "crest".toList, "resident_number_2013".toList, "resident_number_2019".toList, "household_types".toList, "household_types_2019".toList] → destatisPopulation name = .error .notImplementedError) ∧
    (name ∈ ["resident_number".toList, "crest".toList, "resident_number_2013".toList, "resident_number_2019".toList, "household_types".toList, "household_types_2019".toList] →
      ∃ groups probs total, destatisPopulation name = .ok (groups, probs, total) ∧ probs.length = groups.length ∧ (∀ p ∈ probs, 0 ≤ p) ∧ probs.sum = 1 ∧ groups.Nodup ∧
        ∀ g ∈ groups, (∃ persons, toPersons g = .ok persons ∧ g.at kNResidents = some (.int persons.length)) ∧ ∃ s, Describes g s ∧ s.Covered) := by
  have hres : ∀ g ∈ ([1, 2, 3, 4, 5].map fun n => [(kNResidents, SubVal.int n)] : List Subgroup),
      (∃ persons, toPersons g = .ok persons ∧ g.at kNResidents = some (.int persons.length)) ∧ ∃ s, Describes g s ∧ s.Covered := by
    intro g hg
    simp only [List.map_cons, List.map_nil, List.mem_cons, List.not_mem_nil, or_false] at hg
    rcases hg with rfl | rfl | rfl | rfl | rfl
    · exact ⟨⟨_, rfl, rfl⟩, .persons 1, .persons 1 (by omega) rfl rfl, by unfold Stratum.Covered; omega⟩
    · exact ⟨⟨_, rfl, rfl⟩, .persons 2, .persons 2 (by omega) rfl rfl, by unfold Stratum.Covered; omega⟩
    · exact ⟨⟨_, rfl, rfl⟩, .persons 3, .persons 3 (by omega) rfl rfl, by unfold Stratum.Covered; omega⟩
    · exact ⟨⟨_, rfl, rfl⟩, .persons 4, .persons 4 (by omega) rfl rfl, by unfold Stratum.Covered; omega⟩
    · exact ⟨⟨_, rfl, rfl⟩, .persons 5, .persons 5 (by omega) rfl rfl, by unfold Stratum.Covered; omega⟩
  have htyp : ∀ g ∈ [residentsType 1 1, residentsType 2 2, residentsType 2 3, residentsType 3 3, residentsType 4 3, residentsType 3 4, residentsType 4 4, residentsType 5 4],
      (∃ persons, toPersons g = .ok persons ∧ g.at kNResidents = some (.int persons.length)) ∧ ∃ s, Describes g s ∧ s.Covered := by
    intro g hg
    simp only [List.mem_cons, List.not_mem_nil, or_false] at hg
    rcases hg with rfl | rfl | rfl | rfl | rfl | rfl | rfl | rfl
    · exact ⟨⟨_, rfl, rfl⟩, .alone, .alone rfl rfl, trivial⟩
    · exact ⟨⟨_, rfl, rfl⟩, .couple, .couple rfl, trivial⟩
    · exact ⟨⟨_, rfl, rfl⟩, .lone 1, .lone 1 (by omega) rfl rfl, by unfold Stratum.Covered; omega⟩
    · exact ⟨⟨_, rfl, rfl⟩, .lone 2, .lone 2 (by omega) rfl rfl, by unfold Stratum.Covered; omega⟩
    · exact ⟨⟨_, rfl, rfl⟩, .lone 3, .lone 3 (by omega) rfl rfl, by unfold Stratum.Covered; omega⟩
    · exact ⟨⟨_, rfl, rfl⟩, .family 1, .family 1 (by omega) rfl rfl, by unfold Stratum.Covered; omega⟩
    · exact ⟨⟨_, rfl, rfl⟩, .family 2, .family 2 (by omega) rfl rfl, by unfold Stratum.Covered; omega⟩
    · exact ⟨⟨_, rfl, rfl⟩, .family 3, .family 3 (by omega) rfl rfl, by unfold Stratum.Covered; omega⟩
  refine ⟨fun h => ?_, fun h => ?_⟩
  · simp only [List.mem_cons, List.not_mem_nil, or_false, not_or] at h
    obtain ⟨a, b, c, d, e, f⟩ := h
    unfold destatisPopulation
    rw [if_neg (not_or.2 ⟨a, b⟩), if_neg c, if_neg d, if_neg e, if_neg f]
  · simp only [List.mem_cons, List.not_mem_nil, or_false] at h
    rcases h with rfl | rfl | rfl | rfl | rfl | rfl
    · exact ⟨_, _, _, rfl, rfl, by decide +kernel, by decide +kernel, by decide, hres⟩
    · exact ⟨_, _, _, rfl, rfl, by decide +kernel, by decide +kernel, by decide, hres⟩
    · exact ⟨_, _, _, rfl, rfl, by decide +kernel, by decide +kernel, by decide, hres⟩
    · exact ⟨_, _, _, rfl, rfl, by decide +kernel, by decide +kernel, by decide, hres⟩
    · exact ⟨_, _, _, rfl, rfl, by decide +kernel, by decide +kernel, by decide, htyp⟩
    · exact ⟨_, _, _, rfl, rfl, by decide +kernel, by decide +kernel, by decide, htyp⟩

/-! ## C106: the equipment -/

/-- **C106, what holds.** If each type has one row, the dictionary of the subgroup holds for each type the probabilities of a first, second, … appliance: the first is the share of the equipped households, and they sum to the average number of appliances. There
is nothing else in it. -/
theorem C106_ownership_partial (types : List (Option Str)) (columns : Nat → List (Option Rat)) (g : Subgroup) (s : Stratum) (hg : Describes g s) (hs : s.Covered)
    (hC : PossibleColumn types (columns (reportColumn s))) (hT : DistinctTypes types) :
    ∃ d, destatisOwnership types columns g = .ok d ∧ (d.map fun q => q.1).Nodup ∧
      (∀ it t number share, IsRow types (columns (reportColumn s)) it t number share → ∃ probs, IsOwnership number share probs ∧ ∀ k, 1 ≤ k → lookupA d (copyKey t k) = probs[k - 1]?) ∧
      ∀ key ∈ d.map fun q => q.1, ∃ it t number share, IsRow types (columns (reportColumn s)) it t number share ∧ ∃ k, 1 ≤ k ∧ key = copyKey t k := by
  have hcol : destatisColumn (removeTime g) = .ok (reportColumn s) := by
    apply C107_column_partial _ _ _ hs
    have hk : ∀ k, k ≠ kWeekday → k ≠ kQuarter → (removeTime g).at k = g.at k := by
      intro k h1 h2
      unfold Subgroup.at removeTime
      rw [lookup_popKey, lookup_popKey, if_neg h2, if_neg h1]
    have e1 := hk kHouseholdType (by decide) (by decide)
    have e2 := hk kNResidents (by decide) (by decide)
    have e3 := hk kRevenue (by decide) (by decide)
    have e4 := hk kYear (by decide) (by decide)
    have e5 := hk kGender (by decide) (by decide)
    cases hg with
    | alone h1 h2 => exact .alone (by rw [e1, h1]) (by rw [e5, h2])
    | man h1 h2 => exact .man (by rw [e1, h1]) (by rw [e5, h2])
    | woman h1 h2 => exact .woman (by rw [e1, h1]) (by rw [e5, h2])
    | couple h1 => exact .couple (by rw [e1, h1])
    | lone c h0 h1 h2 => exact .lone c h0 (by rw [e1, h1]) (by rw [e2, h2])
    | family c h0 h1 h2 => exact .family c h0 (by rw [e1, h1]) (by rw [e2, h2])
    | persons n h0 h1 h2 => exact .persons n h0 (by rw [e1, h1]) (by rw [e2, h2])
    | income r h1 h2 h3 => exact .income r (by rw [e1, h1]) (by rw [e2, h2]) (by rw [e3, h3])
    | year y h0 h1 h2 h3 h4 => exact .year y h0 (by rw [e1, h1]) (by rw [e2, h2]) (by rw [e3, h3]) (by rw [e4, h4])
  obtain ⟨d, rows, h1, h2, h3, h4⟩ := destatisLoop_ok (columns (reportColumn s)) types hC hT types 0 [] [] (by simp) (by omega) (by omega) ⟨by simp, by simp, by simp⟩ (by simp) (by intro i hi; omega)
  refine ⟨d, ?_, h2.nodup, ?_, ?_⟩
  · unfold destatisOwnership
    simp only [bind, Except.bind, hcol]
    exact h1
  · rintro it t number share ⟨r1, ⟨u, r2, r3⟩, r4, r5⟩
    obtain ⟨r, hr, a1, a2, a3⟩ := h4 it r1 u r2
    obtain ⟨probs, b1, b2⟩ := h2.values r hr
    rw [r4] at a2
    rw [r5] at a3
    injection a2 with a2
    injection a3 with a3
    refine ⟨probs, by rw [a2, a3]; exact b1, fun k hk => ?_⟩
    rw [← r3, ← a1]
    exact b2 k hk
  · intro key hkey
    obtain ⟨r, hr, k, hk, e⟩ := h2.keys key hkey
    obtain ⟨it, hit⟩ := h3 r hr
    exact ⟨it, _, _, _, hit, k, hk, e⟩

/-- **C106 (equipment).** A simulator that equips households with a list of appliances whose types are in the table gives to the `k`-th appliance of a type the probability of a `k`-th one. -/
theorem C106_equipment_partial (types : List (Option Str)) (columns : Nat → List (Option Rat)) (g : Subgroup) (s : Stratum) (hg : Describes g s) (hs : s.Covered)
    (hC : PossibleColumn types (columns (reportColumn s))) (hT : DistinctTypes types) (apps : List Str) (default : List Rat) (hd : default.length = apps.length)
    (hne : ∀ a ∈ apps, a ≠ []) (happs : ∀ a ∈ apps, ∃ it number share, IsRow types (columns (reportColumn s)) it a number share) :
    ∃ d out, destatisOwnership types columns g = .ok d ∧ getOwnership apps d default = .ok out ∧ out.length = apps.length ∧
      ∀ i a, apps[i]? = some a → ∀ it number share, IsRow types (columns (reportColumn s)) it a number share →
        ∃ probs, IsOwnership number share probs ∧ out[i]? = some ((probs[nthCopy apps i - 1]?).getD 0) := by
  obtain ⟨d, h1, h2, h3, -⟩ := C106_ownership_partial types columns g s hg hs hC hT
  obtain ⟨out, o1, o2, o3⟩ := C31_ownership apps d default hd
  refine ⟨d, out, h1, o1, o2, fun i a ha it number share hrow => ?_⟩
  have hclosest : ∀ a ∈ apps, findClosestType a (d.map (·.1)) = some a := by
    intro a ha
    obtain ⟨it, number, share, hr⟩ := happs a ha
    obtain ⟨probs, p1, p2⟩ := h3 it a number share hr
    apply closest_self _ _ _ (hne a ha)
    by_contra hc
    rw [← lookupA_none] at hc
    have := p2 1 (le_refl 1)
    rw [show copyKey a 1 = a from rfl, hc] at this
    have hh := p1.1
    rw [List.head?_eq_getElem?, ← this] at hh
    cases hh
  obtain ⟨probs, p1, p2⟩ := h3 it a number share hrow
  have hi : i < apps.length := (List.getElem?_eq_some_iff.1 ha).1
  have hai : apps[i] = a := (List.getElem?_eq_some_iff.1 ha).2
  refine ⟨probs, p1, ?_⟩
  rw [(o3 i hi).2 apps[i] (hclosest _ (List.getElem_mem hi))]
  have hcn : copyNumber (apps.map fun t => findClosestType t (d.map (·.1))) i apps[i] = nthCopy apps i := by
    unfold copyNumber nthCopy
    have e : (apps.map fun t => findClosestType t (d.map (·.1))) = apps.map some := List.map_congr_left hclosest
    rw [e, ← List.map_take, List.countP_map, List.getD_eq_getElem?_getD, List.getElem?_eq_getElem hi]
    simp only [List.count, Option.getD_some]
    apply List.countP_congr
    intro x _
    simp
  have hpos : 1 ≤ nthCopy apps i := by
    unfold nthCopy
    apply List.count_pos_iff.2
    rw [List.mem_iff_getElem?]
    exact ⟨i, by rw [List.getElem?_take, if_pos (by omega), ha, List.getD_eq_getElem?_getD, ha]; rfl⟩
  rw [hcn, lookup_eq, hai, p2 _ hpos]

/-- **C106 (refusals).** If all the cells are there but a value is impossible — a share below 0 % or above 100 %, a number below 0 or below the share — the loading fails with a `ValueError`, whatever the types are. -/
theorem C106_rejected (types : List (Option Str)) (columns : Nat → List (Option Rat)) (g : Subgroup) (s : Stratum) (hg : destatisColumn (removeTime g) = .ok (reportColumn s))
    (hcells : ∀ it < 56, ∀ u, types[it]? = some (some u) → it + 51 < (columns (reportColumn s)).length) (hbad : ¬ PossibleColumn types (columns (reportColumn s))) :
    destatisOwnership types columns g = .error .valueError := by
  unfold destatisOwnership
  simp only [bind, Except.bind, hg]
  exact destatisLoop_error _ types hcells hbad types 0 [] (by simp) (by omega) (by omega) (by intro i hi; omega)

example : ¬ PossibleColumn [some "tv".toList] ([some 50] ++ List.replicate 50 none ++ [some 60]) ∧
    destatisOwnership [some "tv".toList] (fun _ => [some 50] ++ List.replicate 50 none ++ [some 60]) [(kNResidents, .int 2)] = .error .valueError := by
  refine ⟨fun h => ?_, by decide +kernel⟩
  obtain ⟨n, p, h1, h2, -, -, h3⟩ := h 0 (by omega) _ rfl
  injection h1 with h1
  injection h2 with h2
  have := h3 50 60 h1.symm h2.symm
  norm_num at this

/-- The full property: each type of the table has the number of appliances of one of its rows. -/
def C106_full : Prop := ∀ (types : List (Option Str)) (columns : Nat → List (Option Rat)) (g : Subgroup) (s : Stratum), Describes g s → s.Covered → PossibleColumn types (columns (reportColumn s)) →
  ∃ d, destatisOwnership types columns g = .ok d ∧ ∀ it t number share, IsRow types (columns (reportColumn s)) it t number share →
    ∃ it' number' share' probs, IsRow types (columns (reportColumn s)) it' t number' share' ∧ IsOwnership number' share' probs ∧ ∀ k, 1 ≤ k → lookupA d (copyKey t k) = probs[k - 1]?

/-- Laptops are twice in the table, once with the tablets: 250.1 for 100 households, 95.4 % equipped, and alone: 154.1, 89.8 % equipped. -/
def laptopTypes : List (Option Str) := [some "laptop ".toList, some "laptop ".toList]

/-- The column of households of three persons. -/
def laptopColumn : List (Option Rat) := [some (2501 / 10), some (1541 / 10)] ++ List.replicate 49 none ++ [some (954 / 10), some (898 / 10)]

/-- The third laptop is the one of the other row: in the average 2.088 laptops instead of 1.541 (or 2.501). -/
theorem C106_twice_counterexample : destatisOwnership laptopTypes (fun _ => laptopColumn) [(kNResidents, .int 3)] =
    .ok [("laptop_2".toList, 643 / 1000), ("laptop_3".toList, 547 / 1000), ("laptop".toList, 898 / 1000)] := by decide +kernel

theorem C106_full_fails : ¬ C106_full := by
  intro h
  have hpos : PossibleColumn laptopTypes laptopColumn := by
    intro it hit u hu
    have : it = 0 ∨ it = 1 := by
      have := (List.getElem?_eq_some_iff.1 hu).1
      simp [laptopTypes] at this
      omega
    rcases this with rfl | rfl
    · exact ⟨some (2501 / 10), some (954 / 10), rfl, rfl, by intro n hn; injection hn with hn; subst hn; norm_num, by intro n hn; injection hn with hn; subst hn; norm_num,
        by intro n p hn hp; injection hn with hn; injection hp with hp; subst hn; subst hp; norm_num⟩
    · exact ⟨some (1541 / 10), some (898 / 10), rfl, rfl, by intro n hn; injection hn with hn; subst hn; norm_num, by intro n hn; injection hn with hn; subst hn; norm_num,
        by intro n p hn hp; injection hn with hn; injection hp with hp; subst hn; subst hp; norm_num⟩
  obtain ⟨d, h1, h2⟩ := h laptopTypes (fun _ => laptopColumn) [(kNResidents, .int 3)] (.persons 3) (.persons 3 (by omega) rfl rfl) (by unfold Stratum.Covered; omega) hpos
  rw [C106_twice_counterexample] at h1
  injection h1 with h1
  subst h1
  obtain ⟨it, number, share, probs, ⟨-, ⟨u, r1, -⟩, r2, r3⟩, ⟨p1, -, p3⟩, p4⟩ := h2 0 "laptop".toList (some (2501 / 10)) (some (954 / 10)) ⟨by omega, ⟨_, rfl, by decide⟩, rfl, rfl⟩
  have e1 : (some (898 / 1000) : Option Rat) = probs[0]? := (by decide +kernel : lookupA _ (copyKey "laptop".toList 1) = some (898 / 1000 : Rat)).symm.trans (p4 1 (by omega))
  have e2 : (some (643 / 1000) : Option Rat) = probs[1]? := (by decide +kernel : lookupA _ (copyKey "laptop".toList 2) = some (643 / 1000 : Rat)).symm.trans (p4 2 (by omega))
  have e3 : (some (547 / 1000) : Option Rat) = probs[2]? := (by decide +kernel : lookupA _ (copyKey "laptop".toList 3) = some (547 / 1000 : Rat)).symm.trans (p4 3 (by omega))
  have e4 : (none : Option Rat) = probs[3]? := (by decide +kernel : lookupA [("laptop_2".toList, (643 / 1000 : Rat)), ("laptop_3".toList, 547 / 1000), ("laptop".toList, 898 / 1000)] (copyKey "laptop".toList 4) = none).symm.trans (p4 4 (by omega))
  have hprobs : probs = [898 / 1000, 643 / 1000, 547 / 1000] := by
    match probs, e1, e2, e3, e4 with
    | [a, b, c], e1, e2, e3, _ =>
      simp at e1 e2 e3
      subst e1 e2 e3
      norm_num
  subst hprobs
  have : it = 0 ∨ it = 1 := by
    have := (List.getElem?_eq_some_iff.1 r1).1
    simp [laptopTypes] at this
    omega
  rcases this with rfl | rfl
  · injection r2 with r2
    injection r3 with r3
    rw [← r2, ← r3] at p3
    exact absurd p3 (by decide +kernel)
  · injection r2 with r2
    injection r3 with r3
    rw [← r2, ← r3] at p3
    exact absurd p3 (by decide +kernel)

/-- Two types, of which the second has no number. -/
def demoTypes : List (Option Str) := [none, some "tv".toList, some "tv_box ".toList]

/-- Their column. -/
def demoColumn : List (Option Rat) := [none, some 198, none] ++ List.replicate 49 none ++ [some 97, some 55]

example : PossibleColumn demoTypes demoColumn ∧ DistinctTypes demoTypes ∧ IsRow demoTypes demoColumn 1 "tv".toList (some 198) (some 97) ∧ IsRow demoTypes demoColumn 2 "tv_box".toList none (some 55) ∧
    destatisOwnership demoTypes (fun _ => demoColumn) [(kNResidents, .int 3)] = .ok [("tv_2".toList, 1), ("tv_3".toList, 1 / 100), ("tv".toList, 97 / 100), ("tv_box_2".toList, 0), ("tv_box".toList, 55 / 100)] := by
  refine ⟨?_, ⟨by decide, ?_⟩, ⟨by omega, ⟨_, rfl, by decide⟩, rfl, rfl⟩, ⟨by omega, ⟨_, rfl, by decide⟩, rfl, rfl⟩, by decide +kernel⟩
  · intro it hit u hu
    have : it = 1 ∨ it = 2 := by
      have := (List.getElem?_eq_some_iff.1 hu).1
      simp [demoTypes] at this
      have h0 : it ≠ 0 := by rintro rfl; cases hu
      omega
    rcases this with rfl | rfl
    · exact ⟨some 198, some 97, rfl, rfl, by intro n hn; injection hn with hn; subst hn; norm_num, by intro n hn; injection hn with hn; subst hn; norm_num,
        by intro n p hn hp; injection hn with hn; injection hp with hp; subst hn; subst hp; norm_num⟩
    · exact ⟨none, some 55, rfl, rfl, by (intro n hn; cases hn), by intro n hn; injection hn with hn; subst hn; norm_num, by intro n p hn; cases hn⟩
  · intro u u' hu hu' k hk he
    have hmem : ∀ u, some u ∈ demoTypes.take 56 → trimmed u = "tv".toList ∨ trimmed u = "tv_box".toList := by
      intro u hu
      simp only [demoTypes, List.take, List.mem_cons, reduceCtorEq, Option.some.injEq, List.not_mem_nil, or_false, false_or] at hu
      rcases hu with rfl | rfl
      · left; decide
      · right; decide
    have hlast : ∀ n, (decimal n).head? ≠ some 'b' := by
      intro n h
      have := decimalAux_mem (n + 1) n 'b' (List.mem_of_mem_head? h)
      simp at this
    rcases hmem u hu with e | e <;> rcases hmem u' hu' with e' | e' <;> rw [e, e'] at he
    · have := congrArg List.length he
      simp at this
    · have := congrArg List.length he
      simp at this
    · have h2 := congrArg (fun l => (l.drop 3).head?) he
      exact hlast k (by simpa using h2.symm)
    · have := congrArg List.length he
      simp at this

end Demod
