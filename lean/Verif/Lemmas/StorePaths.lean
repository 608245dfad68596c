import Verif.Lemmas.StoreFits

/-! # Different requests use different files -/

namespace Demod

/-! ## Strings -/

theorem not_suffix {α : Type} (a b x y : List α) (h : a ++ x = b ++ y) (h1 : ¬ x <:+ y) (h2 : ¬ y <:+ x) : False := by
  have hx : x <:+ b ++ y := ⟨a, h⟩
  have hy : y <:+ b ++ y := ⟨b, rfl⟩
  rcases List.suffix_or_suffix_of_suffix hx hy with h | h
  · exact h1 h
  · exact h2 h

theorem not_prefix {α : Type} (a b x y : List α) (h : x ++ a = y ++ b) (h1 : ¬ x <+: y) (h2 : ¬ y <+: x) : False := by
  have hx : x <+: y ++ b := ⟨a, h⟩
  have hy : y <+: y ++ b := ⟨b, rfl⟩
  rcases List.prefix_or_prefix_of_prefix hx hy with h | h
  · exact h1 h
  · exact h2 h

theorem usual_sorted (s : Subgroup) (hs : Usual s) : ∀ q ∈ sortSubgroup s, (∀ c ∈ q.1, isValueChar c = false) ∧ UsualVal q.2 :=
  fun q hq => hs.2 q ((sortSubgroup_perm s).mem_iff.1 hq)

theorem subgroupString_inj (s t : Subgroup) (hs : Usual s) (ht : Usual t) (h : subgroupString s = subgroupString t) : SameSubgroup s t := by
  have e : sortSubgroup s = sortSubgroup t := encode_inj _ _ (usual_sorted s hs) (usual_sorted t ht) h
  have hp : s.Perm t := (sortSubgroup_perm s).symm.trans (e ▸ sortSubgroup_perm t)
  exact lookupA_perm s t hs.1 hp

theorem subgroupString_congr (s t : Subgroup) (hs : DistinctKeys s) (ht : DistinctKeys t) (h : SameSubgroup s t) :
    subgroupString s = subgroupString t := by
  unfold subgroupString
  rw [sortSubgroup_congr s t hs (perm_of_lookupA s t hs ht h)]

/-- A subgroup string is empty or ends with a character of a value. -/
theorem join_last : ∀ s : Subgroup, (∀ q ∈ s, UsualVal q.2) → joinWith ['_', '_'] (s.map encode) = [] ∨
    ∃ a c, joinWith ['_', '_'] (s.map encode) = a ++ [c] ∧ isValueChar c = true
  | [], _ => .inl rfl
  | q :: qs, h => by
    right
    rw [join_encode_cons]
    unfold tailStr
    split
    · have hne := str_ne_nil q.2 (h q (by simp))
      obtain ⟨l, c, e⟩ : ∃ l c, q.2.str = l ++ [c] := ⟨_, _, (List.dropLast_append_getLast hne).symm⟩
      refine ⟨q.1 ++ ['_'] ++ l, c, ?_, ?_⟩
      · rw [e]; simp
      · exact str_valueChar q.2 c (by rw [e]; simp)
    · rename_i hqs
      rcases join_last qs (fun q hq => h q (by simp [hq])) with e | ⟨a, c, e, hc⟩
      · exfalso
        match qs, hqs, e with
        | r :: qs, _, e => rw [join_encode_cons] at e; simp at e
      · exact ⟨q.1 ++ ['_'] ++ (q.2.str ++ '_' :: '_' :: a), c, by rw [e]; simp, hc⟩

theorem string_last (s : Subgroup) (hs : Usual s) : subgroupString s = [] ∨ ∃ a c, subgroupString s = a ++ [c] ∧ isValueChar c = true :=
  join_last (sortSubgroup s) fun q hq => (usual_sorted s hs q hq).2

/-- A subgroup string does not end with a text that ends with a letter. -/
theorem string_suffix (s : Subgroup) (hs : Usual s) (b x : Str) (c : Char) (hc : isValueChar c = false) : subgroupString s ≠ b ++ (x ++ [c]) := by
  intro h
  rcases string_last s hs with e | ⟨a, c', e, hc'⟩
  · rw [e] at h; simp at h
  · rw [e, ← List.append_assoc] at h
    have := List.append_inj_right' h rfl
    simp only [List.cons.injEq, and_true] at this
    subst this
    rw [hc] at hc'; cases hc'

/-- A subgroup string that starts with a text without characters of values ends the text with `_` or has it at
the start of its first key. -/
theorem string_prefix (s : Subgroup) (hs : Usual s) (x u : Str) (hx : ∀ c ∈ x, isValueChar c = false)
    (h : subgroupString s = x ++ '_' :: u) : ∃ q ∈ s, x <+: q.1 := by
  unfold subgroupString at h
  change joinWith ['_', '_'] ((sortSubgroup s).map encode) = _ at h
  cases hq : sortSubgroup s with
  | nil => rw [hq] at h; simp [joinWith] at h
  | cons q qs =>
    have husual := usual_sorted s hs q (by rw [hq]; simp)
    rw [hq, join_encode_cons] at h
    refine ⟨q, (sortSubgroup_perm s).mem_iff.1 (by rw [hq]; simp), ?_⟩
    obtain ⟨v, vs, hv⟩ := List.exists_cons_of_ne_nil (str_ne_nil q.2 husual.2)
    have hvc : isValueChar v = true := str_valueChar q.2 v (by rw [hv]; simp)
    have h1 : (q.1 ++ ['_'] ++ (q.2.str ++ tailStr qs)).takeWhile (fun c => !isValueChar c) = q.1 ++ ['_'] := by
      rw [List.takeWhile_append_of_pos, hv, List.cons_append, List.takeWhile_cons_of_neg (by simp [hvc]), List.append_nil]
      intro c hc
      rcases List.mem_append.1 hc with hc | hc
      · simp [husual.1 c hc]
      · rw [List.mem_singleton] at hc; subst hc; decide
    have h2 : (x ++ '_' :: u).takeWhile (fun c => !isValueChar c) = x ++ ['_'] ++ u.takeWhile (fun c => !isValueChar c) := by
      rw [List.append_cons, List.takeWhile_append_of_pos]
      intro c hc
      rcases List.mem_append.1 hc with hc | hc
      · simp [hx c hc]
      · rw [List.mem_singleton] at hc; subst hc; decide
    rw [h, h2] at h1
    have hlen := congrArg List.length h1
    simp only [List.length_append, List.length_singleton] at hlen
    refine List.prefix_of_prefix_length_le (l₃ := q.1 ++ ['_']) ?_ ⟨_, rfl⟩ (by omega)
    rw [← h1, List.append_assoc]
    exact ⟨_, rfl⟩

/-! ## Time attributes -/

theorem usual_removeTime (s : Subgroup) (hs : Usual s) : Usual (removeTime s) := by
  unfold removeTime popKey
  rw [List.filter_filter]
  refine ⟨?_, fun q hq => hs.2 q (List.mem_filter.1 hq).1⟩
  exact hs.1.sublist (List.Sublist.map _ List.filter_sublist)

theorem at_popKey (s : Subgroup) (k k' : Str) (h : k' ≠ k) : (popKey s k).at k' = s.at k' := by
  show lookupA _ _ = lookupA _ _
  unfold popKey lookupA
  congr 1
  rw [List.find?_filter]
  congr 1
  funext q
  by_cases e : q.1 = k'
  · simp [e, h]
  · simp [e]

theorem at_popKey_self (s : Subgroup) (k : Str) : (popKey s k).at k = none := by
  show lookupA _ _ = _
  unfold popKey lookupA
  rw [List.find?_filter]
  simp

theorem removeTime_same (s t : Subgroup) : SameSubgroup (removeTime s) (removeTime t) ↔ SameApartFromTime s t := by
  unfold removeTime
  constructor
  · intro h k h1 h2
    change k ≠ kWeekday at h1
    change k ≠ kQuarter at h2
    have := h k
    rwa [at_popKey _ _ _ h2, at_popKey _ _ _ h1, at_popKey _ _ _ h2, at_popKey _ _ _ h1] at this
  · intro h k
    by_cases h2 : k = kQuarter
    · subst h2; rw [at_popKey_self, at_popKey_self]
    · rw [at_popKey _ _ _ h2, at_popKey _ _ _ h2]
      by_cases h1 : k = kWeekday
      · subst h1; rw [at_popKey_self, at_popKey_self]
      · rw [at_popKey _ _ _ h1, at_popKey _ _ _ h1]
        exact h k h1 h2

/-! ## Paths -/

/-- The folders that do not depend on the activity. -/
inductive Fixed where
  | root | population | ownership | targets | climate | bulbs | heating
  deriving DecidableEq

/-- The folders. -/
inductive Folder where
  | fixed (f : Fixed)
  | activity
  | stats
  deriving DecidableEq

/-- Their names. -/
def fixedName : Fixed → Str
  | .root => []
  | .population => "population".toList
  | .ownership => "appliance_ownership".toList
  | .targets => "appliance_targets".toList
  | .climate => "climate".toList
  | .bulbs => "bulbs".toList
  | .heating => "heating".toList

/-- Their names. -/
def folderName (act : Str) : Folder → Str
  | .fixed f => fixedName f
  | .activity => act
  | .stats => act ++ "/ActivityStats".toList

/-- The folder of a request. -/
def folder : Req → Folder
  | .population _ => .fixed .population
  | .root _ | .profiles _ => .fixed .root
  | .ownership _ => .fixed .ownership
  | .target _ _ => .fixed .targets
  | .clearness | .historical => .fixed .climate
  | .bulbsConfig _ | .bulbsStats _ => .fixed .bulbs
  | .heating _ _ => .fixed .heating
  | .tpm _ | .tpmWithDuration _ | .sparseTpm _ | .activityProfiles _ => .activity
  | .stat _ _ => .stats

/-- The files that are read. -/
def dataPaths (act : Str) (r : Req) : List Path := (recipe act r).files.map (·.1)

/-- All the files that are written. -/
def allPaths (act : Str) (r : Req) : List Path := dataPaths act r ++ (recipe act r).legend.toList

theorem dir_of_path (act : Str) (r : Req) (p : Path) (h : p ∈ allPaths act r) : p.dir = folderName act (folder r) := by
  unfold allPaths dataPaths at h
  cases r
  case root k =>
    cases k <;>
    · simp only [recipe, rootRecipe, appliancesRecipe, bulbsRecipe, jsonRecipe, List.map_cons, List.map_nil, Option.toList_none, List.append_nil,
        List.mem_singleton] at h
      subst h; rfl
  all_goals
    simp only [recipe, populationRecipe, profilesRecipe, npzRecipe, jsonRecipe, clearnessRecipe, bulbsConfigRecipe, bulbsStatsRecipe, keyedRecipe,
      sparseRecipe, List.map_cons, List.map_nil, Option.toList_none, Option.toList_some, List.append_nil, List.cons_append, List.nil_append, List.mem_cons,
      List.not_mem_nil, or_false] at h
    first
      | (subst h; rfl)
      | (rcases h with h | h <;> (subst h; rfl))
      | (rcases h with h | h | h <;> (subst h; rfl))
      | (rcases h with h | h | h | h | h | h <;> (subst h; rfl))

theorem fixedName_inj (f g : Fixed) (h : fixedName f = fixedName g) : f = g := by
  cases f <;> cases g <;> first | rfl | (exfalso; revert h; decide)

theorem fixedName_slash (f : Fixed) : '/' ∉ fixedName f := by cases f <;> decide

theorem fixedName_mem (f : Fixed) : fixedName f ∈ ["".toList, "population".toList, "appliance_ownership".toList, "appliance_targets".toList,
    "climate".toList, "bulbs".toList, "heating".toList] := by cases f <;> decide

theorem folderName_inj (act : Str) (ha : GoodActivity act) (f g : Folder) (h : folderName act f = folderName act g) : f = g := by
  have hstats : '/' ∈ act ++ "/ActivityStats".toList := by simp
  have hlen : act ≠ act ++ "/ActivityStats".toList := by
    intro e
    have := congrArg List.length e
    simp at this
  cases f with
  | fixed f =>
    cases g with
    | fixed g => rw [fixedName_inj f g h]
    | activity =>
      have h : fixedName f = act := h
      exact absurd (h ▸ fixedName_mem f) ha
    | stats =>
      have h : fixedName f = act ++ "/ActivityStats".toList := h
      rw [← h] at hstats
      exact absurd hstats (fixedName_slash f)
  | activity =>
    cases g with
    | fixed g =>
      have h : act = fixedName g := h
      exact absurd (h.symm ▸ fixedName_mem g) ha
    | activity => rfl
    | stats => exact absurd h hlen
  | stats =>
    cases g with
    | fixed g =>
      have h : act ++ "/ActivityStats".toList = fixedName g := h
      rw [h] at hstats
      exact absurd hstats (fixedName_slash g)
    | activity => exact absurd h.symm hlen
    | stats => rfl

end Demod
