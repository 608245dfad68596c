import Verif.Lemmas.StorePaths

/-! # A file belongs to one request -/

namespace Demod

/-- Dense and sparse matrices of the same subgroup. -/
def Mixed (r r' : Req) : Prop :=
  ∃ s t, SameSubgroup s t ∧ ((r = .tpm s ∧ r' = .sparseTpm t) ∨ (r = .sparseTpm s ∧ r' = .tpm t))

theorem same_refl (s : Subgroup) : SameSubgroup s s := fun _ => rfl

/-! ## The requests of the folder of the activity -/

/-- The name of the `npz` file without its extension. -/
def stem : Req → Str
  | .tpm s | .sparseTpm s => subgroupString s
  | .tpmWithDuration s => subgroupString s ++ "_with_duration".toList
  | .activityProfiles s => "activity_profiles_".toList ++ subgroupString s
  | _ => []

/-- The requests of the folder of the activity. -/
def IsAct : Req → Prop
  | .tpm _ | .tpmWithDuration _ | .sparseTpm _ | .activityProfiles _ => True
  | _ => False

theorem prefix_clash (s t : Subgroup) (hs : Usual s) (hp : ∀ q ∈ s, ¬ "activity_profiles".toList <+: q.1)
    (h : subgroupString s = "activity_profiles_".toList ++ subgroupString t) : False := by
  obtain ⟨q, hq, hpre⟩ := string_prefix s hs "activity_profiles".toList (subgroupString t) (by decide) (by rw [h]; rfl)
  exact hp q hq hpre

theorem suffix_clash (s : Subgroup) (hs : Usual s) (b : Str) (h : subgroupString s = b ++ "_with_duration".toList) : False :=
  string_suffix s hs b "_with_duratio".toList 'n' (by decide) h

theorem suffix_prefix_clash (s t : Subgroup) (ht : Usual t)
    (h : subgroupString s ++ "_with_duration".toList = "activity_profiles_".toList ++ subgroupString t) : False := by
  rcases string_last t ht with e | ⟨a, c, e, hc⟩
  · rw [e, List.append_nil, show "activity_profiles_".toList = [] ++ "activity_profiles_".toList from rfl] at h
    exact not_suffix _ _ _ _ h (by decide) (by decide)
  · rw [e, ← List.append_assoc, show "_with_duration".toList = "_with_duratio".toList ++ ['n'] from rfl, ← List.append_assoc] at h
    have := List.append_inj_right' h rfl
    simp only [List.cons.injEq, and_true] at this
    subst this
    revert hc; decide

theorem isAct_cases (r : Req) (h : IsAct r) : ∃ s, r = .tpm s ∨ r = .tpmWithDuration s ∨ r = .sparseTpm s ∨ r = .activityProfiles s := by
  cases r with
  | tpm s => exact ⟨s, .inl rfl⟩
  | tpmWithDuration s => exact ⟨s, .inr (.inl rfl)⟩
  | sparseTpm s => exact ⟨s, .inr (.inr (.inl rfl))⟩
  | activityProfiles s => exact ⟨s, .inr (.inr (.inr rfl))⟩
  | _ => exact h.elim

theorem stem_owner (r r' : Req) (hr : IsAct r) (hr' : IsAct r') (hg : GoodRequest r) (hg' : GoodRequest r') (h : stem r = stem r') :
    SameRequest r r' ∨ Mixed r r' := by
  obtain ⟨s, e⟩ := isAct_cases r hr
  obtain ⟨t, e'⟩ := isAct_cases r' hr'
  have hu : Usual s ∧ ∀ q ∈ s, ¬ "activity_profiles".toList <+: q.1 := by
    rcases e with rfl | rfl | rfl | rfl <;> exact hg
  have hu' : Usual t ∧ ∀ q ∈ t, ¬ "activity_profiles".toList <+: q.1 := by
    rcases e' with rfl | rfl | rfl | rfl <;> exact hg'
  clear hr hr' hg hg'
  rcases e with rfl | rfl | rfl | rfl <;> rcases e' with rfl | rfl | rfl | rfl
  · exact .inl (subgroupString_inj _ _ hu.1 hu'.1 h)
  · exact (suffix_clash _ hu.1 _ h).elim
  · exact .inr ⟨_, _, subgroupString_inj _ _ hu.1 hu'.1 h, .inl ⟨rfl, rfl⟩⟩
  · exact (prefix_clash _ _ hu.1 hu.2 h).elim
  · exact (suffix_clash _ hu'.1 _ h.symm).elim
  · exact .inl (subgroupString_inj _ _ hu.1 hu'.1 (List.append_cancel_right h))
  · exact (suffix_clash _ hu'.1 _ h.symm).elim
  · exact (suffix_prefix_clash _ _ hu'.1 h).elim
  · exact .inr ⟨_, _, subgroupString_inj _ _ hu.1 hu'.1 h, .inr ⟨rfl, rfl⟩⟩
  · exact (suffix_clash _ hu.1 _ h).elim
  · exact .inl (subgroupString_inj _ _ hu.1 hu'.1 h)
  · exact (prefix_clash _ _ hu.1 hu.2 h).elim
  · exact (prefix_clash _ _ hu'.1 hu'.2 h.symm).elim
  · exact (suffix_prefix_clash _ _ hu.1 h.symm).elim
  · exact (prefix_clash _ _ hu'.1 hu'.2 h.symm).elim
  · exact .inl (subgroupString_inj _ _ hu.1 hu'.1 (List.append_cancel_left h))

/-- The endings of the files of the sparse matrices. -/
def sparseEnds : List Str := ["_tpm_times.npy".toList, "_tpm_inds_from.npy".toList, "_tpm_inds_to.npy".toList, "_tpm_values.npy".toList]

theorem act_names (act : Str) (r : Req) (hr : IsAct r) (p : Path) (h : p ∈ dataPaths act r) :
    p.name = stem r ++ ".npz".toList ∨ ∃ s e, r = .sparseTpm s ∧ e ∈ sparseEnds ∧ p.name = subgroupString s ++ e := by
  unfold dataPaths at h
  cases r <;> simp only [IsAct] at hr <;>
    simp only [recipe, keyedRecipe, sparseRecipe, npzRecipe, List.map_cons, List.map_nil, List.mem_cons, List.not_mem_nil, or_false] at h
  · subst h; exact .inl rfl
  · subst h; exact .inl rfl
  · rcases h with h | h | h | h | h
    · subst h; exact .inr ⟨_, _, rfl, by simp [sparseEnds], rfl⟩
    · subst h; exact .inr ⟨_, "_tpm_inds_from.npy".toList, rfl, by simp [sparseEnds], rfl⟩
    · subst h; exact .inr ⟨_, "_tpm_inds_to.npy".toList, rfl, by simp [sparseEnds], rfl⟩
    · subst h; exact .inr ⟨_, "_tpm_values.npy".toList, rfl, by simp [sparseEnds], rfl⟩
    · subst h; exact .inl rfl
  · subst h; exact .inl rfl

theorem act_legend (act : Str) (r : Req) (hr : IsAct r) (p : Path) (h : (recipe act r).legend = some p) :
    ∃ a, p.name = a ++ "_dict_legend.json".toList := by
  cases r <;> simp only [IsAct] at hr <;> simp only [recipe, keyedRecipe, sparseRecipe, npzRecipe, Option.some.injEq, reduceCtorEq] at h
  all_goals subst h; exact ⟨_, rfl⟩

theorem sparseEnds_npz : ∀ e ∈ sparseEnds, ¬ e <:+ ".npz".toList ∧ ¬ ".npz".toList <:+ e ∧ ¬ e <:+ "_dict_legend.json".toList ∧
    ¬ "_dict_legend.json".toList <:+ e := by decide

theorem sparseEnds_ne : ∀ e ∈ sparseEnds, ∀ e' ∈ sparseEnds, e ≠ e' → ¬ e <:+ e' := by decide

theorem act_owner (act : Str) (r r' : Req) (hr : IsAct r) (hr' : IsAct r') (hg : GoodRequest r) (hg' : GoodRequest r') (p : Path)
    (h : p ∈ dataPaths act r) (h' : p ∈ allPaths act r') : SameRequest r r' ∨ Mixed r r' := by
  unfold allPaths at h'
  rcases List.mem_append.1 h' with h' | h'
  · rcases act_names act r hr p h with e | ⟨s, x, rfl, hx, e⟩ <;> rcases act_names act r' hr' p h' with e' | ⟨s', x', rfl, hx', e'⟩ <;> rw [e] at e'
    · exact stem_owner r r' hr hr' hg hg' (List.append_cancel_right e')
    · exact (not_suffix _ _ _ _ e' (sparseEnds_npz x' hx').2.1 (sparseEnds_npz x' hx').1).elim
    · exact (not_suffix _ _ _ _ e' (sparseEnds_npz x hx).1 (sparseEnds_npz x hx).2.1).elim
    · by_cases hxx : x = x'
      · subst hxx
        exact .inl (subgroupString_inj _ _ hg.1 hg'.1 (List.append_cancel_right e'))
      · exact (not_suffix _ _ _ _ e' (sparseEnds_ne x hx x' hx' hxx) (sparseEnds_ne x' hx' x hx (Ne.symm hxx))).elim
  · obtain ⟨a, e'⟩ := act_legend act r' hr' p (by simpa using h')
    rcases act_names act r hr p h with e | ⟨s, x, rfl, hx, e⟩ <;> rw [e] at e'
    · exact (not_suffix _ _ _ _ e' (by decide) (by decide)).elim
    · exact (not_suffix _ _ _ _ e' (sparseEnds_npz x hx).2.2.1 (sparseEnds_npz x hx).2.2.2).elim

/-! ## The other folders -/

/-- The name of a file of the parsed data folder itself. -/
def rootName : RootFile → Str
  | .appliances => "appliance_dict.json".toList
  | .arma => "temperatures_arma.json".toList
  | .geographic => "geographic_data.json".toList
  | .fisher => "fisher_lighting.json".toList
  | .crestLighting => "crest_lighting.json".toList
  | .bulbs => "bulbs.json".toList

theorem rootName_inj (k k' : RootFile) (h : rootName k = rootName k') : k = k' := by
  cases k <;> cases k' <;> first | rfl | (exfalso; revert h; decide)

theorem rootName_json (k : RootFile) : ¬ rootName k <:+ ".npz".toList ∧ ¬ ".npz".toList <:+ rootName k := by
  cases k <;> decide

/-- The name of the only file of a request outside the folder of the activity. -/
def soleName : Req → Str
  | .population t => t ++ ".json".toList
  | .root k => rootName k
  | .profiles t => "loadprofiles_".toList ++ t ++ ".npz".toList
  | .ownership s => "ownership__".toList ++ subgroupString (removeTime s) ++ ".npz".toList
  | .target k s => (match k with
      | .switchons => "switchons__".toList
      | .consumption => "consumption__".toList
      | .duration => "duration__".toList) ++ subgroupString (removeTime s)
  | .historical => "historical_climate.npz".toList
  | .bulbsConfig s => "bulbs_config_".toList ++ subgroupString s ++ ".npy".toList
  | .bulbsStats s => "bulbs_".toList ++ subgroupString s ++ ".json".toList
  | .heating k s => subgroupString s ++ (match k with
      | .buildings => "_buildings_dict.json".toList
      | .system => "_heating_system_dict.json".toList
      | .thermostat => "_thermostat_dict.json".toList)
  | .stat k s => (match k with
      | .starts => "act_occurence_".toList
      | .duration => "act_duration_".toList
      | .probabilities => "act_probs_".toList) ++ subgroupString s ++ ".npz".toList
  | _ => []

/-- The names of the clearness files. -/
def clearnessNames : List Str := ["clearness_tpms.npy".toList, "clearness_labels.npy".toList, "clearness_step_size.json".toList]

theorem sole_path (act : Str) (r : Req) (hr : ¬ IsAct r) (hc : r ≠ .clearness) (p : Path) (h : p ∈ allPaths act r) : p.name = soleName r := by
  unfold allPaths dataPaths at h
  cases r
  case root k =>
    cases k <;>
    · simp only [recipe, rootRecipe, appliancesRecipe, bulbsRecipe, jsonRecipe, List.map_cons, List.map_nil, Option.toList_none, List.append_nil,
        List.mem_singleton] at h
      subst h; rfl
  case clearness => exact absurd rfl hc
  case tpm | tpmWithDuration | sparseTpm | activityProfiles => exact absurd trivial hr
  all_goals
    simp only [recipe, populationRecipe, profilesRecipe, npzRecipe, jsonRecipe, bulbsConfigRecipe, bulbsStatsRecipe,
      List.map_cons, List.map_nil, Option.toList_none, List.append_nil, List.mem_cons, List.not_mem_nil, or_false] at h
    subst h; rfl

theorem clearness_path (act : Str) (p : Path) (h : p ∈ allPaths act .clearness) : p.name ∈ clearnessNames := by
  unfold allPaths dataPaths at h
  simp only [recipe, clearnessRecipe, List.map_cons, List.map_nil, Option.toList_none, List.append_nil, List.mem_cons, List.not_mem_nil, or_false] at h
  rcases h with h | h | h <;> (subst h; decide)

theorem data_all (act : Str) (r : Req) (p : Path) (h : p ∈ dataPaths act r) : p ∈ allPaths act r := List.mem_append_left _ h

theorem removeTime_inj (s t : Subgroup) (hs : Usual s) (ht : Usual t) (h : subgroupString (removeTime s) = subgroupString (removeTime t)) :
    SameApartFromTime s t :=
  (removeTime_same s t).1 (subgroupString_inj _ _ (usual_removeTime s hs) (usual_removeTime t ht) h)

/-- A file that is read belongs to one request. -/
theorem path_owner (act : Str) (ha : GoodActivity act) (r r' : Req) (hg : GoodRequest r) (hg' : GoodRequest r') (p : Path)
    (h : p ∈ dataPaths act r) (h' : p ∈ allPaths act r') : SameRequest r r' ∨ Mixed r r' := by
  have hd := dir_of_path act r p (data_all act r p h)
  have hf := folderName_inj act ha _ _ (hd.symm.trans (dir_of_path act r' p h'))
  clear hd
  by_cases hr : IsAct r
  · have hr' : IsAct r' := by
      obtain ⟨s, e⟩ := isAct_cases r hr
      have : folder r' = .activity := by rw [← hf]; rcases e with rfl | rfl | rfl | rfl <;> rfl
      cases r' <;> first | trivial | (simp only [folder, reduceCtorEq, Folder.fixed.injEq] at this)
    exact act_owner act r r' hr hr' hg hg' p h h'
  · left
    have hr' : ¬ IsAct r' := by
      intro hr'
      obtain ⟨s, e⟩ := isAct_cases r' hr'
      have : folder r = .activity := by rw [hf]; rcases e with rfl | rfl | rfl | rfl <;> rfl
      cases r <;> first | exact hr trivial | (simp only [folder, reduceCtorEq, Folder.fixed.injEq] at this)
    by_cases hc : r = .clearness
    · subst hc
      by_cases hc' : r' = .clearness
      · subst hc'; rfl
      · exfalso
        have e := clearness_path act p (data_all act _ p h)
        rw [sole_path act r' hr' hc' p h'] at e
        cases r' <;> simp only [folder, reduceCtorEq, Folder.fixed.injEq] at hf
        case clearness => exact hc' rfl
        case historical => revert e; decide
    · by_cases hc' : r' = .clearness
      · exfalso
        subst hc'
        have e := clearness_path act p h'
        rw [sole_path act r hr hc p (data_all act r p h)] at e
        cases r <;> simp only [folder, reduceCtorEq, Folder.fixed.injEq] at hf
        case clearness => exact hc rfl
        case historical => revert e; decide
      · have e := sole_path act r' hr' hc' p h'
        rw [sole_path act r hr hc p (data_all act r p h)] at e
        replace hg := hg.1
        replace hg' := hg'.1
        rename' hg => hu, hg' => hu'
        clear h h'
        cases r with
        | population t =>
          cases r' <;> simp only [folder, reduceCtorEq, Folder.fixed.injEq] at hf
          rw [List.append_cancel_right (e : t ++ ".json".toList = _)]; rfl
        | root k =>
          cases r' <;> simp only [folder, reduceCtorEq, Folder.fixed.injEq] at hf
          · rw [rootName_inj _ _ e]; rfl
          · exact (not_suffix [] _ _ _ (e : [] ++ rootName k = _) (rootName_json k).1 (rootName_json k).2).elim
        | profiles t =>
          cases r' <;> simp only [folder, reduceCtorEq, Folder.fixed.injEq] at hf
          · rename_i k
            exact (not_suffix [] _ _ _ (e.symm : [] ++ rootName k = _) (rootName_json k).1 (rootName_json k).2).elim
          · rw [List.append_cancel_left (List.append_cancel_right (e : "loadprofiles_".toList ++ t ++ ".npz".toList = _))]; rfl
        | ownership s =>
          cases r' <;> simp only [folder, reduceCtorEq, Folder.fixed.injEq] at hf
          exact removeTime_inj _ _ hu hu' (List.append_cancel_left (List.append_cancel_right e))
        | target k s =>
          cases r' <;> simp only [folder, reduceCtorEq, Folder.fixed.injEq] at hf
          rename_i k' t
          have hk : k = k' := by
            cases k <;> cases k' <;> first | rfl | exact (not_prefix _ _ _ _ e (by decide) (by decide)).elim
          subst hk
          exact ⟨rfl, removeTime_inj _ _ hu hu' (List.append_cancel_left e)⟩
        | clearness => exact absurd rfl hc
        | historical =>
          cases r' <;> simp only [folder, reduceCtorEq, Folder.fixed.injEq] at hf
          · exact absurd rfl hc'
          · rfl
        | bulbsConfig s =>
          cases r' <;> simp only [folder, reduceCtorEq, Folder.fixed.injEq] at hf
          · exact subgroupString_inj _ _ hu hu' (List.append_cancel_left (List.append_cancel_right e))
          · exact (not_suffix _ _ _ _ e (by decide) (by decide)).elim
        | bulbsStats s =>
          cases r' <;> simp only [folder, reduceCtorEq, Folder.fixed.injEq] at hf
          · exact (not_suffix _ _ _ _ e (by decide) (by decide)).elim
          · exact subgroupString_inj _ _ hu hu' (List.append_cancel_left (List.append_cancel_right e))
        | heating k s =>
          cases r' <;> simp only [folder, reduceCtorEq, Folder.fixed.injEq] at hf
          rename_i k' t
          have hk : k = k' := by
            cases k <;> cases k' <;> first | rfl | exact (not_suffix _ _ _ _ e (by decide) (by decide)).elim
          subst hk
          exact ⟨rfl, subgroupString_inj _ _ hu hu' (List.append_cancel_right e)⟩
        | stat k s =>
          cases r' <;> simp only [folder, reduceCtorEq, Folder.fixed.injEq] at hf
          rename_i k' t
          have e2 := List.append_cancel_right e
          have hk : k = k' := by
            cases k <;> cases k' <;> first | rfl | exact (not_prefix _ _ _ _ e2 (by decide) (by decide)).elim
          subst hk
          exact ⟨rfl, subgroupString_inj _ _ hu hu' (List.append_cancel_left e2)⟩
        | tpm _ | tpmWithDuration _ | sparseTpm _ | activityProfiles _ => exact absurd trivial hr

end Demod
