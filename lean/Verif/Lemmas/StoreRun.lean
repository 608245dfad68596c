import Verif.Lemmas.StoreOwner

/-! # Histories of loads -/

namespace Demod

theorem distinct_of_good (r : Req) (h : GoodRequest r) : DistinctKeys r.subgroup := h.1.1

/-- Requests for the same data use the same files. -/
theorem recipe_congr (act : Str) (r r' : Req) (hg : GoodRequest r) (hg' : GoodRequest r') (h : SameRequest r r') : recipe act r = recipe act r' := by
  have hd := distinct_of_good r hg
  have hd' := distinct_of_good r' hg'
  have u := usual_removeTime r.subgroup hg.1
  have u' := usual_removeTime r'.subgroup hg'.1
  cases r <;> cases r' <;> simp only [SameRequest, reduceCtorEq, Req.population.injEq, Req.root.injEq, Req.profiles.injEq] at h <;>
    simp only [Req.subgroup] at hd hd' u u'
  all_goals first
    | (subst h; rfl)
    | rfl
    | (obtain ⟨rfl, h⟩ := h; simp only [recipe, subgroupString_congr _ _ hd hd' h])
    | (simp only [recipe, subgroupString_congr _ _ hd hd' h])
    | (obtain ⟨rfl, h⟩ := h; simp only [recipe, subgroupString_congr _ _ u.1 u'.1 ((removeTime_same _ _).2 h)])
    | (simp only [recipe, subgroupString_congr _ _ u.1 u'.1 ((removeTime_same _ _).2 h)])

theorem name_ne (act a x b y : Str) (h : ¬ x <:+ y ∧ ¬ y <:+ x) : (⟨act, a ++ x⟩ : Path) ≠ ⟨act, b ++ y⟩ := by
  intro e
  injection e with _ e
  exact not_suffix _ _ _ _ e h.1 h.2

theorem paths_nodup (act : Str) (r : Req) : (allPaths act r).Nodup := by
  cases r
  case root k => cases k <;> exact List.nodup_singleton _
  case clearness =>
    rw [show allPaths act .clearness = allPaths [] .clearness from rfl]
    decide
  case tpm s =>
    show [(_ : Path), _].Nodup
    rw [List.nodup_cons]
    refine ⟨?_, List.nodup_singleton _⟩
    rw [List.mem_singleton]
    exact name_ne _ _ _ _ _ (by decide)
  case tpmWithDuration s =>
    show [(_ : Path), _].Nodup
    rw [List.nodup_cons]
    refine ⟨?_, List.nodup_singleton _⟩
    rw [List.mem_singleton]
    exact name_ne _ _ _ _ _ (by decide)
  case sparseTpm s =>
    have : allPaths act (.sparseTpm s) = ["_tpm_times.npy".toList, "_tpm_inds_from.npy".toList, "_tpm_inds_to.npy".toList, "_tpm_values.npy".toList,
      ".npz".toList, "_dict_legend.json".toList].map (fun e => (⟨act, subgroupString s ++ e⟩ : Path)) := rfl
    rw [this]
    refine List.Nodup.map ?_ (by decide)
    intro a b e
    injection e with _ e
    exact List.append_cancel_left e
  all_goals exact List.nodup_singleton _

/-! ## Steps -/

/-- Everything completed by the writing is one of the files to write. -/
theorem writeFiles_complete : ∀ (ws : List (Path × Except PyErr Content)) (p : Path) (c : Content), .complete p c ∈ (writeFiles ws).1 → (p, .ok c) ∈ ws
  | [], p, c, h => by simp [writeFiles] at h
  | (q, .ok x) :: ws, p, c, h => by
    simp only [writeFiles, List.mem_cons, reduceCtorEq, false_or, Step.complete.injEq] at h
    rcases h with ⟨rfl, rfl⟩ | h
    · simp
    · exact List.mem_cons_of_mem _ (writeFiles_complete ws p c h)
  | (q, .error e) :: ws, p, c, h => by simp [writeFiles] at h

theorem load_complete (raw : Raw) (act : Str) (fs : FS) (r : Req) (p : Path) (c : Content) (h : .complete p c ∈ (loadSteps raw act fs r).1) :
    ∃ d l, raw r = .ok (d, l) ∧ (p, .ok c) ∈ (recipe act r).writes d l := by
  unfold loadSteps at h
  simp only at h
  split at h
  · simp at h
  · split at h
    · simp at h
    · rename_i d l hraw
      split at h
      · simp at h
      · split at h
        · rename_i steps e hw
          simp only [List.mem_cons, reduceCtorEq, false_or] at h
          exact ⟨d, l, hraw, writeFiles_complete _ _ _ (by rw [hw]; exact h)⟩
        · rename_i steps hw
          simp only [List.mem_cons, reduceCtorEq, false_or] at h
          exact ⟨d, l, hraw, writeFiles_complete _ _ _ (by rw [hw]; exact h)⟩
  · simp at h

/-- Every complete file is what some request of `rs` writes. -/
def StoreInv (raw : Raw) (act : Str) (rs : List Req) (fs : FS) : Prop :=
  ∀ p c, fs p = some c → c ≠ .broken → ∃ r ∈ rs, ∃ d l, raw r = .ok (d, l) ∧ (p, .ok c) ∈ (recipe act r).writes d l

theorem inv_steps (raw : Raw) (act : Str) (rs : List Req) (r : Req) (hr : r ∈ rs) : ∀ (steps : List Step) (fs : FS),
    (∀ p c, .complete p c ∈ steps → ∃ d l, raw r = .ok (d, l) ∧ (p, .ok c) ∈ (recipe act r).writes d l) →
    StoreInv raw act rs fs → StoreInv raw act rs (steps.foldl Step.apply fs)
  | [], _, _, h => h
  | s :: steps, fs, hs, h => by
    rw [List.foldl_cons]
    refine inv_steps raw act rs r hr steps _ (fun p c hm => hs p c (List.mem_cons_of_mem _ hm)) ?_
    cases s with
    | parse _ => exact h
    | openFile q =>
      intro p c hp hb
      simp only [Step.apply] at hp
      split at hp
      · injection hp with hp; exact absurd hp.symm hb
      · exact h p c hp hb
    | complete q x =>
      intro p c hp hb
      simp only [Step.apply] at hp
      split at hp
      · rename_i e
        injection hp with hp
        subst e; subst hp
        obtain ⟨d, l, e1, e2⟩ := hs p x (by simp)
        exact ⟨r, hr, d, l, e1, e2⟩
      · exact h p c hp hb

theorem inv_event (raw : Raw) (act : Str) (rs : List Req) (e : Event) (he : ∀ r ∈ e.requests, r ∈ rs) (fs : FS) (h : StoreInv raw act rs fs) :
    StoreInv raw act rs (e.apply raw act fs) := by
  cases e with
  | load r => exact inv_steps raw act rs r (he r (by simp [Event.requests])) _ fs (fun p c hm => load_complete raw act fs r p c hm) h
  | crash r n =>
    exact inv_steps raw act rs r (he r (by simp [Event.requests])) _ fs (fun p c hm => load_complete raw act fs r p c (List.mem_of_mem_take hm)) h
  | clear => intro p c hp; simp [Event.apply] at hp

theorem inv_hist (raw : Raw) (act : Str) (rs : List Req) (hist : List Event) (he : ∀ r ∈ hist.flatMap Event.requests, r ∈ rs) :
    StoreInv raw act rs (filesAfter raw act hist) := by
  unfold filesAfter
  have : ∀ (hist : List Event) (fs : FS), (∀ r ∈ hist.flatMap Event.requests, r ∈ rs) → StoreInv raw act rs fs →
      StoreInv raw act rs (hist.foldl (Event.apply raw act) fs) := by
    intro hist
    induction hist with
    | nil => intro fs _ h; exact h
    | cons e hist ih =>
      intro fs he h
      rw [List.foldl_cons]
      exact ih _ (fun r hr => he r (by rw [List.flatMap_cons]; exact List.mem_append_right _ hr))
        (inv_event raw act rs e (fun r hr => he r (by rw [List.flatMap_cons]; exact List.mem_append_left _ hr)) fs h)
  exact this hist _ he (fun p c hp => by simp at hp)

/-! ## Reading -/

theorem readFile_readable (fs : FS) (f : Path × Fmt) (c : Content) (h : readable f.2 c) (hf : fs f.1 = some c) : readFile fs f = .ok c := by
  obtain ⟨p, fmt⟩ := f
  unfold readFile
  simp only at hf h ⊢
  rw [hf]
  cases fmt <;> cases c <;> simp only [readable] at h
  · simp only [h, if_true]
  · rfl
  · rfl

theorem readFiles_expected (fs : FS) : ∀ (files : List (Path × Fmt)) (cs : List Content), List.Forall₂ (fun f c => readable f.2 c) files cs →
    List.Forall₂ (fun f c => fs f.1 = none ∨ fs f.1 = some c) files cs →
    (readFiles fs files = .ok cs) ∨ ((∃ f ∈ files, fs f.1 = none) ∧ readFiles fs files = .error .fileNotFoundError)
  | [], [], _, _ => .inl rfl
  | f :: files, c :: cs, .cons h hs, .cons g gs => by
    rcases g with g | g
    · right
      refine ⟨⟨f, by simp, g⟩, ?_⟩
      have : readFile fs f = .error .fileNotFoundError := by
        unfold readFile; rw [g]
      simp only [readFiles, this]; rfl
    · have hrd := readFile_readable fs f c h g
      rcases readFiles_expected fs files cs hs gs with e | ⟨⟨f', hf', hn⟩, e⟩
      · left; simp only [readFiles, hrd, e]; rfl
      · right
        exact ⟨⟨f', List.mem_cons_of_mem _ hf', hn⟩, by simp only [readFiles, hrd, e]; rfl⟩

theorem readable_not_broken (f : Fmt) (c : Content) (h : readable f c) : c ≠ .broken := by
  rintro rfl; cases f <;> simp [readable] at h

/-- What one path is written to. -/
theorem writes_unique (R : Recipe) (d : List PyVal) (l : PyVal) (cs : List Content) (hf : Saves R d l cs)
    (hn : (R.files.map (·.1) ++ R.legend.toList).Nodup) :
    List.Forall₂ (fun f c => ∀ c', (f.1, .ok c') ∈ R.writes d l → c' = c) R.files cs := by
  have hlen : R.files.length = cs.length := hf.readable.length_eq
  rw [List.forall₂_iff_get]
  refine ⟨hlen, ?_⟩
  intro i h1 h2 c' hm
  unfold Recipe.writes at hm
  rw [List.mem_append] at hm
  rw [List.nodup_append] at hn
  rcases hm with hm | hm
  · rw [hf.encode] at hm
    obtain ⟨j, hj, ej⟩ := List.mem_iff_getElem.1 hm
    rw [List.length_zip, List.length_map, List.length_map] at hj
    rw [List.getElem_zip, List.getElem_map, List.getElem_map] at ej
    injection ej with e1 e2
    have hij : j = i := by
      have := (List.nodup_iff_injective_get.1 hn.1) (a₁ := ⟨j, by rw [List.length_map]; omega⟩) (a₂ := ⟨i, by rw [List.length_map]; exact h1⟩)
        (by simpa using e1)
      injection this
    subst hij
    injection e2 with e2
    exact e2.symm
  · exfalso
    cases hl : R.legend with
    | none => rw [hl] at hm; simp at hm
    | some q =>
      rw [hl] at hm
      simp only [List.mem_singleton, Prod.mk.injEq] at hm
      refine hn.2.2 (R.files.get ⟨i, h1⟩).1 (List.mem_map.2 ⟨_, List.get_mem _ _, rfl⟩) q (by rw [hl]; simp) hm.1

/-- The situation of the theorems: reasonable requests with storable values. -/
structure StoreSetting (raw : Raw) (act : Str) (rs : List Req) : Prop where
  act : GoodActivity act
  good : ∀ r ∈ rs, GoodRequest r
  mixed : NoMixedTpm rs
  consistent : Consistent raw
  storable : AllStorable raw rs

theorem same_symm_sub {s t : Subgroup} (h : SameSubgroup s t) : SameSubgroup t s := fun k => (h k).symm

theorem setting_owner {raw : Raw} {act : Str} {rs : List Req} (S : StoreSetting raw act rs) (r r' : Req) (hr : r ∈ rs) (hr' : r' ∈ rs) (p : Path)
    (h : p ∈ dataPaths act r) (h' : p ∈ allPaths act r') : raw r = raw r' ∧ recipe act r = recipe act r' := by
  rcases path_owner act S.act r r' (S.good r hr) (S.good r' hr') p h h' with h | ⟨s, t, hst, ⟨rfl, rfl⟩ | ⟨rfl, rfl⟩⟩
  · exact ⟨S.consistent r r' h, recipe_congr act r r' (S.good r hr) (S.good r' hr') h⟩
  · exact absurd hst (S.mixed s t hr hr')
  · exact absurd (same_symm_sub hst) (S.mixed t s hr' hr)

theorem mem_writes_path (act : Str) (r : Req) (d : List PyVal) (l : PyVal) (p : Path) (c : Except PyErr Content) (h : (p, c) ∈ (recipe act r).writes d l) :
    p ∈ allPaths act r := by
  unfold Recipe.writes at h
  unfold allPaths dataPaths
  rcases List.mem_append.1 h with h | h
  · exact List.mem_append_left _ (List.of_mem_zip h).1
  · apply List.mem_append_right
    cases hl : (recipe act r).legend with
    | none => rw [hl] at h; simp at h
    | some q =>
      rw [hl] at h
      simp only [List.mem_singleton, Prod.mk.injEq] at h
      simp [h.1]

/-- Each file of a request is missing or has the right content. -/
theorem files_expected {raw : Raw} {act : Str} {rs : List Req} (S : StoreSetting raw act rs) (fs : FS) (hi : StoreInv raw act rs fs) (hb : NothingBroken fs)
    (r : Req) (hr : r ∈ rs) (d : List PyVal) (l : PyVal) (hraw : raw r = .ok (d, l)) (cs : List Content) (hf : Saves (recipe act r) d l cs) :
    List.Forall₂ (fun f c => fs f.1 = none ∨ fs f.1 = some c) (recipe act r).files cs := by
  have hu := writes_unique _ _ _ _ hf (paths_nodup act r)
  rw [List.forall₂_iff_get] at hu ⊢
  refine ⟨hu.1, fun i h1 h2 => ?_⟩
  have := hu.2 i h1 h2
  cases hfs : fs ((recipe act r).files.get ⟨i, h1⟩).1 with
  | none => exact .inl rfl
  | some c =>
    right
    obtain ⟨r', hr', d', l', hraw', hm⟩ := hi _ c hfs (fun e => hb _ (e ▸ hfs))
    obtain ⟨e1, e2⟩ := setting_owner S r r' hr hr' _ (List.mem_map.2 ⟨_, List.get_mem _ _, rfl⟩) (mem_writes_path act r' d' l' _ _ hm)
    rw [hraw, hraw'] at e1
    cases e1
    rw [← e2] at hm
    rw [this c hm]

theorem files_ne_nil (act : Str) (r : Req) : (recipe act r).files ≠ [] := by
  cases r
  case root k => cases k <;> exact List.cons_ne_nil _ _
  all_goals exact List.cons_ne_nil _ _

/-- Without a value nothing is stored. -/
theorem nothing_stored {raw : Raw} {act : Str} {rs : List Req} (S : StoreSetting raw act rs) (fs : FS) (hi : StoreInv raw act rs fs) (hb : NothingBroken fs)
    (r : Req) (hr : r ∈ rs) (e : PyErr) (hraw : raw r = .error e) : readFiles fs (recipe act r).files = .error .fileNotFoundError := by
  have hne := files_ne_nil act r
  cases hfl : (recipe act r).files with
  | nil => exact absurd hfl hne
  | cons f files =>
    have : fs f.1 = none := by
      cases hfs : fs f.1 with
      | none => rfl
      | some c =>
        exfalso
        obtain ⟨r', hr', d', l', hraw', hm⟩ := hi _ c hfs (fun e => hb _ (e ▸ hfs))
        obtain ⟨e1, _⟩ := setting_owner S r r' hr hr' f.1 (by unfold dataPaths; rw [hfl]; simp) (mem_writes_path act r' d' l' _ _ hm)
        rw [hraw, hraw'] at e1
        cases e1
    have h2 : readFile fs f = .error .fileNotFoundError := by unfold readFile; rw [this]
    simp only [readFiles, h2]; rfl

/-- Writing only correct contents succeeds. -/
theorem writeFiles_ok (ws : List (Path × Except PyErr Content)) (h : ∀ w ∈ ws, ∃ c, w.2 = .ok c) : (writeFiles ws).2 = none := by
  induction ws with
  | nil => rfl
  | cons w ws ih =>
    obtain ⟨p, x⟩ := w
    obtain ⟨c, e⟩ := h (p, x) (by simp)
    simp only at e
    subst e
    simp only [writeFiles]
    exact ih fun w hw => h w (by simp [hw])

theorem fits_writes (R : Recipe) (d : List PyVal) (l : PyVal) (cs : List Content) (hf : Saves R d l cs) :
    ∀ w ∈ R.writes d l, ∃ c, w.2 = .ok c ∧ c ≠ .broken := by
  intro w hw
  unfold Recipe.writes at hw
  rcases List.mem_append.1 hw with hw | hw
  · have := (List.of_mem_zip hw).2
    rw [hf.encode] at this
    obtain ⟨c, hc, e⟩ := List.mem_map.1 this
    refine ⟨c, e.symm, ?_⟩
    obtain ⟨i, hi, ei⟩ := List.mem_iff_getElem.1 hc
    have hr := (List.forall₂_iff_get.1 hf.readable)
    have := hr.2 i (by rw [hr.1]; exact hi) hi
    rw [List.get_eq_getElem, List.get_eq_getElem, ei] at this
    exact readable_not_broken _ _ this
  · cases hl : R.legend with
    | none => rw [hl] at hw; simp at hw
    | some q =>
      rw [hl] at hw
      simp only [List.mem_singleton] at hw
      obtain ⟨v, hv⟩ := hf.legend q hl
      exact ⟨_, by rw [hw]; exact hv, by simp⟩

/-- The outcome of a load in any reasonable state. -/
theorem load_outcome {raw : Raw} {act : Str} {rs : List Req} (S : StoreSetting raw act rs) (fs : FS) (hi : StoreInv raw act rs fs) (hb : NothingBroken fs)
    (r : Req) (hr : r ∈ rs) :
    (loadSteps raw act fs r).2 = match raw r with
      | .error e => .error e
      | .ok (d, _) => (recipe act r).result d := by
  cases hraw : raw r with
  | error e =>
    unfold loadSteps
    simp only [nothing_stored S fs hi hb r hr e hraw, hraw]
  | ok v =>
    obtain ⟨d, l⟩ := v
    obtain ⟨cs, hf⟩ := fits_storable act r d l (S.storable r hr d l hraw)
    have he := files_expected S fs hi hb r hr d l hraw cs hf
    rcases readFiles_expected fs _ cs hf.readable he with h | ⟨_, h⟩
    · unfold loadSteps
      simp only [h]
      exact hf.decode
    · unfold loadSteps
      simp only [h, hraw, hf.check]
      have hw := writeFiles_ok _ (fun w hw => let ⟨c, e, _⟩ := fits_writes _ _ _ _ hf w hw; ⟨c, e⟩)
      cases hws : writeFiles ((recipe act r).writes d l) with
      | mk steps o =>
        rw [hws] at hw
        simp only at hw
        subst hw
        rfl

/-! ## Presence -/

theorem steps_present (p : Path) : ∀ (steps : List Step) (fs : FS), fs p ≠ none → steps.foldl Step.apply fs p ≠ none
  | [], _, h => h
  | s :: steps, fs, h => by
    rw [List.foldl_cons]
    refine steps_present p steps _ ?_
    cases s with
    | parse _ => exact h
    | openFile q => simp only [Step.apply]; split <;> simp_all
    | complete q c => simp only [Step.apply]; split <;> simp_all

theorem event_present (raw : Raw) (act : Str) (p : Path) (e : Event) (he : e ≠ .clear) (fs : FS) (h : fs p ≠ none) : e.apply raw act fs p ≠ none := by
  cases e with
  | load r => exact steps_present p _ fs h
  | crash r n => exact steps_present p _ fs h
  | clear => exact absurd rfl he

theorem hist_present (raw : Raw) (act : Str) (p : Path) (hist : List Event) (hc : .clear ∉ hist) (fs : FS) (h : fs p ≠ none) :
    hist.foldl (Event.apply raw act) fs p ≠ none := by
  induction hist generalizing fs with
  | nil => exact h
  | cons e hist ih =>
    rw [List.foldl_cons]
    exact ih (fun hm => hc (List.mem_cons_of_mem _ hm)) _ (event_present raw act p e (fun e' => hc (e' ▸ List.mem_cons_self)) fs h)

theorem writeFiles_present (p : Path) : ∀ (ws : List (Path × Except PyErr Content)) (fs : FS), (∀ w ∈ ws, ∃ c, w.2 = .ok c) →
    p ∈ ws.map (·.1) → (writeFiles ws).1.foldl Step.apply fs p ≠ none
  | [], _, _, h => by simp at h
  | (q, .error e) :: ws, _, h, _ => by obtain ⟨c, hc⟩ := h (q, .error e) (by simp); cases hc
  | (q, .ok c) :: ws, fs, h, hp => by
    simp only [writeFiles, List.foldl_cons]
    rw [List.map_cons, List.mem_cons] at hp
    by_cases hq : p = q
    · subst hq
      apply steps_present
      simp [Step.apply]
    · exact writeFiles_present p ws _ (fun w hw => h w (by simp [hw])) (hp.resolve_left hq)

theorem writes_paths (R : Recipe) (d : List PyVal) (l : PyVal) (cs : List Content) (hf : Saves R d l cs) (p : Path) (hp : p ∈ R.files.map (·.1)) :
    p ∈ (R.writes d l).map (·.1) := by
  unfold Recipe.writes
  rw [List.map_append, List.mem_append]
  left
  rw [List.map_fst_zip]
  · exact hp
  · rw [hf.encode, List.length_map, List.length_map, hf.readable.length_eq]

/-- After a load the files are there. -/
theorem load_present {raw : Raw} {act : Str} {rs : List Req} (S : StoreSetting raw act rs) (fs : FS) (hi : StoreInv raw act rs fs) (hb : NothingBroken fs)
    (r : Req) (hr : r ∈ rs) (d : List PyVal) (l : PyVal) (hraw : raw r = .ok (d, l)) (p : Path) (hp : p ∈ dataPaths act r) :
    (Event.load r).apply raw act fs p ≠ none := by
  obtain ⟨cs, hf⟩ := fits_storable act r d l (S.storable r hr d l hraw)
  have he := files_expected S fs hi hb r hr d l hraw cs hf
  show (loadSteps raw act fs r).1.foldl Step.apply fs p ≠ none
  rcases readFiles_expected fs _ cs hf.readable he with h | ⟨_, h⟩
  · apply steps_present
    intro hn
    unfold dataPaths at hp
    obtain ⟨f, hf', rfl⟩ := List.mem_map.1 hp
    have : ∀ (files : List (Path × Fmt)) (cs : List Content), readFiles fs files = .ok cs → ∀ f ∈ files, fs f.1 ≠ none := by
      intro files
      induction files with
      | nil => intro cs _ f hf; simp at hf
      | cons g files ih =>
        intro cs h f hf
        simp only [readFiles] at h
        cases hg : readFile fs g with
        | error e => rw [hg] at h; cases h
        | ok c =>
          rw [hg] at h
          cases hrest : readFiles fs files with
          | error e => rw [hrest] at h; cases h
          | ok cs' =>
            rcases List.mem_cons.1 hf with rfl | hf
            · intro hn
              unfold readFile at hg
              rw [hn] at hg
              cases hg
            · exact ih cs' hrest f hf
    exact this _ _ h f hf' hn
  · unfold loadSteps
    simp only [h, hraw, hf.check]
    have hok : ∀ w ∈ (recipe act r).writes d l, ∃ c, w.2 = .ok c := fun w hw => let ⟨c, e, _⟩ := fits_writes _ _ _ _ hf w hw; ⟨c, e⟩
    have hw := writeFiles_ok _ hok
    have hpres := writeFiles_present p _ fs hok (writes_paths _ d l cs hf p hp)
    cases hws : writeFiles ((recipe act r).writes d l) with
    | mk steps o =>
      rw [hws] at hw hpres
      simp only at hw
      subst hw
      exact hpres

/-- When all the files are there, nothing happens. -/
theorem load_silent {raw : Raw} {act : Str} {rs : List Req} (S : StoreSetting raw act rs) (fs : FS) (hi : StoreInv raw act rs fs) (hb : NothingBroken fs)
    (r : Req) (hr : r ∈ rs) (d : List PyVal) (l : PyVal) (hraw : raw r = .ok (d, l)) (hp : ∀ p ∈ dataPaths act r, fs p ≠ none) :
    (loadSteps raw act fs r).1 = [] := by
  obtain ⟨cs, hf⟩ := fits_storable act r d l (S.storable r hr d l hraw)
  have he := files_expected S fs hi hb r hr d l hraw cs hf
  rcases readFiles_expected fs _ cs hf.readable he with h | ⟨⟨f, hm, hn⟩, _⟩
  · unfold loadSteps
    simp only [h]
  · exact absurd hn (hp _ (List.mem_map.2 ⟨f, hm, rfl⟩))

/-! ## Complete loads leave nothing broken -/

theorem writeFiles_broken : ∀ (ws : List (Path × Except PyErr Content)) (fs : FS), (∀ w ∈ ws, ∃ c, w.2 = .ok c ∧ c ≠ .broken) → NothingBroken fs →
    NothingBroken ((writeFiles ws).1.foldl Step.apply fs)
  | [], _, _, h => h
  | (q, .error e) :: ws, _, h, _ => by obtain ⟨c, hc, _⟩ := h (q, .error e) (by simp); cases hc
  | (q, .ok c) :: ws, fs, h, hb => by
    simp only [writeFiles, List.foldl_cons]
    refine writeFiles_broken ws _ (fun w hw => h w (by simp [hw])) ?_
    intro p
    simp only [Step.apply]
    split
    · obtain ⟨c', hc, hne⟩ := h (q, .ok c) (by simp)
      injection hc with hc
      subst hc
      intro e
      injection e with e
      exact hne e
    · exact hb p

theorem load_broken {raw : Raw} {act : Str} {rs : List Req} (S : StoreSetting raw act rs) (fs : FS) (hi : StoreInv raw act rs fs) (hb : NothingBroken fs)
    (r : Req) (hr : r ∈ rs) : NothingBroken ((Event.load r).apply raw act fs) := by
  show NothingBroken ((loadSteps raw act fs r).1.foldl Step.apply fs)
  cases hraw : raw r with
  | error e =>
    unfold loadSteps
    simp only [nothing_stored S fs hi hb r hr e hraw, hraw]
    exact hb
  | ok v =>
    obtain ⟨d, l⟩ := v
    obtain ⟨cs, hf⟩ := fits_storable act r d l (S.storable r hr d l hraw)
    have he := files_expected S fs hi hb r hr d l hraw cs hf
    rcases readFiles_expected fs _ cs hf.readable he with h | ⟨_, h⟩
    · unfold loadSteps
      simp only [h]
      exact hb
    · unfold loadSteps
      simp only [h, hraw, hf.check]
      have hok := fits_writes _ _ _ _ hf
      have hw := writeFiles_ok _ (fun w hw => let ⟨c, e, _⟩ := hok w hw; ⟨c, e⟩)
      have hbr := writeFiles_broken _ fs hok hb
      cases hws : writeFiles ((recipe act r).writes d l) with
      | mk steps o =>
        rw [hws] at hw hbr
        simp only at hw
        subst hw
        exact hbr

theorem nothingBroken_hist {raw : Raw} {act : Str} {rs : List Req} (S : StoreSetting raw act rs) : ∀ (hist : List Event) (fs : FS), StoreInv raw act rs fs →
    NothingBroken fs → (∀ r ∈ hist.flatMap Event.requests, r ∈ rs) → (∀ r n, .crash r n ∉ hist) →
    NothingBroken (hist.foldl (Event.apply raw act) fs)
  | [], _, _, h, _, _ => h
  | e :: hist, fs, hi, hb, he, hc => by
    rw [List.foldl_cons]
    have he1 : ∀ r ∈ e.requests, r ∈ rs := fun r hr => he r (by rw [List.flatMap_cons]; exact List.mem_append_left _ hr)
    refine nothingBroken_hist S hist _ (inv_event raw act rs e he1 fs hi) ?_
      (fun r hr => he r (by rw [List.flatMap_cons]; exact List.mem_append_right _ hr)) (fun r n hm => hc r n (List.mem_cons_of_mem _ hm))
    cases e with
    | load r => exact load_broken S fs hi hb r (he1 r (by simp [Event.requests]))
    | crash r n => exact absurd List.mem_cons_self (hc r n)
    | clear => intro p; simp [Event.apply]

end Demod
