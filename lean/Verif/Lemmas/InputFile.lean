import Verif.Spec.InputFile
import Verif.Lemmas.Destatis
import Mathlib.Data.List.Induction

/-! # Lemmas on the excel file of inputs -/

namespace Demod

section gset
variable {κ α : Type} [DecidableEq κ]

/-- One step of a dictionary comprehension. -/
def gset (d : List (κ × α)) (q : κ × α) : List (κ × α) :=
  if (lookupA d q.1).isSome then d.map fun r => if r.1 = q.1 then q else r else d ++ [q]

theorem lookup_append_one (d : List (κ × α)) (q : κ × α) (k : κ) : lookupA (d ++ [q]) k = (lookupA d k).or (if q.1 = k then some q.2 else none) := by
  induction d with
  | nil => rw [List.nil_append, lookupA_cons, lookupA_nil]; rfl
  | cons r d ih =>
    rw [List.cons_append, lookupA_cons, lookupA_cons, ih]
    by_cases h : r.1 = k
    · simp [h]
    · simp [h]

theorem lookup_replace (d : List (κ × α)) (q : κ × α) (k : κ) :
    lookupA (d.map fun r => if r.1 = q.1 then q else r) k = if k = q.1 then (lookupA d k).map (fun _ => q.2) else lookupA d k := by
  induction d with
  | nil => simp [lookupA_nil]
  | cons r d ih =>
    rw [List.map_cons, lookupA_cons, lookupA_cons, ih]
    by_cases h : r.1 = q.1
    · rw [if_pos h, h]
      by_cases hk : k = q.1
      · subst hk; simp
      · have hk' : ¬ q.1 = k := fun e => hk e.symm
        simp only [if_neg hk, if_neg hk']
    · rw [if_neg h]
      by_cases hk : r.1 = k
      · rw [if_pos hk, if_pos hk, if_neg (by rw [← hk]; exact h)]
      · rw [if_neg hk, if_neg hk]

theorem lookup_gset (d : List (κ × α)) (q : κ × α) (k : κ) : lookupA (gset d q) k = if k = q.1 then some q.2 else lookupA d k := by
  unfold gset
  by_cases h : (lookupA d q.1).isSome
  · rw [if_pos h, lookup_replace]
    by_cases hk : k = q.1
    · rw [if_pos hk, if_pos hk, hk]
      obtain ⟨v, hv⟩ := Option.isSome_iff_exists.1 h
      rw [hv]; rfl
    · rw [if_neg hk, if_neg hk]
  · rw [if_neg h, lookup_append_one]
    rw [Option.not_isSome_iff_eq_none] at h
    by_cases hk : k = q.1
    · subst hk; rw [h]; simp
    · rw [if_neg (fun e => hk e.symm), if_neg hk, Option.or_none]

theorem gset_nodup (d : List (κ × α)) (q : κ × α) (h : (d.map (·.1)).Nodup) : ((gset d q).map (·.1)).Nodup := by
  unfold gset
  by_cases hk : (lookupA d q.1).isSome
  · rw [if_pos hk, List.map_map]
    have : (fun r : κ × α => r.1) ∘ (fun r => if r.1 = q.1 then q else r) = fun r => r.1 := by
      funext r
      simp only [Function.comp]
      by_cases hq : r.1 = q.1
      · rw [if_pos hq, hq]
      · rw [if_neg hq]
    rw [this]
    exact h
  · rw [if_neg hk, List.map_append, List.nodup_append]
    rw [Option.not_isSome_iff_eq_none, lookupA_none] at hk
    refine ⟨h, by simp, ?_⟩
    intro a ha b hb e
    simp only [List.map_cons, List.map_nil, List.mem_singleton] at hb
    exact hk (by rw [← hb, ← e]; exact ha)

theorem gset_fold (items : List (κ × α)) : ∀ d : List (κ × α), (d.map (·.1)).Nodup →
    ((items.foldl gset d).map (·.1)).Nodup ∧ ∀ k, lookupA (items.foldl gset d) k = (lookupA items.reverse k).or (lookupA d k) := by
  induction items with
  | nil => intro d h; exact ⟨h, fun k => by simp [lookupA_nil]⟩
  | cons q items ih =>
    intro d h
    obtain ⟨h1, h2⟩ := ih (gset d q) (gset_nodup d q h)
    refine ⟨h1, fun k => ?_⟩
    rw [List.foldl_cons, h2, lookup_gset, List.reverse_cons, lookup_append_one]
    by_cases hk : k = q.1
    · rw [if_pos hk, if_pos hk.symm]
      cases lookupA items.reverse k <;> rfl
    · rw [if_neg hk, if_neg (fun e => hk e.symm)]
      cases lookupA items.reverse k <;> rfl

end gset

theorem dictOf_spec {α : Type} (items : List (Str × α)) : ((dictOf items).map (·.1)).Nodup ∧ ∀ k, lookupA (dictOf items) k = lookupA items.reverse k := by
  obtain ⟨h1, h2⟩ := gset_fold items [] (by simp)
  exact ⟨h1, fun k => by rw [show dictOf items = items.foldl gset [] from rfl, h2, lookupA_nil, Option.or_none]⟩

theorem cellDict_spec (items : List (Cell × Cell)) : ((cellDict items).map (·.1)).Nodup ∧ ∀ k, lookupA (cellDict items) k = lookupA items.reverse k := by
  obtain ⟨h1, h2⟩ := gset_fold items [] (by simp)
  exact ⟨h1, fun k => by rw [show cellDict items = items.foldl gset [] from rfl, h2, lookupA_nil, Option.or_none]⟩

theorem noSpaces_eq (s : Str) : noSpaces s = unspaced s := by
  unfold noSpaces unspaced
  apply List.filter_congr
  intro c _
  by_cases h : c = ' ' <;> simp [h]

theorem isUnnamed_iff (label : Str) : isUnnamed label = false ↔ Named label := by
  unfold isUnnamed Named
  rw [← Bool.not_eq_true, List.isPrefixOf_iff_prefix]
  constructor
  · rintro h ⟨r, hr⟩; exact h ⟨r, hr.symm⟩
  · rintro h ⟨r, hr⟩; exact h ⟨r, hr.symm⟩

theorem removeSpaces_cells (l : List Cell) : l.mapM removeSpacesCell = if Cell.other ∈ l then .error .notImplementedError else .ok (l.map cleaned) := by
  induction l with
  | nil => rfl
  | cons c l ih =>
    rw [List.mapM_cons, ih]
    by_cases h : Cell.other ∈ l
    · rw [if_pos h, if_pos (List.mem_cons_of_mem _ h)]
      cases c <;> rfl
    · rw [if_neg h]
      cases c with
      | other => simp [removeSpacesCell, bind, Except.bind]
      | text s =>
        rw [if_neg (by simpa using h)]
        simp [removeSpacesCell, bind, Except.bind, pure, Except.pure, cleaned, noSpaces_eq]
      | num x => rw [if_neg (by simpa using h)]; rfl
      | bool x => rw [if_neg (by simpa using h)]; rfl
      | empty => rw [if_neg (by simpa using h)]; rfl

theorem removeSpaces_columns (cs : List (Str × List Cell)) :
    ((∀ c ∈ cs, Cell.other ∉ c.2) → cs.mapM removeSpacesColumn = .ok (cs.map fun c => (unspaced c.1, c.2.map cleaned))) ∧
    ((¬ ∀ c ∈ cs, Cell.other ∉ c.2) → cs.mapM removeSpacesColumn = .error .notImplementedError) := by
  induction cs with
  | nil => exact ⟨fun _ => rfl, fun h => absurd (by simp) h⟩
  | cons c cs ih =>
    rw [List.mapM_cons]
    rw [show removeSpacesColumn c = (do let l ← c.2.mapM removeSpacesCell; .ok (noSpaces c.1, l)) from rfl, removeSpaces_cells]
    constructor
    · intro h
      rw [if_neg (h c (by simp)), ih.1 (fun x hx => h x (List.mem_cons_of_mem _ hx))]
      simp [bind, Except.bind, pure, Except.pure, noSpaces_eq]
    · intro h
      by_cases hc : Cell.other ∈ c.2
      · rw [if_pos hc]; rfl
      · rw [if_neg hc, ih.2 (fun hx => h (by
          intro x hx'
          rcases List.mem_cons.1 hx' with rfl | hx'
          · exact hc
          · exact hx x hx'))]
        rfl

theorem plain_filter (cols : List (Str × List Cell)) : (∀ c ∈ cols.filter (fun c => !isUnnamed c.1), Cell.other ∉ c.2) ↔ PlainCells cols := by
  unfold PlainCells
  constructor
  · intro h c hc hn
    exact h c (List.mem_filter.2 ⟨hc, by rw [(isUnnamed_iff _).2 hn]; rfl⟩)
  · intro h c hc
    obtain ⟨h1, h2⟩ := List.mem_filter.1 hc
    exact h c h1 ((isUnnamed_iff _).1 (by simpa using h2))

/-- The named columns without spaces. -/
def cleanCols (cols : List (Str × List Cell)) : List (Str × List Cell) :=
  (cols.filter fun c => !isUnnamed c.1).map fun c => (unspaced c.1, c.2.map cleaned)

theorem lastColumn_snoc (cols : List (Str × List Cell)) (c : Str × List Cell) (k : Str) (cells : List Cell) :
    (Named c.1 ∧ unspaced c.1 = k → (IsLastColumn (cols ++ [c]) k cells ↔ cells = c.2)) ∧
    (¬ (Named c.1 ∧ unspaced c.1 = k) → (IsLastColumn (cols ++ [c]) k cells ↔ IsLastColumn cols k cells)) := by
  constructor
  · rintro ⟨hn, hk⟩
    constructor
    · rintro ⟨a, label, b, e, h1, h2, h3⟩
      rcases List.eq_nil_or_concat b with rfl | ⟨b', x, rfl⟩
      · have := List.append_inj' e rfl
        simp only [List.cons.injEq, and_true] at this
        rw [this.2]
      · exfalso
        rw [List.concat_eq_append, ← List.cons_append, ← List.append_assoc] at e
        have := List.append_inj' e rfl
        simp only [List.cons.injEq, and_true] at this
        refine h3 x (by simp) (by rw [← this.2]; exact hn) (by rw [← this.2]; exact hk)
    · rintro rfl
      exact ⟨cols, c.1, [], rfl, hn, hk, by simp⟩
  · intro hno
    constructor
    · rintro ⟨a, label, b, e, h1, h2, h3⟩
      rcases List.eq_nil_or_concat b with rfl | ⟨b', x, rfl⟩
      · have := List.append_inj' e rfl
        simp only [List.cons.injEq, and_true] at this
        exact absurd ⟨by rw [this.2]; exact h1, by rw [this.2]; exact h2⟩ hno
      · rw [List.concat_eq_append, ← List.cons_append, ← List.append_assoc] at e
        have := List.append_inj' e rfl
        refine ⟨a, label, b', this.1, h1, h2, fun c hc => h3 c (by simp [hc])⟩
    · rintro ⟨a, label, b, e, h1, h2, h3⟩
      refine ⟨a, label, b ++ [c], by rw [e]; simp, h1, h2, ?_⟩
      intro x hx hn
      rcases List.mem_append.1 hx with hx | hx
      · exact h3 x hx hn
      · rw [List.mem_singleton] at hx
        subst hx
        exact fun e => hno ⟨hn, e⟩

theorem lookup_clean (k : Str) (v : List Cell) (cols : List (Str × List Cell)) :
    lookupA (cleanCols cols).reverse k = some v ↔ ∃ cells, IsLastColumn cols k cells ∧ v = cells.map cleaned := by
  induction cols using List.reverseRecOn with
  | nil =>
    simp only [cleanCols, List.filter_nil, List.map_nil, List.reverse_nil, lookupA_nil]
    constructor
    · intro h; cases h
    · rintro ⟨cells, ⟨a, l, b, e, _⟩, _⟩; simp at e
  | append_singleton cols c ih =>
    obtain ⟨l1, l2⟩ : (∀ cells, Named c.1 ∧ unspaced c.1 = k → (IsLastColumn (cols ++ [c]) k cells ↔ cells = c.2)) ∧
        (∀ cells, ¬ (Named c.1 ∧ unspaced c.1 = k) → (IsLastColumn (cols ++ [c]) k cells ↔ IsLastColumn cols k cells)) :=
      ⟨fun cells => (lastColumn_snoc cols c k cells).1, fun cells => (lastColumn_snoc cols c k cells).2⟩
    have hcl : cleanCols (cols ++ [c]) = cleanCols cols ++ (if isUnnamed c.1 then [] else [(unspaced c.1, c.2.map cleaned)]) := by
      unfold cleanCols
      rw [List.filter_append, List.map_append]
      congr 1
      cases h : isUnnamed c.1 <;> simp [h]
    rw [hcl]
    by_cases hn : isUnnamed c.1 = true
    · have hnn : ¬ Named c.1 := fun h => by rw [(isUnnamed_iff _).2 h] at hn; cases hn
      rw [if_pos hn, List.append_nil, ih]
      constructor
      · rintro ⟨cells, h, e⟩; exact ⟨cells, (l2 cells (fun h => hnn h.1)).2 h, e⟩
      · rintro ⟨cells, h, e⟩; exact ⟨cells, (l2 cells (fun h => hnn h.1)).1 h, e⟩
    · have hnn : Named c.1 := (isUnnamed_iff _).1 (by simpa using hn)
      rw [if_neg hn, List.reverse_append, List.reverse_singleton, List.singleton_append, lookupA_cons]
      by_cases hk : unspaced c.1 = k
      · rw [if_pos hk]
        constructor
        · intro h
          exact ⟨c.2, (l1 c.2 ⟨hnn, hk⟩).2 rfl, (Option.some.inj h).symm⟩
        · rintro ⟨cells, h, e⟩
          rw [(l1 cells ⟨hnn, hk⟩).1 h] at e
          rw [e]
      · rw [if_neg hk, ih]
        constructor
        · rintro ⟨cells, h, e⟩; exact ⟨cells, (l2 cells (fun h => hk h.2)).2 h, e⟩
        · rintro ⟨cells, h, e⟩; exact ⟨cells, (l2 cells (fun h => hk h.2)).1 h, e⟩

theorem sheetDict_spec (cols : List (Str × List Cell)) :
    (PlainCells cols → ∃ d, sheetDict cols = .ok d ∧ (d.map (·.1)).Nodup ∧ ∀ k v, lookupA d k = some v ↔ ∃ cells, IsLastColumn cols k cells ∧ v = cells.map cleaned) ∧
    (¬ PlainCells cols → sheetDict cols = .error .notImplementedError) := by
  unfold sheetDict
  constructor
  · intro h
    rw [(removeSpaces_columns _).1 ((plain_filter cols).2 h)]
    refine ⟨dictOf (cleanCols cols), rfl, (dictOf_spec _).1, fun k v => ?_⟩
    rw [(dictOf_spec _).2, lookup_clean]
  · intro h
    rw [(removeSpaces_columns _).2 (fun hc => h ((plain_filter cols).1 hc))]
    rfl

theorem lastColumn_unique (cols : List (Str × List Cell)) (k : Str) (c c' : List Cell) (h : IsLastColumn cols k c) (h' : IsLastColumn cols k c') : c = c' := by
  induction cols using List.reverseRecOn with
  | nil => obtain ⟨a, l, b, e, _⟩ := h; simp at e
  | append_singleton cols x ih =>
    by_cases hx : Named x.1 ∧ unspaced x.1 = k
    · rw [((lastColumn_snoc cols x k c).1 hx).1 h, ((lastColumn_snoc cols x k c').1 hx).1 h']
    · exact ih (((lastColumn_snoc cols x k c).2 hx).1 h) (((lastColumn_snoc cols x k c').2 hx).1 h')

theorem lastColumn_exists (cols : List (Str × List Cell)) (k : Str) : (∃ c ∈ cols, Named c.1 ∧ unspaced c.1 = k) ↔ ∃ cells, IsLastColumn cols k cells := by
  constructor
  · induction cols using List.reverseRecOn with
    | nil => rintro ⟨c, hc, _⟩; simp at hc
    | append_singleton cols x ih =>
      rintro ⟨c, hc, h⟩
      by_cases hx : Named x.1 ∧ unspaced x.1 = k
      · exact ⟨x.2, ((lastColumn_snoc cols x k x.2).1 hx).2 rfl⟩
      · rcases List.mem_append.1 hc with hc | hc
        · obtain ⟨cells, hcells⟩ := ih ⟨c, hc, h⟩
          exact ⟨cells, ((lastColumn_snoc cols x k cells).2 hx).2 hcells⟩
        · rw [List.mem_singleton] at hc
          subst hc
          exact absurd h hx
  · rintro ⟨cells, a, label, b, e, h1, h2, _⟩
    exact ⟨(label, cells), by rw [e]; simp, h1, h2⟩

theorem lookup_mapVal {α β : Type} (d : List (Str × α)) (f : α → β) (k : Str) : lookupA (d.map fun q => (q.1, f q.2)) k = (lookupA d k).map f := by
  induction d with
  | nil => rfl
  | cons q d ih =>
    rw [List.map_cons, lookupA_cons, lookupA_cons, ih]
    by_cases h : q.1 = k <;> simp [h]

theorem asFlags_spec (key : Str) (d : List (Str × SheetVal)) (h : (d.map (·.1)).Nodup) :
    ((asFlags key d).map (·.1)).Nodup ∧ ∀ k, lookupA (asFlags key d) k =
      if k = key then (lookupA d k).map (fun v => match v with | .cells l => .flags (l.map cellTruth) | v => v) else lookupA d k := by
  unfold asFlags
  cases hv : lookupA d key with
  | none =>
    refine ⟨h, fun k => ?_⟩
    by_cases hk : k = key
    · subst hk; simp [hv]
    · simp [hk]
  | some v =>
    cases v with
    | cells l =>
      refine ⟨dictSet_nodup _ _ _ h, fun k => ?_⟩
      dsimp only
      rw [lookup_dictSet]
      by_cases hk : k = key
      · subst hk; simp [hv]
      · simp [hk]
    | flags l =>
      refine ⟨h, fun k => ?_⟩
      by_cases hk : k = key
      · subst hk; simp [hv]
      · simp [hk]
    | count l =>
      refine ⟨h, fun k => ?_⟩
      by_cases hk : k = key
      · subst hk; simp [hv]
      · simp [hk]

end Demod
