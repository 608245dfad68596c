import Verif.Lemmas.InputFile
import Verif.Props.Crest
import Verif.Props.Atus

/-! # The appliances, buildings and heating systems of the excel file of inputs -/

namespace Demod

/-! ## C129: the content of a sheet -/

/-- The dictionary of the appliances before the number of rows is added. -/
theorem flagsDict_spec (cols : List (Str × List Cell)) (h : PlainCells cols) :
    ∃ d, sheetDict cols = .ok d ∧ ((asFlags "uses_water".toList (asFlags "inactive_switch_off".toList (d.map fun q => (q.1, SheetVal.cells q.2)))).map (·.1)).Nodup ∧
      ∀ k, lookupA (asFlags "uses_water".toList (asFlags "inactive_switch_off".toList (d.map fun q => (q.1, SheetVal.cells q.2)))) k =
        (lookupA d k).map fun l => if k ∈ yesNo then .flags (l.map cellTruth) else .cells l := by
  obtain ⟨d, h1, h2, -⟩ := (sheetDict_spec cols).1 h
  refine ⟨d, h1, ?_⟩
  have hn : ((d.map fun q => (q.1, SheetVal.cells q.2)).map (·.1)).Nodup := by
    rw [List.map_map]; exact h2
  obtain ⟨a1, a2⟩ := asFlags_spec "inactive_switch_off".toList _ hn
  obtain ⟨b1, b2⟩ := asFlags_spec "uses_water".toList _ a1
  refine ⟨b1, fun k => ?_⟩
  rw [b2, a2, lookup_mapVal]
  by_cases hw : k = "uses_water".toList
  · have hi : ¬ k = "inactive_switch_off".toList := by rw [hw]; decide
    rw [if_pos hw, if_neg hi, Option.map_map]
    congr 1
    funext l
    simp [yesNo, hw]
  · rw [if_neg hw]
    by_cases hi : k = "inactive_switch_off".toList
    · rw [if_pos hi, Option.map_map]
      congr 1
      funext l
      simp [yesNo, hi]
    · rw [if_neg hi]
      congr 1
      funext l
      rw [if_neg]
      simp only [yesNo, List.mem_cons, List.not_mem_nil, or_false, not_or]
      exact ⟨hi, hw⟩

theorem truth_cleaned (c : Cell) (h : c ≠ .other) : cellTruth (cleaned c) = false ↔ MeansNo c := by
  unfold MeansNo
  cases c with
  | text s =>
    simp only [cleaned, cellTruth, unspaced, decide_eq_false_iff_not, not_not, List.filter_eq_nil_iff]
    constructor
    · intro h; exact .inr (.inr ⟨s, rfl, fun x hx => by simpa using h x hx⟩)
    · rintro (h | h | ⟨s', h, h'⟩)
      · cases h
      · cases h
      · injection h with h; subst h; intro x hx; simpa using h' x hx
  | num x => simp [cleaned, cellTruth]
  | bool b => cases b <;> simp [cleaned, cellTruth]
  | empty => simp [cleaned, cellTruth]
  | other => exact absurd rfl h

/-- **C129 (accepted sheets).** A sheet of appliances is accepted exactly if its named columns only have texts, numbers, booleans and empty cells, and one of them is labelled `name`, up to spaces. -/
theorem C129_accepts (cols : List (Str × List Cell)) :
    (∃ d, loadApplianceSheet cols = .ok d) ↔ PlainCells cols ∧ ∃ c ∈ cols, Named c.1 ∧ unspaced c.1 = "name".toList := by
  by_cases hp : PlainCells cols
  · obtain ⟨d, h1, -, h3⟩ := flagsDict_spec cols hp
    obtain ⟨d', e1, -, e3⟩ := (sheetDict_spec cols).1 hp
    rw [h1] at e1
    injection e1 with e1
    subst e1
    have hl : loadApplianceSheet cols = withNumber (asFlags "uses_water".toList (asFlags "inactive_switch_off".toList (d.map fun q => (q.1, SheetVal.cells q.2)))) := by
      unfold loadApplianceSheet; rw [h1]; rfl
    rw [hl]
    unfold withNumber
    rw [h3, lastColumn_exists]
    cases hv : lookupA d "name".toList with
    | none =>
      simp only [Option.map_none]
      constructor
      · rintro ⟨_, h⟩; cases h
      · rintro ⟨_, cells, hc⟩
        rw [(e3 "name".toList (cells.map cleaned)).2 ⟨cells, hc, rfl⟩] at hv
        cases hv
    | some l =>
      obtain ⟨cells, hc, -⟩ := (e3 "name".toList l).1 hv
      rw [Option.map_some, if_neg (by decide)]
      exact ⟨fun _ => ⟨hp, cells, hc⟩, fun _ => ⟨_, rfl⟩⟩
  · constructor
    · rintro ⟨d, h⟩
      unfold loadApplianceSheet at h
      rw [(sheetDict_spec cols).2 hp] at h
      cases h
    · rintro ⟨h, _⟩; exact absurd h hp

/-- **C129 (refusals).** Another object in a named column is a `NotImplementedError`; without names the sheet is refused with a `KeyError`. The same holds for the sheets of the buildings and of the heating systems. -/
theorem C129_refuses (cols : List (Str × List Cell)) :
    (¬ PlainCells cols → loadApplianceSheet cols = .error .notImplementedError ∧ loadNamedSheet cols = .error .notImplementedError) ∧
    (PlainCells cols → (¬ ∃ c ∈ cols, Named c.1 ∧ unspaced c.1 = "name".toList) → loadApplianceSheet cols = .error .keyError ∧ loadNamedSheet cols = .error .keyError) := by
  constructor
  · intro hp
    unfold loadApplianceSheet loadNamedSheet
    rw [(sheetDict_spec cols).2 hp]
    exact ⟨rfl, rfl⟩
  · intro hp hn
    obtain ⟨d, h1, -, h3⟩ := flagsDict_spec cols hp
    obtain ⟨d', e1, -, e3⟩ := (sheetDict_spec cols).1 hp
    rw [h1] at e1
    injection e1 with e1
    subst e1
    rw [lastColumn_exists] at hn
    have hv : lookupA d "name".toList = none := by
      cases hv : lookupA d "name".toList with
      | none => rfl
      | some l =>
        obtain ⟨cells, hc, -⟩ := (e3 _ l).1 hv
        exact absurd ⟨cells, hc⟩ hn
    constructor
    · have hl : loadApplianceSheet cols = withNumber (asFlags "uses_water".toList (asFlags "inactive_switch_off".toList (d.map fun q => (q.1, SheetVal.cells q.2)))) := by
        unfold loadApplianceSheet; rw [h1]; rfl
      rw [hl]
      unfold withNumber
      rw [h3, hv]
      rfl
    · have hl : loadNamedSheet cols = withNumber (d.map fun q => (q.1, SheetVal.cells q.2)) := by
        unfold loadNamedSheet; rw [h1]; rfl
      rw [hl]
      unfold withNumber
      rw [lookup_mapVal, hv]
      rfl

/-- **C129 (content of the appliances).** The keys are distinct. At a key, other than `number`, is the last of the named columns with this label, up to spaces: its cells, where the texts have lost their spaces. In the columns of yes
and no the cells are booleans, false exactly for 0, false and texts of spaces. `number` is the number of the names. -/
theorem C129_appliances_partial (cols : List (Str × List Cell)) (d : List (Str × SheetVal)) (h : loadApplianceSheet cols = .ok d) :
    (d.map (·.1)).Nodup ∧
    (∀ k v, k ≠ "number".toList → ((k, v) ∈ d ↔ ∃ cells, IsLastColumn cols k cells ∧
      ((k ∉ yesNo ∧ v = .cells (cells.map cleaned)) ∨
       (k ∈ yesNo ∧ ∃ flags, v = .flags flags ∧ flags.length = cells.length ∧ ∀ (i : Nat) (c : Cell) (b : Bool), cells[i]? = some c → flags[i]? = some b → (b = false ↔ MeansNo c))))) ∧
    ∀ v, ("number".toList, v) ∈ d ↔ ∃ names, IsLastColumn cols "name".toList names ∧ v = .count names.length := by
  obtain ⟨hp, -⟩ := (C129_accepts cols).1 ⟨d, h⟩
  obtain ⟨d0, h1, h2, h3⟩ := flagsDict_spec cols hp
  obtain ⟨d', e1, -, e3⟩ := (sheetDict_spec cols).1 hp
  rw [h1] at e1
  injection e1 with e1
  subst e1
  have hl : loadApplianceSheet cols = withNumber (asFlags "uses_water".toList (asFlags "inactive_switch_off".toList (d0.map fun q => (q.1, SheetVal.cells q.2)))) := by
    unfold loadApplianceSheet; rw [h1]; rfl
  rw [hl] at h
  generalize asFlags "uses_water".toList (asFlags "inactive_switch_off".toList (d0.map fun q => (q.1, SheetVal.cells q.2))) = D at h h2 h3
  unfold withNumber at h
  rw [h3] at h
  cases hv : lookupA d0 "name".toList with
  | none => rw [hv] at h; cases h
  | some l =>
    rw [hv, Option.map_some, if_neg (by decide)] at h
    dsimp only at h
    injection h with h
    obtain ⟨names, hnames, hln⟩ := (e3 _ l).1 hv
    have hnd : (d.map (·.1)).Nodup := by rw [← h]; exact dictSet_nodup _ _ _ h2
    refine ⟨hnd, ?_, ?_⟩
    · intro k v hk
      rw [← lookupA_mem d hnd, ← h, lookup_dictSet, if_neg hk, h3, Option.map_eq_some_iff]
      constructor
      · rintro ⟨a, ha, hav⟩
        obtain ⟨cells, hc, rfl⟩ := (e3 k a).1 ha
        refine ⟨cells, hc, ?_⟩
        by_cases hy : k ∈ yesNo
        · rw [if_pos hy] at hav
          refine .inr ⟨hy, _, hav.symm, by simp, ?_⟩
          intro i c b hi hb
          rw [List.getElem?_map, List.getElem?_map, hi] at hb
          simp only [Option.map_some, Option.some.injEq] at hb
          rw [← hb]
          apply truth_cleaned
          rintro rfl
          obtain ⟨x, label, y, e, hn, -, -⟩ := hc
          exact hp (label, cells) (by rw [e]; simp) hn (List.mem_iff_getElem?.2 ⟨i, hi⟩)
        · rw [if_neg hy] at hav
          exact .inl ⟨hy, hav.symm⟩
      · rintro ⟨cells, hc, hor⟩
        refine ⟨_, (e3 k _).2 ⟨cells, hc, rfl⟩, ?_⟩
        rcases hor with ⟨hy, rfl⟩ | ⟨hy, flags, rfl, hlen, hfl⟩
        · rw [if_neg hy]
        · rw [if_pos hy]
          congr 1
          apply List.ext_getElem?
          intro i
          by_cases hi : i < cells.length
          · have hi' : i < flags.length := by omega
            rw [List.getElem?_map, List.getElem?_map, List.getElem?_eq_getElem hi, List.getElem?_eq_getElem hi']
            simp only [Option.map_some, Option.some.injEq]
            have hb := hfl i _ _ (List.getElem?_eq_getElem hi) (List.getElem?_eq_getElem hi')
            have hno : cells[i] ≠ .other := by
              intro ho
              obtain ⟨x, label, y, e, hn, -, -⟩ := hc
              exact hp (label, cells) (by rw [e]; simp) hn (by rw [← ho]; exact List.getElem_mem hi)
            have ht := truth_cleaned cells[i] hno
            rw [← hb] at ht
            cases hx : cellTruth (cleaned cells[i]) <;> cases hy' : flags[i] <;> simp_all
          · rw [List.getElem?_eq_none (by simpa using hi), List.getElem?_eq_none (by omega)]
    · intro v
      rw [← lookupA_mem d hnd, ← h, lookup_dictSet, if_pos rfl]
      constructor
      · intro e
        refine ⟨names, hnames, ?_⟩
        rw [← Option.some.inj e, hln, List.length_map]
      · rintro ⟨names', hn', rfl⟩
        rw [lastColumn_unique cols _ names' names hn' hnames, hln, List.length_map]

/-- **C129 (content of the buildings and heating systems).** The same without columns of yes and no. -/
theorem C129_named_sheets_partial (cols : List (Str × List Cell)) :
    ((∃ d, loadNamedSheet cols = .ok d) ↔ PlainCells cols ∧ ∃ c ∈ cols, Named c.1 ∧ unspaced c.1 = "name".toList) ∧
    ∀ d, loadNamedSheet cols = .ok d → (d.map (·.1)).Nodup ∧
      (∀ k v, k ≠ "number".toList → ((k, v) ∈ d ↔ ∃ cells, IsLastColumn cols k cells ∧ v = .cells (cells.map cleaned))) ∧
      ∀ v, ("number".toList, v) ∈ d ↔ ∃ names, IsLastColumn cols "name".toList names ∧ v = .count names.length := by
  by_cases hp : PlainCells cols
  · obtain ⟨d0, e1, e2, e3⟩ := (sheetDict_spec cols).1 hp
    have hl : loadNamedSheet cols = withNumber (d0.map fun q => (q.1, SheetVal.cells q.2)) := by
      unfold loadNamedSheet; rw [e1]; rfl
    have hn : ((d0.map fun q => (q.1, SheetVal.cells q.2)).map (·.1)).Nodup := by
      rw [List.map_map]; exact e2
    rw [hl]
    unfold withNumber
    rw [lookup_mapVal, lastColumn_exists]
    cases hv : lookupA d0 "name".toList with
    | none =>
      simp only [Option.map_none]
      refine ⟨⟨fun ⟨_, h⟩ => (by cases h), ?_⟩, fun d h => (by cases h)⟩
      rintro ⟨_, cells, hc⟩
      rw [(e3 "name".toList (cells.map cleaned)).2 ⟨cells, hc, rfl⟩] at hv
      cases hv
    | some l =>
      obtain ⟨names, hnames, hln⟩ := (e3 _ l).1 hv
      rw [Option.map_some]
      refine ⟨⟨fun _ => ⟨hp, names, hnames⟩, fun _ => ⟨_, rfl⟩⟩, ?_⟩
      intro d h
      dsimp only at h
      injection h with h
      have hnd : (d.map (·.1)).Nodup := by rw [← h]; exact dictSet_nodup _ _ _ hn
      refine ⟨hnd, ?_, ?_⟩
      · intro k v hk
        rw [← lookupA_mem d hnd, ← h, lookup_dictSet, if_neg hk, lookup_mapVal, Option.map_eq_some_iff]
        constructor
        · rintro ⟨a, ha, hav⟩
          obtain ⟨cells, hc, rfl⟩ := (e3 k a).1 ha
          exact ⟨cells, hc, hav.symm⟩
        · rintro ⟨cells, hc, rfl⟩
          exact ⟨_, (e3 k _).2 ⟨cells, hc, rfl⟩, rfl⟩
      · intro v
        rw [← lookupA_mem d hnd, ← h, lookup_dictSet, if_pos rfl]
        constructor
        · intro e
          refine ⟨names, hnames, ?_⟩
          rw [← Option.some.inj e, hln, List.length_map]
        · rintro ⟨names', hn', rfl⟩
          rw [lastColumn_unique cols _ names' names hn' hnames, hln, List.length_map]
  · have hl : loadNamedSheet cols = .error .notImplementedError := by
      unfold loadNamedSheet
      rw [(sheetDict_spec cols).2 hp]
      rfl
    rw [hl]
    exact ⟨⟨fun ⟨_, h⟩ => (by cases h), fun ⟨h, _⟩ => absurd h hp⟩, fun d h => (by cases h)⟩

/-- A sheet of two appliances. -/
def demoSheet : List (Str × List Cell) :=
  [("Unnamed: 0".toList, [.other, .empty]), (" name".toList, [.text "my fridge".toList, .text "tv".toList]), ("type".toList, [.text "fridge ".toList, .text "tv".toList]),
   ("uses_water".toList, [.num 0, .empty]), ("target_cycle_year".toList, [.num 10, .num 20])]

example : loadApplianceSheet demoSheet = .ok [("name".toList, .cells [.text "myfridge".toList, .text "tv".toList]), ("type".toList, .cells [.text "fridge".toList, .text "tv".toList]),
    ("uses_water".toList, .flags [false, true]), ("target_cycle_year".toList, .cells [.num 10, .num 20]), ("number".toList, .count 2)] := by
  decide +kernel

/-- The full property: every named column is in the dictionary, with its cells. -/
def C129_full : Prop := ∀ (cols : List (Str × List Cell)) (d : List (Str × SheetVal)), loadApplianceSheet cols = .ok d →
  ∀ c ∈ cols, Named c.1 → unspaced c.1 ∉ yesNo → unspaced c.1 ≠ "number".toList → (unspaced c.1, SheetVal.cells (c.2.map cleaned)) ∈ d

/-- **C129 (distinct labels).** If no two named columns have the same label up to spaces, none of them is lost. -/
theorem C129_all_columns_partial (cols : List (Str × List Cell)) (d : List (Str × SheetVal)) (h : loadApplianceSheet cols = .ok d)
    (hd : ∀ (i j : Nat) (a b : Str × List Cell), cols[i]? = some a → cols[j]? = some b → Named a.1 → Named b.1 → unspaced a.1 = unspaced b.1 → i = j) :
    ∀ c ∈ cols, Named c.1 → unspaced c.1 ∉ yesNo → unspaced c.1 ≠ "number".toList → (unspaced c.1, SheetVal.cells (c.2.map cleaned)) ∈ d := by
  intro c hc hn hy hk
  obtain ⟨-, h2, -⟩ := C129_appliances_partial cols d h
  refine (h2 _ _ hk).2 ⟨c.2, ?_, .inl ⟨hy, rfl⟩⟩
  obtain ⟨a, b, e⟩ := List.append_of_mem hc
  refine ⟨a, c.1, b, e, hn, rfl, ?_⟩
  intro x hx hxn hxe
  obtain ⟨j, hj⟩ := List.mem_iff_getElem?.1 hx
  have := hd a.length (a.length + 1 + j) c x (by rw [e]; simp) (by rw [e, List.getElem?_append_right (by omega), show a.length + 1 + j - a.length = j + 1 by omega, List.getElem?_cons_succ]; exact hj) hn hxn hxe.symm
  omega

/-- **C129, what fails.** Of two columns whose labels only differ by spaces, the first one is lost. -/
theorem C129_counterexample : ¬ C129_full := by
  intro h
  have := h [("name".toList, [.text "a".toList]), ("name ".toList, [.text "b".toList])] [("name".toList, .cells [.text "b".toList]), ("number".toList, .count 1)] (by decide +kernel)
    ("name".toList, [.text "a".toList]) (by simp) (by rintro ⟨r, hr⟩; simp at hr) (by decide) (by decide)
  revert this
  decide +kernel

/-- **C129, what fails.** An empty cell of a column of yes and no is read as yes. -/
theorem C129_empty_is_yes_counterexample :
    loadApplianceSheet [("name".toList, [.text "tv".toList]), ("uses_water".toList, [.empty])] =
      .ok [("name".toList, .cells [.text "tv".toList]), ("uses_water".toList, .flags [true]), ("number".toList, .count 1)] := by
  decide +kernel

/-! ## C130: the targets of the file -/

theorem last_lookup {κ α : Type} [DecidableEq κ] (ks : List κ) (vs : List α) (k : κ) (v : α) :
    lookupA (ks.zip vs).reverse k = some v ↔ ∃ i, ks[i]? = some k ∧ vs[i]? = some v ∧ ∀ j, i < j → j < vs.length → ks[j]? ≠ some k := by
  induction ks generalizing vs with
  | nil =>
    simp only [List.zip_nil_left, List.reverse_nil, lookupA_nil]
    constructor
    · intro h; cases h
    · rintro ⟨i, h, _⟩; simp at h
  | cons a ks ih =>
    cases vs with
    | nil =>
      simp only [List.zip_nil_right, List.reverse_nil, lookupA_nil]
      constructor
      · intro h; cases h
      · rintro ⟨i, _, h, _⟩; simp at h
    | cons b vs =>
      rw [List.zip_cons_cons, List.reverse_cons, lookup_append_one]
      constructor
      · intro h
        cases hl : lookupA (ks.zip vs).reverse k with
        | some v' =>
          rw [hl] at h
          obtain ⟨i, h1, h2, h3⟩ := (ih vs).1 (hl.trans h)
          refine ⟨i + 1, h1, h2, ?_⟩
          intro j hj hjl
          obtain ⟨j', rfl⟩ : ∃ j', j = j' + 1 := ⟨j - 1, by omega⟩
          exact h3 j' (by omega) (by simpa using hjl)
        | none =>
          rw [hl, Option.none_or] at h
          by_cases ha : a = k
          · rw [if_pos ha] at h
            refine ⟨0, by rw [ha]; rfl, h, ?_⟩
            intro j hj hjl hjk
            obtain ⟨j', rfl⟩ : ∃ j', j = j' + 1 := ⟨j - 1, by omega⟩
            have hjl' : j' < vs.length := by simpa using hjl
            rw [lookupA_none] at hl
            apply hl
            rw [List.map_reverse, List.mem_reverse, List.mem_map]
            exact ⟨(k, vs[j']), List.mem_iff_getElem?.2 ⟨j', by rw [List.getElem?_zip_eq_some]; exact ⟨hjk, List.getElem?_eq_getElem hjl'⟩⟩, rfl⟩
          · rw [if_neg ha] at h; cases h
      · rintro ⟨i, h1, h2, h3⟩
        cases i with
        | succ i =>
          rw [(ih vs).2 ⟨i, h1, h2, fun j hj hjl => h3 (j + 1) (by omega) (by simpa using hjl)⟩]
          rfl
        | zero =>
          have hn : lookupA (ks.zip vs).reverse k = none := by
            rw [lookupA_none, List.map_reverse, List.mem_reverse, List.mem_map]
            rintro ⟨q, hq, hqk⟩
            obtain ⟨j, hj⟩ := List.mem_iff_getElem?.1 hq
            rw [List.getElem?_zip_eq_some] at hj
            have := (List.getElem?_eq_some_iff.1 hj.2).1
            exact h3 (j + 1) (by omega) (by simpa using this) (by rw [← hqk]; exact hj.1)
          rw [hn, Option.none_or]
          have : a = k := by simpa using h1
          rw [if_pos this]
          simpa using h2

/-- **C130 (content).** The targets of a sheet with the columns `type` and `target_cycle_year`: each type has the target of its last row. -/
theorem C130_targets (cols : List (Str × List Cell)) (hp : PlainCells cols) (hname : ∃ c ∈ cols, Named c.1 ∧ unspaced c.1 = "name".toList) (types targets : List Cell)
    (ht : IsLastColumn cols "type".toList types) (hv : IsLastColumn cols "target_cycle_year".toList targets) :
    ∃ d, loadYearlyTargets cols = .ok d ∧ (d.map (·.1)).Nodup ∧
      ∀ T x, (T, x) ∈ d ↔ ∃ i, (types.map cleaned)[i]? = some T ∧ (targets.map cleaned)[i]? = some x ∧ ∀ j, i < j → j < targets.length → (types.map cleaned)[j]? ≠ some T := by
  obtain ⟨A, hA⟩ := (C129_accepts cols).2 ⟨hp, hname⟩
  obtain ⟨a1, a2, -⟩ := C129_appliances_partial cols A hA
  have ht' := (lookupA_mem A a1 _ _).2 ((a2 "type".toList (.cells (types.map cleaned)) (by decide)).2 ⟨types, ht, .inl ⟨by decide, rfl⟩⟩)
  have hv' := (lookupA_mem A a1 _ _).2 ((a2 "target_cycle_year".toList (.cells (targets.map cleaned)) (by decide)).2 ⟨targets, hv, .inl ⟨by decide, rfl⟩⟩)
  obtain ⟨c1, c2⟩ := cellDict_spec ((types.map cleaned).zip (targets.map cleaned))
  refine ⟨cellDict ((types.map cleaned).zip (targets.map cleaned)), ?_, c1, ?_⟩
  · unfold loadYearlyTargets columnOf
    simp only [bind, Except.bind, hA, ht', hv']
  · intro T x
    rw [← lookupA_mem _ c1, c2, last_lookup]
    simp only [List.length_map]

/-- **C130 (refusals).** Without types or without targets: `KeyError`. -/
theorem C130_refuses (cols : List (Str × List Cell)) (hp : PlainCells cols)
    (h : (∀ c, ¬ IsLastColumn cols "type".toList c) ∨ ∀ c, ¬ IsLastColumn cols "target_cycle_year".toList c) : loadYearlyTargets cols = .error .keyError := by
  by_cases hname : ∃ c ∈ cols, Named c.1 ∧ unspaced c.1 = "name".toList
  · obtain ⟨A, hA⟩ := (C129_accepts cols).2 ⟨hp, hname⟩
    obtain ⟨a1, a2, -⟩ := C129_appliances_partial cols A hA
    have hnone : ∀ k, k ≠ "number".toList → (∀ c, ¬ IsLastColumn cols k c) → lookupA A k = none := by
      intro k hk hno
      cases hl : lookupA A k with
      | none => rfl
      | some v =>
        obtain ⟨c, hc, -⟩ := (a2 k v hk).1 ((lookupA_mem A a1 _ _).1 hl)
        exact absurd hc (hno c)
    have hplain : ∀ k, k ≠ "number".toList → k ∉ yesNo → columnOf A k = .error .keyError ∨ ∃ l, columnOf A k = .ok l := by
      intro k hk hy
      unfold columnOf
      cases hl : lookupA A k with
      | none => exact .inl rfl
      | some v =>
        obtain ⟨c, -, h'⟩ := (a2 k v hk).1 ((lookupA_mem A a1 _ _).1 hl)
        rcases h' with ⟨-, rfl⟩ | ⟨hy', -⟩
        · exact .inr ⟨_, rfl⟩
        · exact absurd hy' hy
    unfold loadYearlyTargets
    simp only [bind, Except.bind, hA]
    rcases h with h | h
    · have : columnOf A "type".toList = .error .keyError := by
        unfold columnOf; rw [hnone _ (by decide) h]
      rw [this]
    · have : columnOf A "target_cycle_year".toList = .error .keyError := by
        unfold columnOf; rw [hnone _ (by decide) h]
      rcases hplain "type".toList (by decide) (by decide) with e | ⟨l, e⟩
      · rw [e]
      · rw [e, this]
  · unfold loadYearlyTargets
    rw [((C129_refuses cols).2 hp hname).1]
    rfl

theorem cellDict_text (types : List Str) (values : List Rat) :
    cellDict ((types.map Cell.text).zip (values.map Cell.num)) = (dictOf (types.zip values)).map fun q => (Cell.text q.1, Cell.num q.2) := by
  have hz : (types.map Cell.text).zip (values.map Cell.num) = (types.zip values).map fun q => (Cell.text q.1, Cell.num q.2) := by
    rw [List.zip_map]; rfl
  rw [hz]
  suffices ∀ (items : List (Str × Rat)) (d : List (Str × Rat)),
      (items.map fun q => (Cell.text q.1, Cell.num q.2)).foldl gset (d.map fun q => (Cell.text q.1, Cell.num q.2)) =
        (items.foldl gset d).map fun q => (Cell.text q.1, Cell.num q.2) from this _ []
  intro items
  induction items with
  | nil => intro d; rfl
  | cons q items ih =>
    intro d
    rw [List.map_cons, List.foldl_cons, List.foldl_cons, ← ih]
    congr 1
    have hlook : ∀ d : List (Str × Rat), lookupA (d.map fun q => (Cell.text q.1, Cell.num q.2)) (Cell.text q.1) = (lookupA d q.1).map Cell.num := by
      intro d
      induction d with
      | nil => rfl
      | cons r d ih' =>
        rw [List.map_cons, lookupA_cons, lookupA_cons, ih']
        by_cases h : r.1 = q.1 <;> simp [h]
    unfold gset
    dsimp only
    rw [hlook, Option.isSome_map]
    by_cases h : (lookupA d q.1).isSome
    · rw [if_pos h, if_pos h, List.map_map, List.map_map]
      apply List.map_congr_left
      intro r _
      simp only [Function.comp, Cell.text.injEq]
      by_cases hr : r.1 = q.1 <;> simp [hr]
    · rw [if_neg h, if_neg h, List.map_append]
      rfl

/-- **C130 (what the simulators get).** For a sheet whose rows have the types `types` and the numbers `values` as targets, the simulators that read these targets find, for the first appliance of a type, the target in the last row of this
type, and 0 for the others of the same type. -/
theorem C130_simulated_partial (cols : List (Str × List Cell)) (hp : PlainCells cols) (hname : ∃ c ∈ cols, Named c.1 ∧ unspaced c.1 = "name".toList)
    (types : List Str) (values default : List Rat) (hl : values.length = types.length) (hd : default.length = types.length) (hN : NoCopyNames types) (hne : ∀ t ∈ types, t ≠ [])
    (tcells vcells : List Cell) (htc : IsLastColumn cols "type".toList tcells) (hvc : IsLastColumn cols "target_cycle_year".toList vcells)
    (ht : tcells.map cleaned = types.map .text) (hv : vcells = values.map .num) :
    ∃ (targets : List (Str × Rat)) (out : List Rat), loadYearlyTargets cols = .ok (targets.map fun q => (Cell.text q.1, Cell.num q.2)) ∧ getOwnership types targets default = .ok out ∧ out.length = types.length ∧
      ∀ (i : Nat) (t : Str), types[i]? = some t →
        ((∀ j < i, types[j]? ≠ some t) → ∀ (m : Nat) (x : Rat), types[m]? = some t → values[m]? = some x → (∀ j > m, types[j]? ≠ some t) → out[i]? = some x) ∧
        ((∃ j < i, types[j]? = some t) → out[i]? = some 0) := by
  obtain ⟨A, hA⟩ := (C129_accepts cols).2 ⟨hp, hname⟩
  obtain ⟨a1, a2, -⟩ := C129_appliances_partial cols A hA
  have ht' := (lookupA_mem A a1 _ _).2 ((a2 "type".toList (.cells (tcells.map cleaned)) (by decide)).2 ⟨tcells, htc, .inl ⟨by decide, rfl⟩⟩)
  have hv' := (lookupA_mem A a1 _ _).2 ((a2 "target_cycle_year".toList (.cells (vcells.map cleaned)) (by decide)).2 ⟨vcells, hvc, .inl ⟨by decide, rfl⟩⟩)
  have hvcl : vcells.map cleaned = values.map .num := by
    rw [hv, List.map_map]; rfl
  obtain ⟨out, o1, o2, o3⟩ := C31_ownership types (dictOf (types.zip values)) default hd
  refine ⟨dictOf (types.zip values), out, ?_, o1, o2, ?_⟩
  · unfold loadYearlyTargets columnOf
    simp only [bind, Except.bind, hA, ht', hv']
    rw [ht, hvcl, cellDict_text]
  · obtain ⟨-, c2⟩ := dictOf_spec (types.zip values)
    have hkeys : ∀ t, t ∈ (dictOf (types.zip values)).map (·.1) ↔ t ∈ types := by
      intro t
      rw [← not_iff_not, ← lookupA_none, c2, lookupA_none, List.map_reverse, List.mem_reverse, List.map_fst_zip (by omega)]
    have hclosest : ∀ t ∈ types, findClosestType t ((dictOf (types.zip values)).map (·.1)) = some t := fun t ht => closest_self t _ ((hkeys t).2 ht) (hne t ht)
    intro i t hit
    have hi : i < types.length := (List.getElem?_eq_some_iff.1 hit).1
    have hti : types[i] = t := (List.getElem?_eq_some_iff.1 hit).2
    have htm : t ∈ types := List.mem_iff_getElem?.2 ⟨i, hit⟩
    have hout := (o3 i hi).2 types[i] (hclosest _ (List.getElem_mem hi))
    have hcn : copyNumber (types.map fun t => findClosestType t ((dictOf (types.zip values)).map (·.1))) i types[i] = (types.take (i + 1)).count t := by
      unfold copyNumber
      have e : (types.map fun t => findClosestType t ((dictOf (types.zip values)).map (·.1))) = types.map some := List.map_congr_left hclosest
      rw [e, ← List.map_take, List.countP_map, hti]
      unfold List.count
      apply List.countP_congr
      intro x _
      simp
    rw [hcn, lookup_eq, hti, List.take_add_one, hit, List.count_append] at hout
    have h1 : ((some t).toList.count t) = 1 := by simp
    rw [h1] at hout
    constructor
    · intro hfirst m x hm hx hlast
      have h0 : (types.take i).count t = 0 := by
        rw [List.count_eq_zero]
        intro hc
        obtain ⟨j, hj⟩ := List.mem_iff_getElem?.1 hc
        rw [List.getElem?_take] at hj
        split at hj
        · rename_i hjl; exact hfirst j hjl hj
        · cases hj
      rw [h0] at hout
      rw [hout, show copyKey t (0 + 1) = t from rfl, c2, (last_lookup types values t x).2 ⟨m, hm, hx, fun j hj _ => hlast j hj⟩]
      rfl
    · rintro ⟨j, hj, hjt⟩
      have h0 : 1 ≤ (types.take i).count t := by
        apply List.count_pos_iff.2
        exact List.mem_iff_getElem?.2 ⟨j, by rw [List.getElem?_take, if_pos hj, hjt]⟩
      rw [hout]
      have hno : lookupA (dictOf (types.zip values)) (copyKey t ((types.take i).count t + 1)) = none := by
        rw [lookupA_none, hkeys]
        intro hc
        exact hN _ hc t htm _ (by omega) rfl
      rw [hno]
      rfl

/-- **C130 (distinct types).** If the types are distinct, each appliance gets the target in its own row. -/
theorem C130_own_row_partial (cols : List (Str × List Cell)) (hp : PlainCells cols) (hname : ∃ c ∈ cols, Named c.1 ∧ unspaced c.1 = "name".toList)
    (types : List Str) (values default : List Rat) (hl : values.length = types.length) (hd : default.length = types.length) (hN : NoCopyNames types) (hne : ∀ t ∈ types, t ≠ []) (hdist : types.Nodup)
    (tcells vcells : List Cell) (htc : IsLastColumn cols "type".toList tcells) (hvc : IsLastColumn cols "target_cycle_year".toList vcells)
    (ht : tcells.map cleaned = types.map .text) (hv : vcells = values.map .num) :
    ∃ (targets : List (Str × Rat)), loadYearlyTargets cols = .ok (targets.map fun q => (Cell.text q.1, Cell.num q.2)) ∧ getOwnership types targets default = .ok values := by
  obtain ⟨targets, out, h1, h2, h3, h4⟩ := C130_simulated_partial cols hp hname types values default hl hd hN hne tcells vcells htc hvc ht hv
  refine ⟨targets, h1, ?_⟩
  rw [h2]
  congr 1
  have huniq : ∀ (i j : Nat) (t : Str), types[i]? = some t → types[j]? = some t → i = j := by
    intro i j t hi hj
    have := (List.getElem?_eq_some_iff.1 hi).1
    exact (List.getElem?_inj this hdist).1 (hi.trans hj.symm)
  apply List.ext_getElem?
  intro i
  by_cases hi : i < types.length
  · have hv' : i < values.length := by omega
    have hti := List.getElem?_eq_getElem hi
    rw [List.getElem?_eq_getElem hv']
    refine (h4 i _ hti).1 ?_ i _ hti (List.getElem?_eq_getElem hv') ?_
    · intro j hj hc; have := huniq _ _ _ hc hti; omega
    · intro j hj hc; have := huniq _ _ _ hc hti; omega
  · rw [List.getElem?_eq_none (by omega), List.getElem?_eq_none (by omega)]

/-- The hypotheses hold for the sheet of two appliances. -/
example : PlainCells demoSheet ∧ (∃ c ∈ demoSheet, Named c.1 ∧ unspaced c.1 = "name".toList) ∧ NoCopyNames ["fridge".toList, "tv".toList] ∧
    IsLastColumn demoSheet "type".toList [.text "fridge ".toList, .text "tv".toList] ∧ IsLastColumn demoSheet "target_cycle_year".toList [.num 10, .num 20] ∧
    ([Cell.text "fridge ".toList, .text "tv".toList].map cleaned = ["fridge".toList, "tv".toList].map .text) := by
  have hnamed : ∀ s : Str, s.head? ≠ some 'U' → Named s := by
    rintro s hs ⟨r, rfl⟩
    exact hs rfl
  refine ⟨?_, ⟨_, List.mem_cons_of_mem _ (List.mem_cons_self ..), hnamed _ (by decide), by decide⟩, ?_, ?_, ?_, by decide⟩
  · intro c hc hn
    simp only [demoSheet, List.mem_cons, List.not_mem_nil, or_false] at hc
    rcases hc with rfl | rfl | rfl | rfl | rfl
    · exact absurd ⟨" 0".toList, by decide⟩ hn
    all_goals decide
  · intro a ha b hb k hk e
    have hu : '_' ∈ a := by rw [e]; unfold copyKey; rw [if_neg (by omega)]; simp
    simp only [List.mem_cons, List.not_mem_nil, or_false] at ha
    rcases ha with rfl | rfl <;> revert hu <;> decide
  · refine ⟨demoSheet.take 2, "type".toList, demoSheet.drop 3, rfl, hnamed _ (by decide), by decide, ?_⟩
    intro c hc _
    simp only [demoSheet, List.drop_succ_cons, List.drop_zero, List.mem_cons, List.not_mem_nil, or_false] at hc
    rcases hc with rfl | rfl <;> decide
  · refine ⟨demoSheet.take 4, "target_cycle_year".toList, [], rfl, hnamed _ (by decide), by decide, ?_⟩
    intro c hc; cases hc

example : loadYearlyTargets demoSheet = .ok [(.text "fridge".toList, .num 10), (.text "tv".toList, .num 20)] := by decide +kernel

/-- The full property: each appliance gets the target in its own row, also if several have the same type. -/
def C130_full : Prop := ∀ (cols : List (Str × List Cell)) (types : List Str) (values default : List Rat), PlainCells cols → (∃ c ∈ cols, Named c.1 ∧ unspaced c.1 = "name".toList) →
  values.length = types.length → default.length = types.length → IsLastColumn cols "type".toList (types.map .text) → IsLastColumn cols "target_cycle_year".toList (values.map .num) →
  (∀ t ∈ types, ' ' ∉ t) →
  ∃ (targets : List (Str × Rat)), loadYearlyTargets cols = .ok (targets.map fun q => (Cell.text q.1, Cell.num q.2)) ∧ getOwnership types targets default = .ok values

/-- A sheet with two appliances of one type, like the refrigerators, freezers, computers and televisions of the file that comes with the package. -/
def twoFridges : List (Str × List Cell) :=
  [("name".toList, [.text "big".toList, .text "small".toList]), ("type".toList, ["fridge".toList, "fridge".toList].map .text), ("target_cycle_year".toList, [10, 20].map .num)]

theorem twoFridges_ok : loadYearlyTargets twoFridges = .ok [(.text "fridge".toList, .num 20)] ∧
    getOwnership ["fridge".toList, "fridge".toList] [("fridge".toList, 20)] [1, 1] = .ok [20, 0] := by
  constructor <;> decide +kernel

/-- **C130, what fails.** Of two appliances of one type the first has the target of the second, and the second is never switched on: its target is 0. -/
theorem C130_counterexample : ¬ C130_full := by
  intro h
  have hnamed : ∀ s : Str, s.head? ≠ some 'U' → Named s := by
    rintro s hs ⟨r, rfl⟩
    exact hs rfl
  obtain ⟨targets, h1, h2⟩ := h twoFridges ["fridge".toList, "fridge".toList] [10, 20] [1, 1] (by
      intro c hc _
      simp only [twoFridges, List.mem_cons, List.not_mem_nil, or_false] at hc
      rcases hc with rfl | rfl | rfl <;> decide)
    ⟨_, List.mem_cons_self .., hnamed _ (by decide), by decide⟩ rfl rfl
    ⟨[("name".toList, [.text "big".toList, .text "small".toList])], "type".toList, [("target_cycle_year".toList, [10, 20].map .num)], rfl, hnamed _ (by decide), by decide, by
      intro c hc _
      rw [List.mem_singleton] at hc
      subst hc
      decide⟩
    ⟨[("name".toList, [.text "big".toList, .text "small".toList]), ("type".toList, ["fridge".toList, "fridge".toList].map .text)], "target_cycle_year".toList, [], rfl, hnamed _ (by decide), by decide, by
      intro c hc; cases hc⟩
    (by intro t ht; simp only [List.mem_cons, List.not_mem_nil, or_false, or_self] at ht; subst ht; decide)
  rw [twoFridges_ok.1] at h1
  injection h1 with h1
  have ht : targets = [("fridge".toList, 20)] := by
    cases targets with
    | nil => cases h1
    | cons q rest =>
      cases rest with
      | nil =>
        simp only [List.map_cons, List.map_nil, List.cons.injEq, Prod.mk.injEq, Cell.text.injEq, Cell.num.injEq, and_true] at h1
        obtain ⟨a, b⟩ := q
        simp only at h1
        rw [← h1.1, ← h1.2]
      | cons r rest => simp at h1
  subst ht
  rw [twoFridges_ok.2] at h2
  injection h2 with h2
  simp at h2

end Demod
