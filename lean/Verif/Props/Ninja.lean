import Verif.Lemmas.Ninja
import Verif.Props.Climate

/-!
# C120, C121: the downloaded climate data
-/

namespace Demod

/-! ## Concrete files -/

/-- A row of a csv file. -/
def rowAt (k : Nat) (temperature : Rat) : NinjaRow where
  time := k * HOUR
  precipitation := 0
  snowfall := 0
  snowMass := 0
  cloudCover := 1
  airDensity := 1
  temperature := temperature
  irradianceSurface := 100
  irradianceToa := 400

/-- The file of Germany weighted by population, the one weighted by area, and a later version of the first one. -/
def popRows : List NinjaRow := [rowAt 0 5, rowAt 1 6, rowAt 2 7]
def areaRows : List NinjaRow := [rowAt 0 1, rowAt 1 2, rowAt 2 3]
def newRows : List NinjaRow := [rowAt 0 5, rowAt 1 6, rowAt 2 8, rowAt 3 9]

def deName : Str := "germany".toList
def deCode : Str := "DE".toList
def byPop : Str := "population".toList
def byArea : Str := "land_area".toList

/-! ## C120 -/

/-- The full statement of C120: whatever was done before with the dataset, a loader returns the data of the last download of its country and weighting. -/
def C120_full : Prop :=
  ∀ (hist : List NinjaEvent) (country code w : Str) (rows : List NinjaRow), HasCode country code → LastDownload hist code w rows → ∀ start : Int,
    Gives rows start (ninjaLoad (ninjaAfter hist) country w start)

/-- **C120, partial.** Whatever loaders of whatever countries were created and used before, with whatever replies of the server: when no process was interrupted and this country was used with one name and one weighting, loading returns the data
of the last download, parsed row by row and cut at the start. Before any download it raises `FileNotFoundError`. Missing: other weightings (`C120_weighting_counterexample`), other names (`C120_name_counterexample`) and interruptions
(`C120_interrupted_download_counterexample`, `C120_interrupted_update_counterexample`, `C120_interrupted_load_counterexample`). -/
theorem C120_latest_partial {hist : List NinjaEvent} {country code w : Str} (hc : HasCode country code) (hu : ∀ e ∈ hist, Uninterrupted e)
    (hone : ∀ e ∈ hist, ∀ c w', UsesLoader e c w' → HasCode c code → c = country ∧ w' = w) :
    (∀ rows, LastDownload hist code w rows → ∀ start : Int, Gives rows start (ninjaLoad (ninjaAfter hist) country w start)) ∧
    ((∀ e ∈ hist, ¬ Fetches code w e) → ∀ start : Int, ninjaLoad (ninjaAfter hist) country w start = .error .fileNotFoundError) := by
  obtain ⟨h1, h2⟩ := ninja_inv hc hist hu hone
  refine ⟨fun rows hr start => ?_, fun hf start => ?_⟩
  · obtain ⟨h3, h4⟩ := h1 rows hr
    unfold ninjaLoad
    rw [ninjaTable_of hc h3 h4]
    exact gives_parse rows start
  · obtain ⟨h3, h4⟩ := h2 hf
    unfold ninjaLoad ninjaTable
    rw [h4, ninjaCode_iff.2 hc]
    simp only [h3]

/-- A history of two countries with an update. -/
def demoHist : List NinjaEvent :=
  [.create deName false byPop (some popRows) none, .load deName byPop none, .create "switzerland".toList false byArea (some areaRows) none, .create deName false byPop none none,
   .create deName true byPop (some newRows) none, .load "switzerland".toList byArea none, .load deName byPop none]

example : HasCode deName deCode ∧ (∀ e ∈ demoHist, Uninterrupted e) ∧ LastDownload demoHist deCode byPop newRows ∧
    (ninjaLoad (ninjaAfter demoHist) deName byPop (2 * HOUR)).map (·.map fun x => (x.1, x.2.outsideTemperature)) = .ok [(2 * HOUR, 8), (3 * HOUR, 9)] := by
  refine ⟨.germany, ?_, ⟨[.create deName false byPop (some popRows) none, .load deName byPop none, .create "switzerland".toList false byArea (some areaRows) none,
    .create deName false byPop none none], deName, true, [.load "switzerland".toList byArea none, .load deName byPop none], rfl, .germany, by simp, ?_⟩, by decide +kernel⟩
  · intro e he
    simp only [demoHist, List.mem_cons, List.not_mem_nil, or_false] at he
    rcases he with rfl | rfl | rfl | rfl | rfl | rfl | rfl
    all_goals first | exact .inl ⟨_, _, _, _, rfl⟩ | exact .inr ⟨_, _, rfl⟩
  · rintro e he ⟨c, r, s, rfl, -⟩
    simp at he

example : ∀ e ∈ demoHist, ∀ c w', UsesLoader e c w' → HasCode c deCode → c = deName ∧ w' = byPop := by
  have hs : ¬ HasCode "switzerland".toList deCode := by rw [← ninjaCode_iff]; decide
  intro e he c w' hl hc
  simp only [demoHist, List.mem_cons, List.not_mem_nil, or_false] at he
  rcases he with rfl | rfl | rfl | rfl | rfl | rfl | rfl <;> rcases hl with ⟨_, _, _, h⟩ | ⟨_, h⟩ <;> first | (simp only [reduceCtorEq] at h; done) | skip
  all_goals injection h with h1 h2 h3
  all_goals subst h1
  all_goals first | exact absurd hc hs | skip
  all_goals first | exact ⟨rfl, h3.symm⟩ | exact ⟨rfl, h2.symm⟩

/-- **C120 (repair).** After any history, with any interruptions, a loader that is created with `update_raw_data=True` and gets a reply returns the data of this reply: at once, and after loads and after loaders of other names and countries were
created, as long as it loaded the data once. -/
theorem C120_update_repairs (hist : List NinjaEvent) {country code : Str} (hc : HasCode country code) (w : Str) (rows : List NinjaRow) :
    (∀ start : Int, Gives rows start (ninjaLoad (ninjaAfter (hist ++ [.create country true w (some rows) none])) country w start)) ∧
    ∀ later : List NinjaEvent, (∀ e ∈ later, ∀ u w' r stop, e ≠ .create country u w' r stop) → ∀ (w' : Str) (start : Int),
      Gives rows start (ninjaLoad (ninjaAfter (hist ++ [.create country true w (some rows) none, .load country w none] ++ later)) country w' start) := by
  have h1 : (ninjaTable (ninjaAfter (hist ++ [.create country true w (some rows) none])) country w).2 = .ok (ninjaParse rows) := by
    rw [ninjaAfter_snoc, create_apply _ hc, if_neg (by simp)]
    obtain ⟨h1, h2⟩ := download_all (ninjaAfter hist) code country w rows
    exact ninjaTable_of hc (by simp only; rw [h1]; simp) (.inl (by simp only; rw [h2]; simp))
  have h0 : (ninjaAfter (hist ++ [.create country true w (some rows) none])).parsed country = none := by
    rw [ninjaAfter_snoc, create_apply _ hc, if_neg (by simp)]
    obtain ⟨-, h2⟩ := download_all (ninjaAfter hist) code country w rows
    simp only
    rw [h2]
    simp
  refine ⟨fun start => ?_, fun later hl w' start => ?_⟩
  · unfold ninjaLoad
    rw [h1]
    exact gives_parse rows start
  · have e : ninjaAfter (hist ++ [.create country true w (some rows) none, .load country w none] ++ later) =
        later.foldl NinjaEvent.apply (NinjaEvent.apply (ninjaAfter (hist ++ [.create country true w (some rows) none])) (.load country w none)) := by
      unfold ninjaAfter
      simp [List.foldl_append]
    obtain ⟨-, -, h3⟩ := load_apply (ninjaAfter (hist ++ [.create country true w (some rows) none])) country w
    rw [h0, h1] at h3
    have h4 := parsed_stays later _ h3 fun e he w hw => by
      rcases hw with ⟨u, r, s, rfl⟩ | ⟨s, rfl⟩
      · exact absurd rfl (hl _ he _ _ _ _)
      · exact ⟨s, rfl⟩
    unfold ninjaLoad ninjaTable
    rw [e, h4]
    exact gives_parse rows start

example : Gives newRows (3 * HOUR) (.ok [(3 * HOUR, ninjaPoint (rowAt 3 9))]) :=
  .inr (.inr ⟨rowAt 3 9, _, rfl, by decide, rfl, by
    have : (newRows.filter fun r => 3 * HOUR < r.time + HOUR) = [rowAt 3 9] := by decide +kernel
    rw [this]
    exact .cons ⟨rfl, rfl, rfl, rfl, rfl, rfl, rfl, by decide +kernel⟩ .nil⟩)

/-- **C120 (errors).** A country that has no code raises `NotImplementedError`; without a reply, the creation of a loader raises an error, unless the file is on the disk and no update is asked. In all these cases, the disk is not changed. -/
theorem C120_errors (hist : List NinjaEvent) (country : Str) (update : Bool) (w : Str) (stop : Option Nat) :
    ((∀ code, ¬ HasCode country code) → ∀ reply, ninjaCreate (ninjaAfter hist) country update w reply = .error .notImplementedError ∧
      ninjaAfter (hist ++ [.create country update w reply stop]) = ninjaAfter hist) ∧
    (∀ code, HasCode country code → ((ninjaAfter hist).raw code w = none ∨ update = true → ninjaCreate (ninjaAfter hist) country update w none = .error .exception) ∧
      ((ninjaAfter hist).raw code w ≠ none → update = false → ∀ reply, ninjaCreate (ninjaAfter hist) country update w reply = .ok [])) ∧
    ninjaAfter (hist ++ [.create country update w none stop]) = ninjaAfter hist := by
  have hn : ∀ code, HasCode country code → ((ninjaAfter hist).raw code w = none ∨ update = true → ninjaCreate (ninjaAfter hist) country update w none = .error .exception) ∧
      ((ninjaAfter hist).raw code w ≠ none → update = false → ∀ reply, ninjaCreate (ninjaAfter hist) country update w reply = .ok []) := by
    intro code hc
    unfold ninjaCreate
    rw [ninjaCode_iff.2 hc]
    simp only [bind, Except.bind]
    constructor
    · rintro (h | h)
      · simp [h]
      · simp [h]
    · intro h hu reply
      cases h1 : (ninjaAfter hist).raw code w with
      | none => exact absurd h1 h
      | some f => simp [hu, pure, Except.pure]
  refine ⟨fun h reply => ⟨?_, ?_⟩, hn, ?_⟩
  · unfold ninjaCreate
    rw [ninjaCode_error h]
    rfl
  · rw [ninjaAfter_snoc]
    exact noCode_apply _ h (.inl ⟨_, _, _, rfl⟩)
  · rw [ninjaAfter_snoc]
    by_cases hc : ∃ code, HasCode country code
    · obtain ⟨code, hc⟩ := hc
      by_cases h : (ninjaAfter hist).raw code w = none ∨ update = true
      · simp only [NinjaEvent.apply, (hn code hc).1 h]
      · push Not at h
        simp only [NinjaEvent.apply, (hn code hc).2 h.1 (by simpa using h.2) none]
        cases stop <;> simp [madeWrites, applyWrites]
    · exact noCode_apply _ (fun code h => hc ⟨code, h⟩) (.inl ⟨_, _, _, rfl⟩)

example : (∀ code, ¬ HasCode "france".toList code) ∧ (ninjaAfter demoHist).raw deCode byPop ≠ none := by
  refine ⟨fun code h => ?_, by decide +kernel⟩
  rw [← ninjaCode_iff] at h
  rw [show ninjaCode "france".toList = .error .notImplementedError by decide +kernel] at h
  simp at h

/-- **C120, counterexample: another weighting.** The parsed data is kept by country, not by weighting: after the data weighted by population was used, a loader weighted by area returns the data weighted by population, and no error. -/
theorem C120_weighting_counterexample :
    ∃ hist : List NinjaEvent, (∀ e ∈ hist, Uninterrupted e) ∧ LastDownload hist deCode byArea areaRows ∧
      ninjaLoad (ninjaAfter hist) deName byArea 0 = ninjaLoad (ninjaAfter [.create deName false byPop (some popRows) none]) deName byPop 0 ∧
      ¬ Gives areaRows 0 (ninjaLoad (ninjaAfter hist) deName byArea 0) := by
  refine ⟨[.create deName false byArea (some areaRows) none, .create deName false byPop (some popRows) none, .load deName byPop none, .create deName false byArea none none], ?_, ?_, by decide +kernel, ?_⟩
  · intro e he
    simp only [List.mem_cons, List.not_mem_nil, or_false] at he
    rcases he with rfl | rfl | rfl | rfl
    all_goals first | exact .inl ⟨_, _, _, _, rfl⟩ | exact .inr ⟨_, _, rfl⟩
  · refine ⟨[], deName, false, _, rfl, .germany, fun _ e he => by simp at he, ?_⟩
    rintro e he ⟨c, r, s, rfl, -⟩
    simp at he
  · have h : ninjaLoad (ninjaAfter [.create deName false byArea (some areaRows) none, .create deName false byPop (some popRows) none, .load deName byPop none,
        .create deName false byArea none none]) deName byArea 0 = .ok (ninjaParse popRows) := by decide +kernel
    rw [h]
    rintro (⟨h, -⟩ | ⟨_, _, _, h⟩ | ⟨_, _, _, _, h, h2⟩)
    · simp [areaRows] at h
    · simp at h
    · injection h with h
      subst h
      have : (areaRows.filter fun r => 0 < r.time + HOUR) = areaRows := by decide +kernel
      rw [this] at h2
      simp only [areaRows, popRows, ninjaParse, List.map_cons, List.forall₂_cons] at h2
      exact absurd h2.1.2.2.2.2.2.2.1 (by decide +kernel)

/-- The temperatures of a load. -/
def temps (r : Except PyErr (History NinjaPoint)) : Except PyErr (List Rat) := r.map (·.map (·.2.outsideTemperature))

/-- **C120, counterexample: another name.** `'germany'` and `'DE'` have one raw file, but a parsed file each: an update through one of them is not seen through the other. -/
theorem C120_name_counterexample :
    ∃ hist : List NinjaEvent, (∀ e ∈ hist, Uninterrupted e) ∧ (∀ e ∈ hist, ∀ c w, UsesLoader e c w → w = byPop) ∧ LastDownload hist deCode byPop newRows ∧ HasCode deName deCode ∧
      temps (ninjaLoad (ninjaAfter hist) deName byPop 0) = .ok [5, 6, 7] ∧ temps (ninjaLoad (ninjaAfter hist) deCode byPop 0) = .ok [5, 6, 8, 9] := by
  refine ⟨[.create deName false byPop (some popRows) none, .load deName byPop none, .create deCode true byPop (some newRows) none, .create deName false byPop none none], ?_, ?_, ?_, .germany,
    by decide +kernel, by decide +kernel⟩
  · intro e he
    simp only [List.mem_cons, List.not_mem_nil, or_false] at he
    rcases he with rfl | rfl | rfl | rfl
    all_goals first | exact .inl ⟨_, _, _, _, rfl⟩ | exact .inr ⟨_, _, rfl⟩
  · intro e he c w hl
    simp only [List.mem_cons, List.not_mem_nil, or_false] at he
    rcases he with rfl | rfl | rfl | rfl <;> rcases hl with ⟨_, _, _, h⟩ | ⟨_, h⟩ <;> first | (simp only [reduceCtorEq] at h; done) | skip
    all_goals injection h with h1 h2 h3
    all_goals first | exact h3.symm | exact h2.symm
  · refine ⟨[.create deName false byPop (some popRows) none, .load deName byPop none], deCode, true, _, rfl, .code 'D' 'E', by simp, ?_⟩
    rintro e he ⟨c, r, s, rfl, -⟩
    simp at he

/-- **C120, counterexample: an interrupted download.** When the process is interrupted while it writes the file, the part that was written is taken for the file: loaders that are created later do not download it again, and return its rows
without an error, for every number of rows that were written. -/
theorem C120_interrupted_download_counterexample (rows : List NinjaRow) (k : Nat) {country code : Str} (hc : HasCode country code) (w : Str) (reply : Option (List NinjaRow)) (start : Int) :
    Gives (rows.take k) start
      (ninjaLoad (ninjaAfter [.create country false w (some rows) (some (min k rows.length + 2)), .create country false w reply none]) country w start) := by
  have h0 : ninjaAfter [.create country false w (some rows) (some (min k rows.length + 2))] =
      applyWrites NinjaFiles.none (((none :: (List.range (min k rows.length)).map fun j => some (rows.take j)) ++ [some (rows.take k)]).map (NinjaWrite.raw code w)) := by
    have hcr : ninjaCreate NinjaFiles.none country false w (some rows) = .ok (downloadWrites code country w rows) := by
      unfold ninjaCreate
      rw [ninjaCode_iff.2 hc]
      rfl
    simp only [ninjaAfter, List.foldl_cons, List.foldl_nil, NinjaEvent.apply, hcr, madeWrites]
    congr 1
    unfold downloadWrites
    have e : rows.take k = rows.take (min k rows.length) := by simp
    have hlen : min k rows.length ≤ rows.length := Nat.min_le_right _ _
    rw [e]
    generalize min k rows.length = m at *
    rw [List.append_assoc, List.take_append, List.take_append]
    simp only [List.length_cons, List.length_nil, List.length_map, List.length_range]
    rw [← List.map_take, List.take_range, show min (m + 2 - (0 + 1)) (rows.length + 1) = m + 1 by omega, show m + 2 - (0 + 1) - (rows.length + 1) = 0 by omega, List.range_succ]
    simp [Function.comp_def]
  obtain ⟨h1, h2⟩ := applyWrites_raw code w (none :: (List.range (min k rows.length)).map fun j => some (rows.take j)) NinjaFiles.none (some (rows.take k))
  rw [← h0] at h1 h2
  have h3 : ninjaAfter [.create country false w (some rows) (some (min k rows.length + 2)), .create country false w reply none] =
      ninjaAfter [.create country false w (some rows) (some (min k rows.length + 2))] := by
    have := ninjaAfter_snoc [.create country false w (some rows) (some (min k rows.length + 2))] (.create country false w reply none)
    rw [List.singleton_append] at this
    rw [this, create_apply _ hc, if_pos ⟨by rw [h2]; simp, rfl⟩]
  rw [h3]
  unfold ninjaLoad
  rw [ninjaTable_of (rows := rows.take k) hc (by rw [h2]; simp) (.inl (by rw [h1]; rfl))]
  exact gives_parse _ _

example : temps (ninjaLoad (ninjaAfter [.create deName false byPop (some popRows) (some (min 1 popRows.length + 2)), .create deName false byPop (some popRows) none]) deName byPop 0) = .ok [5] := by decide +kernel

/-- **C120, counterexample: an interrupted update.** When the process is interrupted after the download and before the old parsed data is removed, later loaders return the old data. -/
theorem C120_interrupted_update_counterexample :
    ∃ n, (ninjaAfter [.create deName false byPop (some popRows) none, .load deName byPop none, .create deName true byPop (some newRows) (some n)]).raw deCode byPop = some (some newRows) ∧
      temps (ninjaLoad (ninjaAfter [.create deName false byPop (some popRows) none, .load deName byPop none, .create deName true byPop (some newRows) (some n), .create deName false byPop (some newRows) none])
        deName byPop 0) = .ok [5, 6, 7] := ⟨newRows.length + 2, by decide +kernel, by decide +kernel⟩

/-- **C120, counterexample: an interrupted load.** When the process is interrupted while it writes the parsed data, all later loads raise an error, although the downloaded file is complete. -/
theorem C120_interrupted_load_counterexample {country code : Str} (hc : HasCode country code) (w : Str) (rows : List NinjaRow) (later : List NinjaEvent)
    (hl : ∀ e ∈ later, ∀ u w' r stop, e ≠ .create country u w' r stop) (w' : Str) (start : Int) :
    LastDownload [.create country false w (some rows) none, .load country w (some 1)] code w rows ∧
    ninjaLoad (ninjaAfter ([.create country false w (some rows) none, .load country w (some 1)] ++ later)) country w' start = .error .badFile := by
  constructor
  · refine ⟨[], country, false, _, rfl, hc, fun _ e he => by simp at he, ?_⟩
    rintro e he ⟨c, r, s, rfl, -⟩
    simp at he
  · have h1 : ninjaAfter [.create country false w (some rows) none] = applyWrites NinjaFiles.none (downloadWrites code country w rows) := by
      have := ninjaAfter_snoc [] (.create country false w (some rows) none)
      rw [List.nil_append] at this
      rw [this, create_apply _ hc]
      rfl
    obtain ⟨h2, h3⟩ := download_all NinjaFiles.none code country w rows
    rw [← h1] at h2 h3
    have e : ninjaAfter ([.create country false w (some rows) none, .load country w (some 1)] ++ later) =
        later.foldl NinjaEvent.apply (NinjaEvent.apply (ninjaAfter [.create country false w (some rows) none]) (.load country w (some 1))) := by
      unfold ninjaAfter
      simp [List.foldl_append]
    have h4 : (NinjaEvent.apply (ninjaAfter [.create country false w (some rows) none]) (.load country w (some 1))).parsed country = some none := by
      simp only [NinjaEvent.apply, madeWrites]
      unfold ninjaTable
      rw [h3, ninjaCode_iff.2 hc]
      simp [h2, applyWrites, NinjaWrite.apply]
    have h5 := parsed_stays later _ h4 fun e he w hw => by
      rcases hw with ⟨u, r, s, rfl⟩ | ⟨s, rfl⟩
      · exact absurd rfl (hl _ he _ _ _ _)
      · exact ⟨s, rfl⟩
    unfold ninjaLoad ninjaTable
    rw [e, h5]

example : ∀ e ∈ [NinjaEvent.load deName byPop none, .create deCode false byPop none none], ∀ u w' r stop, e ≠ .create deName u w' r stop := by
  intro e he u w' r stop
  simp only [List.mem_cons, List.not_mem_nil, or_false] at he
  rcases he with rfl | rfl
  · simp
  · intro h
    injection h with h
    exact absurd h (by decide)

/-- C120 does not hold in full. -/
theorem C120_full_fails : ¬ C120_full := by
  intro h
  obtain ⟨hist, -, h1, -, h2⟩ := C120_weighting_counterexample
  exact h2 (h hist deName deCode byArea areaRows .germany h1 0)

/-! ## C121 -/

/-- The full statement of C121 for renewables.ninja: the simulator gives the temperature and the irradiance at the surface that were measured at the current hour. -/
def C121_full : Prop :=
  ∀ (rows : List NinjaRow) (d0 start : Int) (i : Nat) (r : NinjaRow), Hourly d0 rows → rows[i]? = some r → r.time ≤ start → start < r.time + HOUR → (∃ x ∈ rows, start ≤ x.time) →
    ∃ table s, (ninjaTable (ninjaAfter [.create deName false byPop (some rows) none]) deName byPop).2 = .ok table ∧ RealClimate.create HOUR 0 start table = .ok s ∧
      s.value.outsideTemperature = r.temperature ∧ s.value.irradiance = r.irradianceSurface

/-- **C121 (renewables.ninja), partial.** From the download to the simulator: when the last downloaded file is hourly and the (naive) start is in it, then after `n` steps the climate simulator shows the time `start + n` hours, and its temperature is the
one in the row of this hour; after the last row it raises `StopIteration`. The irradiance is the sum of the one at the surface and the one at the top of the atmosphere. Missing: the irradiance at the surface (`C121_irradiance_counterexample`). -/
theorem C121_ninja_partial {hist : List NinjaEvent} {country code w : Str} (hc : HasCode country code) (hu : ∀ e ∈ hist, Uninterrupted e)
    (hone : ∀ e ∈ hist, ∀ c w', UsesLoader e c w' → HasCode c code → c = country ∧ w' = w) {rows : List NinjaRow} (hd : LastDownload hist code w rows)
    {d0 start : Int} (hh : Hourly d0 rows) {i : Nat} {r : NinjaRow} (hi : rows[i]? = some r) (h1 : r.time ≤ start) (h2 : start < r.time + HOUR) (h3 : ∃ x ∈ rows, start ≤ x.time) (n : Nat) :
    ∃ table s, (ninjaTable (ninjaAfter hist) country w).2 = .ok table ∧ RealClimate.create HOUR 0 start table = .ok s ∧ s.clock = start ∧
      (∀ r', rows[i + n]? = some r' → ∃ s', RealClimate.run HOUR n s = .ok s' ∧ s'.clock = start + n * HOUR ∧ r'.time ≤ s'.clock ∧ s'.clock < r'.time + HOUR ∧
        s'.value.outsideTemperature = r'.temperature ∧ s'.value.irradiance = r'.irradianceSurface + r'.irradianceToa) ∧
      (rows[i + n]? = none → RealClimate.run HOUR n s = .error .stopIteration) := by
  obtain ⟨hraw, hparsed⟩ := (ninja_inv hc hist hu hone).1 rows hd
  have hH : (0 : Int) < HOUR := by decide
  have hil : i < rows.length := (List.getElem?_eq_some_iff.1 hi).1
  have hgrid : ninjaParse rows = grid d0 HOUR (fun k => ninjaPoint (rows.getD k r)) rows.length := by
    unfold ninjaParse grid
    apply List.ext_getElem
    · simp
    · intro k hk _
      have hk : k < rows.length := by simpa using hk
      simp only [List.getElem_map, List.getElem_range]
      rw [hh k rows[k] (List.getElem?_eq_getElem hk), List.getD_eq_getElem?_getD, List.getElem?_eq_getElem hk, Option.getD_some]
  have hri := hh i r hi
  have hlast : start ≤ d0 + ((rows.length - 1 : Nat) : Int) * HOUR := by
    obtain ⟨x, hx, hs⟩ := h3
    obtain ⟨k, hk, rfl⟩ := List.getElem_of_mem hx
    rw [hh k rows[k] (List.getElem?_eq_getElem hk)] at hs
    have : (k : Int) * HOUR ≤ ((rows.length - 1 : Nat) : Int) * HOUR := by
      apply mul_le_mul_of_nonneg_right _ (le_of_lt hH)
      exact_mod_cast (by omega : k ≤ rows.length - 1)
    omega
  obtain ⟨s, hs, hcl, ha, hb⟩ := C63_real_partial (start := start) hH (fun k => ninjaPoint (rows.getD k r)) hil (by omega) (by rw [hri] at h2; linarith) hlast n
  refine ⟨_, s, ninjaTable_of hc hraw hparsed, by rw [hgrid]; exact hs, hcl, fun r' hr' => ?_, fun hn => ?_⟩
  · have hin := (List.getElem?_eq_some_iff.1 hr').1
    obtain ⟨s', h4, h5, h6, h7, h8⟩ := ha hin
    have ht := hh _ _ hr'
    have hv : rows.getD (i + n) r = r' := by rw [List.getD_eq_getElem?_getD, hr']; rfl
    rw [hv] at h6
    refine ⟨s', h4, h5, by rw [ht]; exact h7, by rw [ht]; push_cast at h8 ⊢; linarith, by rw [h6]; rfl, by rw [h6]; simp only [ninjaPoint]; ring⟩
  · exact hb (by simpa using hn)

example : Hourly 0 newRows ∧ newRows[2]? = some (rowAt 2 8) ∧ (rowAt 2 8).time ≤ 2 * HOUR + 5 ∧ 2 * HOUR + 5 < (rowAt 2 8).time + HOUR ∧ ∃ x ∈ newRows, 2 * HOUR + 5 ≤ x.time := by
  refine ⟨?_, by decide +kernel, by decide +kernel, by decide +kernel, ⟨rowAt 3 9, by decide +kernel, by decide +kernel⟩⟩
  intro k r h
  match k, h with
  | 0, h => simp [newRows] at h; subst h; rfl
  | 1, h => simp [newRows] at h; subst h; rfl
  | 2, h => simp [newRows] at h; subst h; rfl
  | 3, h => simp [newRows] at h; subst h; rfl
  | k + 4, h => simp [newRows] at h

/-- **C121, counterexample: the irradiance.** With an irradiance of 100 W/m² at the surface and of 400 W/m² at the top of the atmosphere, the simulator gives 500 W/m²; and under a sky that is fully covered (cloud cover 1) the clearness is 1. -/
theorem C121_irradiance_counterexample :
    ∃ table s, (ninjaTable (ninjaAfter [.create deName false byPop (some popRows) none]) deName byPop).2 = .ok table ∧ RealClimate.create HOUR 0 0 table = .ok s ∧
      (rowAt 0 5).irradianceSurface = 100 ∧ (rowAt 0 5).cloudCover = 1 ∧ popRows[0]? = some (rowAt 0 5) ∧ s.value.irradiance = 500 ∧ s.value.clearness = 1 := by
  refine ⟨ninjaParse popRows, ⟨0, [ninjaPoint (rowAt 1 6), ninjaPoint (rowAt 2 7)], ninjaPoint (rowAt 0 5)⟩, by decide +kernel, ?_, rfl, rfl, rfl, by decide +kernel, by decide +kernel⟩
  rfl

/-- **C121 (the irradiance is never the one at the surface in daylight).** Whenever the irradiance at the top of the atmosphere is positive, the irradiance of the simulator is larger than both. -/
theorem C121_irradiance_excess {rows : List NinjaRow} {start : Int} {t : History NinjaPoint} (hg : Gives rows start (.ok t)) {x : Int × NinjaPoint} (hx : x ∈ t) :
    ∃ r ∈ rows, r.time = x.1 ∧ (0 < r.irradianceToa → r.irradianceSurface < x.2.irradiance) ∧ (0 < r.irradianceSurface → r.irradianceToa < x.2.irradiance) := by
  rcases hg with ⟨-, h⟩ | ⟨_, _, _, h⟩ | ⟨_, t', _, _, h, h5⟩
  · simp at h
  · simp at h
  · injection h with h
    subst h
    have : ∀ {l : List NinjaRow} {t : History NinjaPoint}, List.Forall₂ EntryOf l t → x ∈ t → ∃ r ∈ l, EntryOf r x := by
      intro l t h
      induction h with
      | nil => intro h; simp at h
      | cons h _ ih =>
        intro hx
        rcases List.mem_cons.1 hx with rfl | hx
        · exact ⟨_, by simp, h⟩
        · obtain ⟨r, hr, h⟩ := ih hx
          exact ⟨r, by simp [hr], h⟩
    obtain ⟨r, hr, he⟩ := this h5 hx
    refine ⟨r, (List.mem_filter.1 hr).1, he.1.symm, ?_, ?_⟩ <;> rw [he.2.2.2.2.2.2.2] <;> intro h <;> linarith

example : Gives newRows (3 * HOUR) (.ok [(3 * HOUR, ninjaPoint (rowAt 3 9))]) ∧ 0 < (rowAt 3 9).irradianceToa :=
  ⟨.inr (.inr ⟨rowAt 3 9, _, rfl, by decide, rfl, by
    have : (newRows.filter fun r => 3 * HOUR < r.time + HOUR) = [rowAt 3 9] := by decide +kernel
    rw [this]
    exact .cons ⟨rfl, rfl, rfl, rfl, rfl, rfl, rfl, by decide +kernel⟩ .nil⟩), by decide +kernel⟩

/-- C121 does not hold in full. -/
theorem C121_full_fails : ¬ C121_full := by
  intro h
  obtain ⟨t, s, h1, h2, h3, h4, h5, h6, h7⟩ := C121_irradiance_counterexample
  obtain ⟨t', s', h1', h2', -, h4'⟩ := h popRows 0 0 0 (rowAt 0 5) (by
    intro k r h
    match k, h with
    | 0, h => simp [popRows] at h; subst h; rfl
    | 1, h => simp [popRows] at h; subst h; rfl
    | 2, h => simp [popRows] at h; subst h; rfl
    | k + 3, h => simp [popRows] at h) h5 (by decide) (by decide) ⟨rowAt 0 5, by decide +kernel, by decide⟩
  rw [h1] at h1'
  injection h1' with h1'
  subst h1'
  rw [h2] at h2'
  injection h2' with h2'
  subst h2'
  rw [h6, h3] at h4'
  exact absurd h4' (by decide +kernel)

/-- **C121 (Open Power System Data).** For the three countries that have a name, when the file has hourly times and the columns of the country and the (naive) start is in it: after `n` steps the climate simulator shows the time `start + n` hours, its
temperature is the one of this row, and its irradiance is the sum of the direct and the diffuse radiation of this row; after the last row it raises `StopIteration`. -/
theorem C121_power {f : PowerFile} {country code : Str} (hc : HasCode country code) (hn : country.length ≠ 2) {cells : List PowerCell} (hcol : f.columns code = some cells)
    (hlen : f.times.length = cells.length) {d0 start : Int} (hh : ∀ (k : Nat) (t : Int), f.times[k]? = some t → t = d0 + k * HOUR) {i : Nat} (h1 : d0 + i * HOUR ≤ start) (h2 : start < d0 + (i + 1) * HOUR)
    (hi : i < cells.length) (h3 : ∃ t ∈ f.times, start ≤ t) (n : Nat) :
    ∃ table s, powerParse f country = .ok table ∧ RealClimate.create HOUR 0 start table = .ok s ∧ s.clock = start ∧
      (∀ c, cells[i + n]? = some c → ∃ s', RealClimate.run HOUR n s = .ok s' ∧ s'.clock = start + n * HOUR ∧
        s'.value.outsideTemperature = c.temperature ∧ s'.value.irradiance = c.direct + c.diffuse) ∧
      (cells[i + n]? = none → RealClimate.run HOUR n s = .error .stopIteration) := by
  have hH : (0 : Int) < HOUR := by decide
  have hcode : countryCode country = .ok code := by
    have := ninjaCode_iff.2 hc
    unfold ninjaCode at this
    rwa [if_neg (by simpa [isCountryCode] using hn)] at this
  let c0 : PowerCell := ⟨0, 0, 0⟩
  let v : Nat → PowerPoint := fun k => ⟨(cells.getD k c0).temperature, (cells.getD k c0).diffuse + (cells.getD k c0).direct⟩
  have hgrid : powerParse f country = .ok (grid d0 HOUR v cells.length) := by
    unfold powerParse
    rw [hcode]
    simp only [bind, Except.bind, hcol, pure, Except.pure]
    congr 1
    unfold grid
    apply List.ext_getElem
    · simp [hlen]
    · intro k hk _
      have hk : k < cells.length := by simp at hk; exact hk.2
      simp only [List.getElem_zip, List.getElem_map, List.getElem_range]
      rw [hh k _ (List.getElem?_eq_getElem (by omega : k < f.times.length))]
      simp only [v]
      rw [List.getD_eq_getElem?_getD, List.getElem?_eq_getElem hk, Option.getD_some]
  have hlast : start ≤ d0 + ((cells.length - 1 : Nat) : Int) * HOUR := by
    obtain ⟨x, hx, hs⟩ := h3
    obtain ⟨k, hk, rfl⟩ := List.getElem_of_mem hx
    rw [hh k _ (List.getElem?_eq_getElem hk)] at hs
    have : (k : Int) * HOUR ≤ ((cells.length - 1 : Nat) : Int) * HOUR := by
      apply mul_le_mul_of_nonneg_right _ (le_of_lt hH)
      exact_mod_cast (by omega : k ≤ cells.length - 1)
    omega
  obtain ⟨s, hs, hcl, ha, hb⟩ := C63_real_partial (start := start) hH v hi h1 h2 hlast n
  refine ⟨_, s, hgrid, hs, hcl, fun c hc => ?_, fun hn => hb (by simpa using hn)⟩
  obtain ⟨s', h4, h5, h6, -⟩ := ha (List.getElem?_eq_some_iff.1 hc).1
  have hv : cells.getD (i + n) c0 = c := by rw [List.getD_eq_getElem?_getD, hc]; rfl
  refine ⟨s', h4, h5, by rw [h6]; simp only [v]; rw [hv], by rw [h6]; simp only [v]; rw [hv]; ring⟩

/-- A file with the columns of Germany. -/
def demoPower : PowerFile := ⟨[0, HOUR, 2 * HOUR], fun c => if c = deCode then some [⟨5, 10, 20⟩, ⟨6, 30, 20⟩, ⟨7, 0, 0⟩] else none⟩

example : HasCode deName deCode ∧ deName.length ≠ 2 ∧ demoPower.columns deCode = some [⟨5, 10, 20⟩, ⟨6, 30, 20⟩, ⟨7, 0, 0⟩] ∧
    (powerParse demoPower deName) = .ok [(0, ⟨5, 30⟩), (HOUR, ⟨6, 50⟩), (2 * HOUR, ⟨7, 0⟩)] := ⟨.germany, by decide, by decide +kernel, by decide +kernel⟩

/-- **C121 (names of Open Power System Data).** Any other name raises `NotImplementedError` whatever the file is: in particular the country codes, and names with a capital letter. -/
theorem C121_power_names (f : PowerFile) {country : Str} (h1 : country ≠ "germany".toList) (h2 : country ≠ "switzerland".toList) (h3 : country ≠ "england".toList) :
    powerParse f country = .error .notImplementedError := by
  have : countryCode country = .error .notImplementedError := by
    unfold countryCode lookupA
    simp only [List.find?_cons, List.find?_nil, Ne.symm h1, Ne.symm h2, Ne.symm h3, decide_false, Option.map_none]
  unfold powerParse
  rw [this]
  rfl

example : "Germany".toList ≠ "germany".toList ∧ "DE".toList ≠ "germany".toList := by decide

end Demod
