import Verif.Lemmas.Profiles
import Mathlib.Data.List.GetD

/-! # Load profiles (C65, C66, C83) -/

namespace Demod

/-! ## C65: storage -/

/-- Full statement of C65: any dictionary of profiles (keys are distinct, as in every dictionary) is read back
unchanged. -/
def C65_full : Prop :=
  ∀ d : ProfilesDict (List Rat), (d.map (·.1)).Nodup → (∀ t ∈ d, (t.2.map (·.1)).Nodup) → readProfiles (flattenProfiles d) = .ok d

/-- Without `&` in the names of the types and of the profiles, the dictionary is read back unchanged, except for
the types without any profile, which vanish. -/
theorem C65_roundtrip_partial {α : Type} (d : ProfilesDict α) (h : CleanProfiles d) :
    readProfiles (flattenProfiles d) = .ok (d.filter fun t => decide (t.2 ≠ [])) := by
  rw [flattenProfiles_eq d h, readProfiles_eq d h]

/-- In particular nothing is lost when every type has a profile. -/
theorem C65_unchanged_partial {α : Type} (d : ProfilesDict α) (h : CleanProfiles d) (hne : ∀ t ∈ d, t.2 ≠ []) :
    readProfiles (flattenProfiles d) = .ok d := by
  rw [C65_roundtrip_partial d h, List.filter_eq_self.2]
  intro t ht
  simpa using hne t ht

def demoProfiles : ProfilesDict (List Rat) :=
  [("kettle".toList, [("a.csv".toList, [0, 2000, 0]), ("b.csv".toList, [1800])]), ("fridge".toList, [("a.csv".toList, [60, 60])])]

example : CleanProfiles demoProfiles ∧ ∀ t ∈ demoProfiles, t.2 ≠ [] := by
  unfold CleanProfiles
  decide +kernel

/-- A type without profiles is lost, and an `&` in a name makes the next load fail. -/
theorem C65_counterexample :
    readProfiles (flattenProfiles (α := List Rat) [("kettle".toList, [])]) = .ok [] ∧
    readProfiles (flattenProfiles (α := List Rat) [("kettle".toList, [("tea&coffee".toList, [1])])]) = .error .valueError := ⟨by decide +kernel, by decide +kernel⟩

theorem C65_full_fails : ¬ C65_full := by
  intro h
  have := h [("kettle".toList, [])] (by simp) (by simp)
  rw [C65_counterexample.1] at this
  cases this

/-! ## C66: resampling -/

/-- The profile per second covers the seconds from the first sample to the last one, excluded. Between two
neighbouring samples it is the line through them. -/
theorem C66_seconds (samples : List (Int × Rat)) (first last : Int × Rat) (hs : samples.Pairwise fun a b => a.1 < b.1)
    (hf : samples.head? = some first) (hl : samples.getLast? = some last) :
    ∃ l, parseProfile samples 1 = .ok l ∧ (l.length : Int) = last.1 - first.1 ∧
      ∀ (i : Nat) (a b : Int × Rat), samples[i]? = some a → samples[i + 1]? = some b →
        ∀ k : Nat, k < l.length → a.1 ≤ first.1 + k → first.1 + k ≤ b.1 →
          l[k]? = some (a.2 + (b.2 - a.2) / ((b.1 - a.1 : Int) : Rat) * ((first.1 + k - a.1 : Int) : Rat)) := by
  have hle : first.1 ≤ last.1 := by
    match samples, hf with
    | f :: rest, hf =>
      simp only [List.head?_cons, Option.some.injEq] at hf
      subst hf
      have hmem := List.mem_of_mem_getLast? hl
      rcases List.mem_cons.1 hmem with rfl | hm
      · exact le_refl _
      · exact le_of_lt (List.rel_of_pairwise_cons hs hm)
  refine ⟨(List.range (last.1 - first.1).toNat).map fun (k : Nat) => npInterp samples (first.1 + (k : Int)), ?_, ?_, ?_⟩
  · unfold parseProfile loadSecond
    rw [hf, hl]
    rfl
  · simp only [List.length_map, List.length_range]
    omega
  · intro i a b ha hb k hk h1 h2
    simp only [List.length_map, List.length_range] at hk
    rw [List.getElem?_map, List.getElem?_range hk, Option.map_some, npInterp_line i samples hs a b ha hb _ h1 h2]

/-- Averaging over more than one second: the value of interval `i` is the mean over its seconds (those after the
end of the profile count as 0), so that the total over time is conserved. -/
theorem C66_energy (samples : List (Int × Rat)) (sec : Nat) (hsec : 1 < sec) (l : List Rat) (h1 : parseProfile samples 1 = .ok l) :
    ∃ out, parseProfile samples sec = .ok out ∧ out.sum * (sec : Rat) = l.sum ∧
      ∀ i : Nat, i < out.length → out[i]? = some (((l.drop (i * sec)).take sec).sum / (sec : Rat)) := by
  unfold parseProfile at h1 ⊢
  cases hl : loadSecond samples with
  | error e => rw [hl] at h1; cases h1
  | ok l' =>
    rw [hl] at h1
    have : l' = l := by
      replace h1 : resample l' 1 = .ok l := h1
      simpa [resample] using h1
    subst this
    have hmod := Nat.mod_lt l'.length (by omega : sec > 0)
    have hdm := Nat.div_add_mod l'.length sec
    have hlen : (l' ++ List.replicate (sec - l'.length % sec) (0 : Rat)).length = (l'.length / sec + 1) * sec := by
      rw [List.length_append, List.length_replicate, Nat.add_mul, Nat.one_mul, Nat.mul_comm]
      omega
    refine ⟨pieceMeans sec (l'.length / sec + 1) (l' ++ List.replicate (sec - l'.length % sec) 0), ?_, ?_, ?_⟩
    · show resample l' sec = _
      unfold resample
      rw [if_neg (by omega), if_neg (by omega)]
      simp only
      rw [hlen, Nat.mul_div_cancel _ (by omega)]
    · rw [pieceMeans_sum _ _ (by omega), ← hlen, List.take_length, List.sum_append]
      simp
    · intro i hi
      rw [pieceMeans_length] at hi
      rw [pieceMeans_get _ _ _ _ hi, take_drop_append_zeros]

/-- There is one interval per started step, and one more when the profile fills its last step. -/
theorem C66_length (samples : List (Int × Rat)) (sec : Nat) (hsec : 1 < sec) (l out : List Rat) (h1 : parseProfile samples 1 = .ok l)
    (h2 : parseProfile samples sec = .ok out) : out.length = l.length / sec + 1 := by
  unfold parseProfile at h1 h2
  cases hl : loadSecond samples with
  | error e => rw [hl] at h1; cases h1
  | ok l' =>
    rw [hl] at h1 h2
    have : l' = l := by
      replace h1 : resample l' 1 = .ok l := h1
      simpa [resample] using h1
    subst this
    have hmod := Nat.mod_lt l'.length (by omega : sec > 0)
    have hdm := Nat.div_add_mod l'.length sec
    have hlen : (l' ++ List.replicate (sec - l'.length % sec) (0 : Rat)).length = (l'.length / sec + 1) * sec := by
      rw [List.length_append, List.length_replicate, Nat.add_mul, Nat.one_mul, Nat.mul_comm]
      omega
    replace h2 : resample l' sec = .ok out := h2
    unfold resample at h2
    rw [if_neg (by omega), if_neg (by omega)] at h2
    simp only at h2
    rw [hlen, Nat.mul_div_cancel _ (by omega)] at h2
    cases h2
    exact pieceMeans_length _ _ _

/-- So the number of intervals is the documented one exactly when the profile does not fill its last step. -/
theorem C66_ceil_partial (samples : List (Int × Rat)) (sec : Nat) (hsec : 1 < sec) (l out : List Rat) (h1 : parseProfile samples 1 = .ok l)
    (h2 : parseProfile samples sec = .ok out) : IsCeil l.length sec out.length ↔ ¬ sec ∣ l.length := by
  rw [C66_length samples sec hsec l out h1 h2]
  have hmod := Nat.mod_lt l.length (by omega : sec > 0)
  have hdm := Nat.div_add_mod l.length sec
  constructor
  · rintro ⟨_, hmin⟩ hd
    have h0 := Nat.mod_eq_zero_of_dvd hd
    have := hmin (l.length / sec) (by rw [Nat.mul_comm]; omega)
    omega
  · intro hd
    have h0 : l.length % sec ≠ 0 := fun hc => hd (Nat.dvd_of_mod_eq_zero hc)
    refine ⟨by rw [Nat.add_mul, Nat.mul_comm]; omega, ?_⟩
    intro m' hm'
    by_contra hlt
    have : m' ≤ l.length / sec := by omega
    have := Nat.mul_le_mul_right sec this
    rw [Nat.mul_comm (l.length / sec)] at this
    omega

/-- A profile that fills its last step gets an interval of zeros at its end. -/
theorem C66_aligned (samples : List (Int × Rat)) (sec : Nat) (hsec : 1 < sec) (l out : List Rat) (h1 : parseProfile samples 1 = .ok l)
    (h2 : parseProfile samples sec = .ok out) (hd : sec ∣ l.length) : out.length = l.length / sec + 1 ∧ out.getLast? = some 0 := by
  have hlen := C66_length samples sec hsec l out h1 h2
  obtain ⟨out', e, _, hv⟩ := C66_energy samples sec hsec l h1
  rw [h2] at e
  cases e
  refine ⟨hlen, ?_⟩
  rw [List.getLast?_eq_getElem?, hv (out.length - 1) (Nat.sub_lt (by rw [hlen]; exact Nat.succ_pos _) Nat.one_pos), hlen, Nat.add_sub_cancel, Nat.div_mul_cancel hd]
  simp

/-- A step below one second fails. -/
theorem C66_below_one_second (samples : List (Int × Rat)) (h : samples ≠ []) : parseProfile samples 0 = .error .zeroDivisionError := by
  unfold parseProfile loadSecond
  obtain ⟨a, ha⟩ := Option.ne_none_iff_exists'.1 (by simpa using h : samples.head? ≠ none)
  obtain ⟨b, hb⟩ := Option.ne_none_iff_exists'.1 (by simpa using h : samples.getLast? ≠ none)
  rw [ha, hb]
  rfl

example : parseProfile [(10, 0), (12, 8), (15, 2)] 1 = .ok [0, 4, 8, 6, 4] ∧
    parseProfile [(10, 0), (12, 8), (15, 2)] 2 = .ok [2, 7, 2] ∧
    parseProfile [(10, 0), (12, 8), (15, 2)] 5 = .ok [22 / 5, 0] := by decide +kernel

/-- The full claim: energy is conserved and the number of intervals is the ceiling. -/
def C66_full : Prop := ∀ (samples : List (Int × Rat)) (sec : Nat), 1 < sec → ∀ l out, parseProfile samples 1 = .ok l →
  parseProfile samples sec = .ok out → out.sum * (sec : Rat) = l.sum ∧ IsCeil l.length sec out.length

/-- **C66 (counterexample).** Five seconds resampled to five give two intervals. -/
theorem C66_counterexample : ¬ C66_full := by
  intro h
  have h1 : parseProfile [(10, 0), (12, 8), (15, 2)] 1 = .ok [0, 4, 8, 6, 4] := by decide +kernel
  have h5 : parseProfile [(10, 0), (12, 8), (15, 2)] 5 = .ok [22 / 5, 0] := by decide +kernel
  have hc := (h _ 5 (by omega) _ _ h1 h5).2
  exact (C66_ceil_partial _ 5 (by omega) _ _ h1 h5).1 hc ⟨1, rfl⟩

/-! ## C83: cropping to the switched-on part -/

/-- The switched-on part of a profile is the shortest consecutive part that contains all the values above 6 W: it
starts and ends with such a value, and no value before or after it is above 6 W. -/
theorem C83_crop (load : List Rat) (h : ∃ x ∈ load, x > 6) :
    ∃ before on after, cropOn load = .ok on ∧ load = before ++ on ++ after ∧
      (∀ x ∈ before, x ≤ 6) ∧ (∀ x ∈ after, x ≤ 6) ∧ (∃ x, on.head? = some x ∧ x > 6) ∧ (∃ x, on.getLast? = some x ∧ x > 6) := by
  obtain ⟨mask, hm⟩ : ∃ mask, mask = (List.range load.length).filter fun i => decide (load.getD i 0 > 6) := ⟨_, rfl⟩
  have hmem : ∀ i, i ∈ mask ↔ i < load.length ∧ load.getD i 0 > 6 := by
    intro i; rw [hm, List.mem_filter, List.mem_range, decide_eq_true_eq]
  have hsort : mask.Pairwise (· < ·) := by rw [hm]; exact List.Pairwise.filter _ List.pairwise_lt_range
  have hne : mask ≠ [] := by
    obtain ⟨x, hx, h6⟩ := h
    obtain ⟨i, hi, rfl⟩ := List.mem_iff_getElem.1 hx
    have : i ∈ mask := (hmem i).2 ⟨hi, by rw [List.getD_eq_getElem _ _ hi]; exact h6⟩
    exact List.ne_nil_of_mem this
  obtain ⟨a, ha⟩ := Option.ne_none_iff_exists'.1 (by simpa using hne : mask.head? ≠ none)
  obtain ⟨b, hb⟩ := Option.ne_none_iff_exists'.1 (by simpa using hne : mask.getLast? ≠ none)
  have ha' := (hmem a).1 (List.mem_of_mem_head? ha)
  have hb' := (hmem b).1 (List.mem_of_mem_getLast? hb)
  have hmin : ∀ i ∈ mask, a ≤ i := by
    intro i hi
    match mask, ha, hsort, hi with
    | c :: rest, ha, hsort, hi =>
      simp only [List.head?_cons, Option.some.injEq] at ha
      subst ha
      rcases List.mem_cons.1 hi with rfl | hi
      · exact le_refl _
      · exact le_of_lt (List.rel_of_pairwise_cons hsort hi)
  have hmax : ∀ i ∈ mask, i ≤ b := by
    intro i hi
    obtain ⟨l', hl'⟩ := List.getLast?_eq_some_iff.1 hb
    rw [hl'] at hi hsort
    rcases List.mem_append.1 hi with hi | hi
    · exact le_of_lt ((List.pairwise_append.1 hsort).2.2 i hi b (by simp))
    · simp at hi; omega
  have hab : a ≤ b := hmin b (List.mem_of_mem_getLast? hb)
  refine ⟨load.take a, (load.take (b + 1)).drop a, load.drop (b + 1), ?_, ?_, ?_, ?_, ?_, ?_⟩
  · unfold cropOn
    rw [← hm]
    simp only [ha, hb]
  · have h1 : load.take a = (load.take (b + 1)).take a := by rw [List.take_take, min_eq_left (by omega)]
    rw [h1, List.take_append_drop, List.take_append_drop]
  · intro x hx
    obtain ⟨i, hi, rfl⟩ := List.mem_iff_getElem.1 hx
    rw [List.length_take] at hi
    rw [List.getElem_take]
    by_contra hc
    have := hmin i ((hmem i).2 ⟨by omega, by rw [List.getD_eq_getElem _ _ (by omega)]; exact not_le.1 hc⟩)
    omega
  · intro x hx
    obtain ⟨i, hi, rfl⟩ := List.mem_iff_getElem.1 hx
    rw [List.length_drop] at hi
    rw [List.getElem_drop]
    by_contra hc
    have := hmax (b + 1 + i) ((hmem _).2 ⟨by omega, by rw [List.getD_eq_getElem _ _ (by omega)]; exact not_le.1 hc⟩)
    omega
  · refine ⟨load.getD a 0, ?_, ha'.2⟩
    have hlt := ha'.1
    rw [List.head?_drop, List.getElem?_take_of_lt (by omega), List.getElem?_eq_getElem hlt, List.getD_eq_getElem _ _ hlt]
  · refine ⟨load.getD b 0, ?_, hb'.2⟩
    have hlt := hb'.1
    rw [List.getLast?_eq_getElem?, List.length_drop, List.length_take, min_eq_left (by omega), List.getElem?_drop,
      show a + (b + 1 - a - 1) = b by omega, List.getElem?_take_of_lt (by omega), List.getElem?_eq_getElem hlt, List.getD_eq_getElem _ _ hlt]

/-- A profile that never exceeds 6 W makes the parsing fail. -/
theorem C83_never_on (load : List Rat) (h : ∀ x ∈ load, x ≤ 6) : cropOn load = .error .indexError := by
  unfold cropOn
  have : (List.range load.length).filter (fun i => decide (load.getD i 0 > 6)) = [] := by
    rw [List.filter_eq_nil_iff]
    intro i hi
    have hi := List.mem_range.1 hi
    rw [List.getD_eq_getElem _ _ hi, decide_eq_true_eq, not_lt]
    exact h _ (List.getElem_mem _)
  simp only [this]
  rfl

example : cropOn [0, 6, 7, 1, 200, 5] = .ok [7, 1, 200] := by decide +kernel

end Demod
