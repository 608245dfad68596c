import Verif.Lemmas.Temperature
import Mathlib.Tactic.NormNum

/-!
# Properties of the temperatures of a day: C82
-/

namespace Demod

/-- **C82 (every minute has a temperature).** When there is daylight and night, the temperatures of the day are computed, one for each minute. -/
theorem C82_every_minute (solar td : Rat) (dTd : Rat → Rat) (irr clear : List Rat) (hex : ∃ x ∈ irr, 0 < x) (hnight : ∃ x ∈ irr, x = 0) :
    ∃ ts, tempDay solar td dTd irr clear = .ok ts ∧ ts.length = irr.length ∧ ∀ t ∈ ts, t.isSome := by
  obtain ⟨d, hd⟩ : ∃ d, d = TempDay.mk irr clear solar (td - 1 / 2 * dTd (irr.sum / 1000 * (60 / 3600))) (td + 1 / 2 * dTd (irr.sum / 1000 * (60 / 3600))) := ⟨_, rfl⟩
  have hday : d.daylight ≠ [] := by
    obtain ⟨x, hx, hpos⟩ := hex
    obtain ⟨i, hi, hxi⟩ := List.mem_iff_getElem.1 hx
    refine List.ne_nil_of_mem ((daylight_mem d i).2 ⟨by rw [hd]; exact hi, ?_⟩)
    rw [hd]; simp [TempDay.I, hi, hxi, hpos]
  have hn : d.nights.length ≠ 0 := by
    obtain ⟨x, hx, h0⟩ := hnight
    obtain ⟨i, hi, hxi⟩ := List.mem_iff_getElem.1 hx
    have : i ∈ d.nights := by
      unfold TempDay.nights
      rw [List.mem_filter, List.mem_range]
      refine ⟨by rw [hd]; exact hi, ?_⟩
      rw [hd]; simp [TempDay.I, hi, hxi, h0]
    intro h
    rw [List.length_eq_zero_iff] at h
    rw [h] at this; cases this
  obtain ⟨kx, sr, ss, -, -, -, -, -, -, ev, mo, dT, -, -, -, h⟩ := tempDay_spec solar td dTd irr clear rfl hd hday
  refine ⟨_, h, by simp, fun t ht => ?_⟩
  obtain ⟨i, -, rfl⟩ := List.mem_map.1 ht
  simp only [hn, ne_eq, not_false_eq_true, decide_true, if_true]
  split
  · rfl
  · split <;> rfl

/-- **C82 (polar night).** Without any daylight the temperatures of the day cannot be computed: `ValueError`. -/
theorem C82_polar_night (solar td : Rat) (dTd : Rat → Rat) (irr clear : List Rat) (h : ∀ x ∈ irr, x ≤ 0) : tempDay solar td dTd irr clear = .error .valueError := by
  have hd : ∀ d : TempDay, d.irr = irr → d.daylight = [] := by
    intro d hd
    refine List.eq_nil_iff_forall_not_mem.2 fun i hi => ?_
    obtain ⟨h1, h2⟩ := (daylight_mem d i).1 hi
    rw [hd] at h1
    have := h irr[i] (List.getElem_mem h1)
    unfold TempDay.I at h2
    rw [hd] at h2
    simp [h1] at h2
    linarith
  have := hd ⟨irr, clear, solar, td - 1 / 2 * dTd (irr.sum / 1000 * (60 / 3600)), td + 1 / 2 * dTd (irr.sum / 1000 * (60 / 3600))⟩ rfl
  unfold tempDay
  simp only [this]
  rfl

/-- **C82 (the day).** Let the irradiances not be negative, the range of the day's temperatures be `r ≥ 0` and `td` their centre. In each minute with sun, except for the last one, the temperature is at most `td + r / 2`. It is at least `td - r / 2` until the
minute `m` at which the mean of the irradiance since sunrise is largest and at least `td + r / 2 - 1.7 r` later; at `m` it is `td + r / 2`. -/
theorem C82_day (solar td : Rat) (dTd : Rat → Rat) (irr clear : List Rat) (hs : 0 < solar) (h0 : ∀ x ∈ irr, 0 ≤ x) (r : Rat) (hr : r = dTd (irr.sum / 1000 * (60 / 3600))) (hr0 : 0 ≤ r)
    (ts : List (Option Rat)) (hts : tempDay solar td dTd irr clear = .ok ts) :
    ∃ m : Nat, m < irr.length ∧ 0 < irr.getD m 0 ∧ ∀ i j : Nat, i < j → j < irr.length → 0 < irr.getD i 0 → 0 < irr.getD j 0 →
      ∃ t, ts[i]? = some (some t) ∧ t ≤ td + r / 2 ∧ td + r / 2 - 17 / 10 * r ≤ t ∧ (i ≤ m → td - r / 2 ≤ t) ∧ (i = m → t = td + r / 2) := by
  obtain ⟨d, hd⟩ : ∃ d, d = TempDay.mk irr clear solar (td - 1 / 2 * r) (td + 1 / 2 * r) := ⟨_, rfl⟩
  have hI : ∀ i, d.I i = irr.getD i 0 := by intro i; rw [hd]; rfl
  have hlen : d.irr.length = irr.length := by rw [hd]
  have hI0 : ∀ i, 0 ≤ d.I i := by
    intro i
    rw [hI]
    by_cases hi : i < irr.length
    · have := h0 irr[i] (List.getElem_mem hi)
      simpa [hi] using this
    · simp [not_lt.1 hi]
  have hday : d.daylight ≠ [] := by
    intro hnil
    unfold tempDay at hts
    simp only [← hr, ← hd, hnil] at hts
    cases hts
  obtain ⟨kx, sr, ss, hkm, hkle, hsr, hsrle, hss, hssle, ev, mo, dT, -, -, -, h⟩ := tempDay_spec solar td dTd irr clear hr hd hday
  obtain ⟨m, hm, hkx⟩ := List.mem_map.1 hkm
  have hm' := (daylight_mem d m).1 hm
  refine ⟨m, by rw [← hlen]; exact hm'.1, by rw [← hI]; exact hm'.2, ?_⟩
  intro i j hij hj hi0 hj0
  have hid : i ∈ d.daylight := (daylight_mem d i).2 ⟨by omega, by rw [hI]; exact hi0⟩
  have hjd : j ∈ d.daylight := (daylight_mem d j).2 ⟨by omega, by rw [hI]; exact hj0⟩
  have h1 := hsrle i hid
  have h2 := hssle j hjd
  rw [h] at hts
  cases hts
  have hb := dayTemp_bounds d (by rw [hd]; exact hs) hI0 (by rw [hd]; simp only; linarith) ((daylight_mem d i).1 hid).2 (hkle i hid)
  have hmax : d.tdMax = td + r / 2 := by rw [hd]; simp only; ring
  have hmin : d.tdMin = td - r / 2 := by rw [hd]; simp only; ring
  have hk1 : kx.1 = m := by rw [← hkx]
  have hk2 : kx.2 = d.ratio m := by rw [← hkx]
  rw [hmax, hmin, hk1] at hb
  refine ⟨d.dayTemp kx i, ?_, hb.1, by linarith [hb.2.1], hb.2.2.1, fun him => hb.2.2.2 him (by rw [hk2, him])⟩
  rw [List.getElem?_map, List.getElem?_range (by omega)]
  simp only [Option.map_some]
  rw [if_neg (by omega), if_pos (by omega)]

/-- **C82 (the night).** After the last minute with sun, and over midnight, there are rates of cooling such that each minute is colder than the previous one by the mean rate, less 0.025 degrees times what the sky is cloudier than in the mean of the night. -/
theorem C82_night (solar td : Rat) (dTd : Rat → Rat) (irr clear : List Rat) (ts : List (Option Rat)) (hts : tempDay solar td dTd irr clear = .ok ts) (hnight : ∃ x ∈ irr, x = 0) :
    ∃ rate mean : Rat,
      mean * (irr.count 0 : Rat) = (((List.range irr.length).filter fun i => decide (irr.getD i 0 = 0)).map fun i => clear.getD i 0).sum ∧
      (∀ i : Nat, i + 1 < irr.length → (∀ j : Nat, i ≤ j → j < irr.length → irr.getD j 0 ≤ 0) → ∃ t t', ts[i]? = some (some t) ∧ ts[i + 1]? = some (some t') ∧ t' = t - (rate - 1 / 40 * (mean - clear.getD (i + 1) 0))) ∧
      (∀ i : Nat, (∀ j : Nat, j ≤ i + 1 → irr.getD j 0 ≤ 0) → ∃ t t', ts[i]? = some (some t) ∧ ts[i + 1]? = some (some t') ∧ t' = t - (rate - 1 / 40 * (mean - clear.getD (i + 1) 0))) ∧
      ((irr.getD 0 0 ≤ 0 ∧ irr.getD (irr.length - 1) 0 ≤ 0) → ∃ t t', ts[irr.length - 1]? = some (some t) ∧ ts[0]? = some (some t') ∧ t' = t - (rate - 1 / 40 * (mean - clear.getD 0 0))) := by
  obtain ⟨r, hr⟩ : ∃ r, r = dTd (irr.sum / 1000 * (60 / 3600)) := ⟨_, rfl⟩
  obtain ⟨d, hd⟩ : ∃ d, d = TempDay.mk irr clear solar (td - 1 / 2 * r) (td + 1 / 2 * r) := ⟨_, rfl⟩
  have hI : ∀ i, d.I i = irr.getD i 0 := by intro i; rw [hd]; rfl
  have hK : ∀ i, d.K i = clear.getD i 0 := by intro i; rw [hd]; rfl
  have hlen : d.irr.length = irr.length := by rw [hd]
  have hday : d.daylight ≠ [] := by
    intro hnil
    unfold tempDay at hts
    simp only [← hr, ← hd, hnil] at hts
    cases hts
  have hn : d.nights.length ≠ 0 := by
    obtain ⟨x, hx, h0⟩ := hnight
    obtain ⟨i, hi, hxi⟩ := List.mem_iff_getElem.1 hx
    have : i ∈ d.nights := by
      unfold TempDay.nights
      rw [List.mem_filter, List.mem_range]
      refine ⟨by rw [hd]; exact hi, ?_⟩
      rw [hd]; simp [TempDay.I, hi, hxi, h0]
    intro h
    rw [List.length_eq_zero_iff] at h
    rw [h] at this; cases this
  obtain ⟨kx, sr, ss, -, -, hsr, hsrle, hss, hssle, ev, mo, dT, hev, hmo, -, h⟩ := tempDay_spec solar td dTd irr clear hr hd hday
  rw [h] at hts
  cases hts
  have hsr' := (daylight_mem d sr).1 hsr
  have hss' := (daylight_mem d ss).1 hss
  rw [hI, hlen] at hsr' hss'
  simp only [hn, ne_eq, not_false_eq_true, decide_true, if_true]
  have hget : ∀ (f : Nat → Option Rat) (i : Nat), i < irr.length → ((List.range irr.length).map f)[i]? = some (f i) := by
    intro f i hi
    rw [List.getElem?_map, List.getElem?_range hi]; rfl
  have hsrss := hsrle ss hss
  have hcool : ∀ i, d.cooling dT i = dT / (d.nights.length : Rat) - 1 / 40 * ((d.nights.map d.K).sum / (d.nights.length : Rat) - clear.getD i 0) := by
    intro i; unfold TempDay.cooling; simp only [hK]
  refine ⟨dT / (d.nights.length : Rat), (d.nights.map d.K).sum / (d.nights.length : Rat), ?_, ?_, ?_, ?_⟩
  · have hnn : (d.nights.length : Rat) ≠ 0 := by exact_mod_cast hn
    have hnl : d.nights.length = irr.count 0 := by
      unfold TempDay.nights
      rw [hlen, ← List.countP_eq_length_filter, List.count]
      conv_rhs => rw [show irr = (List.range irr.length).map (fun i => irr.getD i 0) by
        apply List.ext_getElem?
        intro i
        by_cases hi : i < irr.length
        · simp [hi]
        · simp [not_lt.1 hi]]
      rw [List.countP_map]
      refine List.countP_congr fun i _ => ?_
      simp only [Function.comp, hI, decide_eq_true_eq, beq_iff_eq]
    rw [← hnl, div_mul_cancel₀ _ hnn]
    refine congrArg List.sum ?_
    unfold TempDay.nights
    rw [hlen]
    simp only [hI, show d.K = fun i => clear.getD i 0 from funext hK]
  · intro i hi hdark
    have hssi : ss < i := by
      by_contra hlt
      have := hdark ss (by omega) hss'.1
      linarith [hss'.2]
    refine ⟨ev i, ev (i + 1), ?_, ?_, ?_⟩
    · rw [hget _ i (by omega), if_neg (by omega), if_neg (by omega)]
    · rw [hget _ (i + 1) hi, if_neg (by omega), if_neg (by omega)]
    · rw [hev, hev, show i + 1 + 1 - ss = (i + 1 - ss) + 1 by omega, List.range_succ, List.map_append, List.sum_append]
      simp only [List.map_cons, List.map_nil, List.sum_cons, List.sum_nil]
      rw [show ss + (i + 1 - ss) = i + 1 by omega, hcool (i + 1)]
      ring
  · intro i hdark
    have hsri : i + 1 < sr := by
      by_contra hlt
      have := hdark sr (by omega)
      linarith [hsr'.2]
    refine ⟨mo i, mo (i + 1), ?_, ?_, ?_⟩
    · rw [hget _ i (by omega), if_pos (by omega)]
    · rw [hget _ (i + 1) (by omega), if_pos (by omega)]
    · rw [hmo, hmo, List.range_succ (n := i + 1), List.map_append, List.sum_append]
      simp only [List.map_cons, List.map_nil, List.sum_cons, List.sum_nil]
      rw [hcool (i + 1)]
      ring
  · rintro ⟨h00, hlast⟩
    have hsr0 : 0 < sr := by
      rcases Nat.eq_zero_or_pos sr with h' | h'
      · rw [h'] at hsr'; linarith [hsr'.2]
      · exact h'
    have hssl : ss < irr.length - 1 := by
      by_contra hlt
      rw [show irr.length - 1 = ss by omega] at hlast
      linarith [hss'.2]
    refine ⟨ev (irr.length - 1), mo 0, ?_, ?_, ?_⟩
    · rw [hget _ _ (by omega), if_neg (by omega), if_neg (by omega)]
    · rw [hget _ _ (by omega), if_pos hsr0]
    · rw [hmo]
      simp only [Nat.zero_add, List.range_one, List.map_cons, List.map_nil, List.sum_cons, List.sum_nil]
      rw [hcool 0]
      ring

/-- The full statement of C82 for the day: in each minute between sunrise and the last one with sun the temperature is at least `td + r / 2 - 1.7 r`. -/
def C82_full : Prop :=
  ∀ (solar td : Rat) (dTd : Rat → Rat) (irr clear : List Rat), 0 < solar → (∀ x ∈ irr, 0 ≤ x) → (∀ x, 0 ≤ dTd x) → ∀ ts, tempDay solar td dTd irr clear = .ok ts →
    ∀ i j k : Nat, i < j → j < k → 0 < irr.getD i 0 → 0 < irr.getD k 0 → ∃ t, ts[j]? = some (some t) ∧ td + dTd (irr.sum / 1000 * (60 / 3600)) / 2 - 17 / 10 * dTd (irr.sum / 1000 * (60 / 3600)) ≤ t

/-- **C82, minutes without irradiance during the day.** In such a minute (for example with clearness 0) the temperature is 0 degrees, whatever the temperature of the day. -/
theorem C82_zero_irradiance (solar td : Rat) (dTd : Rat → Rat) (irr clear : List Rat) (ts : List (Option Rat)) (hts : tempDay solar td dTd irr clear = .ok ts)
    (i j k : Nat) (hij : i < j) (hjk : j < k) (hi : 0 < irr.getD i 0) (hj : irr.getD j 0 = 0) (hk : 0 < irr.getD k 0) : ts[j]? = some (some 0) := by
  obtain ⟨r, hr⟩ : ∃ r, r = dTd (irr.sum / 1000 * (60 / 3600)) := ⟨_, rfl⟩
  obtain ⟨d, hd⟩ : ∃ d, d = TempDay.mk irr clear solar (td - 1 / 2 * r) (td + 1 / 2 * r) := ⟨_, rfl⟩
  have hI : ∀ i, d.I i = irr.getD i 0 := by intro i; rw [hd]; rfl
  have hlen : d.irr.length = irr.length := by rw [hd]
  have hday : d.daylight ≠ [] := by
    intro hnil
    unfold tempDay at hts
    simp only [← hr, ← hd, hnil] at hts
    cases hts
  obtain ⟨kx, sr, ss, -, -, hsr, hsrle, hss, hssle, ev, mo, dT, -, -, -, h⟩ := tempDay_spec solar td dTd irr clear hr hd hday
  have hkl : k < irr.length := by
    by_contra hlt
    simp [not_lt.1 hlt] at hk
  have h1 := hsrle i ((daylight_mem d i).2 ⟨by omega, by rw [hI]; exact hi⟩)
  have h2 := hssle k ((daylight_mem d k).2 ⟨by omega, by rw [hI]; exact hk⟩)
  rw [h] at hts
  cases hts
  rw [List.getElem?_map, List.getElem?_range (by omega)]
  simp only [Option.map_some]
  rw [if_neg (by omega), if_pos (by omega)]
  unfold TempDay.dayTemp
  simp only
  rw [if_neg (by rw [hI, hj]; simp)]

/-- **C82, negation.** -/
theorem C82_counterexample : ¬ C82_full := by
  intro h
  have hex := C82_every_minute 1 20 (fun _ => 1) [0, 1, 0, 1] [1, 1, 0, 1] ⟨1, by simp, by norm_num⟩ ⟨0, by simp, rfl⟩
  obtain ⟨ts, hts, -, -⟩ := hex
  obtain ⟨t, h1, h2⟩ := h 1 20 (fun _ => 1) [0, 1, 0, 1] [1, 1, 0, 1] (by norm_num) (by simp) (by intro; norm_num) ts hts 1 2 3 (by omega) (by omega) (by simp) (by simp)
  have h3 := C82_zero_irradiance 1 20 (fun _ => 1) [0, 1, 0, 1] [1, 1, 0, 1] ts hts 1 2 3 (by omega) (by omega) (by simp) (by simp) (by simp)
  rw [h3] at h1
  simp only [Option.some.injEq] at h1
  rw [← h1] at h2
  norm_num at h2

/-- A day of six minutes. -/
example : (match tempDay 1 20 (fun _ => 2) [0, 1, 3, 2, 1, 0] [1, 1, 1, 1, 1, 1] with | .ok ts => ts | .error _ => []) = [some (1611 / 80), some 20, some 21, some 21, some (1657 / 80), some (817 / 40)] := by decide +kernel

end Demod
