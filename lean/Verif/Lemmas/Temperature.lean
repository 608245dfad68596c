import Verif.Model.Temperature
import Mathlib.Tactic.Linarith
import Mathlib.Tactic.Ring
import Mathlib.Tactic.Positivity
import Mathlib.Tactic.FieldSimp

namespace Demod

theorem firstMax_some : ∀ (l : List (Nat × Rat)), l ≠ [] → ∃ y, firstMax l = some y ∧ y ∈ l ∧ ∀ x ∈ l, x.2 ≤ y.2 := by
  intro l
  induction l with
  | nil => intro h; exact absurd rfl h
  | cons x xs ih =>
    intro _
    by_cases hxs : xs = []
    · subst hxs
      exact ⟨x, rfl, by simp, by simp⟩
    · obtain ⟨y, hy, hm, hle⟩ := ih hxs
      unfold firstMax
      rw [hy]
      by_cases hgt : y.2 > x.2
      · simp only [if_pos hgt]
        refine ⟨y, rfl, List.mem_cons_of_mem _ hm, fun z hz => ?_⟩
        rcases List.mem_cons.1 hz with h | h
        · rw [h]; exact hgt.le
        · exact hle z h
      · simp only [if_neg hgt]
        refine ⟨x, rfl, by simp, fun z hz => ?_⟩
        rcases List.mem_cons.1 hz with h | h
        · rw [h]
        · exact (hle z h).trans (not_lt.1 hgt)

theorem daylight_mem (d : TempDay) (i : Nat) : i ∈ d.daylight ↔ i < d.irr.length ∧ d.I i > 0 := by
  simp [TempDay.daylight, List.mem_filter]

theorem daylight_sorted (d : TempDay) : d.daylight.Pairwise (· < ·) := List.Pairwise.filter _ List.pairwise_lt_range

theorem head_le (l : List Nat) (h : l.Pairwise (· < ·)) {a : Nat} (ha : l.head? = some a) : a ∈ l ∧ ∀ x ∈ l, a ≤ x := by
  cases l with
  | nil => cases ha
  | cons b l =>
    simp only [List.head?_cons, Option.some.injEq] at ha
    subst ha
    refine ⟨by simp, fun x hx => ?_⟩
    rcases List.mem_cons.1 hx with h' | h'
    · rw [h']
    · exact ((List.pairwise_cons.1 h).1 x h').le

theorem le_last (l : List Nat) (h : l.Pairwise (· < ·)) {a : Nat} (ha : l.getLast? = some a) : a ∈ l ∧ ∀ x ∈ l, x ≤ a := by
  obtain ⟨l', rfl⟩ := List.getLast?_eq_some_iff.1 ha
  refine ⟨by simp, fun x hx => ?_⟩
  rw [List.mem_append] at hx
  rcases hx with h' | h'
  · exact ((List.pairwise_append.1 h).2.2 x h' a (by simp)).le
  · simp at h'; omega

/-- The case of a day with daylight. -/
theorem tempDay_spec (solar td : Rat) (dTd : Rat → Rat) (irr clear : List Rat) {r : Rat} (hr : r = dTd (irr.sum / 1000 * (60 / 3600)))
    {d : TempDay} (hd : d = ⟨irr, clear, solar, td - 1 / 2 * r, td + 1 / 2 * r⟩) (hex : d.daylight ≠ []) :
    ∃ kx sunrise sunset, (kx ∈ d.daylight.map fun i => (i, d.ratio i)) ∧ (∀ i ∈ d.daylight, d.ratio i ≤ kx.2) ∧
      sunrise ∈ d.daylight ∧ (∀ i ∈ d.daylight, sunrise ≤ i) ∧ sunset ∈ d.daylight ∧ (∀ i ∈ d.daylight, i ≤ sunset) ∧
      ∃ evening morning : Nat → Rat, ∃ dT,
        (∀ i, evening i = d.dayTemp kx (if sunset = 0 then irr.length - 1 else sunset - 1) - ((List.range (i + 1 - sunset)).map fun j => d.cooling dT (sunset + j)).sum) ∧
        (∀ i, morning i = evening (irr.length - 1) - ((List.range (i + 1)).map (d.cooling dT)).sum) ∧ dT = d.dayTemp kx sunset - d.dayTemp kx sunrise ∧
        tempDay solar td dTd irr clear = .ok ((List.range irr.length).map fun i =>
          if i < sunrise then (if decide (d.nights.length ≠ 0) then some (morning i) else none)
          else if i < sunset then some (d.dayTemp kx i)
          else if decide (d.nights.length ≠ 0) then some (evening i) else none) := by
  have hne : (d.daylight.map fun i => (i, d.ratio i)) ≠ [] := by simpa using hex
  obtain ⟨kx, hkx, hkm, hkle⟩ := firstMax_some _ hne
  obtain ⟨sunrise, hsr⟩ : ∃ a, d.daylight.head? = some a := by
    cases h : d.daylight with
    | nil => exact absurd h hex
    | cons a l => exact ⟨a, rfl⟩
  obtain ⟨sunset, hss⟩ : ∃ a, d.daylight.getLast? = some a := ⟨_, List.getLast?_eq_some_getLast hex⟩
  have h1 := head_le _ (daylight_sorted d) hsr
  have h2 := le_last _ (daylight_sorted d) hss
  refine ⟨kx, sunrise, sunset, hkm, fun i hi => hkle (i, d.ratio i) (List.mem_map.2 ⟨i, hi, rfl⟩), h1.1, h1.2, h2.1, h2.2, _, _, _, fun i => rfl, fun i => rfl, rfl, ?_⟩
  unfold tempDay
  simp only [← hr, ← hd, hkx, hsr, hss]

theorem extraterrestrial_pos (d : TempDay) (hs : 0 < d.solar) {i : Nat} (hi : d.I i > 0) : 0 < d.extraterrestrial i := by
  unfold TempDay.extraterrestrial
  rw [List.range_succ, List.map_append, List.sum_append]
  have h0 : 0 ≤ ((List.range i).map fun j => if d.I j > 0 then d.solar else 0).sum := by
    refine List.sum_nonneg fun x hx => ?_
    obtain ⟨j, -, rfl⟩ := List.mem_map.1 hx
    split
    · exact hs.le
    · exact le_refl _
  simp only [List.map_cons, List.map_nil, List.sum_cons, List.sum_nil, if_pos hi]
  linarith

theorem radiation_pos (d : TempDay) (h0 : ∀ j, 0 ≤ d.I j) {i : Nat} (hi : d.I i > 0) : 0 < d.radiation i := by
  unfold TempDay.radiation
  rw [List.range_succ, List.map_append, List.sum_append]
  have h0 : 0 ≤ ((List.range i).map d.I).sum := by
    refine List.sum_nonneg fun x hx => ?_
    obtain ⟨j, -, rfl⟩ := List.mem_map.1 hx
    exact h0 j
  simp only [List.map_cons, List.map_nil, List.sum_cons, List.sum_nil]
  linarith

theorem ratio_pos (d : TempDay) (hs : 0 < d.solar) (h0 : ∀ j, 0 ≤ d.I j) {i : Nat} (hi : d.I i > 0) : 0 < d.ratio i :=
  div_pos (radiation_pos d h0 hi) (extraterrestrial_pos d hs hi)

theorem dayTemp_bounds (d : TempDay) (hs : 0 < d.solar) (h0 : ∀ j, 0 ≤ d.I j) (hT : d.tdMin ≤ d.tdMax) {kx : Nat × Rat} {i : Nat} (hi : d.I i > 0) (hle : d.ratio i ≤ kx.2) :
    d.dayTemp kx i ≤ d.tdMax ∧ d.tdMax - 17 / 10 * (d.tdMax - d.tdMin) ≤ d.dayTemp kx i ∧ (i ≤ kx.1 → d.tdMin ≤ d.dayTemp kx i) ∧ (i = kx.1 → d.ratio i = kx.2 → d.dayTemp kx i = d.tdMax) := by
  have hr := ratio_pos d hs h0 hi
  have hk : 0 < kx.2 := lt_of_lt_of_le hr hle
  obtain ⟨q, hq⟩ : ∃ q, q = d.ratio i / kx.2 := ⟨_, rfl⟩
  have hq0 : 0 ≤ q := by rw [hq]; positivity
  have hq1 : q ≤ 1 := by rw [hq]; exact (div_le_one₀ hk).2 hle
  have e1 : (d.tdMax - d.tdMin) / kx.2 * d.ratio i = (d.tdMax - d.tdMin) * q := by rw [hq]; ring
  have e2 : (d.tdMax - d.tdMin) / kx.2 * (17 / 10) * (kx.2 - d.ratio i) = (d.tdMax - d.tdMin) * (17 / 10) * (1 - q) := by
    rw [hq]; field_simp
  have hD : 0 ≤ d.tdMax - d.tdMin := by linarith
  unfold TempDay.dayTemp
  simp only [if_pos hi]
  refine ⟨?_, ?_, ?_, ?_⟩
  · split
    · rw [e1]; nlinarith
    · rw [e2]; nlinarith
  · split
    · rw [e1]; nlinarith
    · rw [e2]; nlinarith
  · intro h; rw [if_pos h, e1]; nlinarith
  · intro h hrk
    rw [if_pos h.le, e1, hq, hrk, div_self hk.ne']; ring

end Demod
