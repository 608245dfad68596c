import Verif.Lemmas.Bulbs
import Verif.Props.Sampling

/-! # C91: the bulbs of the households -/

namespace Demod

/-- `'randn'`: every household has at least one bulb, as many as the whole part of `mean + std · z`; each bulb has the power of the kind whose interval of the penetrations contains its draw, and the rest of the row is empty. -/
theorem C91_randn (mean std : Rat) (consumptions penetration : List Rat) (hlen : penetration.length ≤ consumptions.length) (hnn : ∀ x ∈ penetration, 0 ≤ x) (hsum : penetration.sum = 1)
    (zs : List Rat) (hz : zs ≠ []) (u : Nat → Nat → Rat) (h0 : ∀ h k, 0 ≤ u h k) (h1 : ∀ h k, u h k < 1) :
    ∃ out, bulbsRandn mean std consumptions penetration zs u = .ok out ∧ out.length = zs.length ∧ ∃ width, ∀ (h : Nat) z, zs[h]? = some z → ∃ row n, out[h]? = some row ∧ row.length = width ∧
      1 ≤ n ∧ n ≤ width ∧ (1 ≤ mean + std * z → (n : Rat) ≤ mean + std * z ∧ mean + std * z < n + 1) ∧ (mean + std * z < 1 → n = 1) ∧
      (∀ k, k < n → ∃ j p, penetration[j]? = some p ∧ (penetration.take j).sum ≤ u h k ∧ u h k < (penetration.take j).sum + p ∧ row[k]? = consumptions[j]?) ∧
      (∀ k, n ≤ k → k < width → row[k]? = some 0) := by
  have hwidth : ∀ (h : Nat) z, zs[h]? = some z → bulbCount mean std z ≤ (zs.map (bulbCount mean std)).foldl max 0 := by
    intro h z hz
    exact (foldl_max_ge _ 0).2 _ (List.mem_map.mpr ⟨z, List.mem_of_getElem? hz, rfl⟩)
  have hrow := fun (h : Nat) (z : Rat) (hh : zs[h]? = some z) => bulbRow_spec consumptions penetration hlen hnn ((zs.map (bulbCount mean std)).foldl max 0) ((List.range (bulbCount mean std z)).map (u h))
    (by intro x hx; obtain ⟨k, -, e⟩ := List.mem_map.mp hx; rw [← e]; exact h0 h k)
    (by intro x hx; obtain ⟨k, -, e⟩ := List.mem_map.mp hx; rw [← e, hsum]; exact h1 h k) (by simpa using hwidth h z hh)
  have hgetD : ∀ (h : Nat) z, zs[h]? = some z → (zs.map (bulbCount mean std)).getD h 0 = bulbCount mean std z := by
    intro h z hh
    simp [List.getD_eq_getElem?_getD, hh]
  obtain ⟨out, hout⟩ := mapM_all_ok (fun h => bulbRow consumptions penetration ((zs.map (bulbCount mean std)).foldl max 0) ((List.range ((zs.map (bulbCount mean std)).getD h 0)).map (u h)))
    (List.range (zs.map (bulbCount mean std)).length) (by
      intro h hh
      have hlt : h < zs.length := by simpa using hh
      obtain ⟨row, hr, -⟩ := hrow h zs[h] (List.getElem?_eq_getElem hlt)
      exact ⟨row, by rw [hgetD h zs[h] (List.getElem?_eq_getElem hlt)]; exact hr⟩)
  obtain ⟨ol, oget⟩ := mapM_ok_get _ _ _ hout
  refine ⟨out, ?_, by rw [ol]; simp, (zs.map (bulbCount mean std)).foldl max 0, fun h z hh => ?_⟩
  · unfold bulbsRandn
    rw [if_neg (by simpa using hz)]
    exact hout
  · have hlt : h < zs.length := (List.getElem?_eq_some_iff.mp hh).1
    obtain ⟨row, hrow1, hrow2⟩ := oget h h (by rw [List.getElem?_range (by simpa using hlt)])
    obtain ⟨row', hr, hl, ha, hb⟩ := hrow h z hh
    rw [hgetD h z hh, hr] at hrow2
    have e := Except.ok.inj hrow2
    subst e
    refine ⟨row', bulbCount mean std z, hrow1, hl, ?_, hwidth h z hh, fun hge => ?_, fun hlt1 => ?_, fun k hk => ?_, fun k hk hkw => ?_⟩
    · unfold bulbCount
      have := le_max_right (truncRat (mean + std * z)) 1
      omega
    · unfold bulbCount truncRat
      rw [if_pos (by linarith)]
      have hf : (1 : Int) ≤ ⌊mean + std * z⌋ := Int.le_floor.mpr (by exact_mod_cast hge)
      rw [max_eq_left hf]
      have hcast : ((⌊mean + std * z⌋.toNat : Nat) : Rat) = ((⌊mean + std * z⌋ : Int) : Rat) := by
        exact_mod_cast congrArg (Int.cast (R := Rat)) (Int.toNat_of_nonneg (by omega))
      rw [hcast]
      exact ⟨Int.floor_le _, Int.lt_floor_add_one _⟩
    · unfold bulbCount
      have : truncRat (mean + std * z) ≤ 1 := by
        unfold truncRat
        split_ifs with hp
        · have : ⌊mean + std * z⌋ < 1 := Int.floor_lt.mpr (by exact_mod_cast hlt1)
          omega
        · have : ⌈mean + std * z⌉ ≤ 0 := Int.ceil_le.mpr (by push_cast; linarith)
          omega
      rw [max_eq_right this]
      rfl
    · exact ha k (u h k) (by simp [hk])
    · exact hb k (by simpa using hk) hkw

example : bulbsRandn 2 1 [60, 10] [1 / 4, 3 / 4] [0, -5, 1 / 2] (fun _ k => if k = 0 then 1 / 2 else 1 / 8) = .ok [[10, 60], [10, 0], [10, 60]] := by decide +kernel

/-- `'config'`: every household gets one of the configurations, the one drawn. -/
theorem C91_config (configurations : List (List (Option Rat))) (rs : List Nat) (hne : configurations ≠ []) (hr : ∀ r ∈ rs, r < configurations.length) :
    ∃ out, bulbsConfig configurations rs = .ok out ∧ out.length = rs.length ∧ ∀ (h : Nat) r, rs[h]? = some r → out[h]? = configurations[r]? := by
  obtain ⟨out, hout⟩ := mapM_all_ok (fun r => pyGet configurations r) rs fun r h => ⟨configurations[r]'(hr r h), by
    unfold pyGet
    rw [List.getElem?_eq_getElem (hr r h)]⟩
  obtain ⟨ol, oget⟩ := mapM_ok_get _ _ _ hout
  refine ⟨out, by unfold bulbsConfig; rw [if_neg hne]; exact hout, ol, fun h r hh => ?_⟩
  obtain ⟨y, hy, hpy⟩ := oget h r hh
  unfold pyGet at hpy
  rw [hy]
  cases hc : configurations[r]? with
  | none => rw [hc] at hpy; cases hpy
  | some w => rw [hc] at hpy; rw [Except.ok.inj hpy]

example : bulbsConfig [[some 60, none], [some 10, some 20]] [1, 0, 1] = .ok [[some 10, some 20], [some 60, none], [some 10, some 20]] := by decide +kernel

/-- The duration of a use of a bulb lies in the interval that the draw selects: `cdf[i-1] ≤ u < cdf[i]`. -/
theorem C91_duration (cdf low high : List Rat) (hmono : cdf.Pairwise (· ≤ ·)) (hne : cdf ≠ []) (hll : low.length = cdf.length) (hhl : high.length = cdf.length)
    (hlh : ∀ (i : Nat) a b, low[i]? = some a → high[i]? = some b → a < b) (u r : Rat) (hu : u < cdf.getLast hne) (h0 : 0 ≤ r) (h1 : r < 1) :
    ∃ d i c a b, drawBulbDuration cdf low high u r = .ok d ∧ cdf[i]? = some c ∧ low[i]? = some a ∧ high[i]? = some b ∧ u < c ∧ (∀ c', 0 < i → cdf[i - 1]? = some c' → c' ≤ u) ∧ a ≤ d ∧ d < b := by
  obtain ⟨⟨i, hi⟩, hiff⟩ := C09_cdf cdf hmono u hne hu
  obtain ⟨hlt, h3, h4⟩ := (hiff i).mp hi
  have ha := List.getElem?_eq_getElem (show i < low.length by omega)
  have hb := List.getElem?_eq_getElem (show i < high.length by omega)
  have hab := hlh i _ _ ha hb
  refine ⟨low[i] + r * (high[i] - low[i]), i, cdf[i], low[i], high[i], ?_, List.getElem?_eq_getElem hlt, ha, hb, h3, fun c' hp hc' => ?_, ?_, ?_⟩
  · unfold drawBulbDuration
    rw [hi]
    change (do let a ← pyGet low i; let b ← pyGet high i; Except.ok (a + r * (b - a))) = _
    unfold pyGet
    rw [ha, hb]
    rfl
  · have := h4 hp
    rw [List.getElem?_eq_getElem (by omega)] at hc'
    rw [← Option.some.inj hc']
    exact this
  · have := mul_nonneg h0 (sub_nonneg.mpr hab.le)
    linarith
  · have : r * (high[i] - low[i]) < 1 * (high[i] - low[i]) := mul_lt_mul_of_pos_right h1 (sub_pos.mpr hab)
    linarith

example : drawBulbDuration [1 / 2, 1] [1, 5] [2, 9] (3 / 4) (1 / 2) = .ok 7 := by decide +kernel

end Demod
