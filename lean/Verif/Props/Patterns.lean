import Verif.Spec.Patterns
import Verif.Props.Sampling
import Mathlib.Tactic.Linarith
import Mathlib.Tactic.FieldSimp
import Mathlib.Tactic.Ring
import Mathlib.Tactic.IntervalCases
import Mathlib.Tactic.NormNum

/-!
# C134: the heating patterns of the households
-/

namespace Demod

/-! ### Draws -/

theorem mcCdf_of_interval (pdf : List Rat) (hnn : ∀ x ∈ pdf, 0 ≤ x) (u : Rat) (h0 : 0 ≤ u) (i : Nat) (hi : i < pdf.length)
    (h1 : (pdf.take i).sum ≤ u) (h2 : u < (pdf.take i).sum + pdf[i]) (hs : u < pdf.sum) :
    mcCdf (cumsum pdf) u = .ok i := by
  have := ((C09_pdf pdf hnn u h0 hs).2 i).2 ⟨hi, h1, h2⟩
  unfold mcFrom1dPdf mcFrom1dCdf at this
  rw [mapM_ok_iff] at this
  exact this.2 0 (by simp) (by simp)

theorem drawFin_uniform (k : Nat) (hk : 0 < k) (u : Rat) (hu : InUnit u) :
    ∃ d : Fin k, drawFin k (List.replicate k (1 / (k : Rat))) u = .ok d ∧ ((d : Nat) : Int) = ⌊(k : Rat) * u⌋ := by
  have hkq : (0 : Rat) < k := by exact_mod_cast hk
  have hf0 : 0 ≤ ⌊(k : Rat) * u⌋ := Int.floor_nonneg.2 (mul_nonneg hkq.le hu.1)
  obtain ⟨i, hi⟩ := Int.eq_ofNat_of_zero_le hf0
  have hle : ((i : Int) : Rat) ≤ (k : Rat) * u := hi ▸ Int.floor_le _
  have hlt : (k : Rat) * u < ((i : Int) : Rat) + 1 := hi ▸ Int.lt_floor_add_one _
  have hik : i < k := by
    have h1 : (k : Rat) * u < k := by nlinarith [hu.2]
    have h2 : ((i : Nat) : Rat) < ((k : Nat) : Rat) := by push_cast at hle; linarith
    exact_mod_cast h2
  have hm : mcCdf (cumsum (List.replicate k (1 / (k : Rat)))) u = .ok i := by
    push_cast at hle hlt
    apply mcCdf_of_interval _ _ u hu.1 i (by simpa using hik)
    · rw [List.take_replicate, List.sum_replicate, min_eq_left hik.le, nsmul_eq_mul, mul_one_div, div_le_iff₀ hkq]
      linarith
    · rw [List.take_replicate, List.sum_replicate, min_eq_left hik.le, nsmul_eq_mul, List.getElem_replicate, mul_one_div,
        ← add_div, lt_div_iff₀ hkq]
      linarith
    · rw [List.sum_replicate, nsmul_eq_mul, mul_one_div, div_self hkq.ne']
      exact hu.2
    · intro x hx
      rw [(List.mem_replicate.1 hx).2]
      positivity
  refine ⟨⟨i, hik⟩, ?_, hi.symm⟩
  unfold drawFin
  rw [hm]
  simp [bind, Except.bind, hik]

theorem drawFin_ten (u : Rat) (hu : InUnit u) :
    ∃ d : Fin 6, drawFin 6 ((1 / 2) :: List.replicate 5 (1 / 10)) u = .ok d ∧ TenMinutes u d := by
  obtain ⟨h0, h1⟩ := hu
  have hnn : ∀ x ∈ ((1 / 2 : Rat) :: List.replicate 5 (1 / 10)), 0 ≤ x := by decide +kernel
  have hsum : ((1 / 2 : Rat) :: List.replicate 5 (1 / 10)).sum = 1 := by decide +kernel
  have key : ∀ (i : Nat) (hi : i < 6) (a b : Rat), (((1 / 2 : Rat) :: List.replicate 5 (1 / 10)).take i).sum = a →
      (((1 / 2 : Rat) :: List.replicate 5 (1 / 10)).take i).sum + (((1 / 2 : Rat) :: List.replicate 5 (1 / 10))[i]'(by simpa using hi)) = b → a ≤ u → u < b →
      drawFin 6 ((1 / 2) :: List.replicate 5 (1 / 10)) u = .ok ⟨i, hi⟩ := by
    intro i hi a b ha hb h2 h3
    unfold drawFin
    rw [mcCdf_of_interval _ hnn u h0 i (by simpa using hi) (by rw [ha]; exact h2) (by rw [hb]; exact h3) (by rw [hsum]; exact h1)]
    simp [bind, Except.bind, hi]
  by_cases hh : u < 1 / 2
  · exact ⟨⟨0, by omega⟩, key 0 (by omega) 0 (1 / 2) (by decide +kernel) (by decide +kernel) h0 hh, .inl ⟨hh, rfl⟩⟩
  · have hge : 1 / 2 ≤ u := not_lt.1 hh
    have hf : ∀ (i : Nat), (1 / 2 + (i : Rat) / 10 ≤ u) → u < 1 / 2 + ((i : Rat) + 1) / 10 →
        (((i + 1 : Nat)) : Int) = 1 + ⌊10 * (u - 1 / 2)⌋ := by
      intro i ha hb
      have : ⌊10 * (u - 1 / 2)⌋ = (i : Int) := by
        rw [Int.floor_eq_iff]
        push_cast
        constructor <;> linarith
      rw [this]; push_cast; ring
    by_cases h2 : u < 6 / 10
    · exact ⟨⟨1, by omega⟩, key 1 (by omega) (1 / 2) (6 / 10) (by decide +kernel) (by decide +kernel) hge h2,
        .inr ⟨hge, hf 0 (by push_cast; linarith) (by push_cast; linarith)⟩⟩
    by_cases h3 : u < 7 / 10
    · exact ⟨⟨2, by omega⟩, key 2 (by omega) (6 / 10) (7 / 10) (by decide +kernel) (by decide +kernel) (not_lt.1 h2) h3,
        .inr ⟨hge, hf 1 (by push_cast; linarith) (by push_cast; linarith)⟩⟩
    by_cases h4 : u < 8 / 10
    · exact ⟨⟨3, by omega⟩, key 3 (by omega) (7 / 10) (8 / 10) (by decide +kernel) (by decide +kernel) (not_lt.1 h3) h4,
        .inr ⟨hge, hf 2 (by push_cast; linarith) (by push_cast; linarith)⟩⟩
    by_cases h5 : u < 9 / 10
    · exact ⟨⟨4, by omega⟩, key 4 (by omega) (8 / 10) (9 / 10) (by decide +kernel) (by decide +kernel) (not_lt.1 h4) h5,
        .inr ⟨hge, hf 3 (by push_cast; linarith) (by push_cast; linarith)⟩⟩
    · exact ⟨⟨5, by omega⟩, key 5 (by omega) (9 / 10) 1 (by decide +kernel) (by decide +kernel) (not_lt.1 h5) h1,
        .inr ⟨hge, hf 4 (by push_cast; linarith) (by push_cast; linarith)⟩⟩

theorem drawFixed_ok (u : UnitDraws) (hu : u.Valid) : ∃ d, drawFixed u = .ok d ∧ DrawnTimes u d := by
  obtain ⟨a1, a2, a3, a4, a5, a6, a7⟩ := hu
  obtain ⟨d1, e1, f1⟩ := drawFin_uniform 4 (by omega) _ a1
  obtain ⟨d2, e2, f2⟩ := drawFin_ten _ a2
  obtain ⟨d3, e3, f3⟩ := drawFin_uniform 2 (by omega) _ a3
  obtain ⟨d4, e4, f4⟩ := drawFin_uniform 20 (by omega) _ a4
  obtain ⟨d5, e5, f5⟩ := drawFin_uniform 20 (by omega) _ a5
  obtain ⟨d6, e6, f6⟩ := drawFin_uniform 5 (by omega) _ a6
  obtain ⟨d7, e7, f7⟩ := drawFin_ten _ a7
  simp only [Nat.cast_ofNat] at e1 e3 e4 e5 e6 f1 f3 f4 f5 f6
  refine ⟨⟨d1, d2, d3, d4, d5, d6, d7⟩, ?_, ⟨f1, f2, f3, f4, f5, f6, f7⟩⟩
  unfold drawFixed
  rw [e1, e2, e3, e4, e5, e6, e7]
  rfl

/-! ### Attribution -/

theorem livingLab_draw (u : Rat) (hu : InUnit u) :
    ∃ i p, mcCdf (cumsum livingLab) u = .ok i ∧ pyGet allPatterns i = .ok p ∧ (shareOf p).1 ≤ u ∧ u < (shareOf p).2 := by
  obtain ⟨h0, h1⟩ := hu
  have hnn : ∀ x ∈ livingLab, 0 ≤ x := by decide +kernel
  have hsum : livingLab.sum = 1 := by decide +kernel
  have key : ∀ (i : Nat) (hi : i < 6) (p : HeatPattern), (livingLab.take i).sum = (shareOf p).1 →
      (livingLab.take i).sum + (livingLab[i]'(by simpa [livingLab] using hi)) = (shareOf p).2 → pyGet allPatterns i = .ok p →
      (shareOf p).1 ≤ u → u < (shareOf p).2 →
      ∃ i p, mcCdf (cumsum livingLab) u = .ok i ∧ pyGet allPatterns i = .ok p ∧ (shareOf p).1 ≤ u ∧ u < (shareOf p).2 :=
    fun i hi p ha hb hp h2 h3 => ⟨i, p, mcCdf_of_interval _ hnn u h0 i (by simpa [livingLab] using hi) (by rw [ha]; exact h2)
      (by rw [hb]; exact h3) (by rw [hsum]; exact h1), hp, h2, h3⟩
  by_cases c1 : u < 6 / 100
  · exact key 0 (by omega) .coolConservers (by decide +kernel) (by decide +kernel) rfl h0 c1
  by_cases c2 : u < 30 / 100
  · exact key 1 (by omega) .steadyAndSavvy (by decide +kernel) (by decide +kernel) rfl (not_lt.1 c1) c2
  by_cases c3 : u < 47 / 100
  · exact key 2 (by omega) .fluctuators (by decide +kernel) (by decide +kernel) rfl (not_lt.1 c2) c3
  by_cases c4 : u < 59 / 100
  · exact key 3 (by omega) .sizzlers (by decide +kernel) (by decide +kernel) rfl (not_lt.1 c3) c4
  by_cases c5 : u < 87 / 100
  · exact key 4 (by omega) .onOffSwitchers (by decide +kernel) (by decide +kernel) rfl (not_lt.1 c4) c5
  · exact key 5 (by omega) .toastyCruisers (by decide +kernel) (by decide +kernel) rfl (not_lt.1 c5) h1

theorem mapM_ofFn {n : Nat} {α β : Type} (f : α → Except PyErr β) (g : Fin n → α) (R : Fin n → β → Prop)
    (h : ∀ i, ∃ b, f (g i) = .ok b ∧ R i b) :
    ∃ l, (List.ofFn g).mapM f = .ok l ∧ l.length = n ∧ ∀ (i : Fin n) (d : β), R i (l.getD i d) ∧ f (g i) = .ok (l.getD i d) := by
  choose b hb hR using h
  refine ⟨List.ofFn b, ?_, by simp, fun i d => ?_⟩
  · rw [mapM_ok_iff]
    refine ⟨by simp, fun k h1 h2 => ?_⟩
    simp only [List.getElem_ofFn]
    exact hb _
  · have : (List.ofFn b).getD i d = b i := by simp [List.getD]
    rw [this]
    exact ⟨hR i, hb i⟩

theorem mapM_ofFn' {n : Nat} {α β γ : Type} (f : α → Except PyErr β) (g : β → Except PyErr γ) (x : Fin n → α) (R : Fin n → γ → Prop)
    (h : ∀ i, ∃ b c, f (x i) = .ok b ∧ g b = .ok c ∧ R i c) :
    ∃ m l, (List.ofFn x).mapM f = .ok m ∧ m.mapM g = .ok l ∧ l.length = n ∧ ∀ (i : Fin n) (d : γ), R i (l.getD i d) := by
  choose b c hb hc hR using h
  refine ⟨List.ofFn b, List.ofFn c, ?_, ?_, by simp, fun i d => ?_⟩
  · rw [mapM_ok_iff]
    refine ⟨by simp, fun k h1 h2 => ?_⟩
    simp only [List.getElem_ofFn]
    exact hb _
  · rw [mapM_ok_iff]
    refine ⟨by simp, fun k h1 h2 => ?_⟩
    simp only [List.getElem_ofFn]
    exact hc _
  · have : (List.ofFn c).getD i d = c i := by simp [List.getD]
    rw [this]
    exact hR i

/-- **C134 (attribution).** With the living lab each household gets the pattern in whose share its draw falls; with
`'random'` one of the six patterns, every one for some draw; with the name of a pattern this pattern; anything else is
rejected. One pattern for each household. -/
theorem C134_attribution {n : Nat} (ints : Fin n → Nat) (us : Fin n → Rat) (hu : ∀ i, InUnit (us i)) :
    (∃ ps, attributePatterns n (.str "living lab") ints us = .ok ps ∧ ps.length = n ∧
      ∀ (i : Fin n) d, (shareOf (ps.getD i d)).1 ≤ us i ∧ us i < (shareOf (ps.getD i d)).2) ∧
    (∃ ps, attributePatterns n (.str "random") ints us = .ok ps ∧ ps.length = n ∧
      ∀ (i : Fin n) d, [HeatPattern.coolConservers, .steadyAndSavvy, .fluctuators, .sizzlers, .onOffSwitchers, .toastyCruisers][ints i % 6]?
        = some (ps.getD i d)) ∧
    (∀ p, ∃ ps, attributePatterns n (.str (nameOf p)) ints us = .ok ps ∧ ps.length = n ∧ ∀ q ∈ ps, q = p) ∧
    (∀ method, method ≠ .str "living lab" → method ≠ .str "random" → (∀ p, method ≠ .str (nameOf p)) →
      attributePatterns n method ints us = .error .valueError) := by
  refine ⟨?_, ?_, ?_, ?_⟩
  · obtain ⟨m, l, h1, h2, h3, h4⟩ := mapM_ofFn' (mcCdf (cumsum livingLab)) (pyGet allPatterns) us
      (fun i p => (shareOf p).1 ≤ us i ∧ us i < (shareOf p).2) (fun i => livingLab_draw (us i) (hu i))
    refine ⟨l, ?_, h3, h4⟩
    unfold attributePatterns
    simp only [show ("living lab" = "random") = False by decide, if_false, if_true, mcFrom1dPdf, mcFrom1dCdf, h1, bind, Except.bind, h2]
  · obtain ⟨l, h1, h2, h3⟩ := mapM_ofFn (fun k => pyGet allPatterns (k % patternLabels.length)) ints
      (fun i p => [HeatPattern.coolConservers, .steadyAndSavvy, .fluctuators, .sizzlers, .onOffSwitchers, .toastyCruisers][ints i % 6]? = some p)
      (by
        intro i
        have h6 : ints i % 6 < 6 := Nat.mod_lt _ (by omega)
        have hl : patternLabels.length = 6 := rfl
        rw [hl]
        generalize ints i % 6 = k at h6 ⊢
        interval_cases k <;> exact ⟨_, rfl, rfl⟩)
    refine ⟨l, ?_, h2, fun i d => (h3 i d).1⟩
    unfold attributePatterns
    simp only [if_true, h1]
  · intro p
    refine ⟨List.replicate n p, ?_, by simp, fun q hq => (List.mem_replicate.1 hq).2⟩
    have hi : pyGet allPatterns (patternLabels.idxOf (nameOf p)) = .ok p := by cases p <;> decide +kernel
    have h1 : nameOf p ≠ "random" := by cases p <;> decide
    have h2 : nameOf p ≠ "living lab" := by cases p <;> decide
    have h3 : nameOf p ∈ patternLabels := by cases p <;> decide
    unfold attributePatterns
    simp only [h1, h2, h3, if_false, if_true]
    rw [mapM_ok_iff]
    refine ⟨by simp, fun k h h' => ?_⟩
    simp only [List.getElem_replicate]
    exact hi
  · intro method h1 h2 h3
    unfold attributePatterns
    cases method with
    | str s =>
      have a1 : s ≠ "living lab" := fun e => h1 (by rw [e])
      have a2 : s ≠ "random" := fun e => h2 (by rw [e])
      have a3 : s ∉ patternLabels := by
        intro hm
        simp only [patternLabels, List.mem_cons, List.not_mem_nil, or_false] at hm
        rcases hm with rfl | rfl | rfl | rfl | rfl | rfl
        · exact h3 .coolConservers rfl
        · exact h3 .steadyAndSavvy rfl
        · exact h3 .fluctuators rfl
        · exact h3 .sizzlers rfl
        · exact h3 .onOffSwitchers rfl
        · exact h3 .toastyCruisers rfl
      simp only [a1, a2, a3, if_false]
    | _ => rfl

/-! ### The simulator -/

/-- One household of the arrays. -/
def VarSim.row {n : Nat} (s : VarSim n) (i : Fin n) : VarThermostat :=
  { pattern := s.pattern i, fixed := s.fixed i, time := s.time, lastOccupancy := s.lastOccupancy i, lastActive := s.lastActive i,
    temperature := s.temperature i }

theorem fluct_other {n : Nat} (s : VarSim n) (m : PatternMove n) (label : HeatPattern) (temps : Fin n → Rat) (i : Fin n)
    (h : s.pattern i ≠ label) : s.updateFluctuators m label temps i = temps i := by
  simp only [VarSim.updateFluctuators, maskPut, h, decide_false, Bool.false_eq_true, if_false]

theorem fluct_own {n : Nat} (s : VarSim n) (m : PatternMove n) (label : HeatPattern) (temps : Fin n → Rat) (i : Fin n)
    (hl : s.pattern i = label) (ht : temps i = s.temperature i) :
    s.updateFluctuators m label temps i = (s.row i).updateFluctuator (m.at i) := by
  subst hl
  simp only [VarSim.updateFluctuators, maskPut, decide_true, if_true, ht]
  rfl

theorem switch_other {n : Nat} (s : VarSim n) (m : PatternMove n) (temps : Fin n → Rat) (i : Fin n)
    (h : s.pattern i ≠ .onOffSwitchers) : s.updateSwitchers m temps i = temps i := by
  simp only [VarSim.updateSwitchers, maskPut, h, decide_false, Bool.false_eq_true, if_false]

theorem switch_own {n : Nat} (s : VarSim n) (m : PatternMove n) (temps : Fin n → Rat) (i : Fin n)
    (h : s.pattern i = .onOffSwitchers) : s.updateSwitchers m temps i = (s.row i).updateSwitcher (m.at i) := by
  have hr : (s.row i).pattern = .onOffSwitchers := h
  simp only [VarSim.updateSwitchers, maskPut, h, decide_true, if_true, VarThermostat.updateSwitcher, hr, PatternMove.at]
  by_cases ho : m.occupancy i > 0 <;> simp [ho]

theorem const_other {n : Nat} (s : VarSim n) (time : Int) (label : HeatPattern) (temps : Fin n → Rat) (i : Fin n)
    (h : s.pattern i ≠ label) : s.updateConstants time label temps i = temps i := by
  simp only [VarSim.updateConstants, maskPut, h, decide_false, Bool.false_eq_true, if_false]

theorem const_own {n : Nat} (s : VarSim n) (time : Int) (label : HeatPattern) (temps : Fin n → Rat) (i : Fin n)
    (hl : s.pattern i = label) (ht : temps i = s.temperature i) :
    s.updateConstants time label temps i = (s.row i).updateConstant time := by
  subst hl
  simp only [VarSim.updateConstants, maskPut, decide_true, if_true, ht]
  rfl

theorem step_temperature {n : Nat} (s : VarSim n) (m : PatternMove n) (i : Fin n) :
    (s.step m).temperature i = ((s.row i).step (m.at i)).temperature := by
  have hr : (s.row i).pattern = s.pattern i := rfl
  have htime : (s.row i).time = s.time := rfl
  unfold VarSim.step VarThermostat.step
  dsimp only
  rw [hr, htime]
  cases hp : s.pattern i with
  | coolConservers =>
    rw [const_other _ _ _ _ _ (by rw [hp]; decide), const_other _ _ _ _ _ (by rw [hp]; decide),
      switch_other _ _ _ _ (by rw [hp]; decide), fluct_other _ _ _ _ _ (by rw [hp]; decide),
      fluct_other _ _ _ _ _ (by rw [hp]; decide), fluct_own _ _ _ _ _ hp rfl]
  | fluctuators =>
    rw [const_other _ _ _ _ _ (by rw [hp]; decide), const_other _ _ _ _ _ (by rw [hp]; decide),
      switch_other _ _ _ _ (by rw [hp]; decide), fluct_other _ _ _ _ _ (by rw [hp]; decide),
      fluct_own _ _ _ _ _ hp (fluct_other _ _ _ _ _ (by rw [hp]; decide))]
  | sizzlers =>
    rw [const_other _ _ _ _ _ (by rw [hp]; decide), const_other _ _ _ _ _ (by rw [hp]; decide),
      switch_other _ _ _ _ (by rw [hp]; decide),
      fluct_own _ _ _ _ _ hp ((fluct_other _ _ _ _ _ (by rw [hp]; decide)).trans (fluct_other _ _ _ _ _ (by rw [hp]; decide)))]
  | onOffSwitchers =>
    rw [const_other _ _ _ _ _ (by rw [hp]; decide), const_other _ _ _ _ _ (by rw [hp]; decide), switch_own _ _ _ _ hp]
  | steadyAndSavvy =>
    rw [const_other _ _ _ _ _ (by rw [hp]; decide), const_own _ _ _ _ _ hp]
    rw [switch_other _ _ _ _ (by rw [hp]; decide), fluct_other _ _ _ _ _ (by rw [hp]; decide),
      fluct_other _ _ _ _ _ (by rw [hp]; decide), fluct_other _ _ _ _ _ (by rw [hp]; decide)]
  | toastyCruisers =>
    rw [const_own _ _ _ _ _ hp]
    rw [const_other _ _ _ _ _ (by rw [hp]; decide), switch_other _ _ _ _ (by rw [hp]; decide),
      fluct_other _ _ _ _ _ (by rw [hp]; decide), fluct_other _ _ _ _ _ (by rw [hp]; decide),
      fluct_other _ _ _ _ _ (by rw [hp]; decide)]

theorem step_row {n : Nat} (s : VarSim n) (m : PatternMove n) (i : Fin n) : (s.step m).row i = (s.row i).step (m.at i) := by
  have h := step_temperature s m i
  calc (s.step m).row i = { (s.row i).step (m.at i) with temperature := (s.step m).temperature i } := rfl
    _ = _ := by rw [h]

theorem run_row {n : Nat} (ms : List (PatternMove n)) : ∀ (s : VarSim n) (i : Fin n),
    (s.run ms).row i = (s.row i).run (ms.map fun m => m.at i) := by
  induction ms with
  | nil => intro s i; rfl
  | cons m ms ih => intro s i; rw [List.map_cons, VarThermostat.run, ← step_row, ← ih]; rfl

/-- **C134 (simulation).** Without optional arguments the simulator can be created for any households and draws; each
household has the pattern in whose published share its draw falls and the times of its draws, and after any history its
thermostat shows what it would show if the household were simulated alone. -/
theorem C134_simulation_partial {n : Nat} (hn : 0 < n) (occ act : Fin n → Nat) (start : Int) (ints : Fin n → Nat) (us : Fin n → Rat)
    (hu : ∀ i, InUnit (us i)) (draws : Fin n → UnitDraws) (hd : ∀ i, (draws i).Valid) :
    ∃ s, VarSim.create n [] [] occ act start ints us draws = .ok s ∧
      ∀ i, ∃ p d, (shareOf p).1 ≤ us i ∧ us i < (shareOf p).2 ∧ DrawnTimes (draws i) d ∧ s.temperature i = p.meanT ∧
        ∀ ms : List (PatternMove n), (s.run ms).temperature i =
          ((VarThermostat.create p d start (occ i) (act i)).run (ms.map fun m => m.at i)).temperature := by
  obtain ⟨ps, hps, -, hp⟩ := (C134_attribution ints us hu).1
  obtain ⟨fs, hfs, -, hf⟩ := mapM_ofFn drawFixed draws (fun i d => DrawnTimes (draws i) d) (fun i => drawFixed_ok (draws i) (hd i))
  have hc : VarSim.create n [] [] occ act start ints us draws = .ok
      { pattern := fun i => ps.getD i .coolConservers
        fixed := fun i => FixedPattern.create (fs.getD i ⟨0, 0, 0, 0, 0, 0, 0⟩)
        time := start, lastOccupancy := occ, lastActive := act
        temperature := fun i => (ps.getD i .coolConservers).meanT } := by
    unfold VarSim.create
    have hb : baseInit n [] [] = .ok () := by
      unfold baseInit bindOne
      simp only [bind, Except.bind, if_neg (show ¬ n = 0 by omega)]
    have hm : bindOne "pattern_attribution_method" (.str "living lab") [] [] = .ok (.str "living lab") := rfl
    simp only [hb, hm, bind, Except.bind, hps, hfs]
  refine ⟨_, hc, fun i => ⟨ps.getD i .coolConservers, fs.getD i ⟨0, 0, 0, 0, 0, 0, 0⟩, (hp i _).1, (hp i _).2, (hf i _).1, rfl, ?_⟩⟩
  intro ms
  have := congrArg VarThermostat.temperature (run_row ms
    { pattern := fun i => ps.getD i .coolConservers
      fixed := fun i => FixedPattern.create (fs.getD i ⟨0, 0, 0, 0, 0, 0, 0⟩)
      time := start, lastOccupancy := occ, lastActive := act
      temperature := fun i => (ps.getD i .coolConservers).meanT } i)
  exact this

/-- The full claim: the documented optional arguments can be given, the attribution method and the logger. -/
def C134_full : Prop := ∀ (n : Nat) (occ act : Fin n → Nat) (start : Int) (ints : Fin n → Nat) (us : Fin n → Rat) (draws : Fin n → UnitDraws),
  0 < n → (∀ i, InUnit (us i)) → (∀ i, (draws i).Valid) →
  (∃ s, VarSim.create n [] [("pattern_attribution_method", .str "random")] occ act start ints us draws = .ok s) ∧
  (∃ s, VarSim.create n [] [("logger", .logger)] occ act start ints us draws = .ok s)

/-- **C134 (counterexample).** The constructor hands the optional arguments both to the parent class and to the
attribution of the patterns, which know different ones: with any optional argument at all, positional or by keyword, the
creation fails, for every number of households and draws. -/
theorem C134_arguments_counterexample {n : Nat} (args : List ArgVal) (kwargs : List (String × ArgVal)) (h : args ≠ [] ∨ kwargs ≠ [])
    (occ act : Fin n → Nat) (start : Int) (ints : Fin n → Nat) (us : Fin n → Rat) (draws : Fin n → UnitDraws) :
    ∃ e, VarSim.create n args kwargs occ act start ints us draws = .error e ∧ (e = .typeError ∨ e = .valueError) := by
  unfold VarSim.create baseInit
  match args, kwargs with
  | [], [] => simp at h
  | [v], [] =>
    by_cases hn : n = 0
    · exact ⟨.valueError, by simp [bindOne, bind, Except.bind, hn], .inr rfl⟩
    · cases v with
      | none => exact ⟨.valueError, by simp [bindOne, bind, Except.bind, hn, attributePatterns], .inr rfl⟩
      | logger => exact ⟨.valueError, by simp [bindOne, bind, Except.bind, hn, attributePatterns], .inr rfl⟩
      | str s => exact ⟨.typeError, by simp [bindOne, bind, Except.bind, hn], .inl rfl⟩
      | other => exact ⟨.typeError, by simp [bindOne, bind, Except.bind, hn], .inl rfl⟩
  | [], [(k, v)] =>
    by_cases hk : k = "logger"
    · by_cases hn : n = 0
      · exact ⟨.valueError, by simp [bindOne, bind, Except.bind, hk, hn], .inr rfl⟩
      · exact ⟨.typeError, by cases v <;> simp [bindOne, bind, Except.bind, hk, hn], .inl rfl⟩
    · exact ⟨.typeError, by simp [bindOne, bind, Except.bind, hk], .inl rfl⟩
  | [], _ :: _ :: _ => exact ⟨.typeError, by simp [bindOne, bind, Except.bind], .inl rfl⟩
  | [_], _ :: _ => exact ⟨.typeError, by simp [bindOne, bind, Except.bind], .inl rfl⟩
  | _ :: _ :: _, [] => exact ⟨.typeError, by simp [bindOne, bind, Except.bind], .inl rfl⟩
  | _ :: _ :: _, _ :: _ => exact ⟨.typeError, by simp [bindOne, bind, Except.bind], .inl rfl⟩

/-- **C134 (no households).** -/
theorem C134_refuses (occ act : Fin 0 → Nat) (start : Int) (ints : Fin 0 → Nat) (us : Fin 0 → Rat) (draws : Fin 0 → UnitDraws) :
    VarSim.create 0 [] [] occ act start ints us draws = .error .valueError := rfl

theorem C134_full_false : ¬ C134_full := by
  intro h
  obtain ⟨s, hs⟩ := (h 1 (fun _ => 0) (fun _ => 0) 0 (fun _ => 0) (fun _ => 0) (fun _ => ⟨0, 0, 0, 0, 0, 0, 0⟩) (by omega)
    (fun _ => ⟨by norm_num, by norm_num⟩)
    (fun _ => ⟨⟨by norm_num, by norm_num⟩, ⟨by norm_num, by norm_num⟩, ⟨by norm_num, by norm_num⟩, ⟨by norm_num, by norm_num⟩,
      ⟨by norm_num, by norm_num⟩, ⟨by norm_num, by norm_num⟩, ⟨by norm_num, by norm_num⟩⟩)).1
  obtain ⟨e, he, -⟩ := C134_arguments_counterexample (n := 1) [] [("pattern_attribution_method", .str "random")] (.inr (by simp))
    (fun _ => 0) (fun _ => 0) 0 (fun _ => 0) (fun _ => 0) (fun _ => ⟨0, 0, 0, 0, 0, 0, 0⟩)
  rw [he] at hs
  cases hs

/-- Non-vacuity for C134: two households, an on-off switcher and a toasty cruiser, who wake up at 7:30. -/
example :
    (match VarSim.create 2 [] [] (fun _ => 1) (fun _ => 0) 0 (fun _ => 0) (fun i => if i = 0 then 6 / 10 else 9 / 10)
        (fun _ => ⟨1 / 3, 7 / 10, 0, 1 / 2, 1 / 2, 9 / 10, 0⟩) with
      | .ok s =>
        let after := s.run [⟨fun _ => 0, fun _ => 0, fun _ => false, fun _ => 0⟩]
        decide (s.pattern 0 = .onOffSwitchers) && decide (s.pattern 1 = .toastyCruisers) && decide ((s.fixed 0).wakeHour = 7) &&
          decide ((s.fixed 0).wakeMinute = 30) && decide (after.temperature 0 = 16) && decide (after.temperature 1 = 21)
      | .error _ => false) = true := by
  decide +kernel

/-- Non-vacuity for C134: the shares are consecutive and fill the interval; these draws are admissible. -/
example : InUnit (6 / 10) ∧ (⟨1 / 3, 7 / 10, 0, 1 / 2, 1 / 2, 9 / 10, 0⟩ : UnitDraws).Valid := by
  unfold UnitDraws.Valid InUnit
  norm_num

end Demod
