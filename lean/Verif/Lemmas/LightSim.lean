import Verif.Spec.LightSim
import Verif.Props.Bulbs
import Verif.Lemmas.ProbActSim
import Verif.Lemmas.OccSimGet
import Verif.Lemmas.Metrics

/-! # Lemmas on the whole lighting simulator -/

namespace Demod

theorem drawBulb_ok (L : LightData) (hL : LightDataOk L) (u r : Rat) (hu : u < 1) (h0 : 0 ≤ r) : ∃ d, drawBulbDuration L.cdf L.low L.high u r = .ok d ∧ DrawnDuration L u r d ∧ 0 ≤ d := by
  have hne : L.cdf ≠ [] := by
    intro c
    have := hL.complete
    rw [c] at this
    cases this
  have hlast : L.cdf.getLast hne = 1 := by
    have := hL.complete
    rw [List.getLast?_eq_some_getLast hne] at this
    exact Option.some.inj this
  obtain ⟨⟨i, hi⟩, hiff⟩ := C09_cdf L.cdf hL.sorted u hne (by rw [hlast]; exact hu)
  obtain ⟨hlt, h3, h4⟩ := (hiff i).mp hi
  have l1 := hL.lows
  have l2 := hL.highs
  have ha := List.getElem?_eq_getElem (show i < L.low.length by omega)
  have hb := List.getElem?_eq_getElem (show i < L.high.length by omega)
  have hab := hL.ordered i _ _ ha hb
  refine ⟨L.low[i] + r * (L.high[i] - L.low[i]), ?_, ⟨i, L.cdf[i], L.low[i], L.high[i], List.getElem?_eq_getElem hlt, ha, hb, h3, fun c' hp hc' => ?_, rfl⟩, ?_⟩
  · unfold drawBulbDuration
    rw [hi]
    change (do let a ← pyGet L.low i; let b ← pyGet L.high i; Except.ok (a + r * (b - a))) = _
    unfold pyGet
    rw [ha, hb]
    rfl
  · have := h4 hp
    rw [List.getElem?_eq_getElem (by omega)] at hc'
    rw [← Option.some.inj hc']
    exact this
  · have := mul_nonneg h0 (sub_nonneg.mpr hab)
    have := hL.nonneg _ (List.mem_of_getElem? ha)
    linarith

namespace LightSim

/-- An entry of the array of the times left. -/
def lft (s : LightSim) (h b : Nat) : Int := (s.left.getD h []).getD b 0

/-- The times left at the beginning of a step. -/
def decreased (x : Int) : Int := if x > 0 then x - 1 else x

/-- Whether it is dark for a bulb in a step. -/
def isDark (s : LightSim) (irradiance : Rat) (d : LightDraws) (h b : Nat) : Bool := decide (irradiance < s.threshold.getD h 0) || decide (d.u1 h b < 1 / 20)

/-- The bulbs that can be switched on in a step. -/
def freeList (s : LightSim) (i : List Nat × Rat × LightDraws) : List (Nat × Nat) :=
  trueAt ((s.left.map fun r => r.map fun x => if x > 0 then x - 1 else x).zipIdx.map fun r => r.1.zipIdx.map fun q => (decide (i.2.1 < s.threshold.getD r.2 0) || decide (i.2.2.u1 r.2 q.2 < 1 / 20)) && decide (q.1 = 0))

/-- The effective occupancies. -/
def effectives (s : LightSim) (active : List Nat) : List Rat := active.map fun k => s.lighting.effective.getD k 0

/-- The bulbs that are switched on in a step. -/
def onList (s : LightSim) (i : List Nat × Rat × LightDraws) : List (Nat × Nat) := ProbActSim.chosen i.2.2.u2 (s.prob (s.effectives i.1)) (s.freeList i)

/-- The arrays have a row per household and a column per bulb. -/
structure Shaped (n w : Nat) (s : LightSim) : Prop where
  bulbs : Rect n w s.bulbs
  relUse : Rect n w s.relUse
  left : Rect n w s.left
  threshold : s.threshold.length = n

theorem mem_freeList (s : LightSim) (i : List Nat × Rat × LightDraws) (h b : Nat) : (h, b) ∈ s.freeList i ↔ (ent s.left h b).map decreased = some 0 ∧ s.isDark i.2.1 i.2.2 h b = true := by
  unfold freeList
  rw [mem_trueAt, ent_mapIdx _ (fun h b (x : Int) => (decide (i.2.1 < s.threshold.getD h 0) || decide (i.2.2.u1 h b < 1 / 20)) && decide (x = 0)) h b, ent_map]
  cases ent s.left h b with
  | none => simp
  | some x =>
    rw [Option.map_some, Option.map_some, Option.map_some]
    unfold isDark decreased
    simp only [Option.some.injEq, Bool.and_eq_true, decide_eq_true_eq, Bool.or_eq_true]
    exact and_comm

theorem mem_onList (s : LightSim) (i : List Nat × Rat × LightDraws) (q : Nat × Nat) : q ∈ s.onList i ↔ q ∈ s.freeList i ∧ i.2.2.u2 ((s.freeList i).idxOf q) < s.prob (s.effectives i.1) q :=
  mem_chosen_nodup _ _ _ (trueAt_nodup _) q

theorem chosen_nodup (u : Nat → Rat) (p : Nat × Nat → Rat) (at' : List (Nat × Nat)) (hnd : at'.Nodup) : (ProbActSim.chosen u p at').Nodup := by
  unfold ProbActSim.chosen
  have h1 : at'.zipIdx.map (fun q => q.1) = at' := by
    rw [show (fun q : (Nat × Nat) × Nat => q.1) = Prod.fst from rfl, List.zipIdx_map_fst]
  have h2 : ((at'.zipIdx.filter fun q => decide (u q.2 < p q.1)).map fun q => q.1).Sublist at' := by
    conv_rhs => rw [← h1]
    exact List.Sublist.map _ List.filter_sublist
  exact hnd.sublist h2

/-- What a step does to an entry. -/
theorem update_spec (n w : Nat) (s : LightSim) (hs : Shaped n w s) (hL : LightDataOk s.lighting) (i : List Nat × Rat × LightDraws) (hi : LightInputOk n s.lighting i) :
    ∃ s', s.update i.1 i.2.1 i.2.2 = .ok s' ∧ Shaped n w s' ∧ s'.lighting = s.lighting ∧ s'.bulbs = s.bulbs ∧ s'.relUse = s.relUse ∧ s'.threshold = s.threshold ∧
      ∀ h b k, h < n → b < w → i.1[h]? = some k →
        (k = 0 → s'.lft h b = 0) ∧
        (k ≠ 0 → (h, b) ∈ s.onList i → ∃ d, DrawnDuration s.lighting (i.2.2.interval ((s.onList i).idxOf (h, b))) (i.2.2.place ((s.onList i).idxOf (h, b))) d ∧ 0 ≤ d ∧ s'.lft h b = ⌊d⌋) ∧
        (k ≠ 0 → (h, b) ∉ s.onList i → s'.lft h b = decreased (s.lft h b)) := by
  have heff : i.1.mapM (fun k => pyGet s.lighting.effective k) = .ok (s.effectives i.1) := by
    refine mapM_ok_map _ _ _ ?_
    intro k hk
    unfold pyGet
    rw [List.getD_eq_getElem?_getD, List.getElem?_eq_getElem (hi.known k hk)]
    rfl
  have hdur : ∀ j, ∃ d, drawBulbDuration s.lighting.cdf s.lighting.low s.lighting.high (i.2.2.interval j) (i.2.2.place j) = .ok d ∧ DrawnDuration s.lighting (i.2.2.interval j) (i.2.2.place j) d ∧ 0 ≤ d :=
    fun j => drawBulb_ok _ hL _ _ (hi.interval j) (hi.place j).1
  choose D hD using hdur
  have hdurs : (List.range (s.onList i).length).mapM (fun j => drawBulbDuration s.lighting.cdf s.lighting.low s.lighting.high (i.2.2.interval j) (i.2.2.place j)) = .ok ((List.range (s.onList i).length).map D) :=
    mapM_ok_map _ _ _ fun j _ => (hD j).1
  obtain ⟨L1, hL1⟩ : ∃ L1, L1 = s.left.map fun r => r.map fun x => if x > 0 then x - 1 else x := ⟨_, rfl⟩
  have hL1r : Rect n w L1 := by rw [hL1]; exact rect_map hs.left _
  obtain ⟨L2, hL2⟩ : ∃ L2, L2 = setEntries L1 (s.onList i) (((List.range (s.onList i).length).map D).map truncRat) := ⟨_, rfl⟩
  have hL2r : Rect n w L2 := by rw [hL2]; exact rect_setEntries _ _ hL1r
  refine ⟨{ s with left := (L2.zip i.1).map fun q => if q.2 = 0 then q.1.map fun _ => 0 else q.1 }, ?_, ⟨hs.bulbs, hs.relUse, ⟨?_, ?_⟩, hs.threshold⟩, rfl, rfl, rfl, rfl, ?_⟩
  · unfold update
    simp only [bind, Except.bind, heff]
    rw [if_neg (by rw [hs.threshold, hi.length]; simp)]
    have e1 := hdurs
    unfold onList freeList at e1
    beta_reduce at e1
    simp only [e1]
    rw [hL2, hL1]
    rfl
  · simp [hL2r.1, hi.length]
  · intro r hr
    obtain ⟨⟨r', k⟩, hq, rfl⟩ := List.mem_map.1 hr
    have := hL2r.2 r' (List.of_mem_zip hq).1
    by_cases hk : k = 0
    · simp [hk, this]
    · simp [hk, this]
  · intro h b k hh hb hk
    obtain ⟨r, hr, hrl⟩ := hL2r.row hh
    have hrow : ((L2.zip i.1).map fun q => if q.2 = 0 then q.1.map fun _ => (0 : Int) else q.1)[h]? = some (if k = 0 then r.map fun _ => 0 else r) := by
      rw [List.getElem?_map, zip_get (z := (r, k)) hr hk]
      rfl
    have hrb : r[b]? = some r[b] := List.getElem?_eq_getElem (by omega)
    have hent : ent L2 h b = some r[b] := by unfold ent; rw [hr]; exact hrb
    have hl : ∀ x : Int, (if k = 0 then r.map fun _ => 0 else r).getD b 0 = x → ({ s with left := (L2.zip i.1).map fun q => if q.2 = 0 then q.1.map fun _ => 0 else q.1 } : LightSim).lft h b = x := by
      intro x hx
      unfold lft
      simp only
      rw [List.getD_eq_getElem?_getD (i := h), hrow]
      exact hx
    refine ⟨fun k0 => ?_, fun k0 hon => ?_, fun k0 hon => ?_⟩
    · apply hl
      rw [if_pos k0, List.getD_eq_getElem?_getD, List.getElem?_map, hrb]
      rfl
    · have hlt := List.idxOf_lt_length_iff.2 hon
      refine ⟨D ((s.onList i).idxOf (h, b)), (hD _).2.1, (hD _).2.2, ?_⟩
      apply hl
      rw [if_neg k0, List.getD_eq_getElem?_getD, hrb]
      have := setEntries_hit (s.onList i) (((List.range (s.onList i).length).map D).map truncRat) hL1r (chosen_nodup _ _ _ (trueAt_nodup _)) h b hh hb ((s.onList i).idxOf (h, b)) (truncRat (D ((s.onList i).idxOf (h, b))))
        (List.getElem?_idxOf hon) (by rw [List.getElem?_map, List.getElem?_map, List.getElem?_range hlt]; rfl)
      rw [← hL2, hent] at this
      rw [Option.getD_some, Option.some.inj this, truncRat_of_nonneg (hD _).2.2]
    · apply hl
      rw [if_neg k0, List.getD_eq_getElem?_getD, hrb]
      have := setEntries_miss (s.onList i) (((List.range (s.onList i).length).map D).map truncRat) hL1r h b hh hb hon
      obtain ⟨x, ex⟩ := hs.left.ent hh hb
      rw [← hL2, hent, hL1, ent_map, ex] at this
      rw [Option.getD_some, Option.some.inj this]
      unfold lft
      rw [ent_getD ex]
      rfl

/-- The next state of a lamp, from the times left before and after. -/
def lampNext (l : Lamp) (x x' : Int) : Lamp := if x' ≤ 0 then none else if 1 < x then l.map fun q => (q.1 + 1, q.2) else some (0, x'.toNat)

/-- The lamps and the times left. -/
def LampOk (l : Lamp) (x : Int) : Prop := (l = none ∧ x = 0) ∨ ∃ k m : Nat, l = some (k, m) ∧ k < m ∧ x = (m : Int) - k

theorem lamp_step {l : Lamp} {x : Int} (hl : LampOk l x) (k : Nat) (x' : Int) (on : Prop) (d : Rat) (hon : on → decreased x = 0) (h0 : k = 0 → x' = 0) (h1 : k ≠ 0 → on → 0 ≤ d ∧ x' = ⌊d⌋) (h2 : k ≠ 0 → ¬ on → x' = decreased x) :
    LampStep k on ⌊d⌋.toNat l (lampNext l x x') ∧ LampOk (lampNext l x x') x' := by
  have hfree : l.free ↔ x ≤ 1 := by
    rcases hl with ⟨rfl, hx⟩ | ⟨j, m, rfl, hjm, hx⟩
    · refine iff_of_true ?_ (by omega)
      intro _ _ h
      cases h
    · constructor
      · intro h
        have := h j m rfl
        omega
      · intro h j' m' e
        obtain ⟨rfl, rfl⟩ := Prod.mk.inj (Option.some.inj e)
        omega
  have hx0 : 0 ≤ x := by
    rcases hl with ⟨-, hx⟩ | ⟨j, m, -, hjm, hx⟩ <;> omega
  by_cases hk : k = 0
  · have := h0 hk
    have e : lampNext l x x' = none := by unfold lampNext; rw [if_pos (by omega)]
    rw [e]
    exact ⟨⟨fun _ => rfl, fun c => absurd hk c, fun c => absurd hk c, fun c => absurd hk c⟩, Or.inl ⟨rfl, this⟩⟩
  by_cases ho : on
  · obtain ⟨hd, hx'⟩ := h1 hk ho
    have hx1 : x ≤ 1 := by
      have := hon ho
      unfold decreased at this
      split at this <;> omega
    have hfl : 0 ≤ ⌊d⌋ := Int.floor_nonneg.2 hd
    have e : lampNext l x x' = if ⌊d⌋.toNat = 0 then none else some (0, ⌊d⌋.toNat) := by
      unfold lampNext
      by_cases hz : ⌊d⌋.toNat = 0
      · rw [if_pos hz, if_pos (by omega)]
      · rw [if_neg hz, if_neg (by omega), if_neg (by omega), hx']
    refine ⟨⟨fun c => absurd c hk, fun _ j m hjm hlt => ?_, fun _ _ _ => e, fun _ _ c => absurd ho c⟩, ?_⟩
    · have := hfree.2 hx1 j m hjm
      omega
    · rw [e]
      by_cases hz : ⌊d⌋.toNat = 0
      · rw [if_pos hz]
        exact Or.inl ⟨rfl, by omega⟩
      · rw [if_neg hz]
        exact Or.inr ⟨0, _, rfl, by omega, by omega⟩
  · have hx' := h2 hk ho
    unfold decreased at hx'
    refine ⟨⟨fun c => absurd c hk, fun _ j m hjm hlt => ?_, fun _ _ c => absurd c ho, fun _ hf _ => ?_⟩, ?_⟩
    · rcases hl with ⟨rfl, -⟩ | ⟨j', m', rfl, hjm', hx⟩
      · cases hjm
      obtain ⟨rfl, rfl⟩ := Prod.mk.inj (Option.some.inj hjm)
      unfold lampNext
      rw [if_pos (by omega)] at hx'
      rw [if_neg (by omega), if_pos (by omega)]
      rfl
    · have := hfree.1 hf
      unfold lampNext
      rw [if_pos]
      split at hx' <;> omega
    · unfold lampNext
      rcases hl with ⟨rfl, hx⟩ | ⟨j, m, rfl, hjm, hx⟩
      · have : x' = 0 := by split at hx' <;> omega
        rw [if_pos (by omega)]
        exact Or.inl ⟨rfl, this⟩
      · rw [if_pos (by omega)] at hx'
        by_cases hj : j + 1 < m
        · rw [if_neg (by omega), if_pos (by omega)]
          exact Or.inr ⟨j + 1, m, rfl, hj, by push_cast; omega⟩
        · rw [if_pos (by omega)]
          exact Or.inl ⟨rfl, by omega⟩

/-- The lamps after a history of steps. -/
def lampAfter : LightSim → (Nat → Nat → Lamp) → List (List Nat × Rat × LightDraws) → Nat → Nat → Lamp
  | _, l, [] => l
  | s, l, i :: is => match s.update i.1 i.2.1 i.2.2 with
    | .ok s' => lampAfter s' (fun h b => lampNext (l h b) (s.lft h b) (s'.lft h b)) is
    | .error _ => l

/-- The simulator after a history of steps. -/
def after (s : LightSim) (hist : List (List Nat × Rat × LightDraws)) : LightSim := match run s hist with
  | .ok q => q.1
  | .error _ => s

theorem run_append (i : List Nat × Rat × LightDraws) (s1 s2 : LightSim) : ∀ (hist : List (List Nat × Rat × LightDraws)) (s : LightSim) (l : Nat → Nat → Lamp) (log : List (List Rat)), run s hist = .ok (s1, log) → s1.update i.1 i.2.1 i.2.2 = .ok s2 →
    run s (hist ++ [i]) = .ok (s2, log ++ [s1.powerDemand]) ∧ lampAfter s l (hist ++ [i]) = fun h b => lampNext (lampAfter s l hist h b) (s1.lft h b) (s2.lft h b) := by
  intro hist
  induction hist with
  | nil =>
    intro s l log h1 h2
    obtain ⟨rfl, rfl⟩ := Prod.mk.inj (Except.ok.inj h1)
    constructor
    · simp only [List.nil_append, run, step, bind, Except.bind, h2]
    · simp only [List.nil_append, lampAfter, h2]
  | cons j hist ih =>
    intro s l log h1 h2
    simp only [run, step, bind, Except.bind] at h1
    cases hj : s.update j.1 j.2.1 j.2.2 with
    | error err => rw [hj] at h1; cases h1
    | ok s' =>
      rw [hj] at h1
      simp only at h1
      cases hr : run s' hist with
      | error err => rw [hr] at h1; cases h1
      | ok q =>
        rw [hr] at h1
        simp only at h1
        obtain ⟨e1, e2⟩ := Prod.mk.inj (Except.ok.inj h1)
        obtain ⟨k1, k2⟩ := ih s' (fun h b => lampNext (l h b) (s.lft h b) (s'.lft h b)) q.2 (by rw [hr, ← e1]) h2
        constructor
        · rw [List.cons_append]
          simp only [run, step, bind, Except.bind, hj, k1]
          rw [← e2]
          rfl
        · rw [List.cons_append]
          simp only [lampAfter, hj]
          exact k2

/-- What holds after each step. -/
structure RunInv (n w : Nat) (s0 : LightSim) (l : Nat → Nat → Lamp) (s : LightSim) : Prop where
  shaped : Shaped n w s
  lighting : s.lighting = s0.lighting
  bulbs : s.bulbs = s0.bulbs
  relUse : s.relUse = s0.relUse
  threshold : s.threshold = s0.threshold
  lamps : ∀ h b p, h < n → b < w → ent s0.bulbs h b = some (some p) → LampOk (l h b) (s.lft h b)

theorem rankOf_mem {L : List (Nat × Nat)} {q : Nat × Nat} (h : q ∈ L) : OccSim.rankOf L q = L.idxOf q := by unfold OccSim.rankOf; rw [if_pos h]

/-- One step of all the lamps. -/
theorem run_step (n w : Nat) (s0 : LightSim) (hL : LightDataOk s0.lighting) (l : Nat → Nat → Lamp) (s : LightSim) (hi : RunInv n w s0 l s) (i : List Nat × Rat × LightDraws) (hin : LightInputOk n s0.lighting i) :
    ∃ s', s.update i.1 i.2.1 i.2.2 = .ok s' ∧ RunInv n w s0 (fun h b => lampNext (l h b) (s.lft h b) (s'.lft h b)) s' ∧
      ∀ h b p k e t v, h < n → b < w → ent s0.bulbs h b = some (some p) → i.1[h]? = some k → s0.lighting.effective[k]? = some e → s0.threshold[h]? = some t → ent s0.relUse h b = some v →
        ∃ d, DrawnDuration s0.lighting (i.2.2.interval (OccSim.rankOf (s.onList i) (h, b))) (i.2.2.place (OccSim.rankOf (s.onList i) (h, b))) d ∧
        LampStep k ((i.2.1 < t ∨ i.2.2.u1 h b < 1 / 20) ∧ i.2.2.u2 (OccSim.rankOf (s.freeList i) (h, b)) < e * v * s0.lighting.calibration) ⌊d⌋.toNat (l h b) (lampNext (l h b) (s.lft h b) (s'.lft h b)) := by
  obtain ⟨s', e', k1, k2, k3, k4, k5, hent⟩ := update_spec n w s hi.shaped (by rw [hi.lighting]; exact hL) i (by rw [hi.lighting]; exact hin)
  have key : ∀ h b p k e t v, h < n → b < w → ent s0.bulbs h b = some (some p) → i.1[h]? = some k → s0.lighting.effective[k]? = some e → s0.threshold[h]? = some t → ent s0.relUse h b = some v →
      ∃ d, DrawnDuration s0.lighting (i.2.2.interval (OccSim.rankOf (s.onList i) (h, b))) (i.2.2.place (OccSim.rankOf (s.onList i) (h, b))) d ∧
        LampStep k ((i.2.1 < t ∨ i.2.2.u1 h b < 1 / 20) ∧ i.2.2.u2 (OccSim.rankOf (s.freeList i) (h, b)) < e * v * s0.lighting.calibration) ⌊d⌋.toNat (l h b) (lampNext (l h b) (s.lft h b) (s'.lft h b)) ∧
        LampOk (lampNext (l h b) (s.lft h b) (s'.lft h b)) (s'.lft h b) := by
    intro h b p k e t v hh hb hp hk he ht hv
    obtain ⟨c1, c2, c3⟩ := hent h b k hh hb hk
    have hlamp := hi.lamps h b p hh hb hp
    have hprob : s.prob (s.effectives i.1) (h, b) = e * v * s0.lighting.calibration := by
      unfold prob effectives
      rw [hi.relUse, hi.lighting, ent_getD hv, List.getD_eq_getElem?_getD, List.getElem?_map, hk, Option.map_some, Option.getD_some, List.getD_eq_getElem?_getD, he, Option.getD_some]
    have hdark : s.isDark i.2.1 i.2.2 h b = true ↔ (i.2.1 < t ∨ i.2.2.u1 h b < 1 / 20) := by
      unfold isDark
      rw [hi.threshold, List.getD_eq_getElem?_getD, ht, Option.getD_some, Bool.or_eq_true, decide_eq_true_eq, decide_eq_true_eq]
    obtain ⟨x, ex⟩ := hi.shaped.left.ent hh hb
    have hx : s.lft h b = x := by unfold lft; exact ent_getD ex
    have hmemf : (h, b) ∈ s.freeList i ↔ decreased (s.lft h b) = 0 ∧ (i.2.1 < t ∨ i.2.2.u1 h b < 1 / 20) := by
      rw [mem_freeList, ex, hdark, Option.map_some, hx]
      simp
    have hmemo : (h, b) ∈ s.onList i ↔ decreased (s.lft h b) = 0 ∧ ((i.2.1 < t ∨ i.2.2.u1 h b < 1 / 20) ∧ i.2.2.u2 (OccSim.rankOf (s.freeList i) (h, b)) < e * v * s0.lighting.calibration) := by
      rw [mem_onList, hprob]
      constructor
      · rintro ⟨q1, q2⟩
        rw [rankOf_mem q1]
        exact ⟨(hmemf.1 q1).1, (hmemf.1 q1).2, q2⟩
      · rintro ⟨q1, q2, q3⟩
        have := hmemf.2 ⟨q1, q2⟩
        rw [rankOf_mem this] at q3
        exact ⟨this, q3⟩
    by_cases hon : (h, b) ∈ s.onList i
    · obtain ⟨hz, hst⟩ := hmemo.1 hon
      by_cases hk0 : k = 0
      · obtain ⟨d, -, hd, -⟩ := drawBulb_ok s0.lighting hL (i.2.2.interval (OccSim.rankOf (s.onList i) (h, b))) (i.2.2.place (OccSim.rankOf (s.onList i) (h, b))) (hin.interval _) (hin.place _).1
        refine ⟨d, hd, ?_⟩
        exact lamp_step hlamp k _ _ d (fun _ => hz) c1 (fun c => absurd hk0 c) (fun c => absurd hk0 c)
      · obtain ⟨d, q1, q2, q3⟩ := c2 hk0 hon
        rw [← rankOf_mem hon, hi.lighting] at q1
        exact ⟨d, q1, lamp_step hlamp k _ _ d (fun _ => hz) c1 (fun _ _ => ⟨q2, q3⟩) (fun _ c => absurd hst c)⟩
    · obtain ⟨d, -, hd, -⟩ := drawBulb_ok s0.lighting hL (i.2.2.interval (OccSim.rankOf (s.onList i) (h, b))) (i.2.2.place (OccSim.rankOf (s.onList i) (h, b))) (hin.interval _) (hin.place _).1
      refine ⟨d, hd, ?_⟩
      by_cases hz : decreased (s.lft h b) = 0
      · have hst : ¬ ((i.2.1 < t ∨ i.2.2.u1 h b < 1 / 20) ∧ i.2.2.u2 (OccSim.rankOf (s.freeList i) (h, b)) < e * v * s0.lighting.calibration) := fun c => hon (hmemo.2 ⟨hz, c⟩)
        exact lamp_step hlamp k _ _ d (fun _ => hz) c1 (fun _ c => absurd c hst) (fun k0 _ => c3 k0 hon)
      · obtain ⟨q1, q2⟩ := lamp_step hlamp k (s'.lft h b) False d (fun c => c.elim) c1 (fun _ c => c.elim) (fun k0 _ => c3 k0 hon)
        refine ⟨⟨q1.dark, q1.goesOn, fun _ hf _ => ?_, fun _ hf _ => ?_⟩, q2⟩
        · exfalso
          apply hz
          rcases hlamp with ⟨-, hx⟩ | ⟨j, m, hl, hjm, hx⟩
          · rw [hx]; rfl
          · have := hf j m hl
            unfold decreased
            split <;> omega
        · exact q1.rests (by assumption) hf (fun c => c)
  refine ⟨s', e', ⟨k1, by rw [k2, hi.lighting], by rw [k3, hi.bulbs], by rw [k4, hi.relUse], by rw [k5, hi.threshold], ?_⟩, ?_⟩
  · intro h b p hh hb hp
    have hlt : h < i.1.length := by rw [hin.length]; exact hh
    have hk : i.1[h]? = some i.1[h] := List.getElem?_eq_getElem hlt
    obtain ⟨v, hv⟩ := (by rw [← hi.relUse]; exact hi.shaped.relUse : Rect n w s0.relUse).ent hh hb
    obtain ⟨d, -, -, q⟩ := key h b p i.1[h] _ _ v hh hb hp hk (List.getElem?_eq_getElem (hin.known _ (List.mem_of_getElem? hk))) (List.getElem?_eq_getElem (by rw [← hi.threshold, hi.shaped.threshold]; exact hh)) hv
    exact q
  · intro h b p k e t v hh hb hp hk he ht hv
    obtain ⟨d, q1, q2, -⟩ := key h b p k e t v hh hb hp hk he ht hv
    exact ⟨d, q1, q2⟩

/-- A history of steps, and its log. -/
theorem run_spec (n w : Nat) (s0 : LightSim) (hL : LightDataOk s0.lighting) (h0 : RunInv n w s0 (fun _ _ => none) s0) :
    ∀ hist : List (List Nat × Rat × LightDraws), (∀ i ∈ hist, LightInputOk n s0.lighting i) → ∃ s log, run s0 hist = .ok (s, log) ∧ log.length = hist.length ∧
      (∀ k, k < hist.length → log[k]? = some (s0.after (hist.take k)).powerDemand) ∧ RunInv n w s0 (lampAfter s0 (fun _ _ => none) hist) s := by
  intro hist
  induction hist using List.reverseRecOn with
  | nil => exact fun _ => ⟨s0, [], rfl, rfl, fun k hk => absurd hk (Nat.not_lt_zero k), h0⟩
  | append_singleton hist i ih =>
    intro hh
    obtain ⟨s, log, e, hlen, hlog, hinv⟩ := ih fun j hj => hh j (List.mem_append_left _ hj)
    obtain ⟨s', e', hinv', -⟩ := run_step n w s0 hL _ s hinv i (hh i (by simp))
    obtain ⟨r1, r2⟩ := run_append i s s' hist s0 (fun _ _ => none) log e e'
    refine ⟨s', log ++ [s.powerDemand], r1, by simp [hlen], fun k hk => ?_, by rw [r2]; exact hinv'⟩
    rw [List.length_append, List.length_singleton] at hk
    by_cases hkl : k < hist.length
    · rw [List.getElem?_append_left (by omega), hlog k hkl, List.take_append_of_le_length (by omega)]
    · have hk : k = hist.length := by omega
      rw [hk, List.getElem?_append_right (by omega), hlen, Nat.sub_self, List.take_left]
      unfold after
      rw [e]
      rfl

end LightSim

end Demod
