import Verif.Spec.CrestSim
import Verif.Props.Crest
import Verif.Lemmas.Clock
import Verif.Lemmas.Equip

/-! # Lemmas on the 4-states simulator -/

namespace Demod

namespace CrestSim

/-- A loader and the distributions that it has: of the next state for the number of residents, the type of day, the slot and the state, and of the starting state. -/
structure CrestData where
  load : TpmLoader Nat
  row : Nat → Bool → Nat → Nat → List Rat
  start : Nat → Bool → List Rat

/-- The data of the workbook. -/
def bookData (B : CrestBook) : CrestData := ⟨crestLoadTpm B, fun n w t i => sheetDist (B.tpm n w) ((n + 1) ^ 2) t i, fun n w => startDist (startCol B w n) n⟩

/-- The matrices for `n` residents. -/
def matsOf (K : CrestData) (n : Nat) (weekend : Bool) : List (List (List Rat)) :=
  (List.range 144).map fun t => (List.range ((n + 1) ^ 2)).map fun i => K.row n weekend t i

/-- The labels for `n` residents. -/
def labelsOf (n : Nat) : List Nat := (List.range (n + 1)).flatMap fun m => (List.range (n + 1)).map fun k => 10 * m + k

/-- The loader has these distributions for `n` residents. -/
def Has (K : CrestData) (n : Nat) : Prop :=
  ∀ d, K.load (groupOf n d) = .ok (⟨(n + 1) ^ 2, (n + 1) ^ 2, matsOf K n (!d)⟩, labelsOf n, K.start n (!d)) ∧ IsTpms ((n + 1) ^ 2) (matsOf K n (!d)) ∧ IsDist (K.start n (!d)) ∧ (K.start n (!d)).length = (n + 1) ^ 2

theorem idx_split (n i : Nat) (hi : i < (n + 1) ^ 2) : ∃ m ≤ n, ∃ k ≤ n, i = m * (n + 1) + k := by
  refine ⟨i / (n + 1), ?_, i % (n + 1), ?_, ?_⟩
  · have : i / (n + 1) < n + 1 := Nat.div_lt_of_lt_mul (by rw [pow_two] at hi; exact hi)
    omega
  · have := Nat.mod_lt i (show 0 < n + 1 by omega)
    omega
  · have := Nat.div_add_mod i (n + 1)
    rw [Nat.mul_comm] at this
    exact this.symm

theorem grid_length {α : Type} (n : Nat) (f : Nat → Nat → α) : ((List.range (n + 1)).flatMap fun m => (List.range (n + 1)).map fun k => f m k).length = (n + 1) ^ 2 := by
  rw [List.length_flatMap]
  simp [pow_two]

theorem grid_get {α : Type} (n : Nat) (f : Nat → Nat → α) (m k : Nat) (hm : m ≤ n) (hk : k ≤ n) :
    ((List.range (n + 1)).flatMap fun m => (List.range (n + 1)).map fun k => f m k)[m * (n + 1) + k]? = some (f m k) :=
  flatMap_range_uniform (n + 1) (n + 1) f m k (by omega) (by omega)

theorem grid_ext {α : Type} (n : Nat) (f : Nat → Nat → α) (l : List α) (hl : l.length = (n + 1) ^ 2) (h : ∀ m ≤ n, ∀ k ≤ n, l[m * (n + 1) + k]? = some (f m k)) :
    l = (List.range (n + 1)).flatMap fun m => (List.range (n + 1)).map fun k => f m k := by
  apply List.ext_getElem?
  intro i
  by_cases hi : i < (n + 1) ^ 2
  · obtain ⟨m, hm, k, hk, rfl⟩ := idx_split n i hi
    rw [h m hm k hk, grid_get n f m k hm hk]
  · rw [List.getElem?_eq_none (by omega), List.getElem?_eq_none (by rw [grid_length]; omega)]

theorem labelsOf_length (n : Nat) : (labelsOf n).length = (n + 1) ^ 2 := grid_length n _

theorem labelsOf_nodup (n : Nat) (hn : n ≤ 9) : (labelsOf n).Nodup := by
  have : ∀ n ≤ 9, (labelsOf n).Nodup := by decide +kernel
  exact this n hn

theorem group_ok (n : Nat) (h1 : 1 ≤ n) (h6 : n ≤ 6) (d : Bool) : IsCrestGroup (groupOf n d) n (!d) := by
  refine ⟨?_, h1, h6, ?_⟩
  · rfl
  · cases d <;> rfl

theorem load_spec (B : CrestBook) (n : Nat) (h1 : 1 ≤ n) (h6 : n ≤ 6) (hB : BookHas B n) (d : Bool) :
    crestLoadTpm B (groupOf n d) = .ok (⟨(n + 1) ^ 2, (n + 1) ^ 2, matsOf (bookData B) n (!d)⟩, labelsOf n, startDist (startCol B (!d) n) n) ∧ IsTpms ((n + 1) ^ 2) (matsOf (bookData B) n (!d)) ∧
      IsDist (startDist (startCol B (!d) n) n) ∧ (startDist (startCol B (!d) n) n).length = (n + 1) ^ 2 := by
  obtain ⟨hs, hll, hlab, col, hcol, hcl, hnn, hsum⟩ := hB (!d)
  obtain ⟨T, labels, start, e, e1, e2, e3, e4, e5, e6, e7, e8⟩ := C102_crest_tpm B (groupOf n d) n (!d) (group_ok n h1 h6 d) hs col hcol hcl hll
  have hsc : startCol B (!d) n = col := by unfold startCol; rw [hcol]; rfl
  have hst : start = startDist col n := grid_ext n _ start e7 fun m hm k hk => by
    rw [(e8 m hm k hk).2, List.getD_eq_getElem?_getD, List.getElem?_eq_getElem (by omega)]
    rfl
  have hlb : labels = labelsOf n := grid_ext n _ labels e6 fun m hm k hk => by
    rw [(e8 m hm k hk).1, hlab m (by omega) k (by omega)]
  have hm : T.mats = matsOf (bookData B) n (!d) := by
    unfold matsOf
    apply List.ext_getElem (by simp [e3])
    intro t ht ht'
    rw [e3] at ht
    have hrow := e4.2 T.mats[t] (List.getElem_mem _)
    apply List.ext_getElem (by simp [hrow.1])
    intro i hi hi'
    have hi0 : i < (n + 1) ^ 2 := by rw [← hrow.1]; exact hi
    have hrow2 := hrow.2 T.mats[t][i] (List.getElem_mem _)
    have hsl : (sheetRow (B.tpm n (!d)) ((n + 1) ^ 2) t i).length = (n + 1) ^ 2 := by
      unfold sheetRow
      have hlt := sheet_lt ht hi0
      have hmem : ((B.tpm n (!d)).getD (t * (n + 1) ^ 2 + i) []) ∈ B.tpm n (!d) := by
        rw [List.getD_eq_getElem?_getD, List.getElem?_eq_getElem (by rw [hs.1]; exact hlt)]
        exact List.getElem_mem _
      have := (hs.2.1 _ hmem).1
      rw [List.length_take]
      omega
    simp only [List.getElem_map, List.getElem_range]
    change _ = sheetDist (B.tpm n (!d)) ((n + 1) ^ 2) t i
    apply List.ext_getElem
    · rw [hrow2.1]
      unfold sheetDist
      split
      · simp
      · rw [List.length_map, hsl]
    · intro j hj hj'
      rw [hrow2.1] at hj
      have := e5 t ht i hi0 j hj
      have hr : (rowOf T.mats t i).getD j 0 = T.mats[t][i][j]'(by rw [hrow2.1]; exact hj) := by
        unfold rowOf
        simp [List.getD_eq_getElem?_getD, List.getElem?_eq_getElem (show t < T.mats.length by omega), List.getElem?_eq_getElem hi, List.getElem?_eq_getElem (show j < T.mats[t][i].length by omega)]
      rw [← hr, this]
      unfold sheetDist
      split
      · rename_i hz
        simp only [if_pos hz, List.getElem_map, List.getElem_range]
      · rename_i hz
        simp only [if_neg hz, List.getElem_map]
        rw [List.getD_eq_getElem?_getD, List.getElem?_eq_getElem (by omega)]
        rfl
  have hT : T = ⟨(n + 1) ^ 2, (n + 1) ^ 2, matsOf (bookData B) n (!d)⟩ := by
    cases T
    simp only at e1 e2 hm
    rw [e1, e2, hm]
  rw [hsc]
  refine ⟨by rw [e, hT, hlb, hst], by rw [← hm]; exact e4, ⟨?_, hsum⟩, by rw [← hst]; exact e7⟩
  intro x hx
  unfold startDist at hx
  rw [List.mem_flatMap] at hx
  obtain ⟨m, hm, hx⟩ := hx
  rw [List.mem_map] at hx
  obtain ⟨k, hk, rfl⟩ := hx
  rw [List.mem_range] at hm hk
  rw [List.getD_eq_getElem?_getD, List.getElem?_eq_getElem (by omega)]
  exact hnn _ (List.getElem_mem _)

theorem book_has (B : CrestBook) (n : Nat) (h1 : 1 ≤ n) (h6 : n ≤ 6) (hB : BookHas B n) : Has (bookData B) n := fun d => load_spec B n h1 h6 hB d

theorem matsOf_length (K : CrestData) (n : Nat) (w : Bool) : (matsOf K n w).length = 144 := by simp [matsOf]

theorem rowOf_matsOf (K : CrestData) (n : Nat) (w : Bool) (t i : Nat) (ht : t < 144) (hi : i < (n + 1) ^ 2) :
    rowOf (matsOf K n w) t i = K.row n w t i := by
  unfold rowOf matsOf
  rw [List.getD_eq_getElem?_getD, List.getD_eq_getElem?_getD, List.getElem?_map, List.getElem?_range ht]
  simp only [Option.map_some, Option.getD_some]
  rw [List.getElem?_map, List.getElem?_range hi]
  rfl

/-! ## The invariant of a sub-simulator -/

/-- A sub-simulator of `c` households of `r` residents after `j` periods from midnight `T`. -/
structure SubInv (K : CrestData) (T : Int) (j r c : Nat) (q : CrestSub) : Prop where
  res : q.residents = r
  labels : q.chain.labels = labelsOf r
  good : Markov.Good q.chain c ((r + 1) ^ 2) (matsOf K r (crestWeekend T j))
  pos : q.chain.pos % 144 = crestSlot T j

theorem weekday_iff (t : Int) : Markov.crestWeekday t = !decide (OnWeekend t) := by
  have h : OnWeekend t ↔ 5 ≤ t / DAY % 7 := Iff.rfl
  unfold Markov.crestWeekday isoWeekday dayNumber
  by_cases hw : OnWeekend t
  · have h' := h.1 hw
    simp only [hw, decide_true, Bool.not_true, decide_eq_false_iff_not]
    omega
  · have h' : ¬ 5 ≤ t / DAY % 7 := fun x => hw (h.2 x)
    simp only [hw, decide_false, Bool.not_false, decide_eq_true_eq]
    omega

/-- The states of all households. -/
def statesOf (subs : List CrestSub) : List Nat := (subs.map fun q => q.chain.states).flatten

/-- The numbers of residents of all households. -/
def rsOf (sizes : List (Nat × Nat)) : List Nat := (sizes.map fun q => List.replicate q.2 q.1).flatten

/-- A sub-simulator after a transition, before the matrices are changed. -/
structure MidInv (K : CrestData) (T : Int) (j r c : Nat) (q : CrestSub) : Prop where
  res : q.residents = r
  labels : q.chain.labels = labelsOf r
  good : Markov.Good q.chain c ((r + 1) ^ 2) (matsOf K r (crestWeekend T j))
  pos : q.chain.pos % 144 = (crestSlot T j + 1) % 144

theorem draws_take {a b : Nat} {us : List Rat} (h : Draws (a + b) us) : Draws a (us.take a) ∧ Draws b (us.drop a) :=
  ⟨⟨by rw [List.length_take, h.1]; omega, fun u hu => h.2 u (List.mem_of_mem_take hu)⟩, ⟨by rw [List.length_drop, h.1]; omega, fun u hu => h.2 u (List.mem_of_mem_drop hu)⟩⟩

theorem rsOf_cons (g : Nat × Nat) (l : List (Nat × Nat)) : rsOf (g :: l) = List.replicate g.2 g.1 ++ rsOf l := by simp [rsOf]

theorem statesOf_cons (q : CrestSub) (l : List CrestSub) : statesOf (q :: l) = q.chain.states ++ statesOf l := by simp [statesOf]

theorem slot_lt (T : Int) (j : Nat) : crestSlot T j < 144 := by
  unfold crestSlot
  split <;> omega

theorem stepSubs_spec (K : CrestData) (T : Int) (j : Nat) (sizes : List (Nat × Nat)) (subs : List CrestSub) (hinv : List.Forall₂ (fun g q => SubInv K T j g.1 g.2 q) sizes subs) (us : List Rat)
    (hu : Draws (rsOf sizes).length us) :
    ∃ subs', stepSubs subs us = .ok subs' ∧ List.Forall₂ (fun g q => MidInv K T j g.1 g.2 q) sizes subs' ∧ 
      ∀ (h r : Nat), (rsOf sizes)[h]? = some r → ∃ i i', (statesOf subs)[h]? = some i ∧ (statesOf subs')[h]? = some i' ∧
        Sampled (K.row r (crestWeekend T j) (crestSlot T j) i) (us.getD h 0) i' := by
  induction hinv generalizing us with
  | nil => exact ⟨[], rfl, .nil, fun h r hr => by simp [rsOf] at hr⟩
  | @cons g q l ls hq hl ih =>
    rw [rsOf_cons, List.length_append, List.length_replicate] at hu
    obtain ⟨hu1, hu2⟩ := draws_take hu
    obtain ⟨subs', e, hi, hs⟩ := ih (us.drop g.2) hu2
    obtain ⟨b, rb, gb, pb, lb, -, hsb⟩ := Markov.good_step hq.good (us.take g.2) hu1
    have hlen := hq.good.len
    refine ⟨{ q with chain := b } :: subs', ?_, .cons ⟨hq.res, by rw [lb, hq.labels], gb, ?_⟩ hi, ?_⟩
    · simp only [stepSubs, hlen, rb, e, bind, Except.bind]
    · show b.pos % 144 = _
      rw [pb, ← hq.pos]
      omega
    · intro h r hr
      rw [rsOf_cons] at hr
      rw [statesOf_cons, statesOf_cons]
      by_cases hh : h < g.2
      · rw [List.getElem?_append_left (by simpa using hh), List.getElem?_replicate, if_pos hh, Option.some.injEq] at hr
        subst hr
        have h1 : h < q.chain.states.length := by omega
        have h2 : h < b.states.length := by rw [gb.len]; exact hh
        have := hsb h hh
        rw [matsOf_length, hq.pos, List.getD_eq_getElem?_getD (l := q.chain.states), List.getElem?_eq_getElem h1, Option.getD_some, List.getD_eq_getElem?_getD (l := b.states),
          List.getElem?_eq_getElem h2, Option.getD_some, rowOf_matsOf _ _ _ _ _ (slot_lt T j) (hq.good.valid _ (List.getElem_mem _))] at this
        refine ⟨q.chain.states[h], b.states[h], by rw [List.getElem?_append_left h1, List.getElem?_eq_getElem h1], ?_, ?_⟩
        · rw [List.getElem?_append_left (by exact h2)]
          exact List.getElem?_eq_getElem h2
        · rw [List.getD_eq_getElem?_getD, List.getElem?_take, if_pos hh, ← List.getD_eq_getElem?_getD] at this
          exact this
      · rw [List.getElem?_append_right (by simpa using hh), List.length_replicate] at hr
        obtain ⟨i, i', e1, e2, e3⟩ := hs (h - g.2) r hr
        refine ⟨i, i', ?_, ?_, ?_⟩
        · rw [List.getElem?_append_right (by omega), hlen]
          exact e1
        · rw [List.getElem?_append_right (by show b.states.length ≤ h; rw [gb.len]; omega)]
          show (statesOf subs')[h - b.states.length]? = _
          rw [gb.len]
          exact e2
        · rw [List.getD_eq_getElem?_getD, List.getElem?_drop, show g.2 + (h - g.2) = h by omega, ← List.getD_eq_getElem?_getD] at e3
          exact e3

theorem statesOf_length (K : CrestData) (T : Int) (j : Nat) (sizes : List (Nat × Nat)) (subs : List CrestSub) (hinv : List.Forall₂ (fun g q => SubInv K T j g.1 g.2 q) sizes subs) :
    (statesOf subs).length = (rsOf sizes).length := by
  induction hinv with
  | nil => rfl
  | cons hq _ ih => rw [rsOf_cons, statesOf_cons, List.length_append, List.length_append, ih, List.length_replicate, hq.good.len]

/-- All sub-simulators with positive, known numbers of residents. -/
def Known (K : CrestData) (sizes : List (Nat × Nat)) : Prop := ∀ g ∈ sizes, g.1 ≤ 9 ∧ Has K g.1 ∧ 0 < g.2

theorem reload_spec (K : CrestData) (T : Int) (j : Nat) (d : Bool) (sizes : List (Nat × Nat)) (hk : Known K sizes) (subs : List CrestSub) (hinv : List.Forall₂ (fun g q => MidInv K T j g.1 g.2 q) sizes subs) :
    ∃ subs', subs.mapM (reloadSub K.load d) = .ok subs' ∧ statesOf subs' = statesOf subs ∧
      List.Forall₂ (fun (g : Nat × Nat) q => q.residents = g.1 ∧ q.chain.labels = labelsOf g.1 ∧ Markov.Good q.chain g.2 ((g.1 + 1) ^ 2) (matsOf K g.1 (!d)) ∧ q.chain.pos = 1) sizes subs' := by
  induction hinv with
  | nil => exact ⟨[], rfl, rfl, .nil⟩
  | @cons g q l ls hq hl ih =>
    obtain ⟨subs', e, h1, h2⟩ := ih fun g' hg' => hk g' (List.mem_cons_of_mem _ hg')
    obtain ⟨k2, k3, -⟩ := hk g List.mem_cons_self
    obtain ⟨l1, l2, -, -⟩ := k3 d
    obtain ⟨m', s1, s2, s3, s4, s5⟩ := Markov.set_good hq.good (labelsOf g.1) hq.labels (labelsOf_nodup g.1 k2) (labelsOf_length g.1) _ l2
    refine ⟨{ q with chain := m' } :: subs', ?_, ?_, .cons ⟨hq.res, s4, s2, s3⟩ h2⟩
    · rw [List.mapM_cons]
      have : reloadSub K.load d q = .ok { q with chain := m' } := by
        unfold reloadSub
        rw [hq.res]
        simp only [l1, bind, Except.bind, s1]
      rw [this, e]
      rfl
    · rw [statesOf_cons, statesOf_cons, h1]
      show m'.states ++ _ = _
      rw [s5]

/-! ## The clock -/

/-- The simulator after `j` periods from midnight `T`. -/
structure Inv (K : CrestData) (T : Int) (j : Nat) (sizes : List (Nat × Nat)) (s : CrestSim) : Prop where
  time : s.time = T + j * 600000000
  weekday : s.weekday = !crestWeekend T j
  residents : s.residents = rsOf sizes
  subs : List.Forall₂ (fun g q => SubInv K T j g.1 g.2 q) sizes s.subs

theorem step_spec (K : CrestData) (T : Int) (R : Int) (hR : R + 600000000 < 86400000000) (hT : T % 86400000000 = R) (j : Nat) (sizes : List (Nat × Nat)) (hk : Known K sizes) (s : CrestSim) (hi : Inv K T j sizes s) (us : List Rat) (hu : Draws (rsOf sizes).length us) :
    ∃ s', s.step K.load R us = .ok s' ∧ Inv K T (j + 1) sizes s' ∧
      ∀ (h r : Nat), (rsOf sizes)[h]? = some r → ∃ i i', (statesOf s.subs)[h]? = some i ∧ (statesOf s'.subs)[h]? = some i' ∧
        Sampled (K.row r (crestWeekend T j) (crestSlot T j) i) (us.getD h 0) i' := by
  obtain ⟨subs1, e1, m1, t1⟩ := stepSubs_spec K T j sizes s.subs hi.subs us hu
  have hfire : firesAfterRefresh R s.time 600000000 = decide (j % 144 = 0) := by
    unfold firesAfterRefresh timeOfDay
    rw [hi.time, Bool.eq_iff_iff, beq_iff_eq, decide_eq_true_eq]
    unfold DAY at *
    omega
  have htime : s.time + 600000000 = T + ((j + 1 : Nat) : Int) * 600000000 := by rw [hi.time]; push_cast; ring
  have keep : crestWeekend T (j + 1) = crestWeekend T j → (TypeChanged T (j + 1) ↔ TypeChanged T j) → List.Forall₂ (fun g q => SubInv K T (j + 1) g.1 g.2 q) sizes subs1 := by
    intro hw hc
    refine m1.imp fun g q hq => ⟨hq.res, hq.labels, by rw [hw]; exact hq.good, ?_⟩
    rw [hq.pos]
    unfold crestSlot
    simp only [hc]
    split <;> omega
  unfold CrestSim.step
  simp only [e1, bind, Except.bind, hfire]
  by_cases h0 : j % 144 = 0
  · rw [if_pos (by simpa using h0)]
    have hd : Markov.crestWeekday (s.time + 600000000) = !crestWeekend T (j + 1) := by
      rw [weekday_iff]
      have : OnWeekend (s.time + 600000000) ↔ OnWeekend (T + ((j + 1 - 1) / 144 : Nat) * 86400000000) := by
        unfold OnWeekend
        rw [htime]
        have : (T + ((j + 1 : Nat) : Int) * 600000000) / 86400000000 = (T + ((j + 1 - 1) / 144 : Nat) * 86400000000) / 86400000000 := by omega
        rw [this]
      unfold crestWeekend
      simp only [this]
    rw [hd, hi.weekday]
    by_cases hc : crestWeekend T (j + 1) = crestWeekend T j
    · rw [if_neg (by rw [hc]; simp)]
      have hch : TypeChanged T (j + 1) ↔ TypeChanged T j := by
        constructor
        · rintro ⟨d, h1, h2⟩
          by_cases hdk : d = (j + 1 - 1) / 144
          · refine ⟨(j - 1) / 144, by omega, ?_⟩
            have : OnWeekend (T + ((j + 1 - 1) / 144 : Nat) * 86400000000) ↔ OnWeekend (T + ((j - 1) / 144 : Nat) * 86400000000) := decide_eq_decide.1 hc
            rw [← this, ← hdk]
            exact h2
          · exact ⟨d, by omega, h2⟩
        · rintro ⟨d, h1, h2⟩
          exact ⟨d, by omega, h2⟩
      exact ⟨_, rfl, ⟨htime, by rw [hc], hi.residents, keep hc hch⟩, t1⟩
    · rw [if_pos (by simpa using fun x => hc x)]
      obtain ⟨subs2, e2, st2, f2⟩ := reload_spec K T j (!crestWeekend T (j + 1)) sizes hk subs1 m1
      simp only [e2]
      have hslot : crestSlot T (j + 1) = 1 := by
        have hch : TypeChanged T (j + 1) := by
          by_cases hz : (OnWeekend (T + ((j + 1 - 1) / 144 : Nat) * 86400000000) ↔ OnWeekend T)
          · refine ⟨(j - 1) / 144, by omega, fun h => hc ?_⟩
            unfold crestWeekend
            exact decide_eq_decide.2 (hz.trans h.symm)
          · exact ⟨(j + 1 - 1) / 144, by omega, hz⟩
        unfold crestSlot
        rw [if_pos hch]
        omega
      refine ⟨_, rfl, ⟨htime, rfl, hi.residents, f2.imp fun g q hq => ⟨hq.1, hq.2.1, by simpa using hq.2.2.1, by rw [hq.2.2.2, hslot]⟩⟩, ?_⟩
      · show ∀ (h r : Nat), (rsOf sizes)[h]? = some r → ∃ i i', _ ∧ (statesOf subs2)[h]? = some i' ∧ _
        rw [st2]
        exact t1
  · rw [if_neg (by simpa using h0)]
    have e : (j + 1 - 1) / 144 = (j - 1) / 144 := by omega
    have hc : crestWeekend T (j + 1) = crestWeekend T j := by unfold crestWeekend; rw [e]
    exact ⟨_, rfl, ⟨htime, by rw [hc]; exact hi.weekday, hi.residents, keep hc (by unfold TypeChanged; rw [e])⟩, t1⟩

/-- The course of the states over several steps, from period `j` on. -/
theorem run_spec (K : CrestData) (T : Int) (R : Int) (hR : R + 600000000 < 86400000000) (hT : T % 86400000000 = R) (sizes : List (Nat × Nat)) (hk : Known K sizes) (uss : List (List Rat)) (hu : ∀ us ∈ uss, Draws (rsOf sizes).length us) :
    ∀ (j : Nat) (s : CrestSim), Inv K T j sizes s → ∃ s', s.run K.load R uss = .ok s' ∧ Inv K T (j + uss.length) sizes s' ∧
      ∀ (h r : Nat), (rsOf sizes)[h]? = some r → ∃ traj : Nat → Nat, (statesOf s.subs)[h]? = some (traj 0) ∧ (statesOf s'.subs)[h]? = some (traj uss.length) ∧
        ∀ k us, uss[k]? = some us → Sampled (K.row r (crestWeekend T (j + k)) (crestSlot T (j + k)) (traj k)) (us.getD h 0) (traj (k + 1)) := by
  induction uss with
  | nil =>
    intro j s hi
    refine ⟨s, rfl, hi, fun h r hr => ?_⟩
    have hlen := statesOf_length K T j sizes s.subs hi.subs
    obtain ⟨i, hi'⟩ : ∃ i, (statesOf s.subs)[h]? = some i := ⟨_, List.getElem?_eq_getElem (by rw [hlen]; exact (List.getElem?_eq_some_iff.1 hr).1)⟩
    exact ⟨fun _ => i, hi', hi', fun k us hk => by simp at hk⟩
  | cons us uss ih =>
    intro j s hi
    obtain ⟨s1, e1, i1, t1⟩ := step_spec K T R hR hT j sizes hk s hi us (hu us List.mem_cons_self)
    obtain ⟨s2, e2, i2, t2⟩ := ih (fun x hx => hu x (List.mem_cons_of_mem _ hx)) (j + 1) s1 i1
    refine ⟨s2, by simp only [run, e1, bind, Except.bind, e2], by rw [List.length_cons, show j + (uss.length + 1) = j + 1 + uss.length by omega]; exact i2, fun h r hr => ?_⟩
    obtain ⟨i, i', a1, a2, a3⟩ := t1 h r hr
    obtain ⟨traj, b1, b2, b3⟩ := t2 h r hr
    refine ⟨fun k => if k = 0 then i else traj (k - 1), by simpa using a1, by simpa using b2, ?_⟩
    intro k u hku
    cases k with
    | zero =>
      simp only [List.getElem?_cons_zero, Option.some.injEq] at hku
      subst hku
      rw [a2, Option.some.injEq] at b1
      simp only [Nat.add_zero, if_true, Nat.zero_add, Nat.add_sub_cancel, if_neg (show ¬ (1 : Nat) = 0 by omega)]
      rw [show traj (1 - 1) = i' from b1.symm]
      exact a3
    | succ k =>
      rw [List.getElem?_cons_succ] at hku
      have := b3 k u hku
      rw [show j + 1 + k = j + (k + 1) by omega] at this
      simpa using this

/-! ## The construction -/

theorem slot_zero (T : Int) : crestSlot T 0 = 1 := by
  unfold crestSlot
  rw [if_neg]
  rintro ⟨d, h1, h2⟩
  have : d = 0 := by omega
  subst this
  apply h2
  simp

theorem createSubs_spec (K : CrestData) (T : Int) (sizes : List (Nat × Nat)) (hk : Known K sizes) (us : List Rat) (hu : Draws (rsOf sizes).length us) :
    ∃ subs, createSubs K.load (!crestWeekend T 0) sizes us = .ok subs ∧ List.Forall₂ (fun g q => SubInv K T 0 g.1 g.2 q) sizes subs ∧
      ∀ (h r : Nat), (rsOf sizes)[h]? = some r → ∃ i, (statesOf subs)[h]? = some i ∧ Sampled (K.start r (crestWeekend T 0)) (us.getD h 0) i := by
  induction sizes generalizing us with
  | nil => exact ⟨[], rfl, .nil, fun h r hr => by simp [rsOf] at hr⟩
  | cons g l ih =>
    rw [rsOf_cons, List.length_append, List.length_replicate] at hu
    obtain ⟨hu1, hu2⟩ := draws_take hu
    obtain ⟨subs', e, hi, hs⟩ := ih (fun g' hg' => hk g' (List.mem_cons_of_mem _ hg')) (us.drop g.2) hu2
    obtain ⟨k2, k3, k4⟩ := hk g List.mem_cons_self
    obtain ⟨l1, l2, l3, l4⟩ := k3 (!crestWeekend T 0)
    rw [Bool.not_not] at l1 l2 l3 l4
    obtain ⟨m, c1, c2, c3, c4, -, c6⟩ := Markov.initialise_good
      ({ nHouseholds := g.2, nStates := (g.1 + 1) ^ 2, tpms := ⟨(g.1 + 1) ^ 2, (g.1 + 1) ^ 2, matsOf K g.1 (crestWeekend T 0)⟩, labels := labelsOf g.1, cdfs := [], pos := 0, states := [] } : Markov Nat)
      ((g.1 + 1) ^ 2) (K.start g.1 (crestWeekend T 0)) true (us.take g.2) rfl l3 l4 l2 hu1
    have hc : Markov.create g.2 ((g.1 + 1) ^ 2) ⟨(g.1 + 1) ^ 2, (g.1 + 1) ^ 2, matsOf K g.1 (crestWeekend T 0)⟩ (labelsOf g.1) =
        .ok { nHouseholds := g.2, nStates := (g.1 + 1) ^ 2, tpms := ⟨(g.1 + 1) ^ 2, (g.1 + 1) ^ 2, matsOf K g.1 (crestWeekend T 0)⟩, labels := labelsOf g.1, cdfs := [], pos := 0, states := [] } := by
      unfold Markov.create
      rw [if_neg (by omega), if_neg (by simp), if_neg (by simp), if_neg (by simp [labelsOf_length])]
    have hsub : createSub K.load g.2 g.1 (!crestWeekend T 0) (us.take g.2) = .ok ⟨g.1, m⟩ := by
      unfold createSub
      simp only [l1, bind, Except.bind, hc, c1]
    refine ⟨⟨g.1, m⟩ :: subs', ?_, .cons ⟨rfl, c4, c2, ?_⟩ hi, ?_⟩
    · simp only [createSubs, hsub, e, bind, Except.bind]
    · rw [slot_zero]
      show m.pos % 144 = 1
      rw [c3]
    · intro h r hr
      rw [rsOf_cons] at hr
      rw [statesOf_cons]
      have hml : m.states.length = g.2 := c2.len
      by_cases hh : h < g.2
      · rw [List.getElem?_append_left (by simpa using hh), List.getElem?_replicate, if_pos hh, Option.some.injEq] at hr
        subst hr
        have h2 : h < m.states.length := by omega
        have := c6 h hh
        refine ⟨m.states[h], by rw [List.getElem?_append_left (by exact h2)]; exact List.getElem?_eq_getElem h2, ?_⟩
        rw [List.getD_eq_getElem?_getD (l := m.states), List.getElem?_eq_getElem h2, Option.getD_some, List.getD_eq_getElem?_getD, List.getElem?_take, if_pos hh, ← List.getD_eq_getElem?_getD] at this
        exact this
      · rw [List.getElem?_append_right (by simpa using hh), List.length_replicate] at hr
        obtain ⟨i, e1, e3⟩ := hs (h - g.2) r hr
        refine ⟨i, ?_, ?_⟩
        · rw [List.getElem?_append_right (by show m.states.length ≤ h; omega)]
          show (statesOf subs')[h - m.states.length]? = _
          rw [hml]
          exact e1
        · rw [List.getD_eq_getElem?_getD, List.getElem?_drop, show g.2 + (h - g.2) = h by omega, ← List.getD_eq_getElem?_getD] at e3
          exact e3

theorem rsOf_filter (l : List (Nat × Nat)) : rsOf (l.filter fun q => decide (0 < q.2)) = rsOf l := by
  induction l with
  | nil => rfl
  | cons g l ih =>
    rw [List.filter_cons]
    split
    · rw [rsOf_cons, rsOf_cons, ih]
    · rename_i h
      have : g.2 = 0 := by simpa using h
      rw [rsOf_cons, ih, this]
      rfl

theorem rsOf_zip (rs ns : List Nat) (hl : rs.length = ns.length) : (rsOf (rs.zip ns)).length = ns.sum ∧ ∀ h k r, InSubgroup ns h k → rs[k]? = some r → (rsOf (rs.zip ns))[h]? = some r := by
  induction ns generalizing rs with
  | nil =>
    cases rs with
    | nil => exact ⟨rfl, fun h k r _ hr => by simp at hr⟩
    | cons r rs => simp at hl
  | cons n ns ih =>
    cases rs with
    | nil => simp at hl
    | cons r rs =>
      obtain ⟨i1, i2⟩ := ih rs (by simpa using hl)
      rw [List.zip_cons_cons, rsOf_cons]
      refine ⟨by rw [List.length_append, List.length_replicate, i1, List.sum_cons], ?_⟩
      intro h k r' hin hr
      cases k with
      | zero =>
        simp only [List.getElem?_cons_zero, Option.some.injEq] at hr
        unfold InSubgroup at hin
        simp at hin
        rw [List.getElem?_append_left (by simpa using hin), List.getElem?_replicate, if_pos hin, hr]
      | succ k =>
        unfold InSubgroup at hin
        simp only [List.take_succ_cons, List.sum_cons] at hin
        rw [List.getElem?_append_right (by rw [List.length_replicate]; omega), List.length_replicate]
        exact i2 (h - n) k r' ⟨by omega, by omega⟩ hr

/-- The sizes of the sub-simulators. -/
def sizesOf (rs ns : List Nat) : List (Nat × Nat) := (rs.zip ns).filter fun q => decide (0 < q.2)

theorem used_same (start T : Int) (hsame : OnWeekend start ↔ OnWeekend T) (j : Nat) : crestSlotFrom start T j = crestSlot T j ∧ crestWeekendFrom start T j = crestWeekend T j := by
  constructor
  · unfold crestSlotFrom crestSlot
    have : (TypeChanged T j ∨ 0 < j ∧ ¬ (OnWeekend start ↔ OnWeekend T)) ↔ TypeChanged T j := by
      constructor
      · rintro (h | ⟨-, h⟩)
        · exact h
        · exact absurd hsame h
      · exact .inl
    simp only [this]
  · unfold crestWeekendFrom
    split
    · rename_i h
      subst h
      unfold crestWeekend
      simp only [hsame]
      simp
    · rfl

/-- After a start on another type of day, the simulation goes on as one that has begun five days before. -/
theorem used_early (start T : Int) (hne : ¬ (OnWeekend start ↔ OnWeekend T)) (h5 : ¬ (OnWeekend (T - 5 * 86400000000) ↔ OnWeekend T)) (j : Nat) (hj : 0 < j) :
    crestSlotFrom start T j = crestSlot (T - 5 * 86400000000) (5 * 144 + j) ∧ crestWeekendFrom start T j = crestWeekend (T - 5 * 86400000000) (5 * 144 + j) := by
  have e : (5 * 144 + j - 1) / 144 = 5 + (j - 1) / 144 := by omega
  constructor
  · unfold crestSlotFrom crestSlot
    rw [if_pos (.inr ⟨hj, hne⟩), if_pos]
    · omega
    · refine ⟨5, by omega, ?_⟩
      have : T - 5 * 86400000000 + ((5 : Nat) : Int) * 86400000000 = T := by push_cast; ring
      rw [this]
      exact fun h => h5 h.symm
  · unfold crestWeekendFrom crestWeekend
    rw [if_neg (by omega), e]
    congr 2
    push_cast
    ring

theorem create_spec (K : CrestData) (groups : List Subgroup) (pdf : List Rat) (n : Nat) (hn : 0 < n) (algo : PopAlgo) (R : Int) (hR0 : 0 ≤ R) (hR10 : R % 600000000 = 0) (hR : R + 600000000 < 86400000000) (start : Int) (hst : start % 600000000 = 0)
    (rs counts : List Nat) (hrs : groups.mapM residentsOf = .ok rs) (hc : samplePopulation n pdf algo = .ok counts) (hlen : counts.length = rs.length) (hsum : counts.sum = n)
    (hk : Known K (sizesOf rs counts)) (us : List Rat) (hu : Draws n us) (e : Nat → List Rat) (he : ∀ k, Draws n (e k)) (T : Int) (hT : T = start - (start - R) % 86400000000) (n0 : Nat) (hn0 : (n0 : Int) * 600000000 = start - T) :
    ∃ s0 T' D, create K.load groups pdf R n algo false start us e = .ok s0 ∧ T' = T - (D : Nat) * 86400000000 ∧ Inv K T' (D * 144 + n0) (sizesOf rs counts) s0 ∧
      (∀ j ≥ n0, crestSlotFrom start T j = crestSlot T' (D * 144 + j) ∧ crestWeekendFrom start T j = crestWeekend T' (D * 144 + j)) ∧
      ∀ (h r : Nat), (rsOf (sizesOf rs counts))[h]? = some r → ∃ traj : Nat → Nat, (statesOf s0.subs)[h]? = some (traj n0) ∧
        Sampled (K.start r (decide (OnWeekend start))) (us.getD h 0) (traj 0) ∧
        ∀ k < n0, Sampled (K.row r (crestWeekendFrom start T k) (crestSlotFrom start T k) (traj k)) ((e k).getD h 0) (traj (k + 1)) := by
  have hT0 : T % 86400000000 = R := by omega
  have hrl : (rsOf (sizesOf rs counts)).length = n := by
    unfold sizesOf
    rw [rsOf_filter, (rsOf_zip rs counts hlen.symm).1, hsum]
  have hw0 : crestWeekend start 0 = decide (OnWeekend start) := by
    unfold crestWeekend
    simp
  have hwd : Markov.crestWeekday start = !crestWeekend start 0 := by
    rw [weekday_iff, hw0]
  obtain ⟨subs, c1, c2, c3⟩ := createSubs_spec K start (sizesOf rs counts) hk us (by rw [hrl]; exact hu)
  have hcreate : create K.load groups pdf R n algo false start us e = run K.load R { subs := subs, residents := rsOf (sizesOf rs counts), weekday := !crestWeekend start 0, time := T } ((List.range n0).map e) := by
    have hinit : initDatetime start (.time R) = .ok T := by
      unfold initDatetime dayNumber DAY
      simp only
      split
      · congr 1; omega
      · congr 1; omega
    unfold create
    simp only [hrs, hc, bind, Except.bind]
    rw [if_neg (by simpa using hlen)]
    simp only [hwd]
    have c1' : createSubs K.load (!crestWeekend start 0) ((rs.zip counts).filter fun q => decide (0 < q.2)) us = .ok subs := c1
    rw [c1']
    simp only [Bool.false_eq_true, if_false, hinit]
    rw [if_neg (by omega)]
    have e1 : T + (start - T).fmod 600000000 = T := by
      rw [Int.fmod_eq_emod_of_nonneg _ (by norm_num)]
      omega
    have e2 : ((start - T).tdiv 600000000).toNat = n0 := by
      rw [Int.tdiv_eq_ediv_of_nonneg (by omega)]
      omega
    rw [e1, e2]
    rfl
  rw [hcreate]
  by_cases hsame : OnWeekend start ↔ OnWeekend T
  · have hz : crestWeekend start 0 = crestWeekend T 0 := by
      unfold crestWeekend
      simp only [Nat.zero_sub, Nat.zero_div, Nat.cast_zero, zero_mul, add_zero, hsame]
    have i0 : Inv K T 0 (sizesOf rs counts) { subs := subs, residents := rsOf (sizesOf rs counts), weekday := !crestWeekend start 0, time := T } :=
      ⟨by simp, by rw [hz], rfl, c2.imp fun g q hq => ⟨hq.res, hq.labels, by rw [← hz]; exact hq.good, by rw [slot_zero, ← slot_zero start]; exact hq.pos⟩⟩
    obtain ⟨s', r1, r2, r3⟩ := run_spec K T R hR hT0 (sizesOf rs counts) hk ((List.range n0).map e) (by
      intro x hx
      obtain ⟨k, -, rfl⟩ := List.mem_map.1 hx
      rw [hrl]
      exact he k) 0 _ i0
    have hlen0 : ((List.range n0).map e).length = n0 := by simp
    rw [hlen0] at r2 r3
    refine ⟨s', T, 0, r1, by simp, by simpa using r2, fun j _ => by simpa using used_same start T hsame j, ?_⟩
    intro h r hr
    obtain ⟨traj, t1, t2, t3⟩ := r3 h r hr
    obtain ⟨i, s1, s2⟩ := c3 h r hr
    rw [s1, Option.some.injEq] at t1
    refine ⟨traj, t2, by rw [← t1, ← hw0]; exact s2, fun k hk => ?_⟩
    have := t3 k (e k) (by rw [List.getElem?_map, List.getElem?_range hk]; rfl)
    obtain ⟨u1, u2⟩ := used_same start T hsame k
    rw [u1, u2]
    simpa using this
  · have hpos : 0 < n0 := by
      rcases Nat.eq_zero_or_pos n0 with h | h
      · exfalso
        apply hsame
        have : start = T := by rw [h] at hn0; omega
        rw [this]
      · exact h
    have h5 : ¬ (OnWeekend (T - 5 * 86400000000) ↔ OnWeekend T) := by
      unfold OnWeekend at hsame ⊢
      omega
    -- the first step
    obtain ⟨subs1, e1, m1, t1⟩ := stepSubs_spec K start 0 (sizesOf rs counts) subs c2 (e 0) (by rw [hrl]; exact he 0)
    obtain ⟨subs2, e2, st2, f2⟩ := reload_spec K start 0 (Markov.crestWeekday (T + 600000000)) (sizesOf rs counts) hk subs1 m1
    have hday : OnWeekend (T + 600000000) ↔ OnWeekend T := by
      unfold OnWeekend
      have : (T + 600000000) / 86400000000 = T / 86400000000 := by omega
      rw [this]
    have hne : Markov.crestWeekday (T + 600000000) ≠ !crestWeekend start 0 := by
      rw [weekday_iff, hw0]
      intro h
      rw [Bool.not_inj_iff, decide_eq_decide] at h
      exact hsame (h.symm.trans hday)
    obtain ⟨k0, hk0⟩ : ∃ k0, n0 = k0 + 1 := ⟨n0 - 1, by omega⟩
    have hstep : step K.load R { subs := subs, residents := rsOf (sizesOf rs counts), weekday := !crestWeekend start 0, time := T } (e 0) =
        .ok { subs := subs2, residents := rsOf (sizesOf rs counts), weekday := Markov.crestWeekday (T + 600000000), time := T + 600000000 } := by
      unfold step
      have hf : firesAfterRefresh R T 600000000 = true := by
        unfold firesAfterRefresh timeOfDay DAY
        rw [beq_iff_eq]
        exact hT0
      simp only [e1, bind, Except.bind, hf, if_true]
      rw [if_pos (by simpa using hne)]
      simp only [e2]
    obtain ⟨u1, u2⟩ := used_early start T hsame h5 1 (by omega)
    have hcw : (!Markov.crestWeekday (T + 600000000)) = crestWeekend (T - 5 * 86400000000) (5 * 144 + 1) := by
      rw [← u2]
      unfold crestWeekendFrom crestWeekend
      rw [if_neg (by omega), weekday_iff, Bool.not_not, decide_eq_decide, hday]
      simp
    have i1 : Inv K (T - 5 * 86400000000) (5 * 144 + 1) (sizesOf rs counts) { subs := subs2, residents := rsOf (sizesOf rs counts), weekday := Markov.crestWeekday (T + 600000000), time := T + 600000000 } := by
      refine ⟨by push_cast; ring, by rw [← hcw, Bool.not_not], rfl, f2.imp fun g q hq => ⟨hq.1, hq.2.1, by rw [← hcw]; exact hq.2.2.1, ?_⟩⟩
      rw [hq.2.2.2, ← u1]
      unfold crestSlotFrom
      rw [if_pos (.inr ⟨by omega, hsame⟩)]
    obtain ⟨s', r1, r2, r3⟩ := run_spec K (T - 5 * 86400000000) R hR (by omega) (sizesOf rs counts) hk ((List.range k0).map fun k => e (k + 1)) (by
      intro x hx
      obtain ⟨k, -, rfl⟩ := List.mem_map.1 hx
      rw [hrl]
      exact he _) (5 * 144 + 1) _ i1
    have hlen0 : ((List.range k0).map fun k => e (k + 1)).length = k0 := by simp
    rw [hlen0] at r2 r3
    have hdraws : (List.range n0).map e = e 0 :: (List.range k0).map fun k => e (k + 1) := by
      rw [hk0, List.range_succ_eq_map, List.map_cons, List.map_map]
      rfl
    refine ⟨s', T - 5 * 86400000000, 5, ?_, by simp, by rw [hk0, show 5 * 144 + (k0 + 1) = 5 * 144 + 1 + k0 by omega]; exact r2, fun j hj => used_early start T hsame h5 j (by omega), ?_⟩
    · rw [hdraws]
      simp only [run, hstep, bind, Except.bind]
      exact r1
    · intro h r hr
      obtain ⟨traj, a1, a2, a3⟩ := r3 h r hr
      obtain ⟨i, s1, s2⟩ := c3 h r hr
      obtain ⟨i0, i1', b1, b2, b3⟩ := t1 h r hr
      have a1 : (statesOf subs2)[h]? = some (traj 0) := a1
      rw [st2, b2, Option.some.injEq] at a1
      rw [s1, Option.some.injEq] at b1
      refine ⟨fun k => if k = 0 then i else traj (k - 1), ?_, by simp only [if_pos]; rw [← hw0]; exact s2, ?_⟩
      · simp only [hk0, Nat.add_sub_cancel, if_neg (show ¬ k0 + 1 = 0 by omega)]
        exact a2
      · intro k hkn
        cases k with
        | zero =>
          simp only [if_pos, Nat.zero_add, if_neg (show ¬ (1 : Nat) = 0 by omega), Nat.sub_self]
          rw [← a1, b1]
          have w1 : crestWeekendFrom start T 0 = crestWeekend start 0 := by unfold crestWeekendFrom; rw [if_pos rfl, hw0]
          have w2 : crestSlotFrom start T 0 = crestSlot start 0 := by
            rw [slot_zero]
            unfold crestSlotFrom
            rw [if_neg]
            rintro (⟨d, h1, h2⟩ | ⟨h1, -⟩)
            · have : d = 0 := by omega
              subst this
              apply h2
              simp
            · omega
          rw [w1, w2]
          exact b3
        | succ k =>
          simp only [if_neg (show ¬ k + 1 = 0 by omega), if_neg (show ¬ k + 1 + 1 = 0 by omega), Nat.add_sub_cancel]
          have := a3 k (e (k + 1)) (by rw [List.getElem?_map, List.getElem?_range (by omega)]; rfl)
          obtain ⟨v1, v2⟩ := used_early start T hsame h5 (k + 1) (by omega)
          rw [v1, v2, show 5 * 144 + (k + 1) = 5 * 144 + 1 + k by omega]
          exact this

theorem createSub_ok (K : CrestData) (T : Int) (g : Nat × Nat) (h9 : g.1 ≤ 9) (hB : Has K g.1) (h0 : 0 < g.2) (us : List Rat) (hu : Draws g.2 us) :
    ∃ q, createSub K.load g.2 g.1 (!crestWeekend T 0) us = .ok q := by
  obtain ⟨subs, e, -⟩ := createSubs_spec K T [g] (by intro g' hg'; rw [List.mem_singleton] at hg'; subst hg'; exact ⟨h9, hB, h0⟩) us (by simpa [rsOf] using hu)
  simp only [createSubs, bind, Except.bind] at e
  rw [List.take_of_length_le (by rw [hu.1])] at e
  cases hc : createSub K.load g.2 g.1 (!crestWeekend T 0) us with
  | ok q => exact ⟨q, rfl⟩
  | error x => rw [hc] at e; cases e

theorem createSub_bad (B : CrestBook) (c n : Nat) (h : n = 0 ∨ 6 < n) (d : Bool) (us : List Rat) : createSub (crestLoadTpm B) c n d us = .error .valueError := by
  have : crestSubgroup (groupOf n d) = .error .valueError := by
    unfold crestSubgroup
    have e1 : lookupA (groupOf n d) kNResidents = some (.int n) := rfl
    have e2 : lookupA (groupOf n d) kWeekday = some (if d then kWeekdays else kWeekend) := rfl
    rw [e1, e2]
    have hb : ¬ ((n : Int) ∈ [1, 2, 3, 4, 5, 6]) := by
      simp only [List.mem_cons, List.not_mem_nil, or_false]
      omega
    generalize (if d then kWeekdays else kWeekend) = w
    simp only [if_neg hb, ite_self]
  unfold createSub crestLoadTpm
  rw [this]
  rfl

theorem createSubs_any (B : CrestBook) (T : Int) (sizes : List (Nat × Nat)) (hk : ∀ g ∈ sizes, 0 < g.2 ∧ (1 ≤ g.1 → g.1 ≤ 6 → BookHas B g.1)) (us : List Rat) (hu : Draws (rsOf sizes).length us) :
    ((∃ subs, createSubs (crestLoadTpm B) (!crestWeekend T 0) sizes us = .ok subs) ∨ createSubs (crestLoadTpm B) (!crestWeekend T 0) sizes us = .error .valueError) ∧
    ((∃ g ∈ sizes, g.1 = 0 ∨ 6 < g.1) → createSubs (crestLoadTpm B) (!crestWeekend T 0) sizes us = .error .valueError) := by
  induction sizes generalizing us with
  | nil => exact ⟨.inl ⟨[], rfl⟩, by rintro ⟨g, hg, -⟩; simp at hg⟩
  | cons g l ih =>
    rw [rsOf_cons, List.length_append, List.length_replicate] at hu
    obtain ⟨hu1, hu2⟩ := draws_take hu
    obtain ⟨i1, i2⟩ := ih (fun g' hg' => hk g' (List.mem_cons_of_mem _ hg')) (us.drop g.2) hu2
    by_cases hb : g.1 = 0 ∨ 6 < g.1
    · have : createSubs (crestLoadTpm B) (!crestWeekend T 0) (g :: l) us = .error .valueError := by
        simp only [createSubs, createSub_bad B g.2 g.1 hb, bind, Except.bind]
      exact ⟨.inr this, fun _ => this⟩
    · obtain ⟨k1, k2⟩ := hk g List.mem_cons_self
      obtain ⟨q, hq⟩ : ∃ q, createSub (crestLoadTpm B) g.2 g.1 (!crestWeekend T 0) (us.take g.2) = .ok q := createSub_ok (bookData B) T g (by omega) (book_has B g.1 (by omega) (by omega) (k2 (by omega) (by omega))) k1 _ hu1
      constructor
      · rcases i1 with ⟨subs, e⟩ | e
        · exact .inl ⟨q :: subs, by simp only [createSubs, hq, e, bind, Except.bind]⟩
        · exact .inr (by simp only [createSubs, hq, e, bind, Except.bind])
      · rintro ⟨g', hg', hb'⟩
        rw [List.mem_cons] at hg'
        rcases hg' with rfl | hg'
        · exact absurd hb' hb
        · simp only [createSubs, hq, i2 ⟨g', hg', hb'⟩, bind, Except.bind]

theorem weekday_T (start : Int) : Markov.crestWeekday start = !crestWeekend (start - start % 86400000000) 0 := by
  have hw0 : crestWeekend (start - start % 86400000000) 0 = decide (OnWeekend (start - start % 86400000000)) := by
    unfold crestWeekend
    simp
  rw [weekday_iff, hw0]
  have : OnWeekend start ↔ OnWeekend (start - start % 86400000000) := by
    unfold OnWeekend
    have : start / 86400000000 = (start - start % 86400000000) / 86400000000 := by omega
    rw [this]
  simp only [this]

/-! ## Getters -/

theorem labels_spec (K : CrestData) (T : Int) (j : Nat) (sizes : List (Nat × Nat)) (subs : List CrestSub) (hinv : List.Forall₂ (fun g q => SubInv K T j g.1 g.2 q) sizes subs) :
    ∃ ls : List (List Nat), subs.mapM (fun q => q.chain.currentLabels) = .ok ls ∧ ls.flatten.length = (rsOf sizes).length ∧
      ∀ (h r i : Nat), (rsOf sizes)[h]? = some r → (statesOf subs)[h]? = some i → ∃ m k, IsState r i m k ∧ ls.flatten[h]? = some (10 * m + k) := by
  induction hinv with
  | nil => exact ⟨[], rfl, rfl, fun h r i hr => by simp [rsOf] at hr⟩
  | @cons g q l qs hq hl ih =>
    obtain ⟨ls, e1, e2, e3⟩ := ih
    have hlen := hq.good.len
    obtain ⟨c, c1, c2, c3⟩ := mapM_rel (pyGet q.chain.labels) (fun s lab => q.chain.labels[s]? = some lab) q.chain.states (by
      intro s hs
      have hs' : s < q.chain.labels.length := by rw [hq.labels, labelsOf_length]; exact hq.good.valid s hs
      exact ⟨q.chain.labels[s], pyGet_ok _ _ hs', List.getElem?_eq_getElem hs'⟩)
    refine ⟨c :: ls, ?_, ?_, ?_⟩
    · rw [List.mapM_cons]
      have : q.chain.currentLabels = .ok c := c1
      rw [this, e1]
      rfl
    · rw [List.flatten_cons, List.length_append, e2, c2, hlen, rsOf_cons, List.length_append, List.length_replicate]
    · intro h r i hr hi
      rw [rsOf_cons] at hr
      rw [statesOf_cons] at hi
      rw [List.flatten_cons]
      by_cases hh : h < g.2
      · rw [List.getElem?_append_left (by simpa using hh), List.getElem?_replicate, if_pos hh, Option.some.injEq] at hr
        subst hr
        rw [List.getElem?_append_left (by omega)] at hi
        obtain ⟨m, hm, k, hk, hmk⟩ := idx_split g.1 i (hq.good.valid i (List.mem_of_getElem? hi))
        refine ⟨m, k, ⟨hm, hk, hmk⟩, ?_⟩
        rw [List.getElem?_append_left (by omega)]
        have hlab : q.chain.labels[i]? = some (10 * m + k) := by
          rw [hq.labels, hmk]
          exact grid_get g.1 _ m k hm hk
        obtain ⟨y, y1, y2⟩ := c3 h i hi
        rw [hlab] at y2
        rw [y1, y2]
      · rw [List.getElem?_append_right (by simpa using hh), List.length_replicate] at hr
        rw [List.getElem?_append_right (by omega), hlen] at hi
        obtain ⟨m, k, h1, h2⟩ := e3 (h - g.2) r i hr hi
        refine ⟨m, k, h1, ?_⟩
        rw [List.getElem?_append_right (by omega), c2, hlen]
        exact h2

theorem mapped_spec {β : Type} (f : Markov Nat → Except PyErr (List β)) (g : Nat → β) (hf : ∀ m ls, m.currentLabels = .ok ls → f m = .ok (ls.map g)) (subs : List CrestSub) (ls : List (List Nat))
    (h : subs.mapM (fun q => q.chain.currentLabels) = .ok ls) : subs.mapM (fun q => f q.chain) = .ok (ls.map fun l => l.map g) := by
  induction subs generalizing ls with
  | nil =>
    have : ls = [] := by
      simp only [List.mapM_nil] at h
      exact (Except.ok.inj h).symm
    subst this
    rfl
  | cons q subs ih =>
    rw [List.mapM_cons] at h
    cases e1 : q.chain.currentLabels with
    | error e => rw [e1] at h; cases h
    | ok c =>
      cases e2 : subs.mapM (fun q => q.chain.currentLabels) with
      | error e => rw [e1, e2] at h; cases h
      | ok cs =>
        rw [e1, e2] at h
        have : ls = c :: cs := (Except.ok.inj h).symm
        subst this
        rw [List.mapM_cons, hf _ _ e1, ih cs e2]
        rfl

theorem occ_of (m : Markov Nat) (ls : List Nat) (h : m.currentLabels = .ok ls) : m.crestOccupancy = .ok (ls.map fun l => l / 10) := by
  unfold Markov.crestOccupancy; rw [h]; rfl

theorem act_of (m : Markov Nat) (ls : List Nat) (h : m.currentLabels = .ok ls) : m.crestActive = .ok (ls.map fun l => min (l / 10) (l % 10)) := by
  unfold Markov.crestActive; rw [h]; rfl

theorem gains_of (m : Markov Nat) (ls : List Nat) (h : m.currentLabels = .ok ls) :
    m.crestGains = .ok (ls.map fun l => 84 * max (((l / 10 : Nat) : Int) - ((l % 10 : Nat) : Int)) 0 + 147 * ((min (l / 10) (l % 10) : Nat) : Int)) := by
  unfold Markov.crestGains
  rw [h, act_of m ls h]
  simp only [bind, Except.bind]
  rw [List.zipWith_map_left, List.zipWith_map_right, List.zipWith_self]

/-- What the getters of the simulator return. -/
theorem getters_spec (K : CrestData) (T : Int) (j : Nat) (sizes : List (Nat × Nat)) (s : CrestSim) (hi : Inv K T j sizes s) (hr6 : ∀ g ∈ sizes, g.1 ≤ 9) :
    ∃ labels occ act gains, s.statesLabeled = .ok labels ∧ s.occupancy = .ok occ ∧ s.activeOccupancy = .ok act ∧ s.thermalGains = .ok gains ∧
      labels.length = (rsOf sizes).length ∧ occ.length = (rsOf sizes).length ∧ act.length = (rsOf sizes).length ∧ gains.length = (rsOf sizes).length ∧
      ∀ (h r i : Nat), (rsOf sizes)[h]? = some r → (statesOf s.subs)[h]? = some i → ∃ m k, IsState r i m k ∧ labels[h]? = some (10 * m + k) ∧ occ[h]? = some m ∧ act[h]? = some (min m k) ∧
        gains[h]? = some (84 * max ((m : Int) - k) 0 + 147 * (min m k : Nat)) := by
  obtain ⟨ls, e1, e2, e3⟩ := labels_spec K T j sizes s.subs hi.subs
  refine ⟨ls.flatten, ls.flatten.map fun l => l / 10, ls.flatten.map fun l => min (l / 10) (l % 10), ls.flatten.map fun l => 84 * max (((l / 10 : Nat) : Int) - ((l % 10 : Nat) : Int)) 0 + 147 * ((min (l / 10) (l % 10) : Nat) : Int), ?_, ?_, ?_, ?_,
    e2, by rw [List.length_map, e2], by rw [List.length_map, e2], by rw [List.length_map, e2], ?_⟩
  · unfold statesLabeled; rw [e1]; rfl
  · unfold occupancy; rw [mapped_spec _ _ occ_of _ _ e1, List.map_flatten]; rfl
  · unfold activeOccupancy; rw [mapped_spec _ _ act_of _ _ e1, List.map_flatten]; rfl
  · unfold thermalGains; rw [mapped_spec _ _ gains_of _ _ e1, List.map_flatten]; rfl
  · intro h r i hr hi'
    obtain ⟨m, k, h1, h2⟩ := e3 h r i hr hi'
    have hr' : r ≤ 9 := by
      have := List.mem_of_getElem? hr
      unfold rsOf at this
      rw [List.mem_flatten] at this
      obtain ⟨l, hl, hm⟩ := this
      obtain ⟨g, hg, rfl⟩ := List.mem_map.1 hl
      rw [(List.mem_replicate.1 hm).2]
      exact hr6 g hg
    have hk : k ≤ 9 := le_trans h1.2.1 hr'
    have d1 : (10 * m + k) / 10 = m := by omega
    have d2 : (10 * m + k) % 10 = k := by omega
    refine ⟨m, k, h1, h2, ?_, ?_, ?_⟩
    · rw [List.getElem?_map, h2, Option.map_some, d1]
    · rw [List.getElem?_map, h2, Option.map_some, d1, d2]
    · rw [List.getElem?_map, h2, Option.map_some, d1, d2]

/-- The course of the states of a household, for any loader. -/
def Course (K : CrestData) (n : Nat) (start T : Int) (u0 : Rat) (us : List Rat) (traj : Nat → Nat) : Prop :=
  Sampled (K.start n (decide (OnWeekend start))) u0 (traj 0) ∧ ∀ j u, us[j]? = some u → Sampled (K.row n (crestWeekendFrom start T j) (crestSlotFrom start T j) (traj j)) u (traj (j + 1))

/-- The whole simulation, for any loader and refresh time. -/
theorem sim_spec (K : CrestData) (R : Int) (hR0 : 0 ≤ R) (hR10 : R % 600000000 = 0) (hR : R + 600000000 < 86400000000) (groups : List Subgroup) (pdf : List Rat) (n : Nat) (hn : 0 < n) (algo : PopAlgo) (halgo : ∀ us, algo = .monteCarlo us → us.length = n) (counts : List Nat)
    (hc : samplePopulation n pdf algo = .ok counts) (hl : counts.length = groups.length) (hg : ∀ g ∈ groups, ∃ r : Nat, g.at kNResidents = some (.int r) ∧ r ≤ 9 ∧ Has K r)
    (start : Int) (hs : start % 600000000 = 0) (us : List Rat) (hu : Draws n us) (e : Nat → List Rat) (he : ∀ k, Draws n (e k)) (T : Int) (hT : T = start - (start - R) % 86400000000)
    (n0 : Nat) (hn0 : (n0 : Int) * 600000000 = start - T) :
    ∃ s0, create K.load groups pdf R n algo false start us e = .ok s0 ∧
      ∀ uss, (∀ us ∈ uss, Draws n us) → ∃ s labels occ act gains, s0.run K.load R uss = .ok s ∧ s.time = start + uss.length * 600000000 ∧
        s.statesLabeled = .ok labels ∧ s.occupancy = .ok occ ∧ s.activeOccupancy = .ok act ∧ s.thermalGains = .ok gains ∧ s.residents.length = n ∧ labels.length = n ∧ occ.length = n ∧ act.length = n ∧ gains.length = n ∧
        (∀ h < n, ∃ k, InSubgroup counts h k ∧ k < groups.length) ∧
        ∀ (h k : Nat) g (r : Nat), InSubgroup counts h k → groups[k]? = some g → g.at kNResidents = some (.int r) →
          s.residents[h]? = some r ∧
          ∃ traj, Course K r start T (us.getD h 0) (((List.range n0).map e ++ uss).map fun us => us.getD h 0) traj ∧
            ∃ m a, IsState r (traj (n0 + uss.length)) m a ∧ labels[h]? = some (10 * m + a) ∧ occ[h]? = some m ∧ act[h]? = some (min m a) ∧ gains[h]? = some (84 * max ((m : Int) - a) 0 + 147 * (min m a : Nat)) := by
  have hsum := C12_counts_sum n pdf algo counts halgo hc
  obtain ⟨rs, r1, r2, r3⟩ := mapM_rel residentsOf (fun g r => g.at kNResidents = some (.int (r : Nat)) ∧ r ≤ 9 ∧ Has K r) groups (by
    intro g hgm
    obtain ⟨r, q1, q2⟩ := hg g hgm
    refine ⟨r, ?_, q1, q2⟩
    unfold residentsOf
    have : lookupA g kNResidents = some (.int r) := q1
    rw [this]
    rfl)
  have hrl : counts.length = rs.length := by rw [r2, hl]
  have hmem : ∀ r ∈ rs, r ≤ 9 ∧ Has K r := by
    intro r hr
    obtain ⟨k, hk⟩ := List.mem_iff_getElem?.1 hr
    have hkl := (List.getElem?_eq_some_iff.1 hk).1
    obtain ⟨y, y1, y2⟩ := r3 k (groups[k]'(by omega)) (List.getElem?_eq_getElem (by omega))
    rw [hk, Option.some.injEq] at y1
    rw [y1]
    exact y2.2
  have hk : Known K (sizesOf rs counts) := by
    intro g hgm
    unfold sizesOf at hgm
    rw [List.mem_filter] at hgm
    obtain ⟨q1, q2⟩ := hmem g.1 (List.of_mem_zip hgm.1).1
    exact ⟨q1, q2, by simpa using hgm.2⟩
  obtain ⟨s0, T', D, c1, cT, c2, cu, c3⟩ := create_spec K groups pdf n hn algo R hR0 hR10 hR start hs rs counts r1 hc hrl hsum hk us hu e he T hT n0 hn0
  refine ⟨s0, c1, fun uss huss => ?_⟩
  obtain ⟨z1, z2⟩ := rsOf_zip rs counts hrl.symm
  have hrlen : (rsOf (sizesOf rs counts)).length = n := by
    unfold sizesOf
    rw [rsOf_filter, z1, hsum]
  obtain ⟨s, d1, d2, d3⟩ := run_spec K T' R hR (by omega) (sizesOf rs counts) hk uss (by rw [hrlen]; exact huss) (D * 144 + n0) s0 c2
  obtain ⟨labels, occ, act, gains, g1, g2, g3, g4, g5, g6, g7, g8, g9⟩ := getters_spec K T' _ _ s d2 fun g hg => (hk g hg).1
  rw [hrlen] at g5 g6 g7 g8
  refine ⟨s, labels, occ, act, gains, d1, ?_, g1, g2, g3, g4, by rw [d2.residents, hrlen], g5, g6, g7, g8, ?_, ?_⟩
  · rw [d2.time]
    push_cast
    rw [add_mul]
    omega
  · intro h hh
    obtain ⟨k, hk⟩ : ∃ k, (hhTypesFrom 0 counts)[h]? = some k := by
      have : (hhTypesFrom 0 counts).length = n := by rw [hhTypesFrom_length, hsum]
      exact ⟨_, List.getElem?_eq_getElem (by omega)⟩
    have hin := ((hhTypesFrom_get counts 0 h k).1 hk).2
    rw [Nat.sub_zero] at hin
    refine ⟨k, hin, ?_⟩
    by_contra hlt
    obtain ⟨i1, i2⟩ := hin
    rw [List.take_of_length_le (by omega)] at i1 i2
    omega
  · intro h k g r hin hgk hgr
    obtain ⟨y, y1, y2⟩ := r3 k g hgk
    have hyr : y = r := by
      have := y2.1
      rw [hgr, Option.some.injEq, SubVal.int.injEq] at this
      exact_mod_cast this.symm
    rw [hyr] at y1
    have hrs : (rsOf (sizesOf rs counts))[h]? = some r := by
      unfold sizesOf
      rw [rsOf_filter]
      exact z2 h k r hin y1
    refine ⟨by rw [d2.residents, hrs], ?_⟩
    obtain ⟨t1, a1, a2, a3⟩ := c3 h r hrs
    obtain ⟨t2, b1, b2, b3⟩ := d3 h r hrs
    have hjoin : t2 0 = t1 n0 := by
      rw [a1, Option.some.injEq] at b1
      exact b1.symm
    obtain ⟨m, a, m1, m2⟩ := g9 h r _ hrs b2
    refine ⟨fun j => if j < n0 then t1 j else t2 (j - n0), ⟨?_, ?_⟩, m, a, ?_, m2⟩
    · by_cases h0 : 0 < n0
      · simpa only [if_pos h0] using a2
      · simp only [if_neg h0]
        rw [show 0 - n0 = 0 by omega, hjoin, show n0 = 0 by omega]
        exact a2
    · intro j u hju
      rw [List.getElem?_map] at hju
      by_cases hj : j < n0
      · rw [List.getElem?_append_left (by simpa using hj), List.getElem?_map, List.getElem?_range hj] at hju
        simp only [Option.map_some, Option.some.injEq] at hju
        subst hju
        have := a3 j hj
        simp only [if_pos hj]
        by_cases hj1 : j + 1 < n0
        · simpa only [if_pos hj1] using this
        · simp only [if_neg hj1]
          rw [show j + 1 - n0 = 0 by omega, hjoin, show n0 = j + 1 by omega]
          exact this
      · rw [List.getElem?_append_right (by simpa using hj), List.length_map, List.length_range] at hju
        cases hu' : uss[j - n0]? with
        | none => rw [hu'] at hju; cases hju
        | some us' =>
          rw [hu'] at hju
          simp only [Option.map_some, Option.some.injEq] at hju
          subst hju
          have := b3 (j - n0) us' hu'
          simp only [if_neg hj, if_neg (show ¬ j + 1 < n0 by omega)]
          rw [show D * 144 + n0 + (j - n0) = D * 144 + j by omega] at this
          rw [show j + 1 - n0 = j - n0 + 1 by omega, (cu j (by omega)).1, (cu j (by omega)).2]
          exact this
    · simp only [if_neg (show ¬ n0 + uss.length < n0 by omega), Nat.add_sub_cancel_left]
      exact m1

end CrestSim
end Demod
