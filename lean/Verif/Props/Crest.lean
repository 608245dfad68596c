import Verif.Lemmas.Crest
import Verif.Props.Activity
import Verif.Props.Markov

/-! # The data loaded from the CREST workbook -/

namespace Demod

/-! ## C102: transition probabilities -/

/-- **C102.** For the subgroup of the households of `n` residents on weekdays or week-ends and a valid sheet: 144 matrices on `(n + 1)²` states, whose rows are distributions: those of the sheet, divided by their sum, and for a
missing row the state is kept. The labels and the starting probabilities of the states are those of the rows `7 m + k` of the table, for `m, k ≤ n`. -/
theorem C102_crest_tpm (B : CrestBook) (g : Subgroup) (n : Nat) (weekend : Bool) (hg : IsCrestGroup g n weekend) (hs : ValidSheet (B.tpm n weekend) ((n + 1) ^ 2))
    (col : List Rat) (hcol : lookupA (B.starts weekend) n = some col) (hcl : col.length = 49) (hll : (B.startLabels weekend).length = 49) :
    ∃ T labels start, crestLoadTpm B g = .ok (T, labels, start) ∧ T.rows = (n + 1) ^ 2 ∧ T.cols = (n + 1) ^ 2 ∧ T.mats.length = 144 ∧ IsTpms ((n + 1) ^ 2) T.mats ∧
      (∀ t < 144, ∀ i < (n + 1) ^ 2, ∀ j < (n + 1) ^ 2,
        (rowOf T.mats t i).getD j 0 = if (sheetRow (B.tpm n weekend) ((n + 1) ^ 2) t i).sum = 0 then (if i = j then 1 else 0)
          else (sheetRow (B.tpm n weekend) ((n + 1) ^ 2) t i).getD j 0 / (sheetRow (B.tpm n weekend) ((n + 1) ^ 2) t i).sum) ∧
      labels.length = (n + 1) ^ 2 ∧ start.length = (n + 1) ^ 2 ∧
      ∀ m ≤ n, ∀ k ≤ n, labels[m * (n + 1) + k]? = (B.startLabels weekend)[7 * m + k]? ∧ start[m * (n + 1) + k]? = col[7 * m + k]? := by
  have hn6 : n ≤ 6 := hg.2.2.1
  generalize hN : (n + 1) ^ 2 = N at *
  obtain ⟨st, s1, s2, s3⟩ := mask_ok n hn6 col hcl
  obtain ⟨lb, l1, l2, l3⟩ := mask_ok n hn6 (B.startLabels weekend) hll
  have hmats := crest_mats (B.tpm n weekend) N hs
  refine ⟨⟨N, N, (List.range 144).map fun t => (List.range N).map fun i => crestRow (sheetRow (B.tpm n weekend) N t i) i⟩, lb, st, ?_, rfl, rfl, by simp, ?_, ?_, by rw [l2, hN], by rw [s2, hN],
    fun m hm k hk => ⟨l3 m hm k hk, s3 m hm k hk⟩⟩
  · unfold crestLoadTpm
    rw [crestSubgroup_ok g n weekend hg]
    change crestParseTpm B n weekend = _
    unfold crestParseTpm
    rw [hN]
    cases e : reshape3 144 N N ((B.tpm n weekend).map fun row => row.take N).flatten with
    | error err => rw [e] at hmats; cases hmats
    | ok tpms =>
      rw [e] at hmats
      have hm' : (tpms.map stayOnMissing).mapM (rescalePdf (1 / 10)) = _ := hmats
      simp only [bind, Except.bind, e, hm', hcol, s1, l1]
  · obtain ⟨v1, v2, v3⟩ := hs
    refine ⟨by simp [List.range_succ], ?_⟩
    intro mat hm
    rw [List.mem_map] at hm
    obtain ⟨t, ht, rfl⟩ := hm
    rw [List.mem_range] at ht
    refine ⟨by simp, ?_⟩
    intro row hr
    rw [List.mem_map] at hr
    obtain ⟨i, hi, rfl⟩ := hr
    rw [List.mem_range] at hi
    have hlt := sheet_lt ht hi
    have hmem : ((B.tpm n weekend).getD (t * N + i) []) ∈ B.tpm n weekend := by
      rw [List.getD_eq_getElem?_getD, List.getElem?_eq_getElem (by omega)]
      exact List.getElem_mem _
    obtain ⟨r1, r2⟩ := v2 _ hmem
    have := crestRow_spec (sheetRow (B.tpm n weekend) N t i) N i hi (by unfold sheetRow; rw [List.length_take]; omega) r2 (List.sum_nonneg r2)
    exact ⟨this.1, this.2.1⟩
  · intro t ht i hi j hj
    obtain ⟨v1, v2, v3⟩ := hs
    have hlt := sheet_lt ht hi
    have hmem : ((B.tpm n weekend).getD (t * N + i) []) ∈ B.tpm n weekend := by
      rw [List.getD_eq_getElem?_getD, List.getElem?_eq_getElem (by omega)]
      exact List.getElem_mem _
    obtain ⟨r1, r2⟩ := v2 _ hmem
    have := crestRow_spec (sheetRow (B.tpm n weekend) N t i) N i hi (by unfold sheetRow; rw [List.length_take]; omega) r2 (List.sum_nonneg r2)
    have e : rowOf ((List.range 144).map fun t => (List.range N).map fun i => crestRow (sheetRow (B.tpm n weekend) N t i) i) t i = crestRow (sheetRow (B.tpm n weekend) N t i) i := by
      unfold rowOf
      simp [ht, hi]
    rw [show (⟨N, N, (List.range 144).map fun t => (List.range N).map fun i => crestRow (sheetRow (B.tpm n weekend) N t i) i⟩ : Tpms).mats = (List.range 144).map fun t => (List.range N).map fun i => crestRow (sheetRow (B.tpm n weekend) N t i) i from rfl, e]
    split
    · rename_i hz; exact this.2.2.1 hz j hj
    · rename_i hz; exact this.2.2.2 hz j hj

/-- **C102 (rejections).** Other subgroups are refused, and so is a sheet of another size or one with a row of which the sum is neither 0 nor within 10 % of 1. -/
theorem C102_rejected (B : CrestBook) (g : Subgroup) :
    ((∀ n weekend, ¬ IsCrestGroup g n weekend) → crestLoadTpm B g = .error .valueError) ∧
    ∀ n weekend, IsCrestGroup g n weekend →
      ((∀ row ∈ B.tpm n weekend, (n + 1) ^ 2 ≤ row.length) → (B.tpm n weekend).length ≠ 144 * (n + 1) ^ 2 → crestLoadTpm B g = .error .valueError) ∧
      ((∀ row ∈ B.tpm n weekend, (n + 1) ^ 2 ≤ row.length) → (B.tpm n weekend).length = 144 * (n + 1) ^ 2 →
        (∃ t < 144, ∃ i < (n + 1) ^ 2, (sheetRow (B.tpm n weekend) ((n + 1) ^ 2) t i).sum ≠ 0 ∧
          ¬ (9 / 10 < (sheetRow (B.tpm n weekend) ((n + 1) ^ 2) t i).sum ∧ (sheetRow (B.tpm n weekend) ((n + 1) ^ 2) t i).sum < 11 / 10)) → crestLoadTpm B g = .error .valueError) := by
  refine ⟨fun h => by unfold crestLoadTpm; rw [crestSubgroup_error g h]; rfl, fun n weekend hg => ⟨fun hr hl => ?_, fun hr hl hbad => ?_⟩⟩
  · unfold crestLoadTpm
    rw [crestSubgroup_ok g n weekend hg]
    change crestParseTpm B n weekend = _
    unfold crestParseTpm
    have hpos : 0 < (n + 1) ^ 2 := Nat.pow_pos (by omega)
    generalize (n + 1) ^ 2 = N at *
    have hu := (flatten_uniform N ((B.tpm n weekend).map fun row => row.take N) (by
      intro r hr'
      rw [List.mem_map] at hr'
      obtain ⟨row, hr', rfl⟩ := hr'
      rw [List.length_take]
      have := hr row hr'
      omega)).1
    have : reshape3 144 N N ((B.tpm n weekend).map fun row => row.take N).flatten = .error .valueError := by
      unfold reshape3
      rw [if_neg]
      rw [hu, List.length_map]
      intro hc
      exact hl (Nat.eq_of_mul_eq_mul_right hpos hc)
    simp only [bind, Except.bind, this]
  · unfold crestLoadTpm
    rw [crestSubgroup_ok g n weekend hg]
    change crestParseTpm B n weekend = _
    unfold crestParseTpm
    generalize (n + 1) ^ 2 = N at *
    obtain ⟨t, ht, i, hi, hz, hbad⟩ := hbad
    have e := reshape3_rows 144 N N ((B.tpm n weekend).map fun row => row.take N) (by rw [List.length_map, hl]) (by
      intro r hr'
      rw [List.mem_map] at hr'
      obtain ⟨row, hr', rfl⟩ := hr'
      rw [List.length_take]
      have := hr row hr'
      omega)
    simp only [sheetRow_eq] at e
    have e2 : (((List.range 144).map fun t => (List.range N).map fun i => sheetRow (B.tpm n weekend) N t i).map stayOnMissing).mapM (rescalePdf (1 / 10)) = .error .valueError := by
      apply mapM_error
      · intro mat _
        by_cases h : ∀ p ∈ mat, 1 - 1 / 10 < p.sum ∧ p.sum < 1 + 1 / 10
        · exact Or.inr ⟨_, rescale_ok _ _ h⟩
        · push Not at h
          obtain ⟨p, hp, h⟩ := h
          exact Or.inl (rescale_error _ _ ⟨p, hp, fun hc => absurd hc.2 (not_lt.2 (h hc.1))⟩)
      · refine ⟨stayOnMissing ((List.range N).map fun i => sheetRow (B.tpm n weekend) N t i), List.mem_map.2 ⟨_, List.mem_map.2 ⟨t, List.mem_range.2 ht, rfl⟩, rfl⟩, ?_⟩
        apply rescale_error
        refine ⟨sheetRow (B.tpm n weekend) N t i, ?_, ?_⟩
        · rw [stayOnMissing_range, List.mem_map]
          exact ⟨i, List.mem_range.2 hi, if_neg hz⟩
        · intro hc
          apply hbad
          constructor <;> linarith [hc.1, hc.2]
    simp only [bind, Except.bind, e, e2]

/-- **C102 (simulation).** With labels `10 m + k` in row `7 m + k` and starting probabilities of which those used sum to 1, a simulator made of the loaded data can be run, and at each step there are in each household at most
`n` occupants, of which the active ones are a part. -/
theorem C102_simulation (B : CrestBook) (g : Subgroup) (n : Nat) (weekend : Bool) (hg : IsCrestGroup g n weekend) (hs : ValidSheet (B.tpm n weekend) ((n + 1) ^ 2))
    (col : List Rat) (hcol : lookupA (B.starts weekend) n = some col) (hcl : col.length = 49) (hll : (B.startLabels weekend).length = 49)
    (hlab : ∀ m ≤ 6, ∀ k ≤ 6, (B.startLabels weekend)[7 * m + k]? = some (10 * m + k)) (hnn : ∀ x ∈ col, 0 ≤ x)
    (hsum : ((List.range (n + 1)).map fun m => ((List.range (n + 1)).map fun k => col.getD (7 * m + k) 0).sum).sum = 1)
    (N : Nat) (hN : 0 < N) (us0 : List Rat) (hu0 : Draws N us0) (uss : List (List Rat)) (hus : ∀ us ∈ uss, Draws N us) :
    ∃ T labels start m0, crestLoadTpm B g = .ok (T, labels, start) ∧ (Markov.create N labels.length T labels >>= fun m => m.initialise start true us0) = .ok m0 ∧
      ∀ k us, uss[k]? = some us → ∃ (m : Markov Nat) (occ act : List Nat), m0.run (uss.take (k + 1)) = .ok m ∧ m.crestOccupancy = .ok occ ∧ m.crestActive = .ok act ∧
        occ.length = N ∧ act.length = N ∧ ∀ h < N, act.getD h 0 ≤ occ.getD h 0 ∧ occ.getD h 0 ≤ n := by
  obtain ⟨T, labels, start, e, e1, e2, -, e4, -, e6, e7, e8⟩ := C102_crest_tpm B g n weekend hg hs col hcol hcl hll
  have hn6 : n ≤ 6 := hg.2.2.1
  have hidx : ∀ i < (n + 1) ^ 2, ∃ m ≤ n, ∃ k ≤ n, i = m * (n + 1) + k := by
    intro i hi
    refine ⟨i / (n + 1), ?_, i % (n + 1), ?_, ?_⟩
    · have : i / (n + 1) < n + 1 := Nat.div_lt_of_lt_mul (by rw [pow_two] at hi; exact hi)
      omega
    · have := Nat.mod_lt i (show 0 < n + 1 by omega)
      omega
    · have := Nat.div_add_mod i (n + 1)
      rw [Nat.mul_comm] at this
      exact this.symm
  have hstart : start = (List.range (n + 1)).flatMap fun m => (List.range (n + 1)).map fun k => col.getD (7 * m + k) 0 := by
    apply List.ext_getElem?
    intro i
    by_cases hi : i < (n + 1) ^ 2
    · obtain ⟨m, hm, k, hk, rfl⟩ := hidx i hi
      rw [flatMap_range_uniform (n + 1) (n + 1) (fun m k => col.getD (7 * m + k) 0) m k (by omega) (by omega), (e8 m hm k hk).2, List.getD_eq_getElem?_getD]
      rw [List.getElem?_eq_getElem (by omega)]
      rfl
    · rw [List.getElem?_eq_none (by omega), List.getElem?_eq_none]
      rw [List.length_flatMap]
      simp
      rw [pow_two] at hi
      omega
  have hdist : IsDist start := by
    constructor
    · intro x hx
      rw [hstart, List.mem_flatMap] at hx
      obtain ⟨m, hm, hx⟩ := hx
      rw [List.mem_map] at hx
      obtain ⟨k, hk, rfl⟩ := hx
      rw [List.mem_range] at hm hk
      rw [List.getD_eq_getElem?_getD, List.getElem?_eq_getElem (by omega)]
      exact hnn _ (List.getElem_mem _)
    · rw [hstart, ← hsum, sum_flatMap']
  have hT : T = ⟨labels.length, labels.length, T.mats⟩ := by
    cases T
    simp only at e1 e2
    rw [e1, e2, e6]
  obtain ⟨m0, c1, c2, -, c4⟩ := C38_markov_chain N labels.length hN T.mats labels rfl start true us0 uss (by rw [e6]; exact e4) hdist (by rw [e6, e7]) hu0 hus
  refine ⟨T, labels, start, m0, e, by rw [hT]; exact c1, fun k us hk => ?_⟩
  obtain ⟨a, b, -, r2, r3, r4, r5, -⟩ := c4 k us hk
  have hl10 : ∀ l ∈ b.labels, l / 10 ≤ n := by
    intro l hl
    rw [r5, List.mem_iff_getElem?] at hl
    obtain ⟨i, hi⟩ := hl
    have hil := (List.getElem?_eq_some_iff.1 hi).1
    rw [e6] at hil
    obtain ⟨m, hm, k, hk, rfl⟩ := hidx i hil
    rw [(e8 m hm k hk).1, hlab m (by omega) k (by omega), Option.some.injEq] at hi
    omega
  obtain ⟨occ, act, gains, o1, o2, -, o4, o5, -, o7⟩ := C41_crest b n (by rw [r5]; exact r4) hl10
  rw [r3] at o4 o5
  refine ⟨b, occ, act, r2, o1, o2, o4, o5, fun h hh => ?_⟩
  have hst : b.states[h]? = some (b.states[h]'(by omega)) := List.getElem?_eq_getElem (by omega)
  have hlt := r4 _ (List.mem_of_getElem? hst)
  obtain ⟨-, -, q1, q2, -⟩ := o7 h _ (b.labels[b.states[h]'(by omega)]'(by rw [r5]; exact hlt)) hst (List.getElem?_eq_getElem _)
  exact ⟨q1, q2⟩

/-- A workbook for one resident: a state is left for the first three states, or missing. -/
def demoBook : CrestBook :=
  ⟨fun _ _ => (List.range 576).map fun r => if r % 4 = 3 then [0, 0, 0, 0, 7] else [1 / 2, 1 / 4, 3 / 10, 0, 7],
   fun _ => [(1, (List.range 49).map fun r => if r = 0 ∨ r = 8 then 1 / 2 else 0)], fun _ => (List.range 49).map fun r => 10 * (r / 7) + r % 7,
   fun _ => (List.range 36).map fun r => (List.range 144).map fun t => ((r + t : Nat) : Rat) / 1000,
   ["ACT_TV".toList, "ACT_COOKING".toList, "ACT_LAUNDRY".toList, "ACT_WASHDRESS".toList, "ACT_IRON".toList, "ACT_HOUSECLEAN".toList]⟩

/-- Single households on week-ends. -/
def demoCrestGroup : Subgroup := [(kNResidents, .int 1), (kWeekday, .list [6, 7])]

example : IsCrestGroup demoCrestGroup 1 true ∧ ValidSheet (demoBook.tpm 1 true) ((1 + 1) ^ 2) ∧ (∃ col, lookupA (demoBook.starts true) 1 = some col ∧ col.length = 49 ∧ (∀ x ∈ col, 0 ≤ x) ∧
      ((List.range (1 + 1)).map fun m => ((List.range (1 + 1)).map fun k => col.getD (7 * m + k) 0).sum).sum = 1) ∧ (demoBook.startLabels true).length = 49 ∧
    (∀ m ≤ 6, ∀ k ≤ 6, (demoBook.startLabels true)[7 * m + k]? = some (10 * m + k)) ∧ ¬ IsCrestGroup [(kNResidents, .int 7), (kWeekday, .list [6, 7])] 7 true := by
  refine ⟨⟨rfl, by decide, by decide, rfl⟩, ⟨by simp [demoBook], by decide +kernel, by decide +kernel⟩, ⟨(List.range 49).map fun r => if r = 0 ∨ r = 8 then 1 / 2 else 0, rfl, by decide, by decide +kernel, by decide +kernel⟩,
    by decide, by decide +kernel, fun h => absurd h.2.2.1 (by decide)⟩

/-- **C102 (clearness).** The matrix of the clearness index: the first state always leads to the second one if its row is missing, the other rows are those of the workbook divided by their sums; the labels are the names of the
columns, with 1 for `Clear`. A row that does not sum to 1 within 10 % is refused; so is a first row that is not missing, if it is more than 10 % of the total with the new entry. -/
theorem C102_clearness (columns : List (Option Rat)) (row : List Rat) (rest : List (List Rat)) (h2 : 2 ≤ row.length) :
    ((∀ x ∈ row, x = 0) → (∀ r ∈ rest, 9 / 10 < r.sum ∧ r.sum < 11 / 10) → ∃ (first : List Rat) (tpm : List (List Rat)) (labels : List Rat), crestClearness columns (row :: rest) = .ok (first :: tpm, labels) ∧
      first.length = row.length ∧ (∀ j, first.getD j 0 = if j = 1 then 1 else 0) ∧ tpm.length = rest.length ∧
      (∀ (k : Nat) (r : List Rat), rest[k]? = some r → ∃ out : List Rat, tpm[k]? = some out ∧ out.length = r.length ∧ out.sum = 1 ∧ ∀ j, out.getD j 0 = r.getD j 0 / r.sum) ∧
      labels.length = columns.length ∧ ∀ (k : Nat) c, columns[k]? = some c → labels[k]? = some (match c with | some x => x | none => 1)) ∧
    ((∃ r ∈ rest, ¬ (9 / 10 < r.sum ∧ r.sum < 11 / 10)) → crestClearness columns (row :: rest) = .error .valueError) ∧
    (1 / 10 ≤ row.sum - row.getD 1 0 → crestClearness columns (row :: rest) = .error .valueError) := by
  have hset : ∀ (l : List Rat), 2 ≤ l.length → (l.set 1 1).sum = l.sum - l.getD 1 0 + 1 := by
    intro l hl
    match l, hl with
    | a :: b :: l, _ => simp; ring
  have hcond : ∀ s : Rat, (1 - 1 / 10 < s ∧ s < 1 + 1 / 10) ↔ (9 / 10 < s ∧ s < 11 / 10) := by
    intro s
    norm_num
  unfold crestClearness
  simp only [if_neg (not_lt.2 h2)]
  refine ⟨fun h0 hr => ?_, fun hr => ?_, fun h1 => ?_⟩
  · obtain ⟨z1, z2⟩ := set_zero_sum row h0 1 (by omega)
    have hok := rescale_ok (1 / 10) (row.set 1 1 :: rest) (by
      intro p hp
      rw [hcond]
      rcases List.mem_cons.1 hp with rfl | hp
      · rw [z1]; norm_num
      · exact hr p hp)
    rw [hok]
    refine ⟨_, _, _, rfl, by simp, fun j => ?_, by simp, fun k r hk => ⟨_, by rw [List.getElem?_map, hk]; rfl, by simp, ?_, fun j => getD_div _ _ _⟩, by simp, fun k c hk => ?_⟩
    · rw [getD_div, z1, z2, div_one]
      by_cases hj : j = 1
      · rw [if_pos hj, if_pos hj.symm]
      · rw [if_neg hj, if_neg (Ne.symm hj)]
    · rw [div_sum]
      have := hr r (List.mem_of_getElem? hk)
      exact div_self (by linarith [this.1])
    · rw [List.getElem?_map, hk]
      cases c <;> rfl
  · obtain ⟨r, hr, hn⟩ := hr
    rw [rescale_error (1 / 10) _ ⟨r, List.mem_cons_of_mem _ hr, by rw [hcond]; exact hn⟩]
    rfl
  · rw [rescale_error (1 / 10) _ ⟨row.set 1 1, by simp, by rw [hset row h2]; rintro ⟨-, h⟩; linarith⟩]
    rfl

example : crestClearness [some 0, some (1 / 100), none] [[0, 0, 0], [1 / 2, 1 / 4, 1 / 4], [0, 1 / 4, 7 / 10]] =
    .ok ([[0, 1, 0], [1 / 2, 1 / 4, 1 / 4], [0, 5 / 19, 14 / 19]], [0, 1 / 100, 1]) := by decide +kernel

/-! ## C103: ownership -/

/-- **C103 (keys).** The ownership dictionary has one entry for each appliance, in their order, and their keys are all distinct. -/
theorem C103_entries (types : List Str) (probs : List Rat) (hl : probs.length = types.length) :
    ((crestOwnership types probs).map fun q => q.2) = probs ∧ ((crestOwnership types probs).map fun q => q.1).Nodup := by
  obtain ⟨h1, h2⟩ := ownership_fold (types.zip probs) [] (by simp)
  refine ⟨?_, h1⟩
  unfold crestOwnership
  rw [h2, List.map_nil, List.nil_append]
  exact List.map_snd_zip (by omega)

/-- **C103 (round trip).** If no type is named like a copy of another one, then the simulators that read the dictionary find for each of the appliances its own probability. -/
theorem C103_round_trip (types : List Str) (probs default : List Rat) (hl : probs.length = types.length) (hd : default.length = types.length) (hN : NoCopyNames types) (hne : ∀ t ∈ types, t ≠ []) :
    getOwnership types (crestOwnership types probs) default = .ok probs := by
  obtain ⟨hv, hnd⟩ := C103_entries types probs hl
  have hk : ((crestOwnership types probs).map fun q => q.1) = (List.range types.length).map fun i => copyKey (types.getD i []) (nthCopy types i) :=
    ownership_keys types hN (types.zip probs) [] [] (by rw [List.map_fst_zip (by omega)]; rfl) rfl
  have hmem : ∀ t ∈ types, t ∈ (crestOwnership types probs).map fun q => q.1 := by
    intro t ht
    have hex : ∃ i, types[i]? = some t := List.mem_iff_getElem?.1 ht
    classical
    have hi := Nat.find_spec hex
    have hmin : ∀ j < Nat.find hex, types[j]? ≠ some t := fun j hj => Nat.find_min hex hj
    have hlt := (List.getElem?_eq_some_iff.1 hi).1
    rw [hk, List.mem_map]
    refine ⟨Nat.find hex, List.mem_range.2 hlt, ?_⟩
    have hg : types.getD (Nat.find hex) [] = t := by rw [List.getD_eq_getElem?_getD, hi]; rfl
    have : nthCopy types (Nat.find hex) = 1 := by
      unfold nthCopy
      rw [hg, List.take_add_one, hi, List.count_append]
      have h0 : (types.take (Nat.find hex)).count t = 0 := by
        rw [List.count_eq_zero]
        intro hc
        rw [List.mem_iff_getElem?] at hc
        obtain ⟨j, hj⟩ := hc
        rw [List.getElem?_take] at hj
        split at hj
        · rename_i hjl; exact hmin j hjl hj
        · cases hj
      rw [h0]
      simp
    rw [hg, this]
    rfl
  obtain ⟨out, o1, o2, o3⟩ := C31_ownership types (crestOwnership types probs) default hd
  rw [o1]
  congr 1
  apply List.ext_getElem?
  intro i
  by_cases hi : i < types.length
  · have hclosest : ∀ t ∈ types, findClosestType t ((crestOwnership types probs).map (·.1)) = some t := fun t ht => closest_self t _ (hmem t ht) (hne t ht)
    rw [(o3 i hi).2 types[i] (hclosest _ (List.getElem_mem hi))]
    have hcn : copyNumber (types.map fun t => findClosestType t ((crestOwnership types probs).map (·.1))) i types[i] = nthCopy types i := by
      unfold copyNumber nthCopy
      have e : (types.map fun t => findClosestType t ((crestOwnership types probs).map (·.1))) = types.map some := List.map_congr_left hclosest
      rw [e, ← List.map_take, List.countP_map, List.getD_eq_getElem?_getD, List.getElem?_eq_getElem hi]
      simp only [List.count, Option.getD_some]
      apply List.countP_congr
      intro x _
      simp
    rw [hcn, lookup_eq]
    have hkey : ((crestOwnership types probs).map fun q => q.1)[i]? = some (copyKey types[i] (nthCopy types i)) := by
      rw [hk, List.getElem?_map, List.getElem?_range hi, Option.map_some, List.getD_eq_getElem?_getD, List.getElem?_eq_getElem hi]
      rfl
    have hval : ((crestOwnership types probs).map fun q => q.2)[i]? = probs[i]? := by rw [hv]
    rw [List.getElem?_map] at hkey hval
    obtain ⟨q, hq, hq1⟩ := Option.map_eq_some_iff.1 hkey
    rw [← hq1, lookupA_get _ hnd i q hq, ← hval, hq]
    rfl
  · rw [List.getElem?_eq_none (by omega), List.getElem?_eq_none (by omega)]

example : NoCopyNames ["tv".toList, "hob".toList, "tv".toList, "tv".toList] ∧
    crestOwnership ["tv".toList, "hob".toList, "tv".toList, "tv".toList] [9 / 10, 1 / 2, 1 / 3, 1 / 4] = [("tv".toList, 9 / 10), ("hob".toList, 1 / 2), ("tv_2".toList, 1 / 3), ("tv_3".toList, 1 / 4)] := by
  constructor
  · intro a ha b hb k hk he
    have hu : '_' ∉ a := by
      have : ∀ a ∈ ["tv".toList, "hob".toList, "tv".toList, "tv".toList], '_' ∉ a := by decide
      exact this a ha
    apply hu
    rw [he]
    unfold copyKey
    rw [if_neg (by omega)]
    simp
  · decide +kernel

/-- The full property: whatever the names of the types. -/
def C103_full : Prop := ∀ (types : List Str) (probs default : List Rat), probs.length = types.length → default.length = types.length → (∀ t ∈ types, t ≠ []) →
  getOwnership types (crestOwnership types probs) default = .ok probs

/-- With a type `tv_2`, the second television gets its probability. -/
theorem C103_names_counterexample : getOwnership ["tv_2".toList, "tv".toList, "tv".toList] (crestOwnership ["tv_2".toList, "tv".toList, "tv".toList] [1, 1 / 2, 1 / 4]) [0, 0, 0] = .ok [1, 1 / 2, 1] := by decide +kernel

theorem C103_full_fails : ¬ C103_full := by
  intro h
  have := h ["tv_2".toList, "tv".toList, "tv".toList] [1, 1 / 2, 1 / 4] [0, 0, 0] rfl rfl (by decide)
  rw [C103_names_counterexample] at this
  exact absurd this (by decide +kernel)

/-! ## C104: activity profiles -/

/-- **C104.** The probability of the activity number `a` of the workbook, for a number of active occupants and a time slot, is the value of the row `6 · occupants + a` at this time, under the name of demod; `level` is always possible and
`active_occupancy` whenever somebody is active. There is nothing else in the dictionary. -/
theorem C104_profiles (B : CrestBook) (g : Subgroup) (weekend : Bool) (hg : g.at kWeekday = some (.list (if weekend then [6, 7] else [1, 2, 3, 4, 5]))) (hv : ValidStats (B.stats weekend) B.activities) :
    ∃ d, crestActivityProfiles B g = .ok d ∧ d.length = 8 ∧ (d.map fun q => q.1).Nodup ∧
      (∀ (a : Nat) name, B.activities[a]? = some name → ∃ demod profile, (name, demod) ∈ crestNames ∧ lookupA d demod = some profile ∧ profile.length = 144 ∧
        ∀ t < 144, ∀ o < 6, (profile.getD t []).getD o 0 = ((B.stats weekend).getD (6 * o + a) []).getD t 0) ∧
      (∃ profile, lookupA d "level".toList = some profile ∧ profile.length = 144 ∧ ∀ t < 144, ∀ o < 6, (profile.getD t []).getD o 0 = 1) ∧
      (∃ profile, lookupA d "active_occupancy".toList = some profile ∧ profile.length = 144 ∧ ∀ t < 144, ∀ o < 6, (profile.getD t []).getD o 0 = if o = 0 then 0 else 1) := by
  obtain ⟨h1, h2, h3, h4, h5⟩ := hv
  obtain ⟨pdf, hp, hpdf⟩ := stats_pdf (B.stats weekend) h1
  obtain ⟨labels, l1, l2, l3, l4⟩ := crest_labels B.activities h3 h4 h5
  have hw : ¬ ((SubVal.list (if weekend then [6, 7] else [1, 2, 3, 4, 5])) ≠ kWeekdays ∧ (SubVal.list (if weekend then [6, 7] else [1, 2, 3, 4, 5])) ≠ kWeekend) := by
    cases weekend
    · exact fun h => h.1 rfl
    · exact fun h => h.2 rfl
  have hd : decide ((SubVal.list (if weekend then [6, 7] else [1, 2, 3, 4, 5])) = kWeekend) = weekend := by cases weekend <;> decide
  have hany : ((B.stats weekend).any fun r => decide (r.length ≠ 144)) = false := by
    rw [List.any_eq_false]
    intro r hr
    simp [h2 r hr]
  unfold Subgroup.at at hg
  let prof : Nat → List (List Rat) := fun a => ((List.range 144).map (statSlot (B.stats weekend))).map fun slot => slot.map fun acts => acts.getD a 0
  let items := (labels ++ ["level".toList, "active_occupancy".toList]).zip ((List.range 8).map prof)
  have hfst : items.map (·.1) = labels ++ ["level".toList, "active_occupancy".toList] := List.map_fst_zip (by simp [l2])
  have hnd : (items.map (·.1)).Nodup := by rw [hfst]; exact l4
  have hitem : ∀ a < 8, ∀ name, (labels ++ ["level".toList, "active_occupancy".toList])[a]? = some name → lookupA items name = some (prof a) := by
    intro a ha name hn
    have : items[a]? = some (name, prof a) := by
      rw [List.getElem?_zip_eq_some]
      refine ⟨hn, ?_⟩
      rw [List.getElem?_map, List.getElem?_range ha]
      rfl
    exact lookupA_get items hnd a _ this
  have hprof : ∀ a t o, t < 144 → o < 6 → ((prof a).getD t []).getD o 0 = ((statSlot (B.stats weekend) t).getD o []).getD a 0 := by
    intro a t o ht ho
    simp only [prof]
    rw [List.map_map, List.getD_eq_getElem?_getD (l := List.map _ _) (i := t), List.getElem?_map, List.getElem?_range ht]
    simp only [Option.map_some, Option.getD_some, Function.comp]
    rw [List.getD_eq_getElem?_getD, List.getElem?_map, List.getD_eq_getElem?_getD (l := statSlot _ _)]
    have hlt : o < (statSlot (B.stats weekend) t).length := by simpa [statSlot] using ho
    rw [List.getElem?_eq_getElem hlt]
    rfl
  refine ⟨items, ?_, by simp [items, l2], hnd, ?_, ?_, ?_⟩
  · unfold crestActivityProfiles
    rw [hg]
    simp only [if_neg hw, hd, hany, Bool.false_eq_true, if_false]
    simp only [bind, Except.bind, hp, l1, hpdf]
    rw [dictOf_nodup _ hnd]
  · intro a name ha
    have ha6 : a < 6 := by rw [← h3]; exact (List.getElem?_eq_some_iff.1 ha).1
    obtain ⟨demod, d1, d2⟩ := l3 a name ha
    refine ⟨demod, prof a, d2, hitem a (by omega) demod (by rw [List.getElem?_append_left (by omega)]; exact d1), by simp [prof], fun t ht o ho => ?_⟩
    rw [hprof a t o ht ho, statSlot_get _ _ _ _ ho ha6]
  · refine ⟨prof 6, hitem 6 (by omega) _ (by rw [List.getElem?_append_right (by omega), l2]; rfl), by simp [prof], fun t ht o ho => ?_⟩
    rw [hprof 6 t o ht ho, statSlot_level _ _ _ ho]
  · refine ⟨prof 7, hitem 7 (by omega) _ (by rw [List.getElem?_append_right (by omega), l2]; rfl), by simp [prof], fun t ht o ho => ?_⟩
    rw [hprof 7 t o ht ho, statSlot_active _ _ _ ho]

/-- **C104 (refusals).** A subgroup without day type is a `KeyError`; with another one than weekdays or week-ends, or with a table of another shape, a `ValueError`; with an unknown activity a `KeyError`. -/
theorem C104_rejected (B : CrestBook) (g : Subgroup) :
    (g.at kWeekday = none → crestActivityProfiles B g = .error .keyError) ∧
    (∀ w, g.at kWeekday = some w → w ≠ .list [1, 2, 3, 4, 5] → w ≠ .list [6, 7] → crestActivityProfiles B g = .error .valueError) ∧
    (∀ weekend : Bool, g.at kWeekday = some (.list (if weekend then [6, 7] else [1, 2, 3, 4, 5])) → ((B.stats weekend).length ≠ 36 ∨ ∃ r ∈ B.stats weekend, r.length ≠ 144) →
      crestActivityProfiles B g = .error .valueError) ∧
    (∀ weekend : Bool, g.at kWeekday = some (.list (if weekend then [6, 7] else [1, 2, 3, 4, 5])) → (B.stats weekend).length = 36 → (∀ r ∈ B.stats weekend, r.length = 144) →
      (∃ a ∈ B.activities, a ∉ crestNames.map (·.1) ∧ a ≠ "LEVEL".toList ∧ a ≠ "ACTIVE_OCC".toList) → crestActivityProfiles B g = .error .keyError) := by
  have hw : ∀ weekend : Bool, ¬ ((SubVal.list (if weekend then [6, 7] else [1, 2, 3, 4, 5])) ≠ kWeekdays ∧ (SubVal.list (if weekend then [6, 7] else [1, 2, 3, 4, 5])) ≠ kWeekend) := by
    intro weekend
    cases weekend
    · exact fun h => h.1 rfl
    · exact fun h => h.2 rfl
  have hd : ∀ weekend : Bool, decide ((SubVal.list (if weekend then [6, 7] else [1, 2, 3, 4, 5])) = kWeekend) = weekend := by intro weekend; cases weekend <;> decide
  unfold Subgroup.at crestActivityProfiles
  refine ⟨fun h => by rw [h], fun w h a b => by rw [h]; exact if_pos ⟨a, b⟩, fun weekend h hs => ?_, fun weekend h h1 h2 hs => ?_⟩
  · rw [h]
    simp only [if_neg (hw weekend), hd]
    by_cases hr : ∃ r ∈ B.stats weekend, r.length ≠ 144
    · rw [if_pos]
      obtain ⟨r, hr, hn⟩ := hr
      exact List.any_eq_true.2 ⟨r, hr, by simpa using hn⟩
    · have h36 : (B.stats weekend).length ≠ 36 := hs.resolve_right hr
      rw [if_neg]
      · have : reshape3 144 6 6 ((List.range 144).flatMap fun t => (B.stats weekend).map fun r => r.getD t 0) = .error .valueError := by
          unfold reshape3
          rw [if_neg]
          have hlen : ((List.range 144).flatMap fun t => (B.stats weekend).map fun r => r.getD t 0).length = 144 * (B.stats weekend).length := by
            rw [List.length_flatMap]
            simp only [List.length_map, List.map_const', List.length_range, List.sum_replicate, smul_eq_mul]
          rw [hlen]
          omega
        simp only [bind, Except.bind, this]
      · intro hc
        obtain ⟨r, hr', hn⟩ := List.any_eq_true.1 hc
        exact hr ⟨r, hr', by simpa using hn⟩
  · rw [h]
    obtain ⟨pdf, hp, -⟩ := stats_pdf (B.stats weekend) h1
    have hany : ((B.stats weekend).any fun r => decide (r.length ≠ 144)) = false := by
      rw [List.any_eq_false]
      intro r hr
      simp [h2 r hr]
    simp only [if_neg (hw weekend), hd, hany, Bool.false_eq_true, if_false]
    have hl : crestActToDemod (B.activities ++ ["LEVEL".toList] ++ ["ACTIVE_OCC".toList]) = .error .keyError := by
      obtain ⟨a, ha, n1, n2, n3⟩ := hs
      unfold crestActToDemod
      apply mapM_error
      · intro x _
        cases lookupA crestActs x
        · left; rfl
        · right; exact ⟨_, rfl⟩
      · refine ⟨a, by simp [ha], ?_⟩
        have : lookupA crestActs a = none := by
          rw [lookupA_none]
          intro hc
          simp only [crestNames, List.map_cons, List.map_nil, List.mem_cons, List.not_mem_nil, or_false, not_or] at n1
          simp only [crestActs, List.map_cons, List.map_nil, List.mem_cons, List.not_mem_nil, or_false] at hc
          obtain ⟨m1, m2, m3, m4, m5, m6⟩ := n1
          rcases hc with hc | hc | hc | hc | hc | hc | hc | hc
          · exact n2 hc
          · exact n3 hc
          · exact m5 hc
          · exact m6 hc
          · exact m1 hc
          · exact m2 hc
          · exact m3 hc
          · exact m4 hc
        rw [this]
    simp only [bind, Except.bind, hp, hl]

/-- Six activities with the values 1/(1 + 6 occupants + activity) at every time. -/
def demoStats : CrestBook :=
  { demoBook with
    stats := fun _ => (List.range 36).map fun j => List.replicate 144 (1 / ((j : Rat) + 1)), activities := ["ACT_TV".toList, "ACT_COOKING".toList, "ACT_LAUNDRY".toList, "ACT_WASHDRESS".toList, "ACT_IRON".toList, "ACT_HOUSECLEAN".toList] }

example : ValidStats (demoStats.stats true) demoStats.activities ∧ Subgroup.at [(kWeekday, .list [6, 7])] kWeekday = some (.list (if true then [6, 7] else [1, 2, 3, 4, 5])) ∧
    ((demoStats.stats true).getD (6 * 2 + 1) []).getD 100 0 = 1 / 14 := by
  refine ⟨⟨by simp [demoStats], ?_, rfl, by decide, by decide⟩, rfl, by decide +kernel⟩
  intro r hr
  simp only [demoStats, List.mem_map] at hr
  obtain ⟨j, -, rfl⟩ := hr
  simp

/-! ## C105: appliances -/

/-- **C105 (consumption).** The last four appliances use water and the others electricity: each has either a mean power or a mean flow, the value of its row, and 0 for the other; only the water fixtures have litres per use, 2.3, 2.3, 25.7 and 73.3. With
less than four appliances the loading fails. -/
theorem C105_consumption (column : List Rat) :
    (4 ≤ column.length → ∃ power flow volume water, crestConsumption column = .ok (power, flow, volume, water) ∧
      power.length = column.length ∧ flow.length = column.length ∧ volume.length = column.length ∧ water.length = column.length ∧
      ∀ (i : Nat) x, column[i]? = some x →
        if i + 4 < column.length then power[i]? = some x ∧ flow[i]? = some 0 ∧ volume[i]? = some 0 ∧ water[i]? = some false
        else power[i]? = some 0 ∧ flow[i]? = some x ∧ volume[i]? = [23 / 10, 23 / 10, 257 / 10, 733 / 10][i + 4 - column.length]? ∧ water[i]? = some true) ∧
    (column.length < 4 → crestConsumption column = .error .indexError) := by
  unfold crestConsumption
  refine ⟨fun h => ?_, fun h => if_pos h⟩
  simp only [if_neg (not_lt.2 h)]
  refine ⟨_, _, _, _, rfl, by simp; omega, by simp, by simp; omega, by simp; omega, fun i x hx => ?_⟩
  have hi := (List.getElem?_eq_some_iff.1 hx).1
  split
  · rename_i hlt
    refine ⟨?_, ?_, ?_, ?_⟩
    · rw [List.getElem?_append_left (by simp; omega), List.getElem?_take_of_lt (by omega), hx]
    · rw [List.getElem?_append_left (by simp; omega), List.getElem?_replicate, if_pos (by omega)]
    · rw [List.getElem?_append_left (by simp; omega), List.getElem?_replicate, if_pos (by omega)]
    · rw [List.getElem?_append_left (by simp; omega), List.getElem?_replicate, if_pos (by omega)]
  · rename_i hge
    have e1 : (List.take (column.length - 4) column).length = column.length - 4 := by simp
    refine ⟨?_, ?_, ?_, ?_⟩
    · rw [List.getElem?_append_right (by rw [e1]; omega), List.getElem?_replicate, if_pos (by rw [e1]; omega)]
    · rw [List.getElem?_append_right (by simp; omega), List.getElem?_drop, List.length_replicate, show column.length - 4 + (i - (column.length - 4)) = i by omega, hx]
    · rw [List.getElem?_append_right (by simp; omega), List.length_replicate, show i - (column.length - 4) = i + 4 - column.length by omega]
    · rw [List.getElem?_append_right (by simp; omega), List.getElem?_replicate, List.length_replicate, if_pos (by omega)]

/-- **C105 (power factor).** A missing power factor is 1. -/
theorem C105_power_factor (column : List (Option Rat)) : (crestPowerFactor column).length = column.length ∧
    ∀ (i : Nat) c, column[i]? = some c → (crestPowerFactor column)[i]? = some (match c with | some x => x | none => 1) := by
  unfold crestPowerFactor
  refine ⟨by simp, fun i c h => ?_⟩
  rw [List.getElem?_map, h]
  cases c <;> rfl

/-- **C105 (switch off), what holds.** The appliances that are not switched off when nobody is active are those of the washing and dressing activity and those without activity. -/
theorem C105_switch_off_partial (apps : List (Str × Str)) : (crestInactiveSwitchOff apps).length = apps.length ∧
    ∀ (i : Nat) profile name, apps[i]? = some (profile, name) → ((crestInactiveSwitchOff apps)[i]? = some false ↔ profile = "ACT_WASHDRESS".toList ∨ profile = "LEVEL".toList) ∧
      ((crestInactiveSwitchOff apps)[i]? = some true ↔ profile ≠ "ACT_WASHDRESS".toList ∧ profile ≠ "LEVEL".toList) := by
  unfold crestInactiveSwitchOff
  refine ⟨by simp, fun i profile name h => ?_⟩
  rw [List.getElem?_map, h]
  generalize "ACT_WASHDRESS".toList = a
  generalize "LEVEL".toList = b
  by_cases ha : profile = a
  · simp [ha]
  · by_cases hb : profile = b
    · simp [hb]
    · simp [ha, hb]

/-- The full property, as the code says it: neither is a dish washer switched off. -/
def C105_full : Prop := ∀ (apps : List (Str × Str)) (i : Nat) profile name, apps[i]? = some (profile, name) →
  ((crestInactiveSwitchOff apps)[i]? = some false ↔ profile = "ACT_WASHDRESS".toList ∨ profile = "LEVEL".toList ∨ name = "DISH_WASHER".toList)

/-- The dish washer is switched off: its column is given as the place of the result. -/
theorem C105_dish_washer_counterexample : crestInactiveSwitchOff [("ACT_COOKING".toList, "DISH_WASHER".toList), ("LEVEL".toList, "FRIDGE".toList), ("ACT_TV".toList, "TV1".toList), ("ACT_WASHDRESS".toList, "SHOWER".toList)] =
    [true, false, true, false] := by decide

theorem C105_full_fails : ¬ C105_full := by
  intro h
  have := (h [("ACT_COOKING".toList, "DISH_WASHER".toList)] 0 _ _ rfl).2 (Or.inr (Or.inr rfl))
  exact absurd this (by decide)

example : crestConsumption [1000, 50, 70, 6, 12, 8] = .ok ([1000, 50, 0, 0, 0, 0], [0, 0, 70, 6, 12, 8], [0, 0, 23 / 10, 23 / 10, 257 / 10, 733 / 10], [false, false, true, true, true, true]) ∧
    crestPowerFactor [none, some (4 / 5)] = [1, 4 / 5] := by decide +kernel

end Demod