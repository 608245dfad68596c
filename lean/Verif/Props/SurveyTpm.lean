import Verif.Lemmas.Survey
import Verif.Props.Sparse

/-! # C94: sparse transition matrices of the households of the survey -/

namespace Demod

open SparseTPM

theorem tripleLt_total : StrictTotal tripleLt := by
  refine ⟨by simp [tripleLt, pairLt], ?_, ?_⟩
  · intro a b c
    simp only [tripleLt, pairLt, Bool.or_eq_true, Bool.and_eq_true, decide_eq_true_eq]
    omega
  · intro a b
    simp only [tripleLt, pairLt, Bool.or_eq_false_iff, Bool.and_eq_false_iff, decide_eq_false_iff_not]
    intro h1 h2
    refine Prod.ext (by omega) (Prod.ext (by omega) (by omega))

theorem mem_rolled (D : Diaries Nat) (t i j : Nat) : (t, i, j) ∈ rolledTransitions D ↔ t < D.nT ∧ ∃ p, p < D.nP ∧ D.at' p t = i ∧ D.at' p ((t + 1) % D.nT) = j := by
  unfold rolledTransitions
  simp only [List.mem_flatMap, List.mem_map, List.mem_range, Prod.mk.injEq]
  constructor
  · rintro ⟨u, hu, p, hp, rfl, h1, h2⟩; exact ⟨hu, p, hp, h1, h2⟩
  · rintro ⟨hu, p, hp, h1, h2⟩; exact ⟨t, hu, p, hp, rfl, h1, h2⟩

theorem rolled_countP (D : Diaries Nat) (t : Nat) (ht : t < D.nT) (Q : Nat × Nat × Nat → Bool) (hQ : ∀ x, Q x = true → x.1 = t) :
    (rolledTransitions D).countP Q = (List.range D.nP).countP fun p => Q (t, D.at' p t, D.at' p ((t + 1) % D.nT)) := by
  unfold rolledTransitions
  rw [countP_flatMap_single D.nT t _ Q ht]
  · rw [List.countP_map]
    rfl
  · intro u _ hu x hx
    obtain ⟨p, -, rfl⟩ := List.mem_map.mp hx
    by_contra hc
    exact hu (hQ _ (by simpa using hc))

theorem maxOf_spec (xs : List Nat) (hne : xs ≠ []) : ∃ m, maxOf xs = .ok m ∧ m ∈ xs ∧ ∀ x ∈ xs, x ≤ m := by
  have key : ∀ (l : List Nat) a, l.foldl max a ∈ a :: l ∧ ∀ x ∈ a :: l, x ≤ l.foldl max a := by
    intro l
    induction l with
    | nil => intro a; simp
    | cons b l ih =>
      intro a
      obtain ⟨h1, h2⟩ := ih (max a b)
      rw [List.foldl_cons]
      refine ⟨?_, fun x hx => ?_⟩
      · rcases List.mem_cons.mp h1 with h | h
        · rw [h]
          rcases Nat.le_total a b with hab | hab
          · rw [Nat.max_eq_right hab]; simp
          · rw [Nat.max_eq_left hab]; simp
        · simp [h]
      · have h0 := h2 (max a b) List.mem_cons_self
        rcases List.mem_cons.mp hx with h | h
        · subst h; omega
        · rcases List.mem_cons.mp h with h | h
          · subst h; omega
          · exact h2 x (List.mem_cons_of_mem _ h)
  cases xs with
  | nil => exact absurd rfl hne
  | cons a l => exact ⟨_, rfl, key l a⟩

/-- The matrices of `states_to_sparse_tpm(…, 'nothing')`: row `i` of matrix `t` holds the frequencies of the next states of the households in state `i` at time `t`, the next state of the last
time being the first one; it is zero if there is no such household. The stored entries are the transitions of the
households, in the order that sampling needs. -/
theorem C94_matrix (D : Diaries Nat) (hP : 0 < D.nP) (hT : 0 < D.nT) (hT16 : D.nT ≤ 65536) (hs : ∀ p t, p < D.nP → t < D.nT → D.at' p t < 65536) :
    ∃ s, statesToSparseTpm D .nothing = .ok s ∧ s.WF ∧ s.nTimes = D.nT ∧ s.dead = none ∧ (∀ p t, p < D.nP → t < D.nT → D.at' p t < s.nStates) ∧ (∃ p t, p < D.nP ∧ t < D.nT ∧ D.at' p t + 1 = s.nStates) ∧
      (∀ t, s.SortedAt t) ∧
      (∀ t i j, (∃ v, (t, i, j, v) ∈ s.entries) ↔ t < D.nT ∧ ∃ p, p < D.nP ∧ D.at' p t = i ∧ D.at' p ((t + 1) % D.nT) = j) ∧
      ∀ t, t < D.nT → ∃ M, s.getItem (t : Int) = .ok M ∧ Square s.nStates M ∧ ∀ i j, i < s.nStates → j < s.nStates →
        (M.getD i []).getD j 0 = if howMany D (fun p => decide (D.at' p t = i)) = 0 then 0 else
          (howMany D (fun p => decide (D.at' p t = i ∧ D.at' p ((t + 1) % D.nT) = j)) : Rat) / (howMany D (fun p => decide (D.at' p t = i)) : Rat) := by
  have hmod : ∀ t, (t + 1) % D.nT < D.nT := fun t => Nat.mod_lt _ hT
  obtain ⟨prob, hprob⟩ : ∃ prob : Nat × Nat × Nat → Rat, prob = fun x => ((rolledTransitions D).count x : Rat) / (((rolledTransitions D).map fun y => (y.1, y.2.1)).count (x.1, x.2.1) : Rat) := ⟨_, rfl⟩
  obtain ⟨u, hu⟩ : ∃ u, u = npUnique tripleLt (rolledTransitions D) := ⟨_, rfl⟩
  have hmem : ∀ t i j, (t, i, j) ∈ u ↔ t < D.nT ∧ ∃ p, p < D.nP ∧ D.at' p t = i ∧ D.at' p ((t + 1) % D.nT) = j := by
    intro t i j
    rw [hu, mem_npUnique tripleLt_total, mem_rolled]
  have hsort : u.Pairwise fun x y => tripleLt x y = true := by rw [hu]; exact npUnique_sorted tripleLt_total _
  have h00 : (0, D.at' 0 0, D.at' 0 (1 % D.nT)) ∈ u := (hmem _ _ _).mpr ⟨hT, 0, hP, rfl, by simp⟩
  have hune : u ≠ [] := List.ne_nil_of_mem h00
  -- the largest indices
  obtain ⟨a, ea, ma, la⟩ := maxOf_spec (u.map fun x => x.2.1) (by simpa using hune)
  obtain ⟨b, eb, mb, lb⟩ := maxOf_spec (u.map fun x => x.2.2) (by simpa using hune)
  obtain ⟨c, ec, mc, lc⟩ := maxOf_spec (u.map fun x => x.1) (by simpa using hune)
  have hbound : ∀ x ∈ u, x.1 < D.nT ∧ x.2.1 < max a b + 1 ∧ x.2.2 < max a b + 1 := by
    intro x hx
    have h1 := la x.2.1 (List.mem_map.mpr ⟨x, hx, rfl⟩)
    have h2 := lb x.2.2 (List.mem_map.mpr ⟨x, hx, rfl⟩)
    obtain ⟨t, i, j⟩ := x
    refine ⟨((hmem _ _ _).mp hx).1, ?_, ?_⟩ <;> simp only at * <;> omega
  have hc : c + 1 = D.nT := by
    have h1 : D.nT - 1 ≤ c := lc _ (List.mem_map.mpr ⟨(D.nT - 1, D.at' 0 (D.nT - 1), D.at' 0 ((D.nT - 1 + 1) % D.nT)), (hmem _ _ _).mpr ⟨by omega, 0, hP, rfl, rfl⟩, rfl⟩)
    obtain ⟨x, hx, e⟩ := List.mem_map.mp mc
    have := (hbound x hx).1
    omega
  have hcover : ∀ p t, p < D.nP → t < D.nT → D.at' p t < max a b + 1 := by
    intro p t hp ht
    have := (hbound (t, D.at' p t, D.at' p ((t + 1) % D.nT)) ((hmem _ _ _).mpr ⟨ht, p, hp, rfl, rfl⟩)).2.1
    exact this
  have hattain : ∃ p t, p < D.nP ∧ t < D.nT ∧ D.at' p t + 1 = max a b + 1 := by
    rcases Nat.le_total a b with hab | hab
    · obtain ⟨⟨t, i, j⟩, hx, e⟩ := List.mem_map.mp mb
      obtain ⟨ht, p, hp, -, h2⟩ := (hmem _ _ _).mp hx
      exact ⟨p, _, hp, hmod t, by rw [Nat.max_eq_right hab]; simp only at e; omega⟩
    · obtain ⟨⟨t, i, j⟩, hx, e⟩ := List.mem_map.mp ma
      obtain ⟨ht, p, hp, h1, -⟩ := (hmem _ _ _).mp hx
      exact ⟨p, t, hp, ht, by rw [Nat.max_eq_left hab]; simp only at e; omega⟩
  have hn16 : max a b + 1 ≤ 65536 := by
    obtain ⟨p, t, hp, ht, e⟩ := hattain
    have := hs p t hp ht
    omega
  -- the construction
  obtain ⟨s, es, wf, hn, hT', hdead, hget⟩ := C13_construction (u.map fun x => (x.1, x.2.1, x.2.2, prob x)) (max a b + 1) D.nT none (by simpa using hune) hT
    (by
      rw [List.pairwise_map]
      refine hsort.imp ?_
      intro x y hxy hc
      simp only [tripleLt, pairLt, Bool.or_eq_true, Bool.and_eq_true, decide_eq_true_eq] at hxy
      simp only at hc
      omega)
    (by
      intro e he
      obtain ⟨x, hx, rfl⟩ := List.mem_map.mp he
      obtain ⟨h1, h2, h3⟩ := hbound x hx
      exact ⟨by simp only; omega, h2, h3⟩) hn16
  simp only [List.map_map, Function.comp_def] at es
  have hcreate : SparseTPM.create (u.map fun x => x.1) (u.map fun x => x.2.1) (u.map fun x => x.2.2) (u.map prob) none none none = .ok s := by
    rw [← es]
    unfold SparseTPM.create
    simp only [List.length_map, Nat.and_self, and_self, not_true_eq_false, if_false]
    simp only [if_neg (show ¬ u.length = 0 by simpa using hune)]
    simp only [ea, eb, ec, ← hc]
    rfl
  have hsparse : statesToSparseTpm D .nothing = .ok s := by
    unfold statesToSparseTpm
    simp only [← hu]
    rw [hprob] at hcreate
    rw [hcreate]
    rfl
  have hent : s.entries = u.map fun x => (x.1, x.2.1, x.2.2, prob x) := by
    have h16 : ∀ f : Nat × Nat × Nat → Nat, (∀ x ∈ u, f x < 65536) → toUint16 (u.map f) = u.map f := by
      intro f hf
      unfold toUint16
      rw [List.map_map]
      exact List.map_congr_left fun x hx => Nat.mod_eq_of_lt (hf x hx)
    unfold SparseTPM.create at es
    simp only [List.length_map, Nat.and_self, and_self, not_true_eq_false, if_false] at es
    simp only [if_neg (show ¬ u.length = 0 by simpa using hune)] at es
    have es := Except.ok.inj es
    rw [← es]
    unfold SparseTPM.entries
    simp only
    rw [h16 _ fun x hx => by have := (hbound x hx).1; omega, h16 _ fun x hx => by have := (hbound x hx).2.1; omega, h16 _ fun x hx => by have := (hbound x hx).2.2; omega]
    exact zip_maps u _ _ _ _
  refine ⟨s, hsparse, wf, hT', hdead, by rw [hn]; exact hcover, by rw [hn]; exact hattain, ?_, fun t i j => ?_, fun t ht => ?_⟩
  · intro t
    unfold SparseTPM.SortedAt
    rw [hent, List.filter_map, List.pairwise_map]
    have := hsort.filter (fun x => x.1 == t)
    rw [List.pairwise_iff_forall_sublist] at this ⊢
    intro x y hxy
    have hx : x.1 = t := by
      have := hxy.subset (List.mem_cons_self)
      simpa using (List.mem_filter.mp this).2
    have hy : y.1 = t := by
      have := hxy.subset (List.mem_cons_of_mem _ List.mem_cons_self)
      simpa using (List.mem_filter.mp this).2
    have := this hxy
    simp only [tripleLt, pairLt, Bool.or_eq_true, Bool.and_eq_true, decide_eq_true_eq] at this
    simp only
    omega
  · rw [hent, ← hmem]
    constructor
    · rintro ⟨v, hv⟩
      obtain ⟨x, hx, e⟩ := List.mem_map.1 hv
      simp only [Prod.mk.injEq] at e
      obtain ⟨rfl, rfl, rfl, -⟩ := e
      exact hx
    · intro hx
      exact ⟨_, List.mem_map.2 ⟨_, hx, rfl⟩⟩
  · obtain ⟨M, eM, hsq, hM⟩ := hget (t : Int)
    refine ⟨M, eM, by rw [hn]; exact hsq, fun i j hi hj => ?_⟩
    rw [hn] at hi hj
    obtain ⟨hin, hout⟩ := hM i j hi hj
    rw [show ((t : Int) % (D.nT : Int)).toNat = t by rw [Int.emod_eq_of_lt (by omega) (by omega)]; rfl] at hin hout
    have hold : (((rolledTransitions D).map fun y => (y.1, y.2.1)).count (t, i)) = howMany D fun p => decide (D.at' p t = i) := by
      rw [List.count_eq_countP, List.countP_map]
      rw [rolled_countP D t ht _ (by intro x hx; simp only [Function.comp_def, beq_iff_eq, Prod.mk.injEq] at hx; exact hx.1)]
      unfold howMany
      apply List.countP_congr
      intro p _
      simp
    have hnew : (rolledTransitions D).count (t, i, j) = howMany D fun p => decide (D.at' p t = i ∧ D.at' p ((t + 1) % D.nT) = j) := by
      rw [List.count_eq_countP, rolled_countP D t ht _ (by intro x hx; simp only [beq_iff_eq] at hx; rw [hx])]
      unfold howMany
      apply List.countP_congr
      intro p _
      simp
    have hpr : prob (t, i, j) = (howMany D (fun p => decide (D.at' p t = i ∧ D.at' p ((t + 1) % D.nT) = j)) : Rat) / (howMany D (fun p => decide (D.at' p t = i)) : Rat) := by
      rw [hprob]
      simp only
      rw [hold, hnew]
    by_cases hx : (t, i, j) ∈ u
    · rw [hin (prob (t, i, j)) (List.mem_map.mpr ⟨_, hx, rfl⟩), hpr]
      obtain ⟨-, p, hp, h1, h2⟩ := (hmem _ _ _).mp hx
      rw [if_neg]
      intro h0
      unfold howMany at h0
      rw [List.countP_eq_zero] at h0
      exact h0 p (List.mem_range.mpr hp) (by simpa using h1)
    · rw [hout fun v hv => ?_]
      · split_ifs with h0
        · rfl
        · have : howMany D (fun p => decide (D.at' p t = i ∧ D.at' p ((t + 1) % D.nT) = j)) = 0 := by
            unfold howMany
            rw [List.countP_eq_zero]
            intro p hp hpt
            have hpt := of_decide_eq_true hpt
            exact hx ((hmem _ _ _).mpr ⟨ht, p, List.mem_range.mp hp, hpt.1, hpt.2⟩)
          rw [this]
          simp
      · obtain ⟨x, hxu, e⟩ := List.mem_map.mp hv
        obtain ⟨t', i', j'⟩ := x
        simp only [Prod.mk.injEq] at e
        obtain ⟨rfl, rfl, rfl, -⟩ := e
        exact hx hxu

/-- With 'last' the first matrix is replaced with the last one, and nothing else changes. -/
theorem C94_last (D : Diaries Nat) (s : SparseTPM) (h : statesToSparseTpm D .nothing = .ok s) (hwf : s.WF) :
    ∃ s', statesToSparseTpm D .last = .ok s' ∧ s'.WF ∧ s'.nStates = s.nStates ∧ s'.nTimes = s.nTimes ∧ s'.getItem 0 = s.getItem (-1) ∧ ∀ t : Nat, 0 < t → t < s.nTimes → s'.getItem t = s.getItem t := by
  obtain ⟨Dn, hDn⟩ : ∃ Dn : Nat → List (List Rat), ∀ key : Int, s.getItem key = .ok (Dn (key % (s.nTimes : Int)).toNat) := ⟨_, fun key => getItem_wf hwf key⟩
  have hpos := hwf.pos
  have hsq : Square s.nStates (Dn ((-1) % (s.nTimes : Int)).toNat) := by
    have h1 := hDn (-1)
    rw [getItem_wf hwf] at h1
    rw [← Except.ok.inj h1]
    unfold SparseTPM.denseAt SparseTPM.tabulate Square
    simp
  have hset := setItem_wf hwf 0 (Dn ((-1) % (s.nTimes : Int)).toNat)
  rw [if_pos ((isSquare_iff _ _).mpr hsq)] at hset
  have hlast : statesToSparseTpm D .last = .ok (s.setTo ((0 : Int) % (s.nTimes : Int)).toNat (Dn ((-1) % (s.nTimes : Int)).toNat)) := by
    unfold statesToSparseTpm at h ⊢
    cases hc : SparseTPM.create ((npUnique tripleLt (rolledTransitions D)).map fun x => x.1) ((npUnique tripleLt (rolledTransitions D)).map fun x => x.2.1) ((npUnique tripleLt (rolledTransitions D)).map fun x => x.2.2)
        ((npUnique tripleLt (rolledTransitions D)).map fun x => ((rolledTransitions D).count x : Rat) / (((rolledTransitions D).map fun y => (y.1, y.2.1)).count (x.1, x.2.1) : Rat)) none none none with
    | error e => simp only [hc] at h; cases h
    | ok s0 =>
      simp only [hc] at h ⊢
      have h : s0 = s := Except.ok.inj h
      subst h
      change (do let m ← s0.getItem (-1); s0.setItem 0 m) = _
      rw [hDn (-1)]
      exact hset
  have hb := C13_behaves_like_dense_array s hwf Dn (fun t ht => by rw [hDn, mod_self_of_lt hwf t ht])
  have hgets : ∀ t : Nat, t < s.nTimes → (s.setTo ((0 : Int) % (s.nTimes : Int)).toNat (Dn ((-1) % (s.nTimes : Int)).toNat)).getItem t = .ok (if t = 0 then Dn ((-1) % (s.nTimes : Int)).toNat else Dn t) := by
    intro t ht
    have hb := hb [.set 0 (Dn ((-1) % (s.nTimes : Int)).toNat), .get t]
    simp only [sparseExec, denseExec, hset, if_pos hsq, List.cons.injEq, true_and, and_true] at hb
    rw [show ((t : Int) % (s.nTimes : Int)).toNat = t from mod_self_of_lt hwf t ht] at hb
    simp only [Int.zero_emod, Int.toNat_zero] at hb ⊢
    cases hg : (s.setTo 0 (Dn ((-1) % (s.nTimes : Int)).toNat)).getItem t with
    | error e => rw [hg] at hb; cases hb
    | ok M =>
      rw [hg] at hb
      injection hb with hb
      rw [hb]
      by_cases h0 : t = 0 <;> simp [h0]
  refine ⟨_, hlast, setTo_wf hwf _ _, rfl, rfl, ?_, fun t h0 ht => ?_⟩
  · have := hgets 0 hpos
    rw [if_pos rfl] at this
    rw [hDn (-1)]
    exact this
  · rw [hgets t ht, if_neg (by omega), hDn, mod_self_of_lt hwf t ht]

/-- The dense matrix of the transitions into time `t + 1` and the sparse matrix of time `t` agree on the states that occur. -/
theorem C94_agrees_with_dense (D : Diaries Nat) (hP : 0 < D.nP) (hT : 0 < D.nT) (hT16 : D.nT ≤ 65536) (hs : ∀ p t, p < D.nP → t < D.nT → D.at' p t < 65536) (n : Nat) (tpm : Nat → Nat → Nat → Rat)
    (h : statesToTpms D .nothing none = .ok (n, tpm)) (s : SparseTPM) (h' : statesToSparseTpm D .nothing = .ok s) :
    n = s.nStates ∧ ∀ t, t < D.nT → ∃ M, s.getItem (t : Int) = .ok M ∧ ∀ p j, p < D.nP → j < n → tpm ((t + 1) % D.nT) (D.at' p t) j = (M.getD (D.at' p t) []).getD j 0 := by
  obtain ⟨s0, e0, -, -, -, hlt, ⟨q, u, hq, hu, hmax⟩, -, -, hM⟩ := C94_matrix D hP hT hT16 hs
  rw [h'] at e0
  have e0 := Except.ok.inj e0
  subst e0
  have hn : n = maxState D + 1 := by
    unfold statesToTpms at h
    rw [if_neg (by omega), if_neg (by omega)] at h
    simp only [Option.getD_none, Nat.lt_succ_self, not_true_eq_false, if_false] at h
    have h := Except.ok.inj h
    exact (congrArg Prod.fst h).symm
  have hns : n = s.nStates := by
    have h1 := le_maxState D q u hq hu
    have h2 := maxState_lt D s.nStates (by omega) hlt
    omega
  refine ⟨hns, fun t ht => ?_⟩
  obtain ⟨M, eM, -, hM⟩ := hM t ht
  refine ⟨M, eM, fun p j hp hj => ?_⟩
  have hmod : (t + 1) % D.nT < D.nT := Nat.mod_lt _ hT
  have hbef : ∀ q, D.before false q ((t + 1) % D.nT) = D.at' q t := by
    intro q
    unfold Diaries.before
    by_cases hl : t + 1 = D.nT
    · rw [hl, Nat.mod_self, if_pos rfl, if_neg (by simp), ← hl, Nat.add_sub_cancel]
    · rw [Nat.mod_eq_of_lt (by omega), if_neg (by omega), Nat.add_sub_cancel]
  have hpos : 0 < howMany D (fun q => decide (D.at' q t = D.at' p t)) := by
    unfold howMany
    rw [List.countP_pos_iff]
    exact ⟨p, List.mem_range.mpr hp, by simp⟩
  obtain ⟨-, h1, -⟩ := C21_tpm D .nothing none n tpm h ((t + 1) % D.nT) (D.at' p t) hmod (by rw [hns]; exact hlt p t hp ht)
  have hsrc : sourceTime D .nothing ((t + 1) % D.nT) = (t + 1) % D.nT := by
    unfold sourceTime
    rw [if_neg (by simp)]
  rw [hsrc] at h1
  simp only [hbef] at h1
  rw [h1 j hj hpos, hM _ j (hlt p t hp ht) (by omega), if_neg (by omega)]

/-- One household that is in state 0, then 1, then 2. -/
def threeSlots : Diaries Nat := ⟨1, 3, fun _ t => t⟩

example : ∃ s, statesToSparseTpm threeSlots .nothing = .ok s ∧ s.getItem 0 = .ok [[0, 1, 0], [0, 0, 0], [0, 0, 0]] ∧ s.getItem 2 = .ok [[0, 0, 0], [0, 0, 0], [1, 0, 0]] ∧ (statesToTpms threeSlots .nothing none).isOk := by
  refine ⟨⟨[0, 1, 2], [0, 1, 2], [1, 2, 0], [1, 1, 1], 3, 3, none, 0⟩, by decide +kernel, by decide +kernel, by decide +kernel, by decide +kernel⟩

/-- The full statement: with 'last' every matrix describes transitions between two consecutive recorded times. -/
def C94_full : Prop := ∀ (D : Diaries Nat) (s : SparseTPM), 0 < D.nP → 1 < D.nT → statesToSparseTpm D .last = .ok s → ∀ t, t < D.nT → ∀ M, s.getItem (t : Int) = .ok M →
  ∃ u, u + 1 < D.nT ∧ ∀ p j, p < D.nP → j < s.nStates →
    (M.getD (D.at' p u) []).getD j 0 = (howMany D (fun q => decide (D.at' q u = D.at' p u ∧ D.at' q (u + 1) = j)) : Rat) / (howMany D (fun q => decide (D.at' q u = D.at' p u)) : Rat)

/-- The transition from the end of the day to its start, which nobody recorded, is in the last matrix, and 'last' also puts it in the place of the first one, which was correct. -/
theorem C94_last_counterexample : ∃ s, statesToSparseTpm threeSlots .last = .ok s ∧ s.getItem 0 = .ok [[0, 0, 0], [0, 0, 0], [1, 0, 0]] ∧ s.getItem 1 = .ok [[0, 0, 0], [0, 0, 1], [0, 0, 0]] ∧
    s.getItem 2 = .ok [[0, 0, 0], [0, 0, 0], [1, 0, 0]] ∧ s.nStates = 3 := by
  refine ⟨⟨[1, 2, 0], [1, 2, 2], [2, 0, 0], [1, 1, 1], 3, 3, none, 0⟩, by decide +kernel, by decide +kernel, by decide +kernel, by decide +kernel, by decide +kernel⟩

theorem C94_full_fails : ¬ C94_full := by
  intro h
  obtain ⟨s, e, e0, -, -, hn⟩ := C94_last_counterexample
  obtain ⟨u, hu, hM⟩ := h threeSlots s (by decide) (by decide) e 0 (by decide) _ e0
  have hu : u = 0 ∨ u = 1 := by change u + 1 < 3 at hu; omega
  rcases hu with rfl | rfl
  · exact absurd (hM 0 1 (by decide) (by omega)) (by decide +kernel)
  · exact absurd (hM 0 2 (by decide) (by omega)) (by decide +kernel)

end Demod
