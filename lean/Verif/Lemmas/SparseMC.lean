import Verif.Lemmas.Sparse

namespace Demod
namespace SparseTPM

theorem sorted_split {β : Type} (key : β → Nat) (u : Nat) (L : List β)
    (hs : L.Pairwise fun a b => key a ≤ key b) (hu : ∀ e ∈ L, u ≤ key e) :
    L = (L.filter fun e => key e == u) ++ L.filter fun e => !(key e == u) := by
  induction L with
  | nil => rfl
  | cons e L ih =>
    have hs' := List.pairwise_cons.1 hs
    by_cases h : key e = u
    · simp only [List.filter_cons, h, beq_self_eq_true, if_true, Bool.not_true, List.cons_append]
      simp only [Bool.false_eq_true, if_false]
      rw [← ih hs'.2 (fun e he => hu e (by simp [he]))]
    · have hlt : u < key e := Nat.lt_of_le_of_ne (hu e (by simp)) (Ne.symm h)
      have h1 : ((e :: L).filter fun e => key e == u) = [] := by
        rw [List.filter_eq_nil_iff]
        intro x hx
        rcases List.mem_cons.1 hx with rfl | hx
        · simpa using h
        · have := hs'.1 x hx; simp; omega
      have h2 : ((e :: L).filter fun e => !(key e == u)) = e :: L := by
        rw [List.filter_eq_self]
        intro x hx
        rcases List.mem_cons.1 hx with rfl | hx
        · simpa using h
        · have := hs'.1 x hx; simp; omega
      rw [h1, h2]; rfl

theorem sorted_flatMap {β : Type} (key : β → Nat) (U : List Nat) (hU : U.Pairwise (· < ·)) (L : List β)
    (hs : L.Pairwise fun a b => key a ≤ key b) (hk : ∀ e ∈ L, key e ∈ U) :
    L = U.flatMap fun s => L.filter fun e => key e == s := by
  induction U generalizing L with
  | nil =>
    cases L with
    | nil => rfl
    | cons e L => exact absurd (hk e (by simp)) (by simp)
  | cons u U ih =>
    have hU' := List.pairwise_cons.1 hU
    have hmin : ∀ e ∈ L, u ≤ key e := by
      intro e he
      rcases List.mem_cons.1 (hk e he) with h | h
      · omega
      · have := hU'.1 _ h; omega
    have h1 := sorted_split key u L hs hmin
    have h2 := ih hU'.2 (L.filter fun e => !(key e == u)) (hs.filter _) (by
      intro e he
      have he' := List.mem_filter.1 he
      rcases List.mem_cons.1 (hk e he'.1) with h | h
      · simp [h] at he'
      · exact h)
    have h3 : (U.flatMap fun s => (L.filter fun e => !(key e == u)).filter fun e => key e == s) =
        U.flatMap fun s => L.filter fun e => key e == s := by
      apply List.flatMap_congr
      intro s hsU
      rw [List.filter_filter]
      apply List.filter_congr
      intro e _
      have := hU'.1 s hsU
      by_cases hc : key e = s
      · simp [hc]; omega
      · simp [hc]
    rw [List.flatMap_cons, ← h3, ← h2]
    exact h1

theorem uniqueNat_sorted (xs : List Nat) : (uniqueNat xs).Pairwise (· < ·) := by
  unfold uniqueNat
  exact List.Pairwise.filter _ List.pairwise_lt_range

theorem mem_uniqueNat (xs : List Nat) (x : Nat) : x ∈ uniqueNat xs ↔ x ∈ xs := by
  unfold uniqueNat
  rw [List.mem_filter]
  simp only [decide_eq_true_eq, List.mem_range]
  exact ⟨fun h => h.2, fun h => ⟨lt_bound xs x h, h⟩⟩

theorem flatMap_split {β : Type} (U : List Nat) (s : Nat) (hs : s ∈ U) (f : Nat → List β) :
    U.flatMap f = (U.take (U.idxOf s)).flatMap f ++ (f s ++ (U.drop (U.idxOf s + 1)).flatMap f) := by
  have hlt : U.idxOf s < U.length := List.idxOf_lt_length_iff.2 hs
  have e : U = U.take (U.idxOf s) ++ (U[U.idxOf s] :: U.drop (U.idxOf s + 1)) := by
    rw [← List.drop_eq_getElem_cons hlt, List.take_append_drop]
  have e2 : U[U.idxOf s] = s := List.getElem_idxOf hlt
  conv => lhs; rw [e]
  rw [List.flatMap_append, List.flatMap_cons, e2]

theorem searchsorted_shift (a r b : List Rat) (ha : ∀ x ∈ a, 0 ≤ x) (hr : ∀ x ∈ r, 0 ≤ x)
    (hb : ∀ x ∈ b, 0 ≤ x) (u : Rat) (hu0 : 0 < u) (hu1 : u ≤ r.sum) :
    searchsortedLeft (cumsum (a ++ (r ++ b))) (u + a.sum) = a.length + searchsortedLeft (cumsum r) u := by
  have hne : r ≠ [] := by rintro rfl; simp at hu1; linarith
  have hj := searchsorted_lt r hne u hu1
  obtain ⟨h1, h2⟩ := (searchsorted_iff r hr u _ hj).1 rfl
  generalize searchsortedLeft (cumsum r) u = j at hj h1 h2 ⊢
  have hall : ∀ x ∈ a ++ (r ++ b), 0 ≤ x := by
    intro x hx
    rcases List.mem_append.1 hx with h | h
    · exact ha x h
    · rcases List.mem_append.1 h with h | h
      · exact hr x h
      · exact hb x h
  have htake : ∀ k, k ≤ r.length → ((a ++ (r ++ b)).take (a.length + k)).sum = a.sum + (r.take k).sum := by
    intro k hk
    rw [List.take_length_add_append, List.sum_append]
    rw [List.take_append_of_le_length hk]
  rw [searchsorted_iff _ hall _ _ (by simp; omega)]
  refine ⟨?_, ?_⟩
  · rw [Nat.add_assoc, htake (j + 1) (by omega)]; linarith
  · right
    rw [htake j (by omega)]
    rcases h2 with h2 | h2
    · subst h2; simp; exact hu0
    · linarith

/-- The entries of time `t` leaving state `q`. -/
def row (s : SparseTPM) (t q : Nat) : List (Nat × Nat × Nat × Rat) :=
  s.entries.filter fun e => (e.1 == t) && (e.2.1 == q)

/-- One pass of the sampling on a well-formed TPM, in terms of entries. -/
theorem sparseMC_eq {s : SparseTPM} (h : s.WF) (fuel : Nat) (key : Int) (states : List Nat) (us : List Rat) :
    s.sparseMC (fuel + 1) key states us =
      (let t := (key % (s.nTimes : Int)).toNat
       let L := s.entries.filter fun e => (e.1 == t) && (uniqueNat states).contains e.2.1
       let isDead := fun q => !((L.map (·.2.1)).contains q)
       match s.dead, states.any isDead with
       | some d, true => s.sparseMC fuel t (states.map fun q => if isDead q then d else q) us
       | _, _ => do
        let out ← (us.zip (states.map fun q => (uniqueNat states).idxOf q)).mapM fun p =>
          pyGet (L.map (·.2.2.1)) (searchsortedLeft (cumsum (L.map (·.2.2.2))) (p.1 + (p.2 : Rat)))
        .ok (states, out)) := by
  conv => lhs; unfold sparseMC
  rw [checkTime_wf h]
  simp only [bind, Except.bind]
  rw [if_neg (by simp [h.lf])]
  have hm : (s.times.zip s.indsFrom).map (fun p => (p.1 == (key % (s.nTimes : Int)).toNat) && (uniqueNat states).contains p.2) =
      s.entries.map (fun e => (e.1 == (key % (s.nTimes : Int)).toNat) && (uniqueNat states).contains e.2.1) := by
    conv => lhs; rw [h.times_eq, h.from_eq]
    rw [List.zip_map', List.map_map]; rfl
  rw [hm]
  have e1 := select_map s.entries (fun e => (e.1 == (key % (s.nTimes : Int)).toNat) && (uniqueNat states).contains e.2.1) (fun e => e.2.1)
  have e2 := select_map s.entries (fun e => (e.1 == (key % (s.nTimes : Int)).toNat) && (uniqueNat states).contains e.2.1) (fun e => e.2.2.1)
  have e4 := select_map s.entries (fun e => (e.1 == (key % (s.nTimes : Int)).toNat) && (uniqueNat states).contains e.2.1) (fun e => e.2.2.2)
  rw [← h.from_eq] at e1
  rw [← h.to_eq] at e2
  rw [← h.values_eq] at e4
  rw [e1, e2, e4]
  simp only []
  cases hd : s.dead with
  | none => simp
  | some d =>
    cases hany : states.any (fun q => !((s.entries.filter fun e => (e.1 == (key % (s.nTimes : Int)).toNat) && (uniqueNat states).contains e.2.1).map (·.2.1)).contains q) with
    | false => simp
    | true => simp

theorem not_dead {s : SparseTPM} (t : Nat) (states : List Nat) (q : Nat) (hq : q ∈ states) :
    ((s.entries.filter fun e => (e.1 == t) && (uniqueNat states).contains e.2.1).map (·.2.1)).contains q = true ↔
      s.row t q ≠ [] := by
  rw [List.contains_iff_mem, List.mem_map]
  constructor
  · rintro ⟨e, he, rfl⟩ hn
    have he := List.mem_filter.1 he
    unfold row at hn
    rw [List.filter_eq_nil_iff] at hn
    have := hn e he.1
    simp at this he
    exact this he.2.1
  · intro hne
    obtain ⟨e, he⟩ := List.exists_mem_of_ne_nil _ hne
    unfold row at he
    have he := List.mem_filter.1 he
    simp at he
    refine ⟨e, List.mem_filter.2 ⟨he.1, ?_⟩, he.2.2⟩
    simp [he.2.1, he.2.2, mem_uniqueNat, hq]

/-- The flattened sampling finds the entry of the right row. -/
theorem flat_lookup {s : SparseTPM} (t : Nat) (states : List Nat)
    (hsorted : (s.entries.filter fun e => e.1 == t).Pairwise fun e f => e.2.1 ≤ f.2.1)
    (hnn : ∀ q ∈ states, ∀ e ∈ s.row t q, 0 ≤ e.2.2.2)
    (hsum : ∀ q ∈ states, ((s.row t q).map (·.2.2.2)).sum = 1)
    (q : Nat) (hq : q ∈ states) (u : Rat) (h0 : 0 < u) (h1 : u ≤ 1) :
    let L := s.entries.filter fun e => (e.1 == t) && (uniqueNat states).contains e.2.1
    (L.map (·.2.2.1))[searchsortedLeft (cumsum (L.map (·.2.2.2))) (u + ((uniqueNat states).idxOf q : Rat))]? =
      ((s.row t q).map (·.2.2.1))[searchsortedLeft (cumsum ((s.row t q).map (·.2.2.2))) u]? := by
  intro L
  have hL : L = (uniqueNat states).flatMap fun q => s.row t q := by
    have hLs : L.Pairwise fun e f => e.2.1 ≤ f.2.1 := by
      have : L = (s.entries.filter fun e => e.1 == t).filter fun e => (uniqueNat states).contains e.2.1 := by
        rw [List.filter_filter]; apply List.filter_congr; intro e _; rw [Bool.and_comm]
      rw [this]; exact hsorted.filter _
    have := sorted_flatMap (fun e : Nat × Nat × Nat × Rat => e.2.1) (uniqueNat states) (uniqueNat_sorted states) L hLs (by
      intro e he
      have := (List.mem_filter.1 he).2
      simp at this; exact this.2)
    rw [this]
    apply List.flatMap_congr
    intro q' hq'
    unfold row
    show L.filter _ = _
    rw [List.filter_filter]
    apply List.filter_congr
    intro e _
    by_cases hc : e.2.1 = q'
    · simp [hc, hq']
    · have hc' : (e.2.1 == q') = false := by simpa using hc
      simp [hc']
  have hqU : q ∈ uniqueNat states := (mem_uniqueNat states q).2 hq
  rw [flatMap_split _ q hqU] at hL
  generalize hA : ((uniqueNat states).take ((uniqueNat states).idxOf q)).flatMap (fun q => s.row t q) = A at hL
  generalize hB : ((uniqueNat states).drop ((uniqueNat states).idxOf q + 1)).flatMap (fun q => s.row t q) = B at hL
  have hAsum : (A.map (·.2.2.2)).sum = ((uniqueNat states).idxOf q : Rat) := by
    have hlen : ((uniqueNat states).take ((uniqueNat states).idxOf q)).length = (uniqueNat states).idxOf q := by
      rw [List.length_take]; exact Nat.min_eq_left (List.idxOf_le_length)
    rw [← hA]
    have hgen : ∀ U : List Nat, (∀ q ∈ U, ((s.row t q).map (·.2.2.2)).sum = 1) →
        ((U.flatMap fun q => s.row t q).map (·.2.2.2)).sum = (U.length : Rat) := by
      intro U hU
      induction U with
      | nil => simp
      | cons x U ih =>
        rw [List.flatMap_cons, List.map_append, List.sum_append, hU x (by simp), ih (fun q hq => hU q (by simp [hq]))]
        simp; ring
    rw [hgen _ (fun q' hq' => hsum q' ((mem_uniqueNat _ _).1 (List.mem_of_mem_take hq'))), hlen]
  have hAnn : ∀ x ∈ A.map (·.2.2.2), 0 ≤ x := by
    intro x hx
    obtain ⟨e, he, rfl⟩ := List.mem_map.1 hx
    rw [← hA] at he
    obtain ⟨q', hq', he⟩ := List.mem_flatMap.1 he
    exact hnn q' ((mem_uniqueNat _ _).1 (List.mem_of_mem_take hq')) e he
  have hBnn : ∀ x ∈ B.map (·.2.2.2), 0 ≤ x := by
    intro x hx
    obtain ⟨e, he, rfl⟩ := List.mem_map.1 hx
    rw [← hB] at he
    obtain ⟨q', hq', he⟩ := List.mem_flatMap.1 he
    exact hnn q' ((mem_uniqueNat _ _).1 (List.mem_of_mem_drop hq')) e he
  have hRnn : ∀ x ∈ (s.row t q).map (·.2.2.2), 0 ≤ x := by
    intro x hx
    obtain ⟨e, he, rfl⟩ := List.mem_map.1 hx
    exact hnn q hq e he
  rw [hL, List.map_append, List.map_append, List.map_append, List.map_append, ← hAsum,
    searchsorted_shift _ _ _ hAnn hRnn hBnn u h0 (by rw [hsum q hq]; exact h1)]
  have hne : (s.row t q).map (·.2.2.2) ≠ [] := by
    intro hc; have := hsum q hq; rw [hc] at this; simp at this
  have hj := searchsorted_lt ((s.row t q).map (·.2.2.2)) hne u (by rw [hsum q hq]; exact h1)
  generalize searchsortedLeft (cumsum ((s.row t q).map (·.2.2.2))) u = j at hj
  rw [List.length_map] at hj ⊢
  rw [List.getElem?_append_right (by simp), List.getElem?_append_left (by simp; omega)]
  congr 1
  simp

/-! ## The dense row -/

/-- Entry `j` of row `q` of the dense matrix. -/
theorem dense_entry (s : SparseTPM) (t q j : Nat) (hq : q < s.nStates) (hj : j < s.nStates)
    (hs : s.SortedAt t) :
    ((s.denseAt t).getD q []).getD j 0 =
      (((s.row t q).filter fun e => e.2.2.1 == j).map (·.2.2.2)).sum := by
  have e0 : ((s.denseAt t).getD q []).getD j 0 =
      ((s.entries.filter fun e => e.1 == t).map (·.2)).foldl assign (fun _ _ => 0) q j := by
    unfold denseAt tabulate
    simp [List.getD, hq, hj]
  rw [e0]
  have hrow : (s.row t q).filter (fun e => e.2.2.1 == j) =
      (s.entries.filter fun e => e.1 == t).filter fun e => (e.2.1 == q) && (e.2.2.1 == j) := by
    unfold row
    rw [List.filter_filter, List.filter_filter]
    apply List.filter_congr
    intro e _
    cases (e.1 == t) <;> cases (e.2.1 == q) <;> cases (e.2.2.1 == j) <;> rfl
  rw [hrow]
  unfold SortedAt at hs
  generalize (s.entries.filter fun e => e.1 == t) = E at hs
  have gen : ∀ (f : Nat → Nat → Rat), ((E.map (·.2)).foldl assign f q j =
      if (E.filter fun e => (e.2.1 == q) && (e.2.2.1 == j)) = [] then f q j else
      ((E.filter fun e => (e.2.1 == q) && (e.2.2.1 == j)).map (·.2.2.2)).sum) := by
    induction E with
    | nil => intro f; simp
    | cons e E ih =>
      intro f
      have hs' := List.pairwise_cons.1 hs
      rw [List.map_cons, List.foldl_cons, ih hs'.2]
      by_cases hc : e.2.1 = q ∧ e.2.2.1 = j
      · have hnil : (E.filter fun e => (e.2.1 == q) && (e.2.2.1 == j)) = [] := by
          rw [List.filter_eq_nil_iff]
          intro x hx
          have := hs'.1 x hx
          simp
          intro h1 h2
          omega
        have hf : ((e :: E).filter fun e => (e.2.1 == q) && (e.2.2.1 == j)) = [e] := by
          rw [List.filter_cons, if_pos (by simp [hc]), hnil]
        rw [hf, if_pos hnil, if_neg (by simp)]
        simp [assign, hc.1, hc.2]
      · have h2 : ¬ ((e.2.1 == q) && (e.2.2.1 == j)) = true := by simpa using hc
        rw [List.filter_cons, if_neg h2]
        congr 1
        unfold assign
        rw [if_neg]
        rintro ⟨h3, h4⟩; exact hc ⟨h3.symm, h4.symm⟩
  rw [gen]
  split
  · rename_i h; rw [h]; rfl
  · rfl

theorem sum_range_filter (R : List (Nat × Rat)) (m : Nat) :
    ((List.range m).map fun j => ((R.filter fun e => e.1 == j).map (·.2)).sum).sum =
      ((R.filter fun e => decide (e.1 < m)).map (·.2)).sum := by
  induction m with
  | zero => simp
  | succ m ih =>
    rw [List.range_succ, List.map_append, List.sum_append, ih]
    simp only [List.map_cons, List.map_nil, List.sum_cons, List.sum_nil, add_zero]
    clear ih
    induction R with
    | nil => simp
    | cons e R ih =>
      simp only [List.filter_cons]
      rcases Nat.lt_trichotomy e.1 m with h | h | h
      · have h1 : e.1 < m + 1 := by omega
        have h2 : e.1 ≠ m := by omega
        simp [h, h1, h2] at ih ⊢; rw [← ih]; ring
      · have h1 : e.1 < m + 1 := by omega
        have h2 : ¬ e.1 < m := by omega
        simp [h] at ih ⊢; rw [← ih]; ring
      · have h1 : ¬ e.1 < m + 1 := by omega
        have h2 : e.1 ≠ m := by omega
        have h3 : ¬ e.1 < m := by omega
        simp [h1, h2, h3] at ih ⊢; rw [← ih]

theorem dense_row_eq (s : SparseTPM) (t q : Nat) (hq : q < s.nStates) (hs : s.SortedAt t) :
    (s.denseAt t).getD q [] = (List.range s.nStates).map fun j =>
      (((s.row t q).filter fun e => e.2.2.1 == j).map (·.2.2.2)).sum := by
  apply List.ext_getElem
  · unfold denseAt tabulate; simp [List.getD, hq]
  · intro j hj hj'
    have hjn : j < s.nStates := by simpa using hj'
    have := dense_entry s t q j hq hjn hs
    rw [List.getD_eq_getElem?_getD (l := (s.denseAt t).getD q []), List.getElem?_eq_getElem hj] at this
    simp only [Option.getD_some] at this
    rw [this]; simp

theorem dense_row_take (s : SparseTPM) (t q m : Nat) (hq : q < s.nStates) (hm : m ≤ s.nStates) (hs : s.SortedAt t) :
    (((s.denseAt t).getD q []).take m).sum =
      (((s.row t q).filter fun e => decide (e.2.2.1 < m)).map (·.2.2.2)).sum := by
  rw [dense_row_eq s t q hq hs, ← List.map_take, List.take_range, Nat.min_eq_left hm]
  have := sum_range_filter ((s.row t q).map fun e => (e.2.2.1, e.2.2.2)) m
  simp only [List.filter_map, List.map_map] at this
  exact this

theorem row_sorted (s : SparseTPM) (t q : Nat) (hs : s.SortedAt t) :
    (s.row t q).Pairwise fun e f => e.2.2.1 < f.2.2.1 := by
  have : s.row t q = (s.entries.filter fun e => e.1 == t).filter fun e => e.2.1 == q := by
    unfold row; rw [List.filter_filter]; apply List.filter_congr; intro e _; rw [Bool.and_comm]
  rw [this]
  refine List.Pairwise.imp_of_mem ?_ (List.Pairwise.filter _ hs)
  intro a b ha hb h
  have ha := (List.mem_filter.1 ha).2
  have hb := (List.mem_filter.1 hb).2
  simp at ha hb
  rcases h with h | h
  · omega
  · exact h.2

theorem filter_lt_take {β : Type} (key : β → Nat) (R : List β) (hs : R.Pairwise fun a b => key a < key b)
    (i : Nat) (hi : i < R.length) : (R.filter fun e => decide (key e < key R[i])) = R.take i := by
  induction R generalizing i with
  | nil => simp at hi
  | cons e R ih =>
    have hs' := List.pairwise_cons.1 hs
    cases i with
    | zero =>
      simp only [List.getElem_cons_zero, List.take_zero]
      rw [List.filter_eq_nil_iff]
      intro x hx
      rcases List.mem_cons.1 hx with rfl | hx
      · simp
      · have := hs'.1 x hx; simp; omega
    | succ i =>
      simp only [List.getElem_cons_succ, List.take_succ_cons]
      rw [List.filter_cons, if_pos, ih hs'.2 i (by simpa using hi)]
      have := hs'.1 _ (List.getElem_mem (l := R) (n := i) (by simpa using hi))
      simpa using this

end SparseTPM
end Demod
