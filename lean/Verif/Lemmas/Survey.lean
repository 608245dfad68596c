import Verif.Spec.Survey
import Verif.Props.Parse

/-! # Lemmas on the survey -/

namespace Demod

theorem intLt_total : StrictTotal intLt := ⟨by simp [intLt], by simp [intLt]; omega, by simp [intLt]; omega⟩

theorem pairLt_total : StrictTotal pairLt := by
  refine ⟨by simp [pairLt], ?_, ?_⟩
  · intro a b c
    simp only [pairLt, Bool.or_eq_true, Bool.and_eq_true, decide_eq_true_eq]
    omega
  · intro a b
    simp only [pairLt, Bool.or_eq_false_iff, Bool.and_eq_false_iff, decide_eq_false_iff_not]
    intro h1 h2
    apply Prod.ext <;> omega

theorem Diaries.flat_length {σ : Type} (D : Diaries σ) : D.flat.length = D.nP * D.nT := by
  unfold Diaries.flat
  rw [List.length_flatMap]
  simp

theorem Diaries.flat_get {σ : Type} (D : Diaries σ) (p t : Nat) (hp : p < D.nP) (ht : t < D.nT) : D.flat[p * D.nT + t]? = some (D.at' p t) := by
  have key : ∀ (n s p : Nat), p < n → ((List.range' s n).flatMap fun p => (List.range D.nT).map (D.at' p))[p * D.nT + t]? = some (D.at' (s + p) t) := by
    intro n
    induction n with
    | zero => intro s p h; omega
    | succ n ih =>
      intro s p h
      rw [List.range'_succ, List.flatMap_cons]
      cases p with
      | zero =>
        rw [List.getElem?_append_left (by simp; omega)]
        simp [ht]
      | succ p =>
        rw [List.getElem?_append_right (by simp [Nat.succ_mul]; omega)]
        have := ih (s + 1) p (by omega)
        rw [show s + (p + 1) = s + 1 + p by omega, ← this]
        congr 1
        simp [Nat.succ_mul]
        omega
  have := key D.nP 0 p hp
  rw [Nat.zero_add, ← List.range_eq_range'] at this
  exact this

theorem Diaries.mem_flat {σ : Type} (D : Diaries σ) (x : σ) : x ∈ D.flat ↔ ∃ p t, p < D.nP ∧ t < D.nT ∧ D.at' p t = x := by
  unfold Diaries.flat
  simp only [List.mem_flatMap, List.mem_map, List.mem_range]
  constructor
  · rintro ⟨p, hp, t, ht, e⟩; exact ⟨p, t, hp, ht, e⟩
  · rintro ⟨p, t, hp, ht, e⟩; exact ⟨p, hp, t, ht, e⟩

/-- `convert_states` on an array: the label of each code is the merged state; the labels are sorted and are those that occur. -/
theorem convertArray_spec {α β : Type} [DecidableEq α] [DecidableEq β] (ltA : α → α → Bool) (ltB : β → β → Bool) (hA : StrictTotal ltA) (hB : StrictTotal ltB) (merge : α → Option β) (D : Diaries α)
    (hP : 0 < D.nP) (hT : 0 < D.nT) (hm : ∀ p t, p < D.nP → t < D.nT → ∃ y, merge (D.at' p t) = some y) :
    ∃ C labels, convertArray ltA ltB merge D = .ok (C, labels) ∧ C.nP = D.nP ∧ C.nT = D.nT ∧ (∀ p t, p < D.nP → t < D.nT → labels[C.at' p t]? = merge (D.at' p t)) ∧
      labels.Pairwise (fun x y => ltB x y = true) ∧ labels.Nodup ∧ ∀ y, y ∈ labels ↔ ∃ p t, p < D.nP ∧ t < D.nT ∧ merge (D.at' p t) = some y := by
  have hne : D.flat ≠ [] := List.ne_nil_of_mem ((D.mem_flat _).mpr ⟨0, 0, hP, hT, rfl⟩)
  obtain ⟨r, hr⟩ := (C20_raises ltA ltB hA merge D.flat).2.1 hne (by
    intro x hx
    obtain ⟨p, t, hp, ht, e⟩ := (D.mem_flat x).mp hx
    rw [← e]
    exact hm p t hp ht)
  obtain ⟨codes, labels⟩ := r
  obtain ⟨hl, hget, hsort, hnd, hmem⟩ := C20_lossless ltA ltB hA hB merge D.flat codes labels hr
  refine ⟨unflat D.nP D.nT 0 codes, labels, ?_, rfl, rfl, fun p t hp ht => ?_, hsort, hnd, fun y => ?_⟩
  · unfold convertArray
    rw [hr]
    rfl
  · have hf := D.flat_get p t hp ht
    obtain ⟨hi, hv⟩ := List.getElem?_eq_some_iff.mp hf
    have hi' : p * D.nT + t < codes.length := by omega
    obtain ⟨hc, he⟩ := hget _ hi hi'
    rw [hv] at he
    change labels[codes.getD (p * D.nT + t) 0]? = _
    rw [he, List.getD_eq_getElem?_getD, List.getElem?_eq_getElem hi']
    exact List.getElem?_eq_getElem hc
  · rw [hmem]
    constructor
    · rintro ⟨x, hx, e⟩
      obtain ⟨p, t, hp, ht, e'⟩ := (D.mem_flat x).mp hx
      exact ⟨p, t, hp, ht, by rw [e']; exact e⟩
    · rintro ⟨p, t, hp, ht, e⟩
      exact ⟨_, (D.mem_flat _).mpr ⟨p, t, hp, ht, rfl⟩, e⟩

theorem isTransport_iff (s : Int) : isTransport s = true ↔ Travelling s := by
  unfold isTransport Travelling
  simp only [Bool.and_eq_true, decide_eq_true_eq]
  constructor
  · rintro ⟨a, b, c, d⟩; exact ⟨a, b, d, c⟩
  · rintro ⟨a, b, c, d⟩; exact ⟨a, b, d, c⟩

theorem occLoop_get (travels : Nat → Bool) (rating : Nat → Int) (fr last final : Int) : ∀ (l : List Nat) (st : OccState) (t : Nat), t < l.length →
    (occLoop travels rating fr last final l st).getD t false = ((l.take (t + 1)).foldl (fun s i => occStep (travels i) (rating i) fr last final i s) st).current := by
  intro l
  induction l with
  | nil => intro st t h; simp at h
  | cons i is ih =>
    intro st t h
    cases t with
    | zero => simp [occLoop]
    | succ t =>
      have := ih (occStep (travels i) (rating i) fr last final i st) t (by simpa using h)
      simpa [occLoop] using this

theorem lastTravel_none (n : Nat) (travels : Nat → Bool) (h : ∀ j, j < n → travels j = false) : lastTravel n travels = -42 := by
  unfold lastTravel
  have : (List.range n).filter travels = [] := by
    rw [List.filter_eq_nil_iff]
    intro a ha
    simp [h a (List.mem_range.mp ha)]
  rw [this]
  rfl

theorem lastTravel_some (n : Nat) (travels : Nat → Bool) (h : ∃ j, j < n ∧ travels j = true) : ∃ m : Nat, lastTravel n travels = m ∧ m < n ∧ travels m = true ∧ ∀ j, m < j → j < n → travels j = false := by
  induction n with
  | zero => obtain ⟨j, hj, -⟩ := h; omega
  | succ n ih =>
    unfold lastTravel at *
    rw [List.range_succ, List.filter_append]
    by_cases hn : travels n = true
    · refine ⟨n, by simp [hn], by omega, hn, fun j h1 h2 => by omega⟩
    · obtain ⟨j, hj, hjt⟩ := h
      have hjn : j < n := by
        rcases Nat.lt_succ_iff_lt_or_eq.mp hj with h' | h'
        · exact h'
        · rw [h'] at hjt; exact absurd hjt hn
      obtain ⟨m, e, h1, h2, h3⟩ := ih ⟨j, hjn, hjt⟩
      refine ⟨m, by simpa [hn] using e, by omega, h2, fun k hk hk' => ?_⟩
      rcases Nat.lt_succ_iff_lt_or_eq.mp hk' with h' | h'
      · exact h3 k hk h'
      · rw [h']; simpa using hn

/-- The state of the loop after `k` iterations. -/
theorem occ_invariant (n : Nat) (travels : Nat → Bool) (rating : Nat → Int) (fr final : Int) (initial : Bool) (k : Nat) (hk : k ≤ n) :
    let st := (List.range k).foldl (fun s i => occStep (travels i) (rating i) fr (lastTravel n travels) final i s) ⟨initial, false, false⟩
    st.was = false ∧ ((∀ j, j < k → travels j = false) → st.current = initial) ∧
      ((∃ j, j < k ∧ travels j = true) → (∃ j, k ≤ j + 1 ∧ j < n ∧ travels j = true) → st.current = false) ∧
      ((∃ j, j < k ∧ travels j = true) → (∀ j, k ≤ j + 1 → j < n → travels j = false) → st.current = (decide (final = 1) || (decide (final = -1) && decide (fr ≠ 0)))) := by
  induction k with
  | zero =>
    refine ⟨rfl, fun _ => rfl, ?_, ?_⟩
    · rintro ⟨j, hj, -⟩; omega
    · rintro ⟨j, hj, -⟩; omega
  | succ k ih =>
    obtain ⟨hw, h1, h2, h3⟩ := ih (by omega)
    simp only [List.range_succ, List.foldl_append, List.foldl_cons, List.foldl_nil]
    generalize (List.range k).foldl (fun s i => occStep (travels i) (rating i) fr (lastTravel n travels) final i s) ⟨initial, false, false⟩ = st at *
    refine ⟨hw, fun hno => ?_, fun ⟨j, hj, hjt⟩ ⟨j', hj1, hj2, hj3⟩ => ?_, fun ⟨j, hj, hjt⟩ hno => ?_⟩
    · have hk0 := hno k (by omega)
      have hlast : ¬ lastTravel n travels = (k : Int) - 1 := by
        by_cases hex : ∃ j, j < n ∧ travels j = true
        · obtain ⟨m, e, hm, hmt, -⟩ := lastTravel_some n travels hex
          intro hc
          rw [e] at hc
          have := hno m (by omega)
          rw [hmt] at this
          cases this
        · rw [lastTravel_none n travels fun j hj => by simpa using fun hh => hex ⟨j, hj, hh⟩]
          omega
      simp only [occStep, hw, hk0, decide_eq_false hlast]
      simpa using h1 fun j hj => hno j (by omega)
    · obtain ⟨m, e, hm, hmt, hmax⟩ := lastTravel_some n travels ⟨j', hj2, hj3⟩
      have hle : j' ≤ m := by
        by_contra hc
        have := hmax j' (by omega) hj2
        rw [hj3] at this
        cases this
      have hlast : ¬ lastTravel n travels = (k : Int) - 1 := by rw [e]; omega
      simp only [occStep, hw, decide_eq_false hlast]
      by_cases hkt : travels k = true
      · simp [hkt]
      · have hjk : j < k := by
          rcases Nat.lt_succ_iff_lt_or_eq.mp hj with h' | h'
          · exact h'
          · rw [h'] at hjt; exact absurd hjt hkt
        simpa [hkt] using h2 ⟨j, hjk, hjt⟩ ⟨j', by omega, hj2, hj3⟩
    · have hkt : travels k = false := hno k (by omega) (by omega)
      have hjk : j < k := by
        rcases Nat.lt_succ_iff_lt_or_eq.mp hj with h' | h'
        · exact h'
        · rw [h'] at hjt; rw [hkt] at hjt; cases hjt
      obtain ⟨m, e, hm, hmt, hmax⟩ := lastTravel_some n travels ⟨j, by omega, hjt⟩
      have hmk : m < k := by
        by_contra hc
        have := hno m (by omega) hm
        rw [hmt] at this
        cases this
      by_cases hlast : m + 1 = k
      · have hl : lastTravel n travels = (k : Int) - 1 := by rw [e]; omega
        have hcur := h2 ⟨j, hjk, hjt⟩ ⟨m, by omega, hm, hmt⟩
        simp only [occStep, hw, hkt, decide_eq_true hl, hcur]
        by_cases f1 : final = 1
        · simp [f1]
        · by_cases f2 : final = 2
          · simp [f2]
          · by_cases f3 : final = -1 <;> simp [f1, f2, f3]
      · have hl : ¬ lastTravel n travels = (k : Int) - 1 := by rw [e]; omega
        have hcur := h3 ⟨j, hjk, hjt⟩ (by
          intro x hx hxn
          rcases Nat.lt_or_ge x k with h' | h'
          · exact hmax x (by omega) hxn
          · exact hno x (by omega) hxn)
        simp only [occStep, hw, hkt, decide_eq_false hl]
        simpa using hcur

/-- A code of sorted labels is zero iff no label is smaller. -/
theorem code_pos_iff {labels : List Int} (hs : labels.Pairwise (fun x y => intLt x y = true)) (c : Nat) (y : Int) (hc : labels[c]? = some y) : 0 < c ↔ ∃ z ∈ labels, z < y := by
  obtain ⟨hlt, hv⟩ := List.getElem?_eq_some_iff.mp hc
  rw [List.pairwise_iff_getElem] at hs
  constructor
  · intro h
    refine ⟨labels[0], List.getElem_mem _, ?_⟩
    have := hs 0 c (by omega) hlt h
    rw [hv] at this
    simpa [intLt] using this
  · rintro ⟨z, hz, hzy⟩
    obtain ⟨i, hi, e⟩ := List.getElem_of_mem hz
    by_contra hc0
    have hc0 : c = 0 := by omega
    subst hc0
    rcases Nat.eq_zero_or_pos i with h0 | h0
    · subst h0; omega
    · have := hs 0 i hlt hi h0
      simp [intLt] at this
      omega

end Demod
