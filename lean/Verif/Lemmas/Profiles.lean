import Verif.Spec.Profiles
import Verif.Lemmas.Utils
import Mathlib.Tactic.Ring
import Mathlib.Tactic.Linarith
import Mathlib.Tactic.FieldSimp
import Mathlib.Algebra.BigOperators.Group.List.Basic

/-! # Lemmas on the load profiles -/

namespace Demod

theorem pieceMeans_length (n m : Nat) (xs : List Rat) : (pieceMeans n m xs).length = m := by
  induction m generalizing xs with
  | zero => rfl
  | succ m ih => simp [pieceMeans, ih]

theorem pieceMeans_get (n m : Nat) (xs : List Rat) (i : Nat) (hi : i < m) :
    (pieceMeans n m xs)[i]? = some (((xs.drop (i * n)).take n).sum / (n : Rat)) := by
  induction m generalizing xs i with
  | zero => omega
  | succ m ih =>
    cases i with
    | zero => simp [pieceMeans]
    | succ i =>
      simp only [pieceMeans, List.getElem?_cons_succ]
      rw [ih _ _ (by omega), List.drop_drop]
      congr 5
      ring

theorem pieceMeans_sum (n m : Nat) (hn : 0 < n) (xs : List Rat) :
    (pieceMeans n m xs).sum * (n : Rat) = (xs.take (m * n)).sum := by
  have hq : (n : Rat) ≠ 0 := by exact_mod_cast (by omega : n ≠ 0)
  induction m generalizing xs with
  | zero => simp [pieceMeans]
  | succ m ih =>
    simp only [pieceMeans, List.sum_cons]
    rw [add_mul, ih, div_mul_cancel₀ _ hq]
    have : (m + 1) * n = n + m * n := by ring
    rw [this, List.take_add, List.sum_append]

theorem take_drop_append_zeros (l : List Rat) (p i n : Nat) :
    (((l ++ List.replicate p 0).drop i).take n).sum = ((l.drop i).take n).sum := by
  rw [List.drop_append, List.take_append, List.sum_append]
  rw [List.drop_replicate, List.take_replicate]
  simp

/-- The interpolation between two neighbouring samples. -/
theorem npInterp_line : ∀ (k : Nat) (s : List (Int × Rat)), s.Pairwise (fun a b => a.1 < b.1) →
    ∀ a b : Int × Rat, s[k]? = some a → s[k + 1]? = some b → ∀ x, a.1 ≤ x → x ≤ b.1 →
    npInterp s x = a.2 + (b.2 - a.2) / ((b.1 - a.1 : Int) : Rat) * ((x - a.1 : Int) : Rat) := by
  intro k
  induction k with
  | zero =>
    intro s hs a b ha hb x h1 h2
    match s, ha, hb with
    | (x0, y0) :: (x1, y1) :: rest, ha, hb =>
      simp only [List.getElem?_cons_zero, Option.some.injEq, List.getElem?_cons_succ] at ha hb
      subst ha; subst hb
      have hlt : x0 < x1 := (List.rel_of_pairwise_cons hs (List.mem_cons_self ..))
      simp only at h1 h2 ⊢
      unfold npInterp
      by_cases hx : x < x1
      · rw [if_pos hx]
        by_cases h0 : x ≤ x0
        · have : x = x0 := le_antisymm h0 h1
          subst this
          simp
        · rw [if_neg h0]
      · have : x = x1 := le_antisymm h2 (not_lt.1 hx)
        subst this
        rw [if_neg hx]
        have hne : ((x - x0 : Int) : Rat) ≠ 0 := by
          have : x - x0 ≠ 0 := by omega
          exact_mod_cast this
        have hend : npInterp ((x, y1) :: rest) x = y1 := by
          match rest, hs with
          | [], _ => rfl
          | (x2, y2) :: rest, hs =>
            have h2 : x < x2 := by
              have := List.rel_of_pairwise_cons (List.Pairwise.of_cons hs) (List.mem_cons_self ..)
              simpa using this
            unfold npInterp
            rw [if_pos h2, if_pos (le_refl _)]
        rw [hend, div_mul_cancel₀ _ hne]
        ring
  | succ k ih =>
    intro s hs a b ha hb x h1 h2
    match s, ha, hb with
    | (x0, y0) :: (x1, y1) :: rest, ha, hb =>
      rw [List.getElem?_cons_succ] at ha hb
      have hle : x1 ≤ a.1 := by
        cases k with
        | zero => simp at ha; rw [← ha]
        | succ k =>
          rw [List.getElem?_cons_succ] at ha
          have hmem : a ∈ rest := List.mem_of_getElem? ha
          have := List.rel_of_pairwise_cons (List.Pairwise.of_cons hs) hmem
          exact le_of_lt (by simpa using this)
      unfold npInterp
      rw [if_neg (by omega)]
      exact ih _ (List.Pairwise.of_cons hs) a b ha hb x h1 h2

/-! ## Stored profiles -/

theorem put_new {α : Type} (d : SDict α) (k : Str) (v : α) (h : k ∉ d.map (·.1)) : d.put k v = d ++ [(k, v)] := by
  induction d with
  | nil => rfl
  | cons a d ih =>
    obtain ⟨k', v'⟩ := a
    simp only [List.map_cons, List.mem_cons, not_or] at h
    unfold SDict.put
    rw [if_neg (fun hc => h.1 hc.symm), ih h.2]
    rfl

theorem put_last {α : Type} (d : SDict α) (k : Str) (v v' : α) (h : k ∉ d.map (·.1)) :
    SDict.put (d ++ [(k, v)]) k v' = d ++ [(k, v')] := by
  induction d with
  | nil => simp [SDict.put]
  | cons a d ih =>
    obtain ⟨k', w⟩ := a
    simp only [List.map_cons, List.mem_cons, not_or] at h
    show SDict.put ((k', w) :: (d ++ [(k, v)])) k v' = _
    unfold SDict.put
    rw [if_neg (fun hc => h.1 hc.symm), ih h.2]
    rfl

theorem get_last {α : Type} (d : SDict α) (k : Str) (v : α) (h : k ∉ d.map (·.1)) : SDict.get (d ++ [(k, v)]) k = some v := by
  unfold SDict.get
  rw [List.find?_append, List.find?_eq_none.2]
  · simp
  · intro q hq
    simp only [decide_eq_true_eq]
    intro hc
    exact h (List.mem_map.2 ⟨q, hq, hc⟩)

theorem get_none {α : Type} (d : SDict α) (k : Str) (h : k ∉ d.map (·.1)) : SDict.get d k = none := by
  unfold SDict.get
  rw [List.find?_eq_none.2]
  · rfl
  · intro q hq
    simp only [decide_eq_true_eq]
    intro hc
    exact h (List.mem_map.2 ⟨q, hq, hc⟩)

/-- The keys of the file. -/
def flatKeys {α : Type} (t : Str × SDict α) : SDict α := t.2.map fun n => (t.1 ++ '&' :: n.1, n.2)

theorem flat_key_inj (t t' n n' : Str) (h1 : '&' ∉ t) (h2 : '&' ∉ t') (h : t ++ '&' :: n = t' ++ '&' :: n') : t = t' ∧ n = n' := by
  induction t generalizing t' with
  | nil =>
    cases t' with
    | nil => simpa using h
    | cons a t' =>
      simp only [List.nil_append, List.cons_append, List.cons.injEq] at h
      exact absurd (by rw [← h.1]; exact List.mem_cons_self ..) h2
  | cons a t ih =>
    cases t' with
    | nil =>
      simp only [List.nil_append, List.cons_append, List.cons.injEq] at h
      exact absurd (by rw [h.1]; exact List.mem_cons_self ..) h1
    | cons b t' =>
      simp only [List.cons_append, List.cons.injEq] at h
      obtain ⟨e1, e2⟩ := ih t' (fun hc => h1 (List.mem_cons_of_mem _ hc)) (fun hc => h2 (List.mem_cons_of_mem _ hc)) h.2
      exact ⟨by rw [h.1, e1], e2⟩

theorem foldl_put_new {α β : Type} (l : List β) (key : β → Str) (val : β → α) (acc : SDict α)
    (h1 : (l.map key).Nodup) (h2 : ∀ b ∈ l, key b ∉ acc.map (·.1)) :
    l.foldl (fun acc b => SDict.put acc (key b) (val b)) acc = acc ++ l.map fun b => (key b, val b) := by
  induction l generalizing acc with
  | nil => simp
  | cons b l ih =>
    simp only [List.foldl_cons, List.map_cons]
    rw [put_new acc _ _ (h2 b (List.mem_cons_self ..))]
    simp only [List.map_cons, List.nodup_cons, List.mem_map, not_exists, not_and] at h1
    rw [ih _ h1.2]
    · simp
    · intro c hc
      simp only [List.map_append, List.mem_append, List.map_cons, List.map_nil, List.mem_singleton, not_or]
      exact ⟨h2 c (List.mem_cons_of_mem _ hc), fun he => h1.1 c hc he⟩

theorem flattenProfiles_eq {α : Type} (d : ProfilesDict α) (h : CleanProfiles d) : flattenProfiles d = d.flatMap flatKeys := by
  obtain ⟨h1, h2⟩ := h
  unfold flattenProfiles
  have main : ∀ (d : ProfilesDict α) (acc : SDict α), (d.map (·.1)).Nodup →
      (∀ t ∈ d, '&' ∉ t.1 ∧ (t.2.map (·.1)).Nodup ∧ ∀ n ∈ t.2, '&' ∉ n.1) →
      (∀ t ∈ d, ∀ n, t.1 ++ '&' :: n ∉ acc.map (·.1)) →
      d.foldl (fun acc t => t.2.foldl (fun acc n => acc.put (t.1 ++ '&' :: n.1) n.2) acc) acc = acc ++ d.flatMap flatKeys := by
    intro d
    induction d with
    | nil => intro acc _ _ _; simp
    | cons t d ih =>
      intro acc hn hc ha
      have ht := hc t (List.mem_cons_self ..)
      simp only [List.foldl_cons]
      rw [foldl_put_new t.2 (fun n => t.1 ++ '&' :: n.1) (·.2) acc]
      · simp only [List.map_cons, List.nodup_cons] at hn
        rw [ih _ hn.2 (fun t' ht' => hc t' (List.mem_cons_of_mem _ ht'))]
        · simp [flatKeys]
        · intro t' ht' n
          simp only [List.map_append, List.mem_append, not_or]
          refine ⟨ha t' (List.mem_cons_of_mem _ ht') n, ?_⟩
          simp only [List.map_map, List.mem_map, not_exists, not_and]
          intro n' _ he
          have := (flat_key_inj _ _ _ _ ht.1 (hc t' (List.mem_cons_of_mem _ ht')).1 he).1
          exact hn.1 (List.mem_map.2 ⟨t', ht', this.symm⟩)
      · have : (t.2.map fun n => t.1 ++ '&' :: n.1) = (t.2.map (·.1)).map fun n => t.1 ++ '&' :: n := by simp
        rw [this]
        refine List.Nodup.map ?_ ht.2.1
        intro a b hab
        simpa using hab
      · intro n _
        exact ha t (List.mem_cons_self ..) n.1
  have := main d [] h1 h2 (by simp)
  simpa using this

theorem readProfile_new {α : Type} (acc : ProfilesDict α) (t n : Str) (v : α) (ht : '&' ∉ t) (hn : '&' ∉ n) (h : t ∉ acc.map (·.1)) :
    readProfile acc (t ++ '&' :: n, v) = .ok (acc ++ [(t, [(n, v)])]) := by
  unfold readProfile
  simp only [splitAt_append '&' t n ht, splitAt_no '&' n hn, get_none acc t h, put_new acc t [] h, get_last acc t [] h,
    put_last acc t _ _ h]
  rfl

theorem readProfile_more {α : Type} (acc : ProfilesDict α) (t n : Str) (ns : SDict α) (v : α) (ht : '&' ∉ t) (hn : '&' ∉ n)
    (h : t ∉ acc.map (·.1)) (hns : n ∉ ns.map (·.1)) :
    readProfile (acc ++ [(t, ns)]) (t ++ '&' :: n, v) = .ok (acc ++ [(t, ns ++ [(n, v)])]) := by
  unfold readProfile
  simp only [splitAt_append '&' t n ht, splitAt_no '&' n hn, get_last acc t ns h, Option.getD_some, put_new ns n v hns,
    put_last acc t _ _ h]

theorem readProfiles_type {α : Type} (acc : ProfilesDict α) (t : Str) (ns : SDict α) (ht : '&' ∉ t) (h : t ∉ acc.map (·.1)) :
    ∀ rest : SDict α, (ns ++ rest).map (·.1) |>.Nodup → (∀ n ∈ rest, '&' ∉ n.1) →
    (flatKeys (t, rest)).foldlM readProfile (acc ++ [(t, ns)]) = .ok (acc ++ [(t, ns ++ rest)]) := by
  intro rest
  induction rest generalizing ns with
  | nil => intro _ _; simp [flatKeys]; rfl
  | cons n rest ih =>
    intro hn hc
    have hns : n.1 ∉ ns.map (·.1) := by
      intro hm
      rw [List.map_append, List.nodup_append] at hn
      exact hn.2.2 _ hm n.1 (by simp) rfl
    show ((t ++ '&' :: n.1, n.2) :: flatKeys (t, rest)).foldlM readProfile _ = _
    rw [List.foldlM_cons, readProfile_more acc t n.1 ns n.2 ht (hc n (List.mem_cons_self ..)) h hns]
    show (flatKeys (t, rest)).foldlM readProfile _ = _
    rw [ih (ns ++ [n]) (by simpa using hn) (fun m hm => hc m (List.mem_cons_of_mem _ hm))]
    simp

theorem readProfiles_eq {α : Type} (d : ProfilesDict α) (h : CleanProfiles d) :
    readProfiles (d.flatMap flatKeys) = .ok (d.filter fun t => decide (t.2 ≠ [])) := by
  obtain ⟨h1, h2⟩ := h
  have main : ∀ (d acc : ProfilesDict α), ((acc ++ d).map (·.1)).Nodup →
      (∀ t ∈ d, '&' ∉ t.1 ∧ (t.2.map (·.1)).Nodup ∧ ∀ n ∈ t.2, '&' ∉ n.1) →
      (d.flatMap flatKeys).foldlM readProfile acc = .ok (acc ++ d.filter fun t => decide (t.2 ≠ [])) := by
    intro d
    induction d with
    | nil => intro acc _ _; simp; rfl
    | cons t d ih =>
      intro acc hn hc
      obtain ⟨t, ns⟩ := t
      obtain ⟨c1, c2, c3⟩ := hc (t, ns) (List.mem_cons_self ..)
      have htacc : t ∉ acc.map (·.1) := by
        intro hm
        rw [List.map_append, List.nodup_append] at hn
        exact hn.2.2 _ hm t (by simp) rfl
      rw [List.flatMap_cons, List.foldlM_append]
      cases ns with
      | nil =>
        show (d.flatMap flatKeys).foldlM readProfile acc = _
        rw [ih acc _ fun t' ht' => hc t' (List.mem_cons_of_mem _ ht')]
        · simp
        · rw [List.map_append] at hn ⊢
          simp only [List.map_cons] at hn
          exact hn.sublist (List.Sublist.append_left (List.sublist_cons_self ..) _)
      | cons n ns =>
        have e : (flatKeys (t, n :: ns)).foldlM readProfile acc = .ok (acc ++ [(t, n :: ns)]) := by
          show ((t ++ '&' :: n.1, n.2) :: flatKeys (t, ns)).foldlM readProfile _ = _
          rw [List.foldlM_cons, readProfile_new acc t n.1 n.2 c1 (c3 n (List.mem_cons_self ..)) htacc]
          show (flatKeys (t, ns)).foldlM readProfile _ = _
          rw [readProfiles_type acc t [(n.1, n.2)] c1 htacc ns (by simpa using c2) fun m hm => c3 m (List.mem_cons_of_mem _ hm)]
          rfl
        rw [e]
        show (d.flatMap flatKeys).foldlM readProfile _ = _
        rw [ih (acc ++ [(t, n :: ns)]) (by simpa using hn) fun t' ht' => hc t' (List.mem_cons_of_mem _ ht')]
        simp
  have := main d [] (by simpa using h1) h2
  unfold readProfiles
  simpa using this

end Demod
