import Verif.Lemmas.Utils

namespace Demod

/-! ## The order of strings -/

theorem strLe_iff (a b : Str) : strLe a b = true ↔ a ≤ b := by
  unfold strLe
  rw [Bool.or_eq_true, decide_eq_true_eq, decide_eq_true_eq]
  exact le_iff_lt_or_eq.symm

instance : IsTrans Str (fun a b => strLe a b = true) :=
  ⟨fun a b c h1 h2 => by rw [strLe_iff] at *; exact le_trans h1 h2⟩

instance : Std.Total (fun (a b : Str) => strLe a b = true) :=
  ⟨fun a b => by rw [strLe_iff, strLe_iff]; exact le_total a b⟩

instance : IsTrans (Str × SubVal) (fun a b => strLe a.1 b.1 = true) :=
  ⟨fun a b c h1 h2 => by rw [strLe_iff] at *; exact le_trans h1 h2⟩

instance : Std.Total (fun (a b : Str × SubVal) => strLe a.1 b.1 = true) :=
  ⟨fun a b => by rw [strLe_iff, strLe_iff]; exact le_total a.1 b.1⟩

theorem sortStr_sorted (l : List Str) : (sortStr l).Pairwise (· ≤ ·) := by
  refine (List.pairwise_insertionSort (fun a b => strLe a b = true) l).imp ?_
  intro a b h
  exact (strLe_iff a b).1 h

theorem sortStr_mem (l : List Str) (x : Str) : x ∈ sortStr l ↔ x ∈ l := List.mem_insertionSort _

theorem sortSubgroup_perm (s : Subgroup) : (sortSubgroup s).Perm s := List.perm_insertionSort _ s

theorem sortSubgroup_sorted (s : Subgroup) : (sortSubgroup s).Pairwise (fun a b => a.1 ≤ b.1) := by
  refine (List.pairwise_insertionSort (fun (a b : Str × SubVal) => strLe a.1 b.1 = true) s).imp ?_
  intro a b h
  exact (strLe_iff a.1 b.1).1 h

theorem sortSubgroup_congr (s t : Subgroup) (hs : DistinctKeys s) (h : s.Perm t) : sortSubgroup s = sortSubgroup t := by
  apply List.Perm.eq_of_pairwise (le := fun a b => a.1 ≤ b.1) _ (sortSubgroup_sorted s) (sortSubgroup_sorted t)
    ((sortSubgroup_perm s).trans (h.trans (sortSubgroup_perm t).symm))
  intro a b ha hb h1 h2
  have ha' := (sortSubgroup_perm s).mem_iff.1 ha
  have hb' := h.mem_iff.2 ((sortSubgroup_perm t).mem_iff.1 hb)
  have hk : a.1 = b.1 := le_antisymm h1 h2
  have e1 := (lookupA_mem s hs a.1 a.2).2 ha'
  have e2 := (lookupA_mem s hs b.1 b.2).2 hb'
  rw [hk, e2] at e1
  injection e1 with e1
  exact Prod.ext hk e1.symm

/-! ## Comparison -/

/-- The order of `Subgroup.__gt__` at one key: a present value is above a missing one, and a smaller value is above a
larger one. -/
def above : Option SubVal → Option SubVal → Prop
  | some _, none => True
  | some (.int a), some (.int b) => a < b
  | some (.list a), some (.list b) => a < b
  | _, _ => False

/-- Both values have the type `l`, or are missing. -/
def OfType (l : Bool) : Option SubVal → Prop
  | none => True
  | some (.int _) => l = false
  | some (.list _) => l = true

theorem ofType_at (ty : Str → Bool) (s : Subgroup) (h : WellTyped ty s) (k : Str) : OfType (ty k) (s.at k) := by
  rcases hs : lookupA s k with _ | v
  · show OfType _ (lookupA s k); rw [hs]; trivial
  · show OfType _ (lookupA s k); rw [hs]
    have := h _ (lookupA_some_mem s k v hs)
    cases v <;> exact this

theorem above_irrefl (a : Option SubVal) : ¬ above a a := by
  rcases a with _ | (a | a)
  · exact id
  · exact lt_irrefl a
  · exact lt_irrefl a

theorem above_trans (l : Bool) (a b c : Option SubVal) (ha : OfType l a) (hb : OfType l b) (hc : OfType l c)
    (h1 : above a b) (h2 : above b c) : above a c := by
  rcases a with _ | (a | a) <;> rcases b with _ | (b | b) <;> rcases c with _ | (c | c) <;>
    simp_all [above, OfType]
  · exact lt_trans h1 h2
  · exact lt_trans h1 h2

theorem above_total (l : Bool) (a b : Option SubVal) (ha : OfType l a) (hb : OfType l b) (h : a ≠ b) : above a b ∨ above b a := by
  rcases a with _ | (a | a) <;> rcases b with _ | (b | b) <;> simp_all [above, OfType]

open Classical in
theorem gt_same (l : Bool) (a b : SubVal) (ha : OfType l (some a)) (hb : OfType l (some b)) :
    a.gt b = .ok (decide (above (some b) (some a))) := by
  rcases a with a | a <;> rcases b with b | b <;> simp_all [above, OfType, SubVal.gt] <;> congr

open Classical in
theorem gtLoop_spec (ty : Str → Bool) (s o : Subgroup) (hs : WellTyped ty s) (ho : WellTyped ty o) (ks : List Str)
    (hk : ∀ k ∈ ks, s.at k ≠ none ∨ o.at k ≠ none) :
    (gtLoop s o ks = .ok true ∧ ∃ pre k post, ks = pre ++ k :: post ∧ (∀ k' ∈ pre, s.at k' = o.at k') ∧ above (s.at k) (o.at k)) ∨
    (gtLoop s o ks = .ok false ∧ ∃ pre k post, ks = pre ++ k :: post ∧ (∀ k' ∈ pre, s.at k' = o.at k') ∧ above (o.at k) (s.at k)) ∨
    (gtLoop s o ks = .ok false ∧ ∀ k ∈ ks, s.at k = o.at k) := by
  induction ks with
  | nil => right; right; exact ⟨rfl, by simp⟩
  | cons k ks ih =>
    have hts := ofType_at ty s hs k
    have hto := ofType_at ty o ho k
    have hk0 := hk k List.mem_cons_self
    rw [gtLoop]
    unfold Subgroup.at at hts hto hk0 ⊢
    rcases e1 : lookupA o k with _ | vo
    · left
      refine ⟨rfl, [], k, ks, rfl, by simp, ?_⟩
      rw [e1] at hk0 ⊢
      rcases e2 : lookupA s k with _ | vs
      · rw [e2] at hk0; simp at hk0
      · trivial
    · rcases e2 : lookupA s k with _ | vs
      · right; left
        refine ⟨rfl, [], k, ks, rfl, by simp, ?_⟩
        rw [e1, e2]; trivial
      · rw [e1] at hto
        rw [e2] at hts
        simp only
        rw [gt_same (ty k) vo vs hto hts, gt_same (ty k) vs vo hts hto]
        by_cases h1 : above (some vs) (some vo)
        · left
          refine ⟨by simp [h1]; rfl, [], k, ks, rfl, by simp, ?_⟩
          rw [e1, e2]; exact h1
        · by_cases h2 : above (some vo) (some vs)
          · right; left
            refine ⟨by simp [h1, h2]; rfl, [], k, ks, rfl, by simp, ?_⟩
            rw [e1, e2]; exact h2
          · have heq : lookupA s k = lookupA o k := by
              rw [e1, e2]
              by_contra hne
              rcases above_total (ty k) _ _ hts hto hne with h | h
              · exact h1 h
              · exact h2 h
            have hloop : (do
                if ← (Except.ok (decide (above (some vs) (some vo))) : Except PyErr Bool) then return true
                if ← (Except.ok (decide (above (some vo) (some vs))) : Except PyErr Bool) then return false
                gtLoop s o ks) = gtLoop s o ks := by
              simp [h1, h2]; rfl
            rw [hloop]
            rcases ih (fun k' hk' => hk k' (List.mem_cons_of_mem _ hk')) with ⟨g, pre, k', post, p1, p2, p3⟩ | ⟨g, pre, k', post, p1, p2, p3⟩ | ⟨g, p⟩
            · left
              refine ⟨g, k :: pre, k', post, by rw [p1]; rfl, ?_, p3⟩
              intro x hx
              rcases List.mem_cons.1 hx with rfl | hx
              · exact heq
              · exact p2 x hx
            · right; left
              refine ⟨g, k :: pre, k', post, by rw [p1]; rfl, ?_, p3⟩
              intro x hx
              rcases List.mem_cons.1 hx with rfl | hx
              · exact heq
              · exact p2 x hx
            · right; right
              refine ⟨g, ?_⟩
              intro x hx
              rcases List.mem_cons.1 hx with rfl | hx
              · exact heq
              · exact p x hx

/-- The first key at which two subgroups differ decides. -/
def FirstAbove (s o : Subgroup) : Prop := ∃ k, (∀ k', k' < k → s.at k' = o.at k') ∧ above (s.at k) (o.at k)

theorem firstAbove_asymm (ty : Str → Bool) (s o : Subgroup) (hs : WellTyped ty s) (ho : WellTyped ty o)
    (h1 : FirstAbove s o) (h2 : FirstAbove o s) : False := by
  obtain ⟨k1, a1, b1⟩ := h1
  obtain ⟨k2, a2, b2⟩ := h2
  rcases lt_trichotomy k1 k2 with h | h | h
  · rw [a2 k1 h] at b1; exact above_irrefl _ b1
  · subst h
    exact above_irrefl _ (above_trans (ty k1) _ _ _ (ofType_at ty s hs k1) (ofType_at ty o ho k1) (ofType_at ty s hs k1) b1 b2)
  · rw [a1 k2 h] at b2; exact above_irrefl _ b2

theorem firstAbove_trans (ty : Str → Bool) (s o p : Subgroup) (hs : WellTyped ty s) (ho : WellTyped ty o) (hp : WellTyped ty p)
    (h1 : FirstAbove s o) (h2 : FirstAbove o p) : FirstAbove s p := by
  obtain ⟨k1, a1, b1⟩ := h1
  obtain ⟨k2, a2, b2⟩ := h2
  rcases lt_trichotomy k1 k2 with h | h | h
  · exact ⟨k1, fun k' hk' => (a1 k' hk').trans (a2 k' (lt_trans hk' h)), by rw [← a2 k1 h]; exact b1⟩
  · subst h
    exact ⟨k1, fun k' hk' => (a1 k' hk').trans (a2 k' hk'),
      above_trans (ty k1) _ _ _ (ofType_at ty s hs k1) (ofType_at ty o ho k1) (ofType_at ty p hp k1) b1 b2⟩
  · exact ⟨k2, fun k' hk' => (a1 k' (lt_trans hk' h)).trans (a2 k' hk'), by rw [a1 k2 h]; exact b2⟩

theorem first_of_split (s o : Subgroup) (pre post : List Str) (k : Str)
    (hks : sortStr (s.map (·.1) ++ o.map (·.1)) = pre ++ k :: post) (h : ∀ k' ∈ pre, s.at k' = o.at k') :
    ∀ k', k' < k → s.at k' = o.at k' := by
  intro k' hk'
  by_cases hm : k' ∈ sortStr (s.map (·.1) ++ o.map (·.1))
  · have hsort := sortStr_sorted (s.map (·.1) ++ o.map (·.1))
    rw [hks] at hm hsort
    rcases List.mem_append.1 hm with h1 | h1
    · exact h k' h1
    · exfalso
      rw [List.pairwise_append] at hsort
      rcases List.mem_cons.1 h1 with h2 | h2
      · exact absurd hk' (by rw [h2]; exact lt_irrefl k)
      · exact absurd ((List.pairwise_cons.1 hsort.2.1).1 k' h2) (not_le.2 hk')
  · rw [sortStr_mem, List.mem_append, not_or] at hm
    show lookupA s k' = lookupA o k'
    rw [(lookupA_none s k').2 hm.1, (lookupA_none o k').2 hm.2]

theorem gt_spec (ty : Str → Bool) (s o : Subgroup) (hs : WellTyped ty s) (ho : WellTyped ty o) :
    (s.length < o.length ∧ s.gt o = .ok true) ∨ (o.length < s.length ∧ s.gt o = .ok false) ∨
    (s.length = o.length ∧ ((s.gt o = .ok true ∧ FirstAbove s o) ∨ (s.gt o = .ok false ∧ FirstAbove o s) ∨
      (s.gt o = .ok false ∧ ∀ k, s.at k = o.at k))) := by
  unfold Subgroup.gt
  by_cases h1 : o.length > s.length
  · left; exact ⟨h1, by rw [if_pos h1]⟩
  by_cases h2 : o.length < s.length
  · right; left; exact ⟨h2, by rw [if_neg h1, if_pos h2]⟩
  right; right
  refine ⟨by omega, ?_⟩
  rw [if_neg h1, if_neg h2]
  rcases gtLoop_spec ty s o hs ho (sortStr (s.map (·.1) ++ o.map (·.1))) (by
    intro k hk
    rw [sortStr_mem, List.mem_append] at hk
    rcases hk with hk | hk
    · left; intro hc; exact (lookupA_none s k).1 hc hk
    · right; intro hc; exact (lookupA_none o k).1 hc hk) with ⟨g, pre, k, post, p1, p2, p3⟩ | ⟨g, pre, k, post, p1, p2, p3⟩ | ⟨g, p⟩
  · left
    exact ⟨g, k, first_of_split s o pre post k p1 p2, p3⟩
  · right; left
    exact ⟨g, k, fun k' hk' => (first_of_split s o pre post k p1 p2 k' hk').symm, p3⟩
  · right; right
    refine ⟨g, ?_⟩
    intro k
    by_cases hm : k ∈ sortStr (s.map (·.1) ++ o.map (·.1))
    · exact p k hm
    · rw [sortStr_mem, List.mem_append, not_or] at hm
      show lookupA s k = lookupA o k
      rw [(lookupA_none s k).2 hm.1, (lookupA_none o k).2 hm.2]

theorem length_of_at (s o : Subgroup) (hs : DistinctKeys s) (ho : DistinctKeys o) (h : ∀ k, s.at k = o.at k) : s.length = o.length :=
  (perm_of_lookupA s o hs ho h).length_eq

/-! ## Strings -/

theorem valueChar_iff (c : Char) : isValueChar c = true ↔ c ∈ ['0', '1', '2', '3', '4', '5', '6', '7', '8', '9', '-', ','] := by
  unfold isValueChar
  rw [decide_eq_true_eq]

theorem intStr_valueChar (z : Int) : ∀ c ∈ intStr z, isValueChar c = true := by
  intro c hc
  rw [valueChar_iff]
  have := intStr_mem z c hc
  simp only [List.mem_cons, List.not_mem_nil, or_false] at *
  tauto

theorem intStr_no_comma (z : Int) : ',' ∉ intStr z := by
  intro h
  have := intStr_mem z _ h
  simp at this

theorem joinWith_mem (sep : Str) (ps : List Str) (c : Char) (h : c ∈ joinWith sep ps) : c ∈ sep ∨ ∃ p ∈ ps, c ∈ p := by
  induction ps with
  | nil => cases h
  | cons p ps ih =>
    cases ps with
    | nil => right; exact ⟨p, by simp, h⟩
    | cons q ps =>
      rw [joinWith_cons _ _ _ (by simp), List.append_assoc, List.mem_append, List.mem_append] at h
      rcases h with h | h | h
      · right; exact ⟨p, by simp, h⟩
      · left; exact h
      · rcases ih h with h | ⟨x, hx, hc⟩
        · left; exact h
        · right; exact ⟨x, List.mem_cons_of_mem _ hx, hc⟩

theorem str_valueChar (v : SubVal) : ∀ c ∈ v.str, isValueChar c = true := by
  intro c hc
  cases v with
  | int n => exact intStr_valueChar n c hc
  | list l =>
    rcases joinWith_mem _ _ c hc with h | ⟨p, hp, h⟩
    · rw [List.mem_singleton] at h; rw [h]; decide
    · obtain ⟨z, _, rfl⟩ := List.mem_map.1 hp
      exact intStr_valueChar z c h

/-- The values considered in `Usual`. -/
def UsualVal (v : SubVal) : Prop := ∀ l, v = .list l → 2 ≤ l.length

theorem str_list_comma (l : List Int) (h : 2 ≤ l.length) : ',' ∈ (SubVal.list l).str := by
  match l, h with
  | a :: b :: l, _ =>
    show ',' ∈ joinWith [','] (intStr a :: intStr b :: l.map intStr)
    rw [joinWith_cons _ _ _ (by simp)]
    simp

theorem str_ne_nil (v : SubVal) (h : UsualVal v) : v.str ≠ [] := by
  cases v with
  | int n => exact intStr_ne_nil n
  | list l => exact List.ne_nil_of_mem (str_list_comma l (h l rfl))

theorem str_inj (v w : SubVal) (hv : UsualVal v) (hw : UsualVal w) (h : v.str = w.str) : v = w := by
  cases v with
  | int m =>
    cases w with
    | int n => rw [intStr_inj m n h]
    | list l =>
      exfalso
      have := str_list_comma l (hw l rfl)
      rw [← h] at this
      exact intStr_no_comma m this
  | list l =>
    cases w with
    | int n =>
      exfalso
      have := str_list_comma l (hv l rfl)
      rw [h] at this
      exact intStr_no_comma n this
    | list l' =>
      have hl := hv l rfl
      have hl' := hw l' rfl
      have e1 : splitAt ',' (joinWith [','] (l.map intStr)) = l.map intStr := by
        apply split_join
        · intro hc; rw [List.map_eq_nil_iff] at hc; rw [hc] at hl; simp at hl
        · intro p hp; obtain ⟨z, _, rfl⟩ := List.mem_map.1 hp; exact intStr_no_comma z
      have e2 : splitAt ',' (joinWith [','] (l'.map intStr)) = l'.map intStr := by
        apply split_join
        · intro hc; rw [List.map_eq_nil_iff] at hc; rw [hc] at hl'; simp at hl'
        · intro p hp; obtain ⟨z, _, rfl⟩ := List.mem_map.1 hp; exact intStr_no_comma z
      have h' : joinWith [','] (l.map intStr) = joinWith [','] (l'.map intStr) := h
      rw [h', e2] at e1
      have : l' = l := (List.map_injective_iff.2 intStr_inj) e1
      rw [this]

theorem takeWhile_split {α : Type} (p : α → Bool) (a b : List α) (ha : ∀ x ∈ a, p x = true) (hb : ∀ x, b.head? = some x → p x = false) :
    (a ++ b).takeWhile p = a ∧ (a ++ b).dropWhile p = b := by
  induction a with
  | nil =>
    cases b with
    | nil => exact ⟨rfl, rfl⟩
    | cons x b =>
      have := hb x rfl
      simp [this]
  | cons x a ih =>
    have hx := ha x List.mem_cons_self
    have := ih fun y hy => ha y (List.mem_cons_of_mem _ hy)
    simp [hx, this]

/-- An unambiguous prefix: same characters in `a`, the next character not. -/
theorem prefix_unique {α : Type} (p : α → Bool) (a a' b b' : List α) (h : a ++ b = a' ++ b') (ha : ∀ x ∈ a, p x = true) (ha' : ∀ x ∈ a', p x = true)
    (hb : ∀ x, b.head? = some x → p x = false) (hb' : ∀ x, b'.head? = some x → p x = false) : a = a' ∧ b = b' := by
  have h1 := takeWhile_split p a b ha hb
  have h2 := takeWhile_split p a' b' ha' hb'
  rw [h] at h1
  exact ⟨h1.1.symm.trans h2.1, h1.2.symm.trans h2.2⟩

/-- The pieces of the string of a subgroup. -/
def encode (q : Str × SubVal) : Str := q.1 ++ '_' :: q.2.str

/-- What follows the first piece. -/
def tailStr (qs : Subgroup) : Str := if qs = [] then [] else '_' :: '_' :: joinWith ['_', '_'] (qs.map encode)

theorem join_encode_cons (q : Str × SubVal) (qs : Subgroup) :
    joinWith ['_', '_'] ((q :: qs).map encode) = (q.1 ++ ['_']) ++ (q.2.str ++ tailStr qs) := by
  unfold tailStr
  cases qs with
  | nil => simp [joinWith, encode]
  | cons r qs =>
    rw [List.map_cons, joinWith_cons _ _ _ (by simp), if_neg (by simp)]
    simp [encode]

theorem encode_inj (s t : Subgroup) (hs : ∀ q ∈ s, (∀ c ∈ q.1, isValueChar c = false) ∧ UsualVal q.2)
    (ht : ∀ q ∈ t, (∀ c ∈ q.1, isValueChar c = false) ∧ UsualVal q.2)
    (h : joinWith ['_', '_'] (s.map encode) = joinWith ['_', '_'] (t.map encode)) : s = t := by
  induction s generalizing t with
  | nil =>
    cases t with
    | nil => rfl
    | cons q t => rw [join_encode_cons] at h; simp [joinWith] at h
  | cons q s ih =>
    cases t with
    | nil => rw [join_encode_cons] at h; simp [joinWith] at h
    | cons r t =>
      rw [join_encode_cons, join_encode_cons] at h
      obtain ⟨q1, q2⟩ := hs q List.mem_cons_self
      obtain ⟨r1, r2⟩ := ht r List.mem_cons_self
      have hkey : ∀ (x : Str × SubVal), (∀ c ∈ x.1, isValueChar c = false) → ∀ c ∈ x.1 ++ ['_'], (!isValueChar c) = true := by
        intro x hx c hc
        rcases List.mem_append.1 hc with hc | hc
        · rw [hx c hc]; rfl
        · rw [List.mem_singleton] at hc; rw [hc]; decide
      have hval : ∀ (x : Str × SubVal) (u : Str), UsualVal x.2 → ∀ c, (x.2.str ++ u).head? = some c → (!isValueChar c) = false := by
        intro x u hx c hc
        obtain ⟨a, as, hne⟩ := List.exists_cons_of_ne_nil (str_ne_nil x.2 hx)
        rw [hne] at hc
        simp only [List.cons_append, List.head?_cons, Option.some.injEq] at hc
        have := str_valueChar x.2 c (by rw [hne, hc]; simp)
        rw [this]; rfl
      have htail : ∀ (u : Subgroup) c, (tailStr u).head? = some c → isValueChar c = false := by
        intro u c hc
        unfold tailStr at hc
        split at hc
        · cases hc
        · simp only [List.head?_cons, Option.some.injEq] at hc
          rw [← hc]; decide
      obtain ⟨e1, e2⟩ := prefix_unique (fun c => !isValueChar c) _ _ _ _ h (hkey q q1) (hkey r r1) (hval q _ q2) (hval r _ r2)
      obtain ⟨e3, e4⟩ := prefix_unique isValueChar _ _ _ _ e2 (str_valueChar q.2) (str_valueChar r.2) (htail s) (htail t)
      have hk : q.1 = r.1 := List.append_cancel_right e1
      have hv := str_inj _ _ q2 r2 e3
      have : s = t := by
        apply ih t (fun x hx => hs x (List.mem_cons_of_mem _ hx)) (fun x hx => ht x (List.mem_cons_of_mem _ hx))
        unfold tailStr at e4
        by_cases h1 : s = []
        · by_cases h2 : t = []
          · rw [h1, h2]
          · rw [if_pos h1, if_neg h2] at e4; cases e4
        · by_cases h2 : t = []
          · rw [if_neg h1, if_pos h2] at e4; cases e4
          · rw [if_neg h1, if_neg h2] at e4
            simpa using e4
      rw [this, Prod.ext hk hv]

end Demod
