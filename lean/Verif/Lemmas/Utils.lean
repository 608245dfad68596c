import Verif.Spec.Utils
import Mathlib.Data.List.Lex
import Mathlib.Data.Char
import Mathlib.Tactic.Linarith

namespace Demod

/-! ## Strings -/

theorem splitAt_ne_nil (c : Char) (s : Str) : splitAt c s ≠ [] := by
  cases s with
  | nil => simp [splitAt]
  | cons a s =>
    unfold splitAt
    split
    · simp
    · split <;> simp

theorem splitAt_no (c : Char) (s : Str) (h : c ∉ s) : splitAt c s = [s] := by
  induction s with
  | nil => rfl
  | cons a s ih =>
    rw [List.mem_cons, not_or] at h
    unfold splitAt
    rw [if_neg (Ne.symm h.1), ih h.2]

theorem splitAt_append (c : Char) (a t : Str) (h : c ∉ a) : splitAt c (a ++ c :: t) = a :: splitAt c t := by
  induction a with
  | nil =>
    show splitAt c (c :: t) = _
    rw [splitAt]; simp
  | cons b a ih =>
    rw [List.mem_cons, not_or] at h
    show splitAt c (b :: (a ++ c :: t)) = _
    rw [splitAt, if_neg (Ne.symm h.1), ih h.2]

theorem split_cases (c : Char) (s : Str) : c ∉ s ∨ ∃ a t, c ∉ a ∧ s = a ++ c :: t := by
  induction s with
  | nil => left; simp
  | cons b s ih =>
    by_cases hb : b = c
    · right; exact ⟨[], s, by simp, by rw [hb]; rfl⟩
    · rcases ih with h | ⟨a, t, h1, h2⟩
      · left
        rw [List.mem_cons, not_or]
        exact ⟨Ne.symm hb, h⟩
      · right
        refine ⟨b :: a, t, ?_, by rw [h2]; rfl⟩
        rw [List.mem_cons, not_or]
        exact ⟨Ne.symm hb, h1⟩

theorem joinWith_cons (sep p : Str) (ps : List Str) (h : ps ≠ []) : joinWith sep (p :: ps) = p ++ sep ++ joinWith sep ps := by
  cases ps with
  | nil => exact absurd rfl h
  | cons q ps => rfl

theorem join_split (c : Char) (s : Str) : joinWith [c] (splitAt c s) = s := by
  generalize hn : s.length = n
  induction n using Nat.strongRecOn generalizing s with
  | _ n ih =>
    rcases split_cases c s with h | ⟨a, t, h1, rfl⟩
    · rw [splitAt_no c s h]; rfl
    · rw [splitAt_append c a t h1, joinWith_cons _ _ _ (splitAt_ne_nil c t), ih t.length (by simp at hn; omega) t rfl]
      simp

theorem split_join (c : Char) (ps : List Str) (hne : ps ≠ []) (h : ∀ p ∈ ps, c ∉ p) : splitAt c (joinWith [c] ps) = ps := by
  induction ps with
  | nil => exact absurd rfl hne
  | cons p ps ih =>
    cases ps with
    | nil => exact splitAt_no c p (h p (by simp))
    | cons q ps =>
      rw [joinWith_cons _ _ _ (by simp), List.append_assoc, List.singleton_append, splitAt_append c p _ (h p (by simp)),
        ih (by simp) (fun x hx => h x (List.mem_cons_of_mem _ hx))]

theorem removeStart_none (s : Str) (h : '_' ∉ s) : removeStart s = none := by
  unfold removeStart; rw [splitAt_no _ _ h]

theorem removeStart_append (a t : Str) (h : '_' ∉ a) : removeStart (a ++ '_' :: t) = some t := by
  unfold removeStart
  rw [splitAt_append _ _ _ h]
  obtain ⟨q, ps, hq⟩ := List.exists_cons_of_ne_nil (splitAt_ne_nil '_' t)
  rw [hq]
  show some (joinWith ['_'] (q :: ps)) = _
  rw [← hq, join_split]

theorem isParent_step (a t0 t : Str) (h : '_' ∉ a) : IsParent (a ++ '_' :: t0) t ↔ t = a ++ '_' :: t0 ∨ IsParent t0 t := by
  unfold IsParent
  apply or_congr Iff.rfl
  constructor
  · rintro ⟨b, hb⟩
    rcases List.append_eq_append_iff.1 hb with ⟨d, h1, h2⟩ | ⟨d, h1, h2⟩
    · cases d with
      | nil => left; simp at h2; exact h2.symm
      | cons x d =>
        right
        simp only [List.cons_append, List.cons.injEq] at h2
        exact ⟨d, h2.2⟩
    · cases d with
      | nil => left; simp at h2; exact h2
      | cons x d =>
        simp only [List.cons_append, List.cons.injEq] at h2
        exfalso
        apply h
        rw [h1, h2.1]; simp
  · rintro (rfl | ⟨b, rfl⟩)
    · exact ⟨a, rfl⟩
    · exact ⟨a ++ '_' :: b, by simp⟩

theorem isParent_length (s t : Str) (h : IsParent s t) : t.length ≤ s.length := by
  rcases h with rfl | ⟨a, rfl⟩
  · exact le_refl _
  · simp; omega

theorem closestLoop_spec (types : List Str) (f : Nat) (s : Str) (hf : s.length < f) :
    match closestLoop types f s with
    | some r => r ≠ [] ∧ r ∈ types ∧ IsParent s r ∧ ∀ t, t ≠ [] → t ∈ types → IsParent s t → t.length ≤ r.length
    | none => ∀ t, t ≠ [] → IsParent s t → t ∉ types := by
  induction f generalizing s with
  | zero => omega
  | succ f ih =>
    rw [closestLoop]
    by_cases h1 : s = []
    · rw [if_pos h1]
      intro t ht hp
      rcases hp with rfl | ⟨a, ha⟩
      · exact absurd h1 ht
      · rw [h1] at ha; simp at ha
    · rw [if_neg h1]
      by_cases h2 : s ∈ types
      · rw [if_pos h2]
        exact ⟨h1, h2, Or.inl rfl, fun t _ _ hp => isParent_length s t hp⟩
      · rw [if_neg h2]
        rcases split_cases '_' s with h | ⟨a, t0, h3, rfl⟩
        · rw [removeStart_none s h]
          intro t _ hp
          rcases hp with rfl | ⟨a, ha⟩
          · exact h2
          · exfalso; apply h; rw [ha]; simp
        · rw [removeStart_append a t0 h3]
          have := ih t0 (by simp at hf; omega)
          simp only
          split at this
          · rename_i r hr
            obtain ⟨p1, p2, p3, p4⟩ := this
            refine ⟨p1, p2, (isParent_step a t0 r h3).2 (Or.inr p3), ?_⟩
            intro t ht htm hp
            rcases (isParent_step a t0 t h3).1 hp with rfl | hp
            · exact absurd htm h2
            · exact p4 t ht htm hp
          · rename_i hr
            intro t ht hp
            rcases (isParent_step a t0 t h3).1 hp with rfl | hp
            · exact h2
            · exact this t ht hp

/-! ## Decimal numbers -/

/-- The value of a digit character. -/
def digitValue (c : Char) : Nat := ['0', '1', '2', '3', '4', '5', '6', '7', '8', '9'].idxOf c

/-- The value of a string of digits. -/
def parseDecimal (s : Str) : Nat := s.foldl (fun a c => 10 * a + digitValue c) 0

theorem digitValue_digitChar (d : Nat) (h : d < 10) : digitValue (digitChar d) = d := by
  have : ∀ d : Fin 10, digitValue (digitChar d) = d := by decide
  exact this ⟨d, h⟩

theorem parse_decimalAux (f n : Nat) (h : n < f) : parseDecimal (decimalAux f n) = n := by
  induction f generalizing n with
  | zero => omega
  | succ f ih =>
    rw [decimalAux]
    split
    · rename_i h1
      simp [parseDecimal, digitValue_digitChar n h1]
    · rename_i h1
      have := ih (n / 10) (by omega)
      unfold parseDecimal at *
      rw [List.foldl_append, this]
      simp only [List.foldl_cons, List.foldl_nil]
      rw [digitValue_digitChar _ (by omega)]
      omega

theorem decimal_inj (m n : Nat) (h : decimal m = decimal n) : m = n := by
  have h1 := parse_decimalAux (m + 1) m (by omega)
  have h2 := parse_decimalAux (n + 1) n (by omega)
  unfold decimal at h
  rw [h] at h1
  omega

theorem digitChar_mem (d : Nat) : digitChar d ∈ ['0', '1', '2', '3', '4', '5', '6', '7', '8', '9'] := by
  unfold digitChar
  rw [List.getD_eq_getElem?_getD]
  by_cases h : d < 10
  · rw [List.getElem?_eq_getElem (by simpa using h)]
    exact List.getElem_mem _
  · rw [List.getElem?_eq_none (by simp; omega)]
    simp

theorem decimalAux_mem (f n : Nat) : ∀ c ∈ decimalAux f n, c ∈ ['0', '1', '2', '3', '4', '5', '6', '7', '8', '9'] := by
  induction f generalizing n with
  | zero => intro c hc; cases hc
  | succ f ih =>
    intro c hc
    rw [decimalAux] at hc
    split at hc
    · rw [List.mem_singleton] at hc; rw [hc]; exact digitChar_mem n
    · rw [List.mem_append] at hc
      rcases hc with hc | hc
      · exact ih _ c hc
      · rw [List.mem_singleton] at hc; rw [hc]; exact digitChar_mem _

theorem decimal_ne_nil (n : Nat) : decimal n ≠ [] := by
  unfold decimal
  rw [decimalAux]
  split <;> simp

theorem intStr_mem (z : Int) : ∀ c ∈ intStr z, c ∈ ['0', '1', '2', '3', '4', '5', '6', '7', '8', '9', '-'] := by
  intro c hc
  have hd : ∀ n, ∀ c ∈ decimal n, c ∈ ['0', '1', '2', '3', '4', '5', '6', '7', '8', '9', '-'] := by
    intro n c hc
    have := decimalAux_mem (n + 1) n c hc
    simp only [List.mem_cons, List.not_mem_nil, or_false] at *
    tauto
  cases z with
  | ofNat n => exact hd n c hc
  | negSucc n =>
    rcases List.mem_cons.1 hc with h | h
    · rw [h]; simp
    · exact hd _ c h

theorem intStr_ne_nil (z : Int) : intStr z ≠ [] := by
  cases z with
  | ofNat n => exact decimal_ne_nil n
  | negSucc n => simp [intStr]

theorem decimal_no_minus (n : Nat) : '-' ∉ decimal n := by
  intro h
  have := decimalAux_mem (n + 1) n _ h
  simp at this

theorem intStr_inj (a b : Int) (h : intStr a = intStr b) : a = b := by
  cases a with
  | ofNat m =>
    cases b with
    | ofNat n => rw [decimal_inj m n h]
    | negSucc n =>
      exfalso
      apply decimal_no_minus m
      have h' : decimal m = '-' :: decimal (n + 1) := h
      rw [h']; simp
  | negSucc m =>
    cases b with
    | ofNat n =>
      exfalso
      apply decimal_no_minus n
      have h' : '-' :: decimal (m + 1) = decimal n := h
      rw [← h']; simp
    | negSucc n =>
      have h' : '-' :: decimal (m + 1) = '-' :: decimal (n + 1) := h
      have := decimal_inj _ _ (List.cons.inj h').2
      congr 1; omega

/-! ## Association lists -/

section
variable {κ α : Type} [DecidableEq κ]

theorem lookupA_nil (k : κ) : lookupA ([] : List (κ × α)) k = none := rfl

theorem lookupA_cons (q : κ × α) (d : List (κ × α)) (k : κ) : lookupA (q :: d) k = if q.1 = k then some q.2 else lookupA d k := by
  unfold lookupA
  rw [List.find?_cons]
  by_cases h : q.1 = k <;> simp [h]

omit [DecidableEq κ] in
theorem lookup_eq [DecidableEq κ] [BEq κ] [LawfulBEq κ] (d : List (κ × α)) (k : κ) : d.lookup k = lookupA d k := by
  induction d with
  | nil => rfl
  | cons q d ih =>
    rw [lookupA_cons, List.lookup_cons, ih]
    by_cases h : q.1 = k
    · simp [h]
    · have : (k == q.1) = false := by simpa using Ne.symm h
      rw [if_neg h, this]

theorem lookupA_some_mem (d : List (κ × α)) (k : κ) (v : α) (h : lookupA d k = some v) : (k, v) ∈ d := by
  induction d with
  | nil => cases h
  | cons q d ih =>
    rw [lookupA_cons] at h
    split at h
    · rename_i hk
      injection h with h
      rw [← hk, ← h]; exact List.mem_cons_self
    · exact List.mem_cons_of_mem _ (ih h)

theorem lookupA_mem (d : List (κ × α)) (hd : (d.map (·.1)).Nodup) (k : κ) (v : α) : lookupA d k = some v ↔ (k, v) ∈ d := by
  refine ⟨lookupA_some_mem d k v, ?_⟩
  induction d with
  | nil => intro h; cases h
  | cons q d ih =>
    intro h
    rw [List.map_cons, List.nodup_cons] at hd
    rw [lookupA_cons]
    rcases List.mem_cons.1 h with h | h
    · rw [← h]; simp
    · rw [if_neg, ih hd.2 h]
      intro hc
      apply hd.1
      rw [hc]
      exact List.mem_map_of_mem (f := (·.1)) h

theorem lookupA_none (d : List (κ × α)) (k : κ) : lookupA d k = none ↔ k ∉ d.map (·.1) := by
  induction d with
  | nil => simp [lookupA]
  | cons q d ih =>
    rw [lookupA_cons, List.map_cons, List.mem_cons, not_or]
    split
    · rename_i h; simp [h]
    · rename_i h; rw [ih]; exact ⟨fun hh => ⟨fun hc => h hc.symm, hh⟩, fun hh => hh.2⟩

theorem lookupA_filterMap {β : Type} (d : List (κ × α)) (P : κ → α → Option β) (hP : ∀ k a b, (P k a).isSome = (P k b).isSome) (k : κ) :
    lookupA (d.filterMap fun q => (P q.1 q.2).map fun b => (q.1, b)) k = (lookupA d k).bind (P k) := by
  induction d with
  | nil => rfl
  | cons q d ih =>
    rw [lookupA_cons, List.filterMap_cons]
    rcases hq : P q.1 q.2 with _ | b
    · simp only [Option.map_none]
      rw [ih]
      split
      · rename_i h
        rw [Option.bind_some, ← h, hq]
        rcases hl : lookupA d q.1 with _ | a
        · rfl
        · have := hP q.1 a q.2
          rw [hq] at this
          simpa using this
      · rfl
    · simp only [Option.map_some]
      rw [lookupA_cons]
      split
      · rename_i h
        rw [Option.bind_some, ← h, hq]
      · exact ih

theorem lookupA_perm (d e : List (κ × α)) (hd : (d.map (·.1)).Nodup) (h : d.Perm e) (k : κ) : lookupA d k = lookupA e k := by
  have he : (e.map (·.1)).Nodup := (h.map _).nodup_iff.1 hd
  apply Option.ext
  intro v
  rw [lookupA_mem d hd, lookupA_mem e he]
  exact h.mem_iff

theorem perm_of_lookupA (d e : List (κ × α)) (hd : (d.map (·.1)).Nodup) (he : (e.map (·.1)).Nodup)
    (h : ∀ k, lookupA d k = lookupA e k) : d.Perm e := by
  rw [List.perm_ext_iff_of_nodup (List.Nodup.of_map _ hd) (List.Nodup.of_map _ he)]
  rintro ⟨k, v⟩
  rw [← lookupA_mem d hd, ← lookupA_mem e he, h]

end

/-! ## Popping and setting keys -/

theorem lookup_popKey (s : Subgroup) (k k' : Str) : lookupA (popKey s k) k' = if k' = k then none else lookupA s k' := by
  induction s with
  | nil => simp [popKey, lookupA]
  | cons q s ih =>
    unfold popKey at *
    rw [List.filter_cons]
    by_cases h : q.1 = k
    · simp only [h, ne_eq, not_true_eq_false, decide_false, Bool.false_eq_true, if_false]
      rw [ih, lookupA_cons]
      by_cases h2 : k' = k
      · rw [if_pos h2, if_pos h2]
      · rw [if_neg h2, if_neg h2, if_neg (by rw [h]; exact Ne.symm h2)]
    · simp only [ne_eq, h, not_false_eq_true, decide_true, if_true]
      rw [lookupA_cons, lookupA_cons, ih]
      by_cases h1 : q.1 = k'
      · rw [if_pos h1, if_pos h1, if_neg]
        intro hc; exact h (h1.trans hc)
      · rw [if_neg h1, if_neg h1]

theorem lookup_setKey (s : Subgroup) (k k' : Str) (v : SubVal) : lookupA (setKey s k v) k' = if k' = k then some v else lookupA s k' := by
  unfold setKey
  by_cases h : (lookupA s k).isSome = true
  · rw [if_pos h]
    induction s with
    | nil => cases h
    | cons q s ih =>
      rw [List.map_cons, lookupA_cons]
      by_cases hq : q.1 = k
      · simp only [hq, if_true]
        by_cases hk : k = k'
        · simp [hk]
        · rw [if_neg hk, if_neg (Ne.symm hk), lookupA_cons, if_neg (by rw [hq]; exact hk)]
          clear ih h
          induction s with
          | nil => rfl
          | cons r s ih2 =>
            rw [List.map_cons, lookupA_cons, lookupA_cons, ih2]
            by_cases hr : r.1 = k
            · simp [hr, hk]
            · simp [hr]
      · rw [if_neg hq]
        have h' : (lookupA s k).isSome = true := by rw [lookupA_cons, if_neg hq] at h; exact h
        rw [ih h', lookupA_cons]
        by_cases h1 : q.1 = k'
        · rw [if_pos h1, if_pos h1, if_neg]; intro hc; exact hq (h1.trans hc)
        · rw [if_neg h1, if_neg h1]
  · rw [if_neg h]
    have hn : lookupA s k = none := by simpa using h
    clear h
    induction s with
    | nil => simp [lookupA_cons, lookupA_nil, eq_comm]
    | cons q s ih =>
      rw [lookupA_cons] at hn
      split at hn
      · cases hn
      rename_i hq
      rw [List.cons_append, lookupA_cons, lookupA_cons, ih hn]
      by_cases h1 : q.1 = k'
      · rw [if_pos h1, if_pos h1, if_neg]; intro hc; exact hq (h1.trans hc)
      · rw [if_neg h1, if_neg h1]

end Demod
