import Verif.Spec.Activity
import Verif.Lemmas.SemiMarkov
import Verif.Lemmas.Utils

namespace Demod

/-! ## Individuals -/
section
variable {P : Type} [DecidableEq P]

theorem count_flatten_modify (acc : List (List Nat)) (i : Nat) (xs : List Nat) (h : Nat) (hi : i < acc.length) :
    (acc.modify i fun l => l ++ xs).flatten.count h = acc.flatten.count h + xs.count h := by
  induction acc generalizing i with
  | nil => simp at hi
  | cons a acc ih =>
    cases i with
    | zero => simp only [List.modify_zero_cons, List.flatten_cons, List.count_append]; omega
    | succ i =>
      simp only [List.modify_succ_cons, List.flatten_cons, List.count_append]
      rw [ih i (by simpa using hi)]; omega

theorem addPerson_length (unique : List P) (off n : Nat) (acc : List (List Nat)) (p : P) : (addPerson unique off n acc p).length = acc.length := by
  unfold addPerson; rw [List.length_modify]

theorem foldl_addPerson (unique : List P) (off n : Nat) (ps : List P) (acc : List (List Nat)) (hp : ∀ p ∈ ps, p ∈ unique)
    (hl : acc.length = unique.length) (h : Nat) :
    (ps.foldl (addPerson unique off n) acc).length = unique.length ∧
    (ps.foldl (addPerson unique off n) acc).flatten.count h = acc.flatten.count h + ps.length * ((List.range n).map fun hh => off + hh).count h := by
  induction ps generalizing acc with
  | nil => simp [hl]
  | cons p ps ih =>
    obtain ⟨a, b⟩ := ih (addPerson unique off n acc p) (fun q hq => hp q (List.mem_cons_of_mem _ hq)) (by rw [addPerson_length, hl])
    refine ⟨a, ?_⟩
    rw [List.foldl_cons, b]
    unfold addPerson
    rw [count_flatten_modify _ _ _ _ (by rw [hl]; exact List.idxOf_lt_length_of_mem (hp p List.mem_cons_self)), List.length_cons,
      Nat.succ_mul]
    omega

theorem count_range_off (off n h : Nat) : ((List.range n).map fun hh => off + hh).count h = if off ≤ h ∧ h < off + n then 1 else 0 := by
  induction n with
  | zero => rw [if_neg (by omega)]; simp
  | succ n ih =>
    rw [List.range_succ, List.map_append, List.count_append, ih]
    simp only [List.map_cons, List.map_nil, List.count_cons, List.count_nil, beq_iff_eq]
    split <;> split <;> split <;> omega

theorem hhLoop_count (unique : List P) (groups : List (List P × Nat)) (off : Nat) (acc : List (List Nat)) (hp : ∀ g ∈ groups, ∀ p ∈ g.1, p ∈ unique)
    (hl : acc.length = unique.length) (h : Nat) :
    (hhLoop unique off groups acc).length = unique.length ∧
    (hhLoop unique off groups acc).flatten.count h =
      acc.flatten.count h + (if off ≤ h then ((households groups).getD (h - off) []).length else 0) := by
  induction groups generalizing off acc with
  | nil => simp [hhLoop, hl, households]
  | cons g gs ih =>
    obtain ⟨f1, f2⟩ := foldl_addPerson unique off g.2 g.1 acc (hp g List.mem_cons_self) hl h
    obtain ⟨a, b⟩ := ih (off + g.2) _ (fun g' hg => hp g' (List.mem_cons_of_mem _ hg)) f1
    refine ⟨a, ?_⟩
    rw [hhLoop, b, f2, count_range_off]
    have hh : households (g :: gs) = List.replicate g.2 g.1 ++ households gs := rfl
    rw [hh]
    by_cases h1 : off ≤ h
    · by_cases h2 : h < off + g.2
      · rw [if_pos ⟨h1, h2⟩, if_neg (by omega), if_pos h1, List.getD_eq_getElem?_getD, List.getElem?_append_left (by rw [List.length_replicate]; omega),
          List.getElem?_replicate, if_pos (by omega)]
        simp
      · rw [if_neg (by omega), if_pos (by omega), if_pos h1, List.getD_eq_getElem?_getD, List.getD_eq_getElem?_getD,
          List.getElem?_append_right (by rw [List.length_replicate]; omega), List.length_replicate, Nat.sub_sub]
        omega
    · rw [if_neg (by omega), if_neg (by omega), if_neg h1]
      omega

theorem foldl_lengths (unique : List P) (off n : Nat) (ps : List P) (acc : List (List Nat)) :
    (ps.foldl (addPerson unique off n) acc).map List.length =
      ps.foldl (fun acc p => acc.modify (unique.idxOf p) fun c => c + n) (acc.map List.length) := by
  induction ps generalizing acc with
  | nil => rfl
  | cons p ps ih =>
    rw [List.foldl_cons, ih, List.foldl_cons]
    congr 1
    unfold addPerson
    generalize unique.idxOf p = i
    induction acc generalizing i with
    | nil => simp
    | cons a acc ih2 =>
      cases i with
      | zero => simp
      | succ i => simp [ih2 i]

theorem hhLoop_lengths (unique : List P) (groups : List (List P × Nat)) (off : Nat) (acc : List (List Nat)) :
    (hhLoop unique off groups acc).map List.length = countLoop unique groups (acc.map List.length) := by
  induction groups generalizing off acc with
  | nil => rfl
  | cons g gs ih => rw [hhLoop, ih, countLoop, foldl_lengths]

theorem mem_uniquePersons (groups : List (List P × Nat)) : ∀ g ∈ groups, ∀ p ∈ g.1, p ∈ uniquePersons groups := by
  intro g hg p hp
  unfold uniquePersons
  rw [List.mem_eraseDups]
  exact List.mem_flatten.2 ⟨g.1, List.mem_map_of_mem hg, hp⟩

theorem parse_count (groups : List (List P × Nat)) (h : Nat) :
    (parseSubgroups groups).2.2.count h = ((households groups).getD h []).length := by
  unfold parseSubgroups
  have := (hhLoop_count (uniquePersons groups) groups 0 ((uniquePersons groups).map fun _ => []) (mem_uniquePersons groups) (by simp) h).2
  simp only at this ⊢
  rw [this]
  have h0 : ∀ (l : List P), (l.map fun _ => ([] : List Nat)).flatten = [] := by
    intro l; induction l with
    | nil => rfl
    | cons a l ih => simp
  rw [h0]
  simp

theorem parse_counted (groups : List (List P × Nat)) :
    (parseSubgroups groups).2.1 = (hhLoop (uniquePersons groups) 0 groups ((uniquePersons groups).map fun _ => [])).map List.length := by
  unfold parseSubgroups
  simp only
  rw [hhLoop_lengths, List.map_map]
  rfl

theorem parse_total (groups : List (List P × Nat)) : (parseSubgroups groups).2.2.length = (parseSubgroups groups).2.1.sum := by
  rw [parse_counted]
  unfold parseSubgroups
  simp only
  rw [List.length_flatten]

theorem parse_lt (groups : List (List P × Nat)) : ∀ h ∈ (parseSubgroups groups).2.2, h < (groups.map (·.2)).sum := by
  intro h hh
  have h1 := List.count_pos_iff.2 hh
  rw [parse_count] at h1
  by_contra hc
  have hl : (households groups).length = (groups.map (·.2)).sum := by
    unfold households
    rw [List.length_flatMap]
    congr 1
    apply List.map_congr_left
    intro g _; simp
  rw [List.getD_eq_getElem?_getD, List.getElem?_eq_none (by omega)] at h1
  simp at h1

end

section
variable {L : Type} [DecidableEq L]

theorem idxOf_iff (labels : List L) (hn : labels.Nodup) (a : L) (s : Nat) (hs : s < labels.length) (ha : a ∈ labels) :
    s = labels.idxOf a ↔ labels[s] = a := by
  constructor
  · intro h
    have h1 := Markov.idxOf_get labels a ha
    rw [← h, List.getElem?_eq_getElem hs] at h1
    exact Option.some.inj h1
  · intro h
    rw [← h]
    exact (List.Nodup.idxOf_getElem hn s hs).symm

theorem nDoing_mask (m : Markov L) (hn : m.labels.Nodup) (hv : ∀ s ∈ m.states, s < m.labels.length) (a : L) (ha : a ∈ m.labels) :
    m.nDoingActivity a = .ok (m.states.map fun s => decide (m.labels[s]? = some a)) := by
  unfold Markov.nDoingActivity
  rw [if_pos ha]
  unfold Markov.nDoingState
  congr 1
  apply List.map_congr_left
  intro s hs
  have := hv s hs
  rw [List.getElem?_eq_getElem this]
  simp only [Option.some.injEq]
  exact decide_eq_decide.2 (idxOf_iff m.labels hn a s this ha)

/-- The persons doing an activity, counted per household. -/
theorem gather_count (hh : List Nat) (labs : List (Option L)) (a : L) (h : Nat) (hl : labs.length = hh.length) :
    (gather (labs.map fun l => decide (l = some a)) hh).count h = ((hh.zip labs).filter fun q => decide (q.1 = h ∧ q.2 = some a)).length := by
  induction labs generalizing hh with
  | nil =>
    cases hh with
    | nil => rfl
    | cons _ _ => simp at hl
  | cons l labs ih =>
    cases hh with
    | nil => simp at hl
    | cons x hh =>
      have := ih hh (by simpa using hl)
      simp only [List.map_cons, List.zip_cons_cons]
      by_cases h1 : l = some a
      · rw [decide_eq_true h1]
        simp only [gather, List.count_cons, this]
        by_cases h2 : x = h
        · rw [List.filter_cons_of_pos (by simp [h1, h2]), List.length_cons]; simp [h2]
        · rw [List.filter_cons_of_neg (by simp [h2])]; simp [h2]
      · rw [decide_eq_false h1]
        simp only [gather, this]
        rw [List.filter_cons_of_neg (by simp [h1])]

theorem sum_filter_labels (q : List (Nat × Option L)) (labels : List L) (hn : labels.Nodup) (h : Nat) (hq : ∀ x ∈ q, ∃ a ∈ labels, x.2 = some a) :
    (labels.map fun a => (q.filter fun x => decide (x.1 = h ∧ x.2 = some a)).length).sum = (q.map (·.1)).count h := by
  induction q with
  | nil =>
    simp only [List.filter_nil, List.length_nil, List.map_nil, List.count_nil]
    clear hq hn
    induction labels with
    | nil => rfl
    | cons a l ih => simp
  | cons x q ih =>
    have ih := ih fun y hy => hq y (List.mem_cons_of_mem _ hy)
    obtain ⟨a0, ha0, hx⟩ := hq x List.mem_cons_self
    have h1 : ∀ a, ((x :: q).filter fun x => decide (x.1 = h ∧ x.2 = some a)).length =
        (q.filter fun x => decide (x.1 = h ∧ x.2 = some a)).length + (if x.1 = h ∧ a0 = a then 1 else 0) := by
      intro a
      by_cases hc : x.1 = h ∧ a0 = a
      · rw [List.filter_cons_of_pos (by simp [hc.1, hx, hc.2]), if_pos hc, List.length_cons]
      · rw [List.filter_cons_of_neg (by rw [hx]; simpa using hc), if_neg hc]; omega
    have h2 : ∀ (l : List L), (l.map fun a => ((x :: q).filter fun x => decide (x.1 = h ∧ x.2 = some a)).length).sum =
        (l.map fun a => (q.filter fun x => decide (x.1 = h ∧ x.2 = some a)).length).sum + (if x.1 = h then l.count a0 else 0) := by
      intro l
      induction l with
      | nil => simp
      | cons b l ihl =>
        rw [List.map_cons, List.sum_cons, ihl, h1 b, List.map_cons, List.sum_cons, List.count_cons]
        by_cases hxh : x.1 = h
        · simp only [hxh, true_and, if_true]
          by_cases hb : a0 = b
          · simp [hb]; omega
          · have : (b == a0) = false := by simpa using fun e : b = a0 => hb e.symm
            simp [hb, this]; omega
        · simp only [hxh, false_and, if_false]; omega
    rw [h2, ih, List.map_cons, List.count_cons, List.count_eq_one_of_mem hn ha0]
    by_cases hxh : x.1 = h
    · simp [hxh]
    · have : (x.1 == h) = false := by simpa using hxh
      simp [hxh]

theorem lookupA_map {β : Type} (l : List L) (f : L → β) (a : L) (ha : a ∈ l) : lookupA (l.map fun x => (x, f x)) a = some (f a) := by
  induction l with
  | nil => simp at ha
  | cons b l ih =>
    rw [List.map_cons, lookupA_cons]
    by_cases hb : b = a
    · rw [if_pos hb]; simp [hb]
    · rw [if_neg hb]
      rcases List.mem_cons.1 ha with h | h
      · exact absurd h.symm hb
      · exact ih h

omit [DecidableEq L] in
theorem le_sum_of_mem (l : List L) (f : L → Nat) (x : L) (hx : x ∈ l) : f x ≤ (l.map f).sum := by
  induction l with
  | nil => simp at hx
  | cons a l ih =>
    rw [List.map_cons, List.sum_cons]
    rcases List.mem_cons.1 hx with h | h
    · rw [h]; omega
    · have := ih h; omega

omit [DecidableEq L] in
theorem two_le_sum (l : List L) (f : L → Nat) (x y : L) (hx : x ∈ l) (hy : y ∈ l) (hne : x ≠ y) : f x + f y ≤ (l.map f).sum := by
  induction l with
  | nil => simp at hx
  | cons a l ih =>
    rw [List.map_cons, List.sum_cons]
    rcases List.mem_cons.1 hx with h | h
    · rcases List.mem_cons.1 hy with h' | h'
      · exact absurd (h.trans h'.symm) hne
      · have := le_sum_of_mem l f y h'; rw [h]; omega
    · rcases List.mem_cons.1 hy with h' | h'
      · have := le_sum_of_mem l f x h; rw [h']; omega
      · have := ih h h'; omega

end
end Demod
