import Verif.Spec.Follow
import Verif.Lemmas.Equip
import Verif.Props.Utils
import Mathlib.Tactic.Set

/-! # Lemmas about appliances that follow activities and other appliances -/

namespace Demod

namespace ProbSim

variable (m : ProbSim)

theorem followers_only (f : Nat) (T : Str) (hf : f < m.apps.length) (h : OnlyFollower m.apps f T) : m.followers = [f] := by
  unfold followers
  have : ∀ n, ((List.range n).filter fun a => ((m.apps[a]?).bind (·.previousType)).isSome) = if f < n then [f] else [] := by
    intro n
    induction n with
    | zero => simp
    | succ n ih =>
      rw [List.range_succ, List.filter_append, ih]
      by_cases e : n = f
      · subst e
        have hx := (h n m.apps[n] (List.getElem?_eq_getElem hf)).1 rfl
        simp [List.getElem?_eq_getElem hf, hx]
      · have hnone : ((m.apps[n]?).bind (·.previousType)).isSome = false := by
          cases hn : m.apps[n]? with
          | none => rfl
          | some x => simp [(h n x hn).2 e]
        rw [List.filter_singleton, hnone]
        by_cases hlt : f < n
        · simp [hlt, Nat.lt_succ_of_lt hlt]
        · have : ¬ f < n + 1 := by omega
          simp [hlt, this]
  rw [this, if_pos hf]

theorem startAfter_one (f : Nat) (hfo : m.followers = [f]) (stopped : List (Nat × Nat)) :
    m.startAfter stopped = .ok ((stopped.filter fun s => m.followsOn f s.2).map fun s => (s.1, f)) := by
  have hk : ∀ l : List (Nat × Nat), ((List.zip l (l.map fun s => m.followsOn f s.2)).filterMap fun p => if p.2 then some p.1.1 else none) = (l.filter fun s => m.followsOn f s.2).map (·.1) := by
    intro l
    induction l with
    | nil => rfl
    | cons s l ih =>
      rw [List.map_cons, List.zip_cons_cons, List.filterMap_cons, ih, List.filter_cons]
      cases hc : m.followsOn f s.2 <;> simp
  have hcount : ∀ l : List (Nat × Nat), (l.map fun s => m.followsOn f s.2).countP (fun b => b) = (l.filter fun s => m.followsOn f s.2).length := by
    intro l
    rw [List.countP_map, ← List.countP_eq_length_filter]
    rfl
  unfold startAfter
  simp only [hfo, List.length_singleton, ne_eq, not_true_eq_false, false_and, and_false, if_false, List.length_map, hcount, hk, List.length_replicate]
  congr 1
  induction stopped.filter fun s => m.followsOn f s.2 with
  | nil => rfl
  | cons s l ih => simp [List.replicate_succ, ih]

theorem mem_stopping (left : Nat → Nat → Rat) (h a : Nat) : (h, a) ∈ m.stopping left ↔ h < m.households ∧ a < m.apps.length ∧ 0 < left h a ∧ left h a ≤ 1 := by
  unfold stopping
  rw [List.mem_flatMap]
  constructor
  · rintro ⟨h', h1, h2⟩
    obtain ⟨a', h3, h4⟩ := List.mem_map.mp h2
    cases h4
    rw [List.mem_filter] at h3
    obtain ⟨h5, h6⟩ := h3
    have := of_decide_eq_true h6
    exact ⟨by simpa using h1, by simpa using h5, this.1, by have := this.2; linarith⟩
  · rintro ⟨h1, h2, h3, h4⟩
    refine ⟨h, by simpa using h1, List.mem_map.mpr ⟨a, ?_, rfl⟩⟩
    rw [List.mem_filter]
    exact ⟨by simpa using h2, decide_eq_true ⟨h3, by linarith⟩⟩

/-- An entry of the candidates after an appliance. -/
theorem mem_cands (f h : Nat) (T : Str) (x : AppInfo) (hx : m.apps[f]? = some x) (hT : x.previousType = some T) (left : Nat → Nat → Rat) (hh : h < m.households) :
    (h, f) ∈ ((m.stopping left).filter fun s => m.followsOn f s.2).map (fun s => (s.1, f)) ↔ ∃ b y, m.apps[b]? = some y ∧ y.type = T ∧ 0 < left h b ∧ left h b ≤ 1 := by
  rw [List.mem_map]
  constructor
  · rintro ⟨⟨h', b⟩, hm, e⟩
    have e1 : h' = h := congrArg Prod.fst e
    subst e1
    rw [List.mem_filter] at hm
    obtain ⟨h1, h2⟩ := hm
    obtain ⟨-, h3, h4, h5⟩ := (mem_stopping m left h' b).mp h1
    have h2 := of_decide_eq_true h2
    rw [hx, List.getElem?_eq_getElem h3] at h2
    refine ⟨b, m.apps[b], List.getElem?_eq_getElem h3, ?_, h4, h5⟩
    simp only [Option.bind_some, hT, Option.map_some] at h2
    exact (Option.some.inj h2).symm
  · rintro ⟨b, y, hy, hyt, h4, h5⟩
    refine ⟨(h, b), ?_, rfl⟩
    rw [List.mem_filter]
    refine ⟨(mem_stopping m left h b).mpr ⟨hh, (List.getElem?_eq_some_iff.mp hy).1, h4, h5⟩, decide_eq_true ?_⟩
    rw [hx, hy]
    simp [hT, hyt]

/-- A round of the loop leaves an appliance with a dictated start alone, unless its activity ends or the activity that it follows. -/
theorem actRound_dictated (previous : List (Str × (Nat → Nat))) (i : FollowInput) (act : Str) (n : Nat → Nat) (left : Nat → Nat → Rat) (cache : Option (Nat → Nat → Bool)) (left' : Nat → Nat → Rat) (cache' : Option (Nat → Nat → Bool))
    (h a : Nat) (x : AppInfo) (hx : m.apps[a]? = some x) (hd : m.dictated a = true) (hr : m.actRound previous i act n left cache = .ok (left', cache'))
    (hna : x.previousActivity ≠ some act) :
    (left' h a = left h a ∨ left' h a = 0) ∧ ((x.activity = act → m.switchOff a = true → ∀ p, lookupA previous act = some p → p h = n h ∨ n h ≠ 0) → left' h a = left h a) := by
  unfold actRound at hr
  by_cases hex : ¬ ∃ x ∈ m.apps, x.activity = act
  · rw [if_pos hex] at hr
    have := Except.ok.inj hr
    cases this
    exact ⟨Or.inl rfl, fun _ => rfl⟩
  · rw [if_neg hex] at hr
    cases hl : lookupA previous act with
    | none => rw [hl] at hr; cases hr
    | some prev =>
      rw [hl] at hr
      have := (Prod.mk.inj (Except.ok.inj hr)).1
      have key : left' h a = if (decide (prev h ≠ n h) && decide (n h = 0)) && m.hasAct a act && m.switchOff a then 0 else left h a := by
        rw [← this]
        unfold startWhere
        simp only [hd, Bool.not_true, Bool.and_false, Bool.false_and, Bool.false_eq_true, if_false]
        by_cases hact : m.hasActivity = true
        · simp [hact, hx, hna]
        · simp [hact]
      refine ⟨?_, fun hs => ?_⟩
      · rw [key]
        split_ifs
        · exact Or.inr rfl
        · exact Or.inl rfl
      · rw [key, if_neg]
        intro hc
        simp only [Bool.and_eq_true, decide_eq_true_eq] at hc
        obtain ⟨⟨⟨h1, h2⟩, h3⟩, h4⟩ := hc
        unfold hasAct at h3
        rw [hx] at h3
        have h3 : x.activity = act := by simpa using h3
        rcases hs h3 h4 prev rfl with h5 | h5
        · exact h1 h5
        · exact h5 h2

theorem actLoop_dictated (previous : List (Str × (Nat → Nat))) (i : FollowInput) (h a : Nat) (x : AppInfo) (hx : m.apps[a]? = some x) (hd : m.dictated a = true) :
    ∀ (acts : List (Str × (Nat → Nat))) (left : Nat → Nat → Rat) (cache : Option (Nat → Nat → Bool)) (left' : Nat → Nat → Rat), m.actLoop previous i acts left cache = .ok left' →
      (∀ p ∈ acts, x.previousActivity ≠ some p.1) →
      (left' h a = left h a ∨ left' h a = 0) ∧ ((∀ p ∈ acts, x.activity = p.1 → m.switchOff a = true → ∀ q, lookupA previous p.1 = some q → q h = p.2 h ∨ p.2 h ≠ 0) → left' h a = left h a) := by
  intro acts
  induction acts with
  | nil =>
    intro left cache left' hl _
    have := Except.ok.inj hl
    subst this
    exact ⟨Or.inl rfl, fun _ => rfl⟩
  | cons p acts ih =>
    obtain ⟨act, n⟩ := p
    intro left cache left' hl hna
    unfold actLoop at hl
    cases hr : m.actRound previous i act n left cache with
    | error e => rw [hr] at hl; cases hl
    | ok r =>
      obtain ⟨l1, c1⟩ := r
      rw [hr] at hl
      have hl : m.actLoop previous i acts l1 c1 = .ok left' := hl
      obtain ⟨a1, a2⟩ := actRound_dictated m previous i act n left cache l1 c1 h a x hx hd hr (hna _ List.mem_cons_self)
      obtain ⟨b1, b2⟩ := ih l1 c1 left' hl fun p hp => hna p (List.mem_cons_of_mem _ hp)
      refine ⟨?_, fun hs => ?_⟩
      · rcases b1 with e | e
        · rw [e]; exact a1
        · exact Or.inr e
      · rw [b2 fun p hp => hs p (List.mem_cons_of_mem _ hp), a2 fun e => hs (act, n) List.mem_cons_self e]

/-- The first part of the loop, for an appliance with a dictated start that is off and does not follow the activities of this part: it stays off, and the usage that is kept says so. -/
theorem actLoop_split (previous : List (Str × (Nat → Nat))) (i : FollowInput) (h a : Nat) (x : AppInfo) (hx : m.apps[a]? = some x) (hd : m.dictated a = true) :
    ∀ (pre post : List (Str × (Nat → Nat))) (left : Nat → Nat → Rat) (cache : Option (Nat → Nat → Bool)) (left' : Nat → Nat → Rat),
      m.actLoop previous i (pre ++ post) left cache = .ok left' → (∀ p ∈ pre, x.previousActivity ≠ some p.1) → left h a ≤ 0 → (∀ v, cache = some v → v h a = false) →
      ∃ l c, m.actLoop previous i post l c = .ok left' ∧ l h a ≤ 0 ∧ ∀ v, c = some v → v h a = false := by
  intro pre
  induction pre with
  | nil => intro post left cache left' h _ h1 h2; exact ⟨left, cache, h, h1, h2⟩
  | cons p pre ih =>
    obtain ⟨act, n⟩ := p
    intro post left cache left' hl hna h1 h2
    rw [List.cons_append] at hl
    unfold actLoop at hl
    cases hr : m.actRound previous i act n left cache with
    | error e => rw [hr] at hl; cases hl
    | ok r =>
      obtain ⟨l1, c1⟩ := r
      rw [hr] at hl
      have hl : m.actLoop previous i (pre ++ post) l1 c1 = .ok left' := hl
      have hz : l1 h a ≤ 0 := by
        rcases (actRound_dictated m previous i act n left cache l1 c1 h a x hx hd hr (hna _ List.mem_cons_self)).1 with e | e <;> rw [e]
        exact h1
      refine ih post l1 c1 left' hl (fun p hp => hna p (List.mem_cons_of_mem _ hp)) hz ?_
      unfold actRound at hr
      by_cases hex : ¬ ∃ x ∈ m.apps, x.activity = act
      · rw [if_pos hex] at hr
        rw [← (Prod.mk.inj (Except.ok.inj hr)).2]
        exact h2
      · rw [if_neg hex] at hr
        cases hlk : lookupA previous act with
        | none => rw [hlk] at hr; cases hr
        | some prev =>
          rw [hlk] at hr
          rw [← (Prod.mk.inj (Except.ok.inj hr)).2]
          intro v hv
          have hv := Option.some.inj hv
          rw [← hv]
          cases cache with
          | some w => exact h2 w rfl
          | none =>
            rw [Option.getD_none]
            unfold usage
            rw [Bool.and_eq_false_iff]
            left
            refine decide_eq_false (not_lt.mpr ?_)
            beta_reduce
            split_ifs
            · exact le_refl _
            · exact h1

theorem step_ok (s s' : FollowState) (i : FollowInput) (hs : m.step s i = .ok s') :
    s'.previous = i.activities ∧ s'.cache = none ∧ ∃ left0 c0, m.actLoop s.previous i i.activities left0 c0 = .ok s'.left ∧
      ((m.hasType = true ∧ ∃ cands, m.startAfter (m.stopping s.left) = .ok cands ∧
          left0 = m.startWhere i.duration (fun h a => (List.range cands.length).any fun j => decide (cands[j]? = some (h, a)) &&
            !(s.cache.getD (m.usage fun h a => if s.left h a > 0 then s.left h a - 1 else s.left h a)) h a && decide (i.uType j < m.prob h a)) (fun h a => if s.left h a > 0 then s.left h a - 1 else s.left h a) ∧
          c0 = some (s.cache.getD (m.usage fun h a => if s.left h a > 0 then s.left h a - 1 else s.left h a))) ∨
        (m.hasType = false ∧ left0 = (fun h a => if s.left h a > 0 then s.left h a - 1 else s.left h a) ∧ c0 = s.cache)) := by
  unfold step at hs
  cases ht : m.hasType with
  | false =>
    rw [ht] at hs
    simp only [Bool.false_eq_true, if_false] at hs
    change (do let left ← m.actLoop s.previous i i.activities (fun h a => if s.left h a > 0 then s.left h a - 1 else s.left h a) s.cache; Except.ok ({ left := left, previous := i.activities, cache := none } : FollowState)) = _ at hs
    cases hl : m.actLoop s.previous i i.activities (fun h a => if s.left h a > 0 then s.left h a - 1 else s.left h a) s.cache with
    | error e => rw [hl] at hs; cases hs
    | ok left =>
      rw [hl] at hs
      have := Except.ok.inj hs
      subst this
      exact ⟨rfl, rfl, _, _, hl, Or.inr ⟨rfl, rfl, rfl⟩⟩
  | true =>
    rw [ht] at hs
    simp only [if_true] at hs
    cases hc : m.startAfter (m.stopping s.left) with
    | error e => rw [hc] at hs; cases hs
    | ok cands =>
      rw [hc] at hs
      set left0 := m.startWhere i.duration (fun h a => (List.range cands.length).any fun j => decide (cands[j]? = some (h, a)) &&
            !(s.cache.getD (m.usage fun h a => if s.left h a > 0 then s.left h a - 1 else s.left h a)) h a && decide (i.uType j < m.prob h a)) (fun h a => if s.left h a > 0 then s.left h a - 1 else s.left h a) with hleft
      set c0 := some (s.cache.getD (m.usage fun h a => if s.left h a > 0 then s.left h a - 1 else s.left h a)) with hc0
      change (do let left ← m.actLoop s.previous i i.activities left0 c0; Except.ok ({ left := left, previous := i.activities, cache := none } : FollowState)) = _ at hs
      cases hl : m.actLoop s.previous i i.activities left0 c0 with
      | error e => rw [hl] at hs; cases hs
      | ok left =>
        rw [hl] at hs
        have := Except.ok.inj hs
        subst this
        exact ⟨rfl, rfl, _, _, hl, Or.inl ⟨rfl, cands, rfl, hleft, hc0⟩⟩

end ProbSim

end Demod
