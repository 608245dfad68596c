import Verif.Lemmas.ActSimRun

/-! # What an appliance of an activity shows -/

namespace Demod

theorem actRun_append (A : Appl) (s : Appl.ActState) (ns ms : List Nat) : A.actRun s (ns ++ ms) = A.actRun (A.actRun s ns) ms := by
  induction ns generalizing s with
  | nil => rfl
  | cons n ns ih => exact ih _

theorem begins_append (hist : List Nat) (m j : Nat) (hj : j < hist.length) : Begins (hist ++ [m]) j ↔ Begins hist j := by
  unfold Begins
  rw [List.getElem?_append_left hj, List.getElem?_append_left (by omega)]

theorem begins_lt (hist : List Nat) (j : Nat) (h : Begins hist j) : j < hist.length := by
  obtain ⟨⟨m, hm, -⟩, -⟩ := h
  exact (List.getElem?_eq_some_iff.1 hm).1

theorem begins_last (hist : List Nat) (hne : hist ≠ []) (m : Nat) : Begins (hist ++ [m]) hist.length ↔ 0 < m ∧ hist.getLast? = some 0 := by
  unfold Begins
  have hl : 0 < hist.length := List.length_pos_iff.2 hne
  rw [List.getElem?_append_right (Nat.le_refl _), Nat.sub_self, List.getElem?_append_left (by omega), List.getLast?_eq_getElem?]
  constructor
  · rintro ⟨⟨k, hk, h⟩, h0 | h0⟩
    · omega
    · simp only [List.getElem?_cons_zero, Option.some.injEq] at hk
      exact ⟨by omega, h0⟩
  · rintro ⟨h1, h2⟩
    exact ⟨⟨m, rfl, h1⟩, Or.inr h2⟩

theorem lastBegin_append (hist : List Nat) (hne : hist ≠ []) (m : Nat) (h : ¬ (0 < m ∧ hist.getLast? = some 0)) (j : Nat) : LastBegin (hist ++ [m]) j ↔ LastBegin hist j := by
  have key : ∀ i, Begins (hist ++ [m]) i ↔ Begins hist i := by
    intro i
    by_cases hi : i < hist.length
    · exact begins_append hist m i hi
    · constructor
      · intro hb
        exfalso
        have := begins_lt _ _ hb
        rw [List.length_append, List.length_singleton] at this
        have : i = hist.length := by omega
        subst this
        exact h ((begins_last hist hne m).1 hb)
      · intro hb
        exact absurd (begins_lt _ _ hb) hi
  unfold LastBegin
  simp only [key]

theorem lastBegin_new (hist : List Nat) (hne : hist ≠ []) (m : Nat) (h : 0 < m ∧ hist.getLast? = some 0) (j : Nat) : LastBegin (hist ++ [m]) j ↔ j = hist.length := by
  have hb := (begins_last hist hne m).2 h
  constructor
  · rintro ⟨h1, h2⟩
    have := h2 _ hb
    have := begins_lt _ _ h1
    rw [List.length_append, List.length_singleton] at this
    omega
  · rintro rfl
    refine ⟨hb, fun i hi => ?_⟩
    have := begins_lt _ _ hi
    rw [List.length_append, List.length_singleton] at this
    omega

theorem lastBegin_one (n j : Nat) : LastBegin [n] j ↔ (j = 0 ∧ 0 < n) := by
  unfold LastBegin
  constructor
  · rintro ⟨h, -⟩
    have := begins_lt _ _ h
    simp only [List.length_singleton] at this
    obtain ⟨⟨m, hm, hpos⟩, -⟩ := h
    have hj : j = 0 := by omega
    subst hj
    simp only [List.getElem?_cons_zero, Option.some.injEq] at hm
    exact ⟨rfl, by omega⟩
  · rintro ⟨rfl, h⟩
    refine ⟨⟨⟨n, rfl, h⟩, Or.inl rfl⟩, fun i hi => ?_⟩
    have := begins_lt _ _ hi
    simp only [List.length_singleton] at this
    omega

theorem exists_lastBegin (n : Nat) (ns : List Nat) (h : ∃ m ∈ n :: ns, 0 < m) : ∃ j, LastBegin (n :: ns) j := by
  induction ns using List.reverseRecOn with
  | nil =>
    obtain ⟨m, hm, hp⟩ := h
    simp only [List.mem_singleton] at hm
    exact ⟨0, (lastBegin_one n 0).2 ⟨rfl, by omega⟩⟩
  | append_singleton ns m ih =>
    rw [← List.cons_append] at h ⊢
    by_cases hc : 0 < m ∧ (n :: ns).getLast? = some 0
    · exact ⟨_, (lastBegin_new _ (by simp) m hc _).2 rfl⟩
    · have hex : ∃ k ∈ n :: ns, 0 < k := by
        obtain ⟨k, hk, hp⟩ := h
        rcases List.mem_append.1 hk with hk | hk
        · exact ⟨k, hk, hp⟩
        · simp only [List.mem_singleton] at hk
          subst hk
          refine ⟨(n :: ns).getLast (by simp), List.getLast_mem _, ?_⟩
          by_contra hz
          apply hc
          refine ⟨hp, ?_⟩
          rw [List.getLast?_eq_some_getLast (by simp)]
          congr 1
          omega
      obtain ⟨j, hj⟩ := ih hex
      exact ⟨j, (lastBegin_append _ (by simp) m hc j).2 hj⟩

theorem act_left (A : Appl) (hv : A.varLoad = true) (hpos : 0 < A.loadDuration) (refresh : Int) (n : Nat) (ns : List Nat) :
    some (A.actRun (A.actInit refresh n) ns).performing = (n :: ns).getLast? ∧
    ∀ j, LastBegin (n :: ns) j → (A.actRun (A.actInit refresh n) ns).base.left = A.loadDuration - ((((n :: ns).length - j) % A.loadDuration : Nat) : Rat) := by
  induction ns using List.reverseRecOn with
  | nil =>
    constructor
    · show some (A.actInit refresh n).performing = some n
      unfold Appl.actInit Appl.actSwitchOn
      split_ifs <;> rfl
    · intro j hj
      obtain ⟨rfl, hn⟩ := (lastBegin_one n j).1 hj
      show (A.actInit refresh n).base.left = _
      unfold Appl.actInit Appl.actSwitchOn
      simp only [if_pos hn, if_pos hv]
      rw [actDecrement_cycle A hv _ 0 hpos (by simp)]
      rfl
  | append_singleton ns m ih =>
    obtain ⟨ih1, ih2⟩ := ih
    rw [actRun_append]
    obtain ⟨s, es⟩ : ∃ s, s = A.actRun (A.actInit refresh n) ns := ⟨_, rfl⟩
    rw [← es] at ih1 ih2 ⊢
    show some (A.actStep s m).performing = _ ∧ ∀ j, _ → (A.actStep s m).base.left = _
    rw [← List.cons_append]
    refine ⟨by rw [List.getLast?_append]; rfl, ?_⟩
    intro j hj
    by_cases hc : 0 < m ∧ (n :: ns).getLast? = some 0
    · rw [(lastBegin_new _ (by simp) m hc j).1 hj]
      have hp : s.performing = 0 := by
        rw [hc.2] at ih1
        exact Option.some.inj ih1
      unfold Appl.actStep Appl.actSwitchOn
      have e1 : (decide (s.performing ≠ m) && decide (s.performing = 0)) = true := by rw [hp]; simp; omega
      simp only [e1, if_true, hv]
      rw [actDecrement_cycle A hv _ 0 hpos (by simp)]
      rw [List.length_append, List.length_singleton, Nat.add_sub_cancel_left]
    · have hj' := (lastBegin_append _ (by simp) m hc j).1 hj
      have hlt := begins_lt _ _ hj'.1
      have hl := ih2 j hj'
      have e1 : (decide (s.performing ≠ m) && decide (s.performing = 0)) = false := by
        rw [Bool.eq_false_iff]
        intro c
        simp only [Bool.and_eq_true, decide_eq_true_eq] at c
        apply hc
        rw [← ih1, c.2]
        exact ⟨by omega, rfl⟩
      have hb : (A.actStep s m).base = A.actDecrement s.base := by
        unfold Appl.actStep
        simp only [e1, Bool.false_eq_true, if_false]
        split_ifs <;> rfl
      rw [hb, actDecrement_cycle A hv s.base _ (Nat.mod_lt _ hpos) hl]
      congr 2
      rw [List.length_append, List.length_singleton, Nat.mod_add_mod]
      congr 1
      omega

/-- The power of an appliance in use with a load profile of which `k` samples have passed. -/
theorem power_at (A : Appl) (s : ApplState) (hv : A.varLoad = true) (k : Nat) (hk : k < A.loadDuration) (hrow : A.loadDuration ≤ A.row.length) (hl : s.left = A.loadDuration - (k : Rat)) :
    ∃ w, A.power true s = .ok w ∧ A.row[k]? = some w := by
  have hkr : k < A.row.length := by omega
  refine ⟨A.row[k], ?_, List.getElem?_eq_getElem hkr⟩
  unfold Appl.power Appl.variableLoad
  have ht : truncRat (A.loadDuration - s.left) = (k : Int) := by
    rw [hl, sub_sub_cancel]
    exact truncRat_natCast k
  rw [ht]
  simp only [hv, Bool.and_true, if_true, bind, Except.bind, pyGetInt, Int.natCast_nonneg, Int.toNat_natCast, pyGet, List.getElem?_eq_getElem hkr, pure, Except.pure]
  congr 1
  ring

theorem power_off (A : Appl) (s : ApplState) : A.power false s = .ok (if A.owned then A.standby else 0) := by
  unfold Appl.power Appl.variableLoad
  simp only [Bool.false_and, Bool.false_eq_true, if_false, bind, Except.bind, pure, Except.pure]
  cases A.owned <;> simp

theorem power_const (A : Appl) (s : ApplState) (hv : A.varLoad = false) : A.power true s = .ok A.meanPower := by
  unfold Appl.power Appl.variableLoad
  simp only [hv, Bool.and_false, Bool.false_eq_true, if_false, if_true, bind, Except.bind, pure, Except.pure]
  congr 1
  ring

theorem act_consumes (A : Appl) (hrow : A.owned = true → A.varLoad = true → 0 < A.loadDuration ∧ A.loadDuration ≤ A.row.length) (refresh : Int) (start n : Nat) (ns : List Nat) :
    (A.actUsage (A.actRun (A.actInit refresh n) ns) = true ↔ ActInUse A False (n :: ns)) ∧
    ∃ w, A.power (A.actUsage (A.actRun (A.actInit refresh n) ns)) (A.actRun (A.actInit refresh n) ns).base = .ok w ∧ ActConsumes A False start (n :: ns) w := by
  have hu : A.actUsage (A.actRun (A.actInit refresh n) ns) = true ↔ ActInUse A False (n :: ns) := by
    unfold ActInUse
    cases hf : A.switchOff with
    | true =>
      rw [C75_in_use A hf refresh n ns, List.getLast?_eq_some_getLast (by simp : n :: ns ≠ [])]
      simp
    | false =>
      rw [C75_never_off_counterexample A hf refresh n ns]
      simp
  refine ⟨hu, ?_⟩
  obtain ⟨s, es⟩ : ∃ s, s = A.actRun (A.actInit refresh n) ns := ⟨_, rfl⟩
  rw [← es] at hu ⊢
  by_cases hc : A.actUsage s = true
  · have hin := hu.1 hc
    have ho := hin.1
    rw [hc]
    by_cases hv : A.varLoad = true
    · obtain ⟨h1, h2⟩ := hrow ho hv
      have hex : ∃ m ∈ n :: ns, 0 < m := by
        rcases hin.2 with h | ⟨-, m, h, hm⟩ | ⟨-, h⟩
        · exact h.elim
        · exact ⟨m, List.mem_of_getLast? h, hm⟩
        · exact h
      obtain ⟨j, hj⟩ := exists_lastBegin n ns hex
      have hl := (act_left A hv h1 refresh n ns).2 j hj
      rw [← es] at hl
      obtain ⟨w, e, hw⟩ := power_at A s.base hv _ (Nat.mod_lt _ h1) h2 hl
      exact ⟨w, e, ⟨fun c => by rw [c] at ho; (cases ho), fun _ c => absurd hin c, fun _ c => by rw [c] at hv; (cases hv), fun _ _ c => c.elim, fun _ _ _ => ⟨j, hj, hw⟩⟩⟩
    · have hv' : A.varLoad = false := by simpa using hv
      exact ⟨_, power_const A s.base hv', ⟨fun c => by rw [c] at ho; (cases ho), fun _ c => absurd hin c, fun _ _ => rfl, fun _ c => absurd c hv, fun _ c => absurd c hv⟩⟩
  · have hno : ¬ ActInUse A False (n :: ns) := fun c => hc (hu.2 c)
    have hc' : A.actUsage s = false := by simpa using hc
    rw [hc']
    refine ⟨_, power_off A s.base, ⟨fun c => by rw [if_neg (by simp [c])], fun c _ => by rw [if_pos c], fun c => absurd c hno, fun c => absurd c hno, fun c => absurd c hno⟩⟩

theorem act_consumes_always (A : Appl) (hrow : A.owned = true → A.varLoad = true → 2 ≤ A.loadDuration ∧ A.loadDuration ≤ A.row.length) (refresh : Int) (start : Nat)
    (hst : A.owned = true → A.varLoad = true → 1 ≤ start ∧ start < A.loadDuration) (hist : List Nat) (k : Nat) (hk : hist.length = k + 1) :
    (A.actUsage (A.actStepAlwaysOn^[k] (A.actInitAlwaysOn refresh start)) = true ↔ ActInUse A True hist) ∧
    ∃ w, A.power (A.actUsage (A.actStepAlwaysOn^[k] (A.actInitAlwaysOn refresh start))) (A.actStepAlwaysOn^[k] (A.actInitAlwaysOn refresh start)).base = .ok w ∧ ActConsumes A True start hist w := by
  have hused : (A.actStepAlwaysOn^[k] (A.actInitAlwaysOn refresh start)).used = true := by
    clear hk
    induction k with
    | zero => rfl
    | succ k ih => rw [Function.iterate_succ_apply']; exact ih
  have hu : A.actUsage (A.actStepAlwaysOn^[k] (A.actInitAlwaysOn refresh start)) = A.owned := by
    unfold Appl.actUsage
    rw [hused, Bool.true_and]
  have hin : ActInUse A True hist ↔ A.owned = true := by
    unfold ActInUse
    simp
  refine ⟨by rw [hu, hin], ?_⟩
  by_cases ho : A.owned = true
  · by_cases hv : A.varLoad = true
    · obtain ⟨h1, h2⟩ := hrow ho hv
      obtain ⟨h3, h4⟩ := hst ho hv
      have := C76_always_on A hv ho h2 refresh start h3 h4 k
      refine ⟨_, this, ⟨fun c => by rw [c] at ho; (cases ho), fun _ c => absurd (hin.2 ho) c, fun _ c => by rw [c] at hv; (cases hv), fun _ _ _ => ?_, fun _ _ c => absurd trivial c⟩⟩
      rw [← List.getElem?_eq_getElem, hk]
      congr 2
      omega
    · have hv' : A.varLoad = false := by simpa using hv
      rw [hu, ho]
      exact ⟨_, power_const A _ hv', ⟨fun c => by rw [c] at ho; (cases ho), fun _ c => absurd (hin.2 ho) c, fun _ _ => rfl, fun _ c => absurd c hv, fun _ c => absurd c hv⟩⟩
  · have ho' : A.owned = false := by simpa using ho
    rw [hu, ho']
    refine ⟨_, power_off A _, ⟨fun c => by rw [if_neg (by simp [c])], fun c _ => absurd c ho, fun c => absurd (hin.1 c) ho, fun c => absurd (hin.1 c) ho, fun c => absurd (hin.1 c) ho⟩⟩

end Demod
