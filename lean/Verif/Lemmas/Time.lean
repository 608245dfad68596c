import Verif.Model.Time
import Verif.Spec.Logger

namespace Demod
variable {σ ι V : Type}

theorem read_own (C : SimClass σ ι V) {s s' : SimState σ V} {a : String} {v : Res V}
    (h : C.read s a = .ok (v, s')) : s'.own = s.own ∧ s'.timeStep = s.timeStep ∧ s'.logger = s.logger := by
  unfold SimClass.read at h
  split at h
  · cases h
  · split at h
    · split at h
      · cases h; exact ⟨rfl, rfl, rfl⟩
      · cases h; exact ⟨rfl, rfl, rfl⟩
    · cases h; exact ⟨rfl, rfl, rfl⟩

theorem visitLoop_own (C : SimClass σ ι V) (names : List (String × Bool)) :
    ∀ {s s' : SimState σ V} {d d'}, C.visitLoop names s d = .ok (s', d') →
      s'.own = s.own ∧ s'.timeStep = s.timeStep := by
  induction names with
  | nil => intro s s' d d' h; cases h; exact ⟨rfl, rfl⟩
  | cons p names ih =>
    intro s s' d d' h
    obtain ⟨a, g⟩ := p
    unfold SimClass.visitLoop at h
    cases hr : C.read s a with
    | error e => rw [hr] at h; cases h
    | ok r =>
      obtain ⟨v, s1⟩ := r
      rw [hr] at h
      simp only [bind, Except.bind] at h
      have h1 := read_own C hr
      cases hd : d a with
      | none => rw [hd] at h; cases h
      | some old =>
        rw [hd] at h
        simp only at h
        cases hst : Logger.store a old (Logger.aggregate C.sum g v) with
        | error e => rw [hst] at h; cases h
        | ok new =>
          rw [hst] at h
          have := ih h
          exact ⟨by rw [this.1, h1.1], by rw [this.2, h1.2.1]⟩

theorem visit_own (C : SimClass σ ι V) {s s' : SimState σ V} (h : C.visit s = .ok s') :
    s'.own = s.own ∧ s'.timeStep = s.timeStep := by
  unfold SimClass.visit at h
  split at h
  · cases h; exact ⟨rfl, rfl⟩
  · rename_i l _
    cases hv : C.visitLoop (l.attrs.zip l.aggregated) s l.dic with
    | error e => rw [hv] at h; cases h
    | ok r =>
      rw [hv] at h
      cases h
      have := visitLoop_own C _ hv
      exact this

theorem step_own (C : SimClass σ ι V) {s s' : SimState σ V} {i : ι} (h : C.step s i = .ok s') :
    s'.own = C.after i (C.before i s.own) ∧ s'.timeStep = s.timeStep + 1 := by
  unfold SimClass.step SimClass.baseStep at h
  cases hv : C.visit { s with own := C.before i s.own, timeStep := s.timeStep + 1, cache := Dict.empty } with
  | error e => simp only [hv] at h; cases h
  | ok s1 =>
    simp only [hv] at h
    cases h
    have := visit_own C hv
    exact ⟨by simp [this.1], this.2⟩

theorem run_own (C : SimClass σ ι V) (is : List ι) : ∀ {s s' : SimState σ V},
    C.run s is = .ok s' → s'.own = ownAfter C s.own is ∧ s'.timeStep = s.timeStep + is.length := by
  induction is with
  | nil => intro s s' h; cases h; exact ⟨rfl, rfl⟩
  | cons i is ih =>
    intro s s' h
    unfold SimClass.run at h
    cases hs : C.step s i with
    | error e => rw [hs] at h; cases h
    | ok s1 =>
      rw [hs] at h
      have h1 := step_own C hs
      have h2 := ih h
      refine ⟨by rw [h2.1, h1.1]; rfl, by rw [h2.2, h1.2]; simp; omega⟩

theorem initialise_own (C : SimClass σ ι V) {s s' : SimState σ V} {w : Int} {arg : ι}
    (h : C.initialise s w arg = .ok s') :
    0 ≤ w ∧ s'.own = ownAfter C s.own (List.replicate w.toNat arg) ∧ s'.timeStep = w.toNat := by
  unfold SimClass.initialise at h
  split at h
  · cases h
  · cases hr : C.run { s with timeStep := 0 } (List.replicate w.toNat arg) with
    | error e => rw [hr] at h; cases h
    | ok s1 =>
      rw [hr] at h
      have h1 := run_own C _ hr
      have h2 := visit_own C h
      refine ⟨by omega, by rw [h2.1]; exact h1.1, by rw [h2.2]; simpa using h1.2⟩

theorem ownAfter_time (C : SimClass σ ι V) (ofTime : Int → V) (step : Int) (is : List ι) :
    ∀ s : σ × Int, ownAfter (timeAware C ofTime step) s is = (ownAfter C s.1 is, s.2 + is.length * step) := by
  induction is with
  | nil => intro s; simp [ownAfter]
  | cons i is ih =>
    intro s
    have := ih (C.after i (C.before i s.1), s.2 + step)
    simp only [ownAfter, List.foldl_cons, timeAware] at this ⊢
    rw [this]
    congr 1
    simp only [List.length_cons, Int.natCast_add, Int.add_mul]
    omega

theorem run_ok_nolog (C : SimClass σ ι V) (is : List ι) : ∀ s : SimState σ V, s.logger = none →
    ∃ s', C.run s is = .ok s' ∧ s'.logger = none := by
  induction is with
  | nil => intro s h; exact ⟨s, rfl, h⟩
  | cons i is ih =>
    intro s h
    obtain ⟨s', h1, h2⟩ := ih
      { s with own := C.after i (C.before i s.own), timeStep := s.timeStep + 1, cache := Dict.empty } h
    refine ⟨s', ?_, h2⟩
    simp only [SimClass.run, SimClass.step, SimClass.baseStep, SimClass.visit, h]
    simpa [bind, Except.bind, h] using h1

/-! ### Calendar -/

theorem daysInMonth_ge (y m : Nat) : 28 ≤ daysInMonth y m := by
  unfold daysInMonth; split
  · split <;> omega
  · split <;> omega

theorem dateOf_valid (n : Nat) :
    1 ≤ (dateOf n).day ∧ (dateOf n).day ≤ daysInMonth (dateOf n).year (dateOf n).month ∧
    1 ≤ (dateOf n).month ∧ (dateOf n).month ≤ 12 := by
  induction n with
  | zero => decide
  | succ n ih =>
    simp only [dateOf, Date.next]
    split
    · exact ⟨by simp, by simp; omega, ih.2.2⟩
    · split
      · exact ⟨by simp, by have := daysInMonth_ge (dateOf n).year ((dateOf n).month + 1); simp; omega, by simp, by simp; omega⟩
      · exact ⟨by simp, by have := daysInMonth_ge ((dateOf n).year + 1) 1; simp; omega, by simp, by simp⟩

theorem dayNumber_add (t step : Int) (h0 : 0 < step) (h1 : step < DAY) :
    dayNumber (t + step) = dayNumber t ∨ dayNumber (t + step) = dayNumber t + 1 := by
  unfold dayNumber DAY at *; omega

theorem dateAt_same {t step : Int} (h : dayNumber (t + step) = dayNumber t) :
    dateAt (t + step) = dateAt t := by simp [dateAt, h]

theorem dateAt_next {t step : Int} (ht : 0 ≤ t) (h : dayNumber (t + step) = dayNumber t + 1) :
    dateAt (t + step) = (dateAt t).next := by
  have : 0 ≤ dayNumber t := by unfold dayNumber DAY; omega
  unfold dateAt
  rw [h]
  have : (dayNumber t + 1).toNat = (dayNumber t).toNat + 1 := by omega
  rw [this]; rfl

end Demod
