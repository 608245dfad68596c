import Verif.Spec.Equip
import Mathlib.Data.List.GetD
import Mathlib.Data.List.Dedup
import Mathlib.Tactic.Linarith
import Mathlib.Tactic.Ring

/-! # Lemmas about the equipment of the households -/

namespace Demod

theorem hhTypesFrom_length (ns : List Nat) : ∀ i, (hhTypesFrom i ns).length = ns.sum := by
  induction ns with
  | nil => intro i; rfl
  | cons n ns ih => intro i; simp [hhTypesFrom, ih]

theorem hhTypesFrom_get (ns : List Nat) : ∀ i h k, (hhTypesFrom i ns)[h]? = some k ↔ i ≤ k ∧ InSubgroup ns h (k - i) := by
  induction ns with
  | nil => intro i h k; simp [hhTypesFrom, InSubgroup]
  | cons n ns ih =>
    intro i h k
    unfold hhTypesFrom
    by_cases hh : h < n
    · rw [List.getElem?_append_left (by simpa using hh), List.getElem?_replicate, if_pos hh]
      constructor
      · intro e
        have e := Option.some.inj e
        subst e
        refine ⟨le_refl _, ?_⟩
        simp [InSubgroup, hh]
      · rintro ⟨h1, h2, h3⟩
        congr 1
        by_contra hne
        obtain ⟨j, hj⟩ : ∃ j, k - i = j + 1 := ⟨k - i - 1, by omega⟩
        rw [hj, List.take_succ_cons, List.sum_cons] at h2
        omega
    · rw [List.getElem?_append_right (by simp; omega), List.length_replicate, ih]
      constructor
      · rintro ⟨h1, h2, h3⟩
        refine ⟨by omega, ?_⟩
        have : k - i = (k - (i + 1)) + 1 := by omega
        unfold InSubgroup
        rw [this, List.take_succ_cons, List.take_succ_cons, List.sum_cons, List.sum_cons]
        omega
      · rintro ⟨h1, h2, h3⟩
        have hne : k ≠ i := by
          intro e
          subst e
          simp at h3
          omega
        have e : k - i = (k - (i + 1)) + 1 := by omega
        rw [e, List.take_succ_cons, List.sum_cons] at h2 h3
        exact ⟨by omega, by omega, by omega⟩

theorem drawOwned_get (u : Nat → Nat → Rat) (rows : List (List Rat)) (h a : Nat) (row : List Rat) (p : Rat) (hr : rows[h]? = some row) (hp : row[a]? = some p) :
    ((drawOwned u rows)[h]?.bind fun r => r[a]?) = some (decide (u h a < p)) := by
  unfold drawOwned
  rw [List.getElem?_mapIdx, hr]
  simp [hp]

theorem mapM_ok_get {α β : Type} (f : α → Except PyErr β) : ∀ (xs : List α) (ys : List β), xs.mapM f = .ok ys → ys.length = xs.length ∧ ∀ (i : Nat) x, xs[i]? = some x → ∃ y, ys[i]? = some y ∧ f x = .ok y := by
  intro xs
  induction xs with
  | nil => intro ys h; have := Except.ok.inj h; subst this; simp
  | cons x xs ih =>
    intro ys h
    rw [List.mapM_cons] at h
    cases hx : f x with
    | error e => rw [hx] at h; cases h
    | ok y =>
      cases hr : xs.mapM f with
      | error e => rw [hx, hr] at h; cases h
      | ok zs =>
        rw [hx, hr] at h
        have := Except.ok.inj h
        subst this
        obtain ⟨h1, h2⟩ := ih zs hr
        refine ⟨by simp [h1], fun i z hz => ?_⟩
        cases i with
        | zero => simp at hz; subst hz; exact ⟨y, rfl, hx⟩
        | succ i => simpa using h2 i z (by simpa using hz)

theorem mapM_all_ok {α β : Type} (f : α → Except PyErr β) : ∀ xs : List α, (∀ x ∈ xs, ∃ y, f x = .ok y) → ∃ ys, xs.mapM f = .ok ys := by
  intro xs
  induction xs with
  | nil => intro _; exact ⟨[], rfl⟩
  | cons x xs ih =>
    intro h
    obtain ⟨y, hy⟩ := h x List.mem_cons_self
    obtain ⟨ys, hys⟩ := ih fun z hz => h z (List.mem_cons_of_mem _ hz)
    exact ⟨y :: ys, by rw [List.mapM_cons, hy, hys]; rfl⟩

/-! ## Profiles -/

theorem foldl_max_ge (l : List Nat) : ∀ m, m ≤ l.foldl max m ∧ ∀ x ∈ l, x ≤ l.foldl max m := by
  induction l with
  | nil => intro m; simp
  | cons y l ih =>
    intro m
    obtain ⟨h1, h2⟩ := ih (max m y)
    refine ⟨le_trans (le_max_left _ _) h1, fun x hx => ?_⟩
    rcases List.mem_cons.mp hx with rfl | hx
    · exact le_trans (le_max_right _ _) h1
    · exact h2 x hx

theorem padProfiles_get (ps qs : List (List Rat)) (h : padProfiles ps = .ok qs) : ∀ (i : Nat) p, ps[i]? = some p → ∃ n, qs[i]? = some (p ++ List.replicate n 0) := by
  unfold padProfiles at h
  split_ifs at h
  have := Except.ok.inj h
  subst this
  intro i p hp
  exact ⟨_, by simp [hp]; rfl⟩

/-- What the loop sets for the appliances of the types it goes through. -/
theorem chooseTypes_spec (apps : List AppInfo) (owned : Nat → Nat → Bool) (dict : ProfilesDict (List Rat)) (draw : Nat → Nat → Nat) (types : List Str) : ∀ s s' : ProfileChoice,
    types.foldlM (chooseType apps owned dict draw) s = .ok s' → types.Nodup →
    (∀ a, s'.varLoad a = s.varLoad a) ∧
    (∀ T, T ∉ types → s'.loads T = s.loads T ∧ ∀ h a x, apps[a]? = some x → x.type = T → s'.id h a = s.id h a ∧ s'.duration h a = s.duration h a) ∧
    (∀ T named, T ∈ types → dict.get T = some named → (∃ qs, padProfiles (named.map (·.2)) = .ok qs ∧ s'.loads T = some qs) ∧
      ∀ h a x, apps[a]? = some x → x.type = T →
        (owned h a = true → s'.id h a = draw h a ∧ s'.duration h a = ((named.map (·.2)).getD (draw h a) []).length) ∧
        (owned h a = false → s'.id h a = s.id h a ∧ s'.duration h a = s.duration h a)) := by
  induction types with
  | nil =>
    intro s s' h _
    have := Except.ok.inj h
    subst this
    exact ⟨fun _ => rfl, fun T _ => ⟨rfl, fun h a x _ _ => ⟨rfl, rfl⟩⟩, fun T n hT => by simp at hT⟩
  | cons T types ih =>
    intro s s' h hnd
    rw [List.foldlM_cons] at h
    cases hc : chooseType apps owned dict draw s T with
    | error e => rw [hc] at h; cases h
    | ok s1 =>
      rw [hc] at h
      have h : types.foldlM (chooseType apps owned dict draw) s1 = .ok s' := h
      obtain ⟨hT, hnd'⟩ := List.nodup_cons.mp hnd
      obtain ⟨i1, i2, i3⟩ := ih s1 s' h hnd'
      -- the first round
      have hstep : (∀ a, s1.varLoad a = s.varLoad a) ∧ (∀ T', T' ≠ T → s1.loads T' = s.loads T' ∧ ∀ h a x, apps[a]? = some x → x.type = T' → s1.id h a = s.id h a ∧ s1.duration h a = s.duration h a) ∧
          (∀ named, dict.get T = some named → (∃ qs, padProfiles (named.map (·.2)) = .ok qs ∧ s1.loads T = some qs) ∧
            ∀ h a x, apps[a]? = some x → x.type = T → (owned h a = true → s1.id h a = draw h a ∧ s1.duration h a = ((named.map (·.2)).getD (draw h a) []).length) ∧
              (owned h a = false → s1.id h a = s.id h a ∧ s1.duration h a = s.duration h a)) := by
        unfold chooseType at hc
        cases hg : dict.get T with
        | none =>
          rw [hg] at hc
          have := Except.ok.inj hc
          subst this
          exact ⟨fun _ => rfl, fun _ _ => ⟨rfl, fun _ _ _ _ _ => ⟨rfl, rfl⟩⟩, fun n hn => by cases hn⟩
        | some named =>
          rw [hg] at hc
          cases hp : padProfiles (named.map (·.2)) with
          | error e =>
            simp only [hp] at hc
            cases hc
          | ok qs =>
            simp only [hp] at hc
            have := Except.ok.inj hc
            subst this
            refine ⟨fun _ => rfl, fun T' hT' => ⟨by simp [hT'], fun h a x hx hxt => ?_⟩, fun n hn => ?_⟩
            · simp [hx, hxt, hT']
            · have := Option.some.inj hn
              subst this
              refine ⟨⟨qs, hp, by simp⟩, fun h a x hx hxt => ⟨fun ho => ?_, fun ho => ?_⟩⟩
              · simp [hx, hxt, ho]
              · simp [ho]
      obtain ⟨s1a, s1b, s1c⟩ := hstep
      refine ⟨fun a => by rw [i1, s1a], fun T' hT' => ?_, fun T' named hT' hn => ?_⟩
      · obtain ⟨hne, hnt⟩ : T' ≠ T ∧ T' ∉ types := by simpa using hT'
        obtain ⟨j1, j2⟩ := i2 T' hnt
        obtain ⟨k1, k2⟩ := s1b T' hne
        refine ⟨by rw [j1, k1], fun h a x hx hxt => ?_⟩
        obtain ⟨a1, a2⟩ := j2 h a x hx hxt
        obtain ⟨b1, b2⟩ := k2 h a x hx hxt
        exact ⟨by rw [a1, b1], by rw [a2, b2]⟩
      · by_cases hTT : T' = T
        · subst hTT
          obtain ⟨j1, j2⟩ := i2 T' hT
          obtain ⟨⟨qs, k0, k1⟩, k2⟩ := s1c named hn
          refine ⟨⟨qs, k0, by rw [j1, k1]⟩, fun h a x hx hxt => ?_⟩
          obtain ⟨a1, a2⟩ := j2 h a x hx hxt
          obtain ⟨b1, b2⟩ := k2 h a x hx hxt
          rw [a1, a2]
          exact ⟨b1, b2⟩
        · have hmem : T' ∈ types := by rcases List.mem_cons.mp hT' with h | h; exacts [absurd h hTT, h]
          obtain ⟨j1, j2⟩ := i3 T' named hmem hn
          refine ⟨j1, fun h a x hx hxt => ?_⟩
          obtain ⟨a1, a2⟩ := j2 h a x hx hxt
          refine ⟨a1, fun ho => ?_⟩
          obtain ⟨b1, b2⟩ := a2 ho
          obtain ⟨-, c⟩ := s1b T' hTT
          obtain ⟨c1, c2⟩ := c h a x hx hxt
          exact ⟨by rw [b1, c1], by rw [b2, c2]⟩

/-- The loop fails only for a type without profiles. -/
theorem chooseTypes_ok (apps : List AppInfo) (owned : Nat → Nat → Bool) (dict : ProfilesDict (List Rat)) (draw : Nat → Nat → Nat) (types : List Str) : ∀ s : ProfileChoice,
    ((∃ s', types.foldlM (chooseType apps owned dict draw) s = .ok s') ↔ ∀ T ∈ types, dict.get T ≠ some []) := by
  induction types with
  | nil => intro s; exact ⟨fun _ => by simp, fun _ => ⟨s, rfl⟩⟩
  | cons T types ih =>
    intro s
    have hone : (∃ s1, chooseType apps owned dict draw s T = .ok s1) ↔ dict.get T ≠ some [] := by
      unfold chooseType
      cases hg : dict.get T with
      | none => simp
      | some named =>
        unfold padProfiles
        cases named with
        | nil =>
          constructor
          · rintro ⟨s1, hs⟩
            simp only [List.map_nil, if_true] at hs
            cases hs
          · intro h; exact absurd rfl h
        | cons q qs =>
          simp only [List.map_cons, reduceCtorEq, if_false]
          exact ⟨fun _ => by simp, fun _ => ⟨_, rfl⟩⟩
    rw [List.foldlM_cons]
    constructor
    · rintro ⟨s', hs⟩ T' hT'
      cases hc : chooseType apps owned dict draw s T with
      | error e => rw [hc] at hs; cases hs
      | ok s1 =>
        rw [hc] at hs
        rcases List.mem_cons.mp hT' with rfl | h
        · exact hone.mp ⟨s1, hc⟩
        · exact (ih s1).mp ⟨s', hs⟩ T' h
    · intro h
      obtain ⟨s1, hs1⟩ := hone.mpr (h T List.mem_cons_self)
      obtain ⟨s', hs'⟩ := (ih s1).mpr fun T' hT' => h T' (List.mem_cons_of_mem _ hT')
      exact ⟨s', by rw [hs1]; exact hs'⟩

theorem mem_alwaysOn (a : AppInfo) : a.activity ∈ alwaysOn ↔ a.AlwaysOn := by
  simp only [alwaysOn, List.mem_cons, List.not_mem_nil, or_false]
  exact Iff.rfl

/-! ## Probabilities -/

theorem meanFrom_eq (pdf : List Rat) : ∀ k, meanFrom k pdf = ((List.range pdf.length).map fun j => ((k + j : Nat) : Rat) * pdf.getD j 0).sum := by
  induction pdf with
  | nil => intro k; rfl
  | cons p ps ih =>
    intro k
    unfold meanFrom
    rw [ih, List.length_cons, List.range_succ_eq_map, List.map_cons, List.sum_cons, List.map_map]
    congr 1
    · simp [mul_comm]
    · refine congrArg List.sum (List.map_congr_left fun j _ => ?_)
      simp only [Function.comp, List.getD_cons_succ]
      congr 2
      omega

theorem meanFrom_zero (pdf : List Rat) : meanFrom 0 pdf = meanOf pdf := by
  rw [meanFrom_eq]
  unfold meanOf
  simp

/-- The loop over the activities, for one appliance. -/
def roundsOf (year residents : Rat) (starts : List (Str × List Rat)) (a : AppInfo) (target : Rat) : List (Str × Rat) → Option Rat → Option Rat
  | [], acc => acc
  | (act, mean) :: rest, acc => roundsOf year residents starts a target rest (switchOnRound year residents ((lookupA starts act).getD []) act mean a target acc)

theorem switchOnActivities_get (year residents : Rat) (starts : List (Str × List Rat)) (q : List (AppInfo × Rat)) (probs : List (Str × Rat)) : ∀ acc out : List (Option Rat), acc.length = q.length →
    switchOnActivities year residents starts q probs acc = .ok out → out.length = q.length ∧ ∀ (i : Nat) a t x, q[i]? = some (a, t) → acc[i]? = some x → out[i]? = some (roundsOf year residents starts a t probs x) := by
  induction probs with
  | nil =>
    intro acc out hl h
    have := Except.ok.inj h
    subst this
    exact ⟨hl, fun i a t x _ hx => hx⟩
  | cons p probs ih =>
    obtain ⟨act, mean⟩ := p
    intro acc out hl h
    unfold switchOnActivities at h
    cases hs : lookupA starts act with
    | none => rw [hs] at h; cases h
    | some st =>
      rw [hs] at h
      obtain ⟨h1, h2⟩ := ih _ _ (by rw [List.length_zipWith, hl, min_self]) h
      refine ⟨h1, fun i a t x hq hx => ?_⟩
      have := h2 i a t (switchOnRound year residents st act mean a t x) hq (by rw [List.getElem?_zipWith, hq, hx])
      rw [this, roundsOf, hs]
      rfl

theorem switchOnActivities_ok (year residents : Rat) (starts : List (Str × List Rat)) (q : List (AppInfo × Rat)) (probs : List (Str × Rat)) : ∀ acc : List (Option Rat),
    ((∃ out, switchOnActivities year residents starts q probs acc = .ok out) ↔ ∀ p ∈ probs, (lookupA starts p.1).isSome) := by
  induction probs with
  | nil => intro acc; exact ⟨fun _ => by simp, fun _ => ⟨acc, rfl⟩⟩
  | cons p probs ih =>
    obtain ⟨act, mean⟩ := p
    intro acc
    unfold switchOnActivities
    cases hs : lookupA starts act with
    | none =>
      constructor
      · rintro ⟨out, h⟩; cases h
      · intro h; have := h (act, mean) List.mem_cons_self; rw [hs] at this; cases this
    | some st =>
      refine (ih _).trans ⟨fun h p hp => ?_, fun h p hp => h p (List.mem_cons_of_mem _ hp)⟩
      rcases List.mem_cons.mp hp with rfl | hp
      · rw [hs]; rfl
      · exact h p hp

theorem rounds_untouched (year residents : Rat) (starts : List (Str × List Rat)) (a : AppInfo) (t : Rat) (probs : List (Str × Rat)) : ∀ x, (∀ p ∈ probs, p.1 ≠ a.activity ∧ a.previousActivity ≠ some p.1) → roundsOf year residents starts a t probs x = x := by
  induction probs with
  | nil => intro x _; rfl
  | cons p probs ih =>
    obtain ⟨act, mean⟩ := p
    intro x h
    obtain ⟨h1, h2⟩ := h (act, mean) List.mem_cons_self
    unfold roundsOf
    rw [ih _ fun p hp => h p (List.mem_cons_of_mem _ hp)]
    unfold switchOnRound
    rw [if_neg h2]
    rw [if_neg (fun e => h1 e.symm)]

theorem roundsOf_append (year residents : Rat) (starts : List (Str × List Rat)) (a : AppInfo) (t : Rat) (p q : List (Str × Rat)) : ∀ x, roundsOf year residents starts a t (p ++ q) x = roundsOf year residents starts a t q (roundsOf year residents starts a t p x) := by
  induction p with
  | nil => intro x; rfl
  | cons c p ih => intro x; exact ih _

end Demod
