import Verif.Lemmas.Utils
import Mathlib.Algebra.Order.Floor.Semiring
import Mathlib.Algebra.Order.Round
import Mathlib.Tactic.Ring
import Mathlib.Tactic.Positivity

namespace Demod

/-! ## External values -/

theorem assignDict_none {κ : Type} [DecidableEq κ] (base : Dict κ (List (Option Rat)))
    (items : List (κ × List (Option Rat))) (out : Dict κ (List (Option Rat)))
    (h : items.foldlM (fun d q => match d q.1 with
      | none => .error .keyError
      | some b => (assignExternalArray b (some q.2)).map fun r => d.set q.1 r) base = (.ok out : Except PyErr _)) (k : κ)
    (hk : k ∉ items.map (·.1)) : out k = base k := by
  induction items generalizing base with
  | nil => injection h with h; rw [h]
  | cons q items ih =>
    rw [List.map_cons, List.mem_cons, not_or] at hk
    rw [List.foldlM_cons] at h
    rcases hb : base q.1 with _ | b
    · simp only [hb] at h; cases h
    · simp only [hb] at h
      rcases ha : assignExternalArray b (some q.2) with e | r
      · rw [ha] at h; cases h
      · rw [ha] at h
        have := ih _ h hk.2
        rw [this]
        simp [Dict.set, hk.1]

theorem assignDict_some {κ : Type} [DecidableEq κ] (base : Dict κ (List (Option Rat)))
    (items : List (κ × List (Option Rat))) (hn : (items.map (·.1)).Nodup) (out : Dict κ (List (Option Rat)))
    (h : items.foldlM (fun d q => match d q.1 with
      | none => .error .keyError
      | some b => (assignExternalArray b (some q.2)).map fun r => d.set q.1 r) base = (.ok out : Except PyErr _)) (k : κ)
    (e : List (Option Rat)) (hk : (k, e) ∈ items) :
    ∃ b r, base k = some b ∧ assignExternalArray b (some e) = .ok r ∧ out k = some r := by
  induction items generalizing base with
  | nil => cases hk
  | cons q items ih =>
    rw [List.map_cons, List.nodup_cons] at hn
    rw [List.foldlM_cons] at h
    rcases hb : base q.1 with _ | b
    · simp only [hb] at h; cases h
    · simp only [hb] at h
      rcases ha : assignExternalArray b (some q.2) with er | r
      · rw [ha] at h; cases h
      · rw [ha] at h
        rcases List.mem_cons.1 hk with hq | hq
        · have h1 := assignDict_none _ items out h k (by rw [← hq] at hn; exact hn.1)
          refine ⟨b, r, by rw [← hb, ← hq], by rw [← ha, ← hq], ?_⟩
          rw [h1, ← hq]
          simp [Dict.set]
        · obtain ⟨b', r', h1, h2, h3⟩ := ih _ hn.2 h hq
          refine ⟨b', r', ?_, h2, h3⟩
          rw [← h1]
          have hne : k ≠ q.1 := by
            rintro rfl
            exact hn.1 (List.mem_map_of_mem (f := (·.1)) hq)
          simp [Dict.set, hne]

theorem assignDict_ok {κ : Type} [DecidableEq κ] (base : Dict κ (List (Option Rat)))
    (items : List (κ × List (Option Rat))) (hn : (items.map (·.1)).Nodup)
    (h : ∀ q ∈ items, ∃ b, base q.1 = some b ∧ b.length = q.2.length) :
    ∃ out, items.foldlM (fun d q => match d q.1 with
      | none => .error .keyError
      | some b => (assignExternalArray b (some q.2)).map fun r => d.set q.1 r) base = (.ok out : Except PyErr _) := by
  induction items generalizing base with
  | nil => exact ⟨base, rfl⟩
  | cons q items ih =>
    rw [List.map_cons, List.nodup_cons] at hn
    obtain ⟨b, hb, hl⟩ := h q List.mem_cons_self
    rw [List.foldlM_cons]
    simp only [hb]
    have ha : ∃ r, assignExternalArray b (some q.2) = .ok r := by
      unfold assignExternalArray
      simp only
      rw [if_pos hl.symm]
      exact ⟨_, rfl⟩
    obtain ⟨r, hr⟩ := ha
    rw [hr]
    apply ih _ hn.2
    intro x hx
    obtain ⟨b', hb', hl'⟩ := h x (List.mem_cons_of_mem _ hx)
    refine ⟨b', ?_, hl'⟩
    rw [← hb']
    have hne : x.1 ≠ q.1 := by
      intro hc
      apply hn.1
      rw [← hc]
      exact List.mem_map_of_mem (f := (·.1)) hx
    simp [Dict.set, hne]

/-! ## Ownership from a dictionary -/

/-- The counters after the appliances `done`. -/
def Counted (counter : Dict Str Nat) (done : List (Option Str)) : Prop :=
  ∀ T, (counter T).getD 0 = done.countP fun c => decide (c = some T)

theorem counted_set (counter : Dict Str Nat) (done : List (Option Str)) (T : Str) (h : Counted counter done) :
    Counted (counter.set T ((done.countP fun c => decide (c = some T)) + 1)) (done ++ [some T]) := by
  intro T'
  rw [List.countP_append]
  by_cases hT : T' = T
  · subst hT
    simp [Dict.set]
  · have : ¬ (some T = some T') := by intro hc; injection hc with hc; exact hT hc.symm
    simp [Dict.set, hT, this, h T']

theorem counted_none (counter : Dict Str Nat) (done : List (Option Str)) (h : Counted counter done) :
    Counted counter (done ++ [none]) := by
  intro T
  rw [List.countP_append, h T]
  simp

/-- What the `i`-th appliance gets. -/
def expected (dict : List (Str × Rat)) (default : List Rat) (closest : List (Option Str)) (i : Nat) (p : Rat) : Prop :=
  match closest[i]? with
  | none => False
  | some none => default[i]? = some p
  | some (some T) => p = (lookupA dict (copyKey T (copyNumber closest i T))).getD 0

theorem ownershipLoop_spec (dict : List (Str × Rat)) (default : List Rat) (ts : List Str) (counter : Dict Str Nat)
    (done : List (Option Str)) (hc : Counted counter done)
    (hd : ∀ j t, ts[j]? = some t → findClosestType t (dict.map (·.1)) = none → done.length + j < default.length) :
    ∃ out, ownershipLoop dict default counter done.length ts = .ok out ∧ out.length = ts.length ∧
      ∀ j p, out[j]? = some p → expected dict default (done ++ ts.map fun t => findClosestType t (dict.map (·.1))) (done.length + j) p := by
  induction ts generalizing counter done with
  | nil => exact ⟨[], rfl, rfl, by simp⟩
  | cons t ts ih =>
    have key : ∀ (cl : Option Str), findClosestType t (dict.map (·.1)) = cl →
        ∃ c' p, ownershipStep dict default counter done.length t = .ok (c', p) ∧ Counted c' (done ++ [cl]) ∧
          expected dict default (done ++ [cl]) done.length p := by
      intro cl hcl
      unfold ownershipStep
      rw [hcl]
      cases cl with
      | none =>
        have hlt := hd 0 t rfl hcl
        refine ⟨counter, default[done.length]'(by omega), ?_, counted_none counter done hc, ?_⟩
        · simp only [pyGet]
          rw [List.getElem?_eq_getElem (by omega)]
          rfl
        · unfold expected
          rw [List.getElem?_append_right (le_refl _)]
          simp only [Nat.sub_self, List.getElem?_cons_zero]
          exact List.getElem?_eq_getElem (by omega)
      | some T =>
        have hn := hc T
        have hex : ∀ p, p = (lookupA dict (copyKey T ((done.countP fun c => decide (c = some T)) + 1))).getD 0 →
            expected dict default (done ++ [some T]) done.length p := by
          intro p hp
          unfold expected
          rw [List.getElem?_append_right (le_refl _)]
          simp only [Nat.sub_self, List.getElem?_cons_zero]
          rw [hp]
          unfold copyNumber
          rw [List.take_of_length_le (by simp), List.countP_append]
          simp
        have hset := counted_set counter done T hc
        simp only
        rw [hn]
        by_cases h0 : (done.countP fun c => decide (c = some T)) = 0
        · rw [h0]
          simp only [if_true]
          rw [h0] at hset hex
          exact ⟨_, _, rfl, hset, hex _ (by simp [copyKey])⟩
        · simp only [h0, if_false]
          refine ⟨_, _, rfl, hset, hex _ ?_⟩
          unfold copyKey
          rw [if_neg (by omega)]
    obtain ⟨c', p, h1, h2, h3⟩ := key _ rfl
    obtain ⟨out, h4, h5, h6⟩ := ih c' (done ++ [findClosestType t (dict.map (·.1))]) h2 (by
      intro j t' hj hcl
      have := hd (j + 1) t' hj hcl
      simp only [List.length_append, List.length_singleton]
      omega)
    refine ⟨p :: out, ?_, by simp [h5], ?_⟩
    · rw [ownershipLoop, h1]
      simp only [List.length_append, List.length_singleton] at h4
      show (do let rest ← ownershipLoop dict default c' (done.length + 1) ts; Except.ok (p :: rest)) = _
      rw [h4]; rfl
    · intro j x hx
      cases j with
      | zero =>
        simp only [List.getElem?_cons_zero, Option.some.injEq] at hx
        subst hx
        unfold expected at *
        rw [Nat.add_zero, List.map_cons]
        rw [List.getElem?_append_right (le_refl _)] at h3 ⊢
        simp only [Nat.sub_self, List.getElem?_cons_zero] at h3 ⊢
        split
        · rename_i hh; cases hh
        · rename_i hh; rw [hh] at h3; exact h3
        · rename_i T hh
          rw [hh] at h3
          injection hh with hh
          simp only at h3
          rw [h3]
          unfold copyNumber
          rw [hh]
          congr 4
          rw [List.take_append, List.take_append]
          simp
      | succ j =>
        have := h6 j x hx
        simp only [List.length_append, List.length_singleton, List.append_assoc, List.singleton_append] at this
        rw [List.map_cons]
        rw [show done.length + (j + 1) = done.length + 1 + j by omega]
        exact this

theorem ownershipLoop_fail (dict : List (Str × Rat)) (default : List Rat) (ts : List Str) (counter : Dict Str Nat) (i : Nat)
    (out : List Rat) (h : ownershipLoop dict default counter i ts = .ok out) (j : Nat) (t : Str) (hj : ts[j]? = some t)
    (ht : findClosestType t (dict.map (·.1)) = none) : i + j < default.length := by
  induction ts generalizing counter i j out with
  | nil => cases hj
  | cons t0 ts ih =>
    rw [ownershipLoop] at h
    rcases hs : ownershipStep dict default counter i t0 with e | ⟨c', p⟩
    · rw [hs] at h; cases h
    · rw [hs] at h
      replace h : (do let rest ← ownershipLoop dict default c' (i + 1) ts; Except.ok (p :: rest)) = .ok out := h
      rcases hr : ownershipLoop dict default c' (i + 1) ts with e | rest
      · rw [hr] at h; cases h
      · cases j with
        | zero =>
          simp only [List.getElem?_cons_zero, Option.some.injEq] at hj
          subst hj
          unfold ownershipStep at hs
          rw [ht] at hs
          simp only [pyGet] at hs
          rcases hg : default[i]? with _ | v
          · rw [hg] at hs; cases hs
          · exact (List.getElem?_eq_some_iff.1 hg).1
        | succ j =>
          have := ih c' (i + 1) rest hr j hj
          omega

/-! ## Several copies -/

theorem remainingLoop_spec (f : Nat) (r : Rat) (h0 : 0 ≤ r) (hf : r ≤ f) :
    min r 1 + (remainingLoop f r).sum = r ∧ ∀ x ∈ remainingLoop f r, 0 ≤ x ∧ x ≤ 1 := by
  induction f generalizing r with
  | zero =>
    have : r = 0 := le_antisymm (by simpa using hf) h0
    subst this
    simp [remainingLoop]
  | succ f ih =>
    rw [remainingLoop]
    split
    · rename_i h
      have := ih (r - 1) (by linarith) (by push_cast at hf; linarith)
      rw [List.sum_cons, min_eq_right (le_of_lt h)]
      refine ⟨by rw [this.1]; ring, ?_⟩
      intro x hx
      rcases List.mem_cons.1 hx with rfl | hx
      · exact ⟨le_min (by linarith) (by norm_num), min_le_right _ _⟩
      · exact this.2 x hx
    · rename_i h
      rw [min_eq_left (not_lt.1 h)]
      simp

end Demod
