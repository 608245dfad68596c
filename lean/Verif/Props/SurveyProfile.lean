import Verif.Props.SurveyStats
import Verif.Props.Survey

/-! # C96: the activity profiles of the survey -/

namespace Demod

theorem sorted_keys_eq (k1 k2 : List (Nat × Nat)) (h1 : k1.Pairwise (fun a b : Nat × Nat => a.1 < b.1 ∨ a.1 = b.1 ∧ a.2 < b.2)) (h2 : k2.Pairwise (fun a b : Nat × Nat => a.1 < b.1 ∨ a.1 = b.1 ∧ a.2 < b.2))
    (h : ∀ x, x ∈ k1 ↔ x ∈ k2) : k1 = k2 := by
  have nd : ∀ k : List (Nat × Nat), k.Pairwise (fun a b : Nat × Nat => a.1 < b.1 ∨ a.1 = b.1 ∧ a.2 < b.2) → k.Nodup := by
    intro k hk
    refine hk.imp ?_
    rintro a b hab rfl
    omega
  refine List.Perm.eq_of_pairwise (le := fun a b : Nat × Nat => a.1 < b.1 ∨ a.1 = b.1 ∧ a.2 < b.2) ?_ h1 h2 ((List.perm_ext_iff_of_nodup (nd _ h1) (nd _ h2)).2 h)
  intro a b _ _ hab hba
  omega

theorem findIdx_label (labels : List Str) (nd : labels.Nodup) (desired a : Str) (i : Nat) (h : labels[i]? = some a) :
    decide (labels.findIdx? (fun l => decide (l = desired)) = some i) = decide (a = desired) := by
  obtain ⟨hi, hv⟩ := List.getElem?_eq_some_iff.1 h
  rw [decide_eq_decide]
  constructor
  · intro e
    have := (List.findIdx?_eq_some_iff_getElem.1 e).2.1
    rw [hv] at this
    simpa using this
  · intro e
    rw [List.findIdx?_eq_some_iff_getElem]
    refine ⟨hi, by rw [hv]; simpa using e, ?_⟩
    intro j hj
    simp only [decide_eq_false_iff_not, Bool.not_eq_true]
    intro e'
    have : j = i := (List.Nodup.getElem_inj_iff nd (i := j) (j := i) (hi := by omega) (hj := hi)).1 (by rw [hv, e', e])
    omega

theorem countP_range_keys {κ : Type} (keys : List κ) (f : Nat → Bool) (g : κ → Bool) (h : ∀ (r : Nat) k, keys[r]? = some k → f r = g k) : (List.range keys.length).countP f = keys.countP g := by
  induction keys using List.reverseRecOn with
  | nil => rfl
  | append_singleton keys k ih =>
    rw [List.length_append, List.length_singleton, List.range_succ, List.countP_append, List.countP_append, ih]
    · congr 1
      rw [List.countP_singleton, List.countP_singleton, h keys.length k (by simp)]
    · intro r k' hr
      refine h r k' ?_
      rw [List.getElem?_append_left ((List.getElem?_eq_some_iff.1 hr).1), hr]

/-- The value of a profile for `k` active occupants is the share, among the recorded households and days with the smaller of the numbers of members at home and of members awake equal to `k`, of those in
which some member does the activity; it is zero if there are none, for no active occupant, and for six or more. -/
theorem C96_profile_partial (P S : Diaries Int) (hSP : S.nP = P.nP) (hST : S.nT = P.nT) (hP : 0 < P.nP) (hT : P.nT = 144) (dict : Int → Option Str)
    (k1 : ∀ p t, p < P.nP → t < P.nT → ∃ a, dict (P.at' p t) = some a) (k2 : ∀ p t, p < P.nP → t < P.nT → ∃ a, dict (S.at' p t) = some a)
    (occ : Diaries Bool) (hoP : occ.nP = P.nP) (act : Nat → Nat → Nat) (hact : ∀ p t, act p t = 0 ∨ act p t = 1) (household day : List Nat) (hh : household.length = P.nP) (hd : day.length = P.nP)
    (hsize : ∀ h d, (members P.nP household day h d).length ≤ 9) (desired : Str) :
    ∃ f, activityProfile P S dict occ act household day desired = .ok f ∧
      ∀ keys : List (Nat × Nat), keys.Nodup → (∀ d h, (d, h) ∈ keys ↔ members P.nP household day h d ≠ []) → ∀ t k, t < 144 →
        0 ≤ f t k ∧ f t k ≤ 1 ∧
        f t k = if 1 ≤ k ∧ k ≤ 5 ∧ 0 < keys.countP (fun q => decide (min (atHome occ (members P.nP household day q.2 q.1) t) (awake act (members P.nP household day q.2 q.1) t) = k)) then
            (keys.countP (fun q => someoneDoes P S dict desired (members P.nP household day q.2 q.1) t && decide (min (atHome occ (members P.nP household day q.2 q.1) t) (awake act (members P.nP household day q.2 q.1) t) = k)) : Rat) /
              (keys.countP (fun q => decide (min (atHome occ (members P.nP household day q.2 q.1) t) (awake act (members P.nP household day q.2 q.1) t) = k)) : Rat)
          else 0 := by
  obtain ⟨C, labels, e, cP, cT, hlab, -, nd, -⟩ := convertArray_spec intLt strLt intLt_total strLt_total dict P hP (by omega) k1
  obtain ⟨C2, labels2, e2, cP2, cT2, hlab2, -, nd2, -⟩ := convertArray_spec intLt strLt intLt_total strLt_total dict S (by omega) (by omega) (fun p t hp ht => k2 p t (by omega) (by omega))
  obtain ⟨Y, ks, e3, y1, y2, y3, y4, y5⟩ := C93_four_states occ act hact household day (by omega) (by omega) (by rw [hoP]; exact hsize)
  rw [hoP] at y4 y5
  obtain ⟨doing, hdoing⟩ : ∃ doing : Nat → Nat → Bool, doing = fun p t => decide (labels.findIdx? (fun l => decide (l = desired)) = some (C.at' p t)) || decide (labels2.findIdx? (fun l => decide (l = desired)) = some (C2.at' p t)) := ⟨_, rfl⟩
  obtain ⟨N, ks', e4, n1, n2, n3, n4, n5⟩ := C93_group ⟨P.nP, P.nT, fun p t => if doing p t then 1 else 0⟩ household day hh hd
  have hks : ks' = ks := sorted_keys_eq _ _ n3 y3 (by
    rintro ⟨d, h⟩
    rw [n4, y4])
  subst hks
  have hdo : ∀ p t, p < P.nP → t < P.nT → doing p t = (decide (dict (P.at' p t) = some desired) || decide (dict (S.at' p t) = some desired)) := by
    intro p t hp ht
    obtain ⟨a, ha⟩ := k1 p t hp ht
    obtain ⟨b, hb⟩ := k2 p t hp ht
    rw [hdoing]
    beta_reduce
    rw [findIdx_label labels nd desired a _ ((hlab p t hp ht).trans ha), findIdx_label labels2 nd2 desired b _ ((hlab2 p t (by omega) (by omega)).trans hb), ha, hb]
    simp
  have hN : ∀ (r : Nat) q, ks'[r]? = some q → ∀ t, t < P.nT → decide (N.at' r t > 0) = someoneDoes P S dict desired (members P.nP household day q.2 q.1) t := by
    rintro r ⟨d, h⟩ hr t ht
    rw [n5 r d h hr t]
    change decide (((members P.nP household day h d).map fun p => if doing p t then 1 else 0).sum > 0) = _
    unfold someoneDoes
    have hmem : ∀ p ∈ members P.nP household day h d, p < P.nP := fun p hp => ((mem_members _ _ _ _ _ _).1 hp).1
    generalize members P.nP household day h d = M at hmem
    change _ = M.any _
    induction M with
    | nil => rfl
    | cons p M ih =>
      have h1 := ih fun x hx => hmem x (List.mem_cons_of_mem _ hx)
      rw [List.map_cons, List.sum_cons, List.any_cons, ← h1, ← hdo p t (hmem p List.mem_cons_self) ht]
      cases doing p t <;> simp
  have hactive : ∀ (r : Nat) q, ks'[r]? = some q → ∀ t, min (Y.at' r t % 10) (Y.at' r t / 10) = min (atHome occ (members P.nP household day q.2 q.1) t) (awake act (members P.nP household day q.2 q.1) t) := by
    rintro r ⟨d, h⟩ hr t
    obtain ⟨h1, h2⟩ := y5 r d h hr t
    rw [h1, h2, min_comm]
    rfl
  refine ⟨fun t k => if 1 ≤ k ∧ k < 6 then
      (if ((List.range Y.nP).countP fun r => decide (min (Y.at' r t % 10) (Y.at' r t / 10) = k)) = 0 then 0 else
        ((List.range Y.nP).countP fun r => decide (N.at' r t > 0) && decide (min (Y.at' r t % 10) (Y.at' r t / 10) = k) : Rat) / (((List.range Y.nP).countP fun r => decide (min (Y.at' r t % 10) (Y.at' r t / 10) = k) : Nat) : Rat))
    else 0, ?_, ?_⟩
  · unfold activityProfile
    rw [e]
    change (do let sec ← convertArray intLt strLt dict S; _ : Except PyErr _) = _
    rw [e2]
    change (do let hh ← groupHouseholds4 (fourStates occ act) household day; _ : Except PyErr _) = _
    rw [e3]
    change (do let n ← groupHouseholds ⟨P.nP, P.nT, fun p t => if (decide (labels.findIdx? (fun l => decide (l = desired)) = some (C.at' p t)) || decide (labels2.findIdx? (fun l => decide (l = desired)) = some (C2.at' p t))) = true then 1 else 0⟩ household day; _ : Except PyErr _) = _
    rw [hdoing] at e4
    rw [e4]
    change (if P.nT ≠ 144 then _ else _ : Except PyErr _) = _
    rw [if_neg (by omega)]
  · intro keys ndk hk t k ht
    have hperm : ks'.Perm keys := (List.perm_ext_iff_of_nodup (y3.imp (by rintro a b hab rfl; omega)) ndk).2 (by
      rintro ⟨d, h⟩
      rw [y4, hk])
    have c1 : (List.range Y.nP).countP (fun r => decide (min (Y.at' r t % 10) (Y.at' r t / 10) = k)) = keys.countP (fun q => decide (min (atHome occ (members P.nP household day q.2 q.1) t) (awake act (members P.nP household day q.2 q.1) t) = k)) := by
      rw [y1, ← hperm.countP_eq]
      exact countP_range_keys _ _ _ fun r q hr => by rw [hactive r q hr]
    have c2 : (List.range Y.nP).countP (fun r => decide (N.at' r t > 0) && decide (min (Y.at' r t % 10) (Y.at' r t / 10) = k)) =
        keys.countP (fun q => someoneDoes P S dict desired (members P.nP household day q.2 q.1) t && decide (min (atHome occ (members P.nP household day q.2 q.1) t) (awake act (members P.nP household day q.2 q.1) t) = k)) := by
      rw [y1, ← hperm.countP_eq]
      exact countP_range_keys _ _ _ fun r q hr => by rw [hactive r q hr, hN r q hr t (by omega)]
    have hle : keys.countP (fun q => someoneDoes P S dict desired (members P.nP household day q.2 q.1) t && decide (min (atHome occ (members P.nP household day q.2 q.1) t) (awake act (members P.nP household day q.2 q.1) t) = k)) ≤
        keys.countP (fun q => decide (min (atHome occ (members P.nP household day q.2 q.1) t) (awake act (members P.nP household day q.2 q.1) t) = k)) :=
      List.countP_mono_left fun q _ hq => (Bool.and_eq_true _ _ ▸ hq).2
    beta_reduce
    rw [c1, c2]
    generalize keys.countP (fun q => decide (min (atHome occ (members P.nP household day q.2 q.1) t) (awake act (members P.nP household day q.2 q.1) t) = k)) = B at hle
    generalize keys.countP (fun q => someoneDoes P S dict desired (members P.nP household day q.2 q.1) t && decide (min (atHome occ (members P.nP household day q.2 q.1) t) (awake act (members P.nP household day q.2 q.1) t) = k)) = A at hle
    by_cases hkk : 1 ≤ k ∧ k < 6
    · rw [if_pos hkk]
      by_cases hB : B = 0
      · rw [if_pos hB, if_neg (by omega)]
        exact ⟨le_refl _, zero_le_one, rfl⟩
      · rw [if_neg hB, if_pos (by omega)]
        have hB' : (0 : Rat) < B := by positivity
        refine ⟨by positivity, ?_, rfl⟩
        rw [div_le_one hB']
        exact_mod_cast hle
    · rw [if_neg hkk, if_neg (by omega)]
      exact ⟨le_refl _, zero_le_one, rfl⟩

/-- A person is active, whatever known activity the diary has, unless it is sleeping (110) or being ill in bed (132). -/
theorem C96_activity (known : List Int) (P : Diaries Int) (hP : 0 < P.nP) (hT : 0 < P.nT) (hk : ∀ p t, p < P.nP → t < P.nT → P.at' p t ∈ known) :
    ∃ A, statesToActivity known P = .ok A ∧ A.nP = P.nP ∧ A.nT = P.nT ∧
      ∀ p t, p < P.nP → t < P.nT → (A.at' p t = 0 ∨ A.at' p t = 1) ∧ (A.at' p t = 0 ↔ P.at' p t = 110 ∨ P.at' p t = 132) := by
  obtain ⟨C, labels, e, _, _, hl, _⟩ := convertArray_spec intLt intLt intLt_total intLt_total (activeCode known) P hP hT
    (fun p t hp ht => ⟨_, if_pos (hk p t hp ht)⟩)
  refine ⟨⟨P.nP, P.nT, fun p t => labels.getD (C.at' p t) 0⟩, ?_, rfl, rfl, fun p t hp ht => ?_⟩
  · unfold statesToActivity
    rw [e]
    rfl
  · have h := hl p t hp ht
    unfold activeCode at h
    rw [if_pos (hk p t hp ht)] at h
    change (labels.getD (C.at' p t) 0 = 0 ∨ labels.getD (C.at' p t) 0 = 1) ∧ (labels.getD (C.at' p t) 0 = 0 ↔ _)
    rw [List.getD_eq_getElem?_getD, h, Option.getD_some]
    by_cases hs : P.at' p t = 110 ∨ P.at' p t = 132
    · rw [if_pos hs]; exact ⟨Or.inl rfl, fun _ => hs, fun _ => rfl⟩
    · rw [if_neg hs]; exact ⟨Or.inr rfl, fun h => absurd h (by decide), fun h => absurd h hs⟩

/-- Sleeping, cooking, ill. -/
example : ∀ p t, p < 1 → t < 3 → (⟨1, 3, fun _ t => [110, 411, 132].getD t 0⟩ : Diaries Int).at' p t ∈ [110, 132, 411] := by
  intro p t _ ht
  change [110, 411, 132].getD t 0 ∈ ([110, 132, 411] : List Int)
  have : t = 0 ∨ t = 1 ∨ t = 2 := by omega
  rcases this with rfl | rfl | rfl <;> decide

/-- The full statement: the share among the households with `k` members awake at home, of those in which a member at home does the activity. -/
def C96_full : Prop := ∀ (P S : Diaries Int) (dict : Int → Option Str) (occ : Diaries Bool) (act : Nat → Nat → Nat) (household day : List Nat) (desired : Str) (f : Nat → Nat → Rat),
  S.nP = P.nP → S.nT = P.nT → 0 < P.nP → occ.nP = P.nP → (∀ p t, act p t = 0 ∨ act p t = 1) → activityProfile P S dict occ act household day desired = .ok f →
  ∀ keys : List (Nat × Nat), keys.Nodup → (∀ d h, (d, h) ∈ keys ↔ members P.nP household day h d ≠ []) → ∀ t k, t < 144 → 1 ≤ k → k ≤ 5 →
    f t k * (keys.countP (fun q => decide (((members P.nP household day q.2 q.1).filter fun p => occ.at' p t && decide (act p t = 1)).length = k)) : Rat) =
      (keys.countP (fun q => someoneDoes P S dict desired ((members P.nP household day q.2 q.1).filter fun p => occ.at' p t) t &&
        decide (((members P.nP household day q.2 q.1).filter fun p => occ.at' p t && decide (act p t = 1)).length = k)) : Rat)

/-- Two households: in the first one person sleeps at home and the other cooks elsewhere; in the second one is up at home, doing nothing listed, and the other cooks elsewhere. In both the profile sees one active occupant and somebody who cooks. -/
def elsewhere : Diaries Int := ⟨4, 144, fun p _ => [110, 411, 700, 411].getD p 0⟩

def elsewhereDict (s : Int) : Option Str := if s = 110 then some "-".toList else if s = 411 then some "Act_Cooking".toList else if s = 700 then some "-".toList else none

example : (∀ p t, p < elsewhere.nP → t < elsewhere.nT → ∃ a, elsewhereDict (elsewhere.at' p t) = some a) ∧ (∀ h d, (members 4 [1, 1, 2, 2] [1, 1, 1, 1] h d).length ≤ 9) := by
  refine ⟨fun p t hp _ => ?_, fun h d => le_trans (List.length_filter_le _ _) (by decide)⟩
  have hp : p = 0 ∨ p = 1 ∨ p = 2 ∨ p = 3 := by change p < 4 at hp; omega
  rcases hp with rfl | rfl | rfl | rfl <;> exact ⟨_, rfl⟩

theorem C96_elsewhere_counterexample : ∃ f, activityProfile elsewhere elsewhere elsewhereDict ⟨4, 144, fun p _ => decide (p % 2 = 0)⟩ (fun p _ => if p = 0 then 0 else 1) [1, 1, 2, 2] [1, 1, 1, 1] "Act_Cooking".toList = .ok f ∧ f 0 1 = 1 := by
  obtain ⟨r, e, h⟩ := ok_of_map (f := fun (f : Nat → Nat → Rat) => f 0 1) (v := 1)
    (show (activityProfile elsewhere elsewhere elsewhereDict ⟨4, 144, fun p _ => decide (p % 2 = 0)⟩ (fun p _ => if p = 0 then 0 else 1) [1, 1, 2, 2] [1, 1, 1, 1] "Act_Cooking".toList).map _ = _ by decide +kernel)
  exact ⟨r, e, h⟩

theorem C96_full_fails : ¬ C96_full := by
  intro h
  obtain ⟨f, e, hf⟩ := C96_elsewhere_counterexample
  have := h _ _ _ _ _ _ _ _ f rfl rfl (by decide) rfl (by intro p t; by_cases hp : p = 0 <;> simp [hp]) e [(1, 1), (1, 2)] (by decide) (by
    intro d h
    constructor
    · intro hm
      have : (d, h) = (1, 1) ∨ (d, h) = (1, 2) := by simpa using hm
      rcases this with e | e <;> (obtain ⟨rfl, rfl⟩ := Prod.mk.inj e; decide)
    · intro hne
      obtain ⟨p, hp⟩ := List.exists_mem_of_ne_nil _ hne
      obtain ⟨hlt, h1, h2⟩ := (mem_members _ _ _ _ _ _).1 hp
      have hlt : p = 0 ∨ p = 1 ∨ p = 2 ∨ p = 3 := by change p < 4 at hlt; omega
      rcases hlt with rfl | rfl | rfl | rfl <;> simp at h1 h2 <;> subst h1 h2 <;> decide) 0 1 (by decide) (by decide) (by decide)
  rw [hf] at this
  exact absurd this (by decide +kernel)

end Demod
