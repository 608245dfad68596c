import Verif.Lemmas.SurveyStats
import Verif.Props.Parse

/-! # C95: the activities of the survey and their matrices -/

namespace Demod

theorem renameDash_get (labels : List Str) (i : Nat) : (renameDash labels)[i]? = (labels[i]?).map shownActivity := by
  unfold renameDash
  rw [List.getElem?_map]
  rfl

/-- The states stand for the activities: that of the dictionary at home, 'away' elsewhere; secondary activities have no influence. Every activity of the dictionary has a label. -/
theorem C95_labels_partial (addAway useSec : Bool) (P S : Diaries Int) (occ : Diaries Bool) (dict : List (Int × Str)) (name : Int → Str) (hP : 0 < P.nP) (hT : 0 < P.nT) (hn : Names P dict name) :
    ∃ C labels, activityStates addAway useSec P S occ dict = .ok (C, labels) ∧ C.nP = P.nP ∧ C.nT = P.nT ∧
      (∀ p t, p < P.nP → t < P.nT → labels[C.at' p t]? = some (activityAt addAway P occ name p t)) ∧
      (useSec = true → ∀ p t, p < P.nP → t < P.nT → C.at' p t = labels.idxOf (activityAt addAway P occ name p t)) ∧
      (∀ k a, (k, a) ∈ dict → (addAway = true → k ≠ 0) → a ∈ labels) ∧ (addAway = true → "away".toList ∈ labels) := by
  obtain ⟨raw, hraw⟩ : ∃ raw : Diaries Int, raw = if addAway then ⟨P.nP, P.nT, fun p t => if occ.at' p t then P.at' p t else 0⟩ else P := ⟨_, rfl⟩
  obtain ⟨dict', hdict⟩ : ∃ d : List (Int × Str), d = if addAway then intPut dict 0 "away".toList else dict := ⟨_, rfl⟩
  obtain ⟨act, hact⟩ : ∃ act : Nat → Nat → Str, act = fun p t => if addAway = true ∧ (occ.at' p t = false ∨ P.at' p t = 0) then "away".toList else name (P.at' p t) := ⟨_, rfl⟩
  have hshow : ∀ p t, shownActivity (act p t) = activityAt addAway P occ name p t := by
    intro p t
    rw [hact]
    unfold activityAt
    beta_reduce
    split
    · decide
    · rfl
  have hrP : raw.nP = P.nP := by rw [hraw]; split <;> rfl
  have hrT : raw.nT = P.nT := by rw [hraw]; split <;> rfl
  have hget : ∀ p t, p < P.nP → t < P.nT → intGet dict' (raw.at' p t) = some (act p t) := by
    intro p t hp ht
    have h0 := intGet_of_mem dict hn.1 _ _ (hn.2 p t hp ht)
    rw [hraw, hdict, hact]
    cases addAway with
    | false => simpa using h0
    | true =>
      simp only [if_true, intGet_put]
      by_cases ho : occ.at' p t = true
      · by_cases hz : P.at' p t = 0
        · simp [ho, hz]
        · simp [ho, hz, h0]
      · simp [ho]
  have hgetP : ∀ p t, p < P.nP → t < P.nT → ∃ y, intGet dict' (P.at' p t) = some y := by
    intro p t hp ht
    have h0 := intGet_of_mem dict hn.1 _ _ (hn.2 p t hp ht)
    rw [hdict]
    cases addAway with
    | false => exact ⟨_, h0⟩
    | true =>
      simp only [if_true, intGet_put]
      by_cases hz : P.at' p t = 0
      · exact ⟨_, by rw [if_pos hz]⟩
      · exact ⟨_, by rw [if_neg hz, h0]⟩
  obtain ⟨C, labels, e, cP, cT, hlab, -, -, -⟩ := convertArray_spec intLt strLt intLt_total strLt_total (intGet dict') raw (by omega) (by omega) (by
    intro p t hp ht
    exact ⟨_, hget p t (by omega) (by omega)⟩)
  obtain ⟨C2, labels2, e2, cP2, cT2, hlab2, -, -, -⟩ := convertArray_spec intLt strLt intLt_total strLt_total (intGet dict') P hP hT hgetP
  have hvals : ∀ (L : List Str), (∀ k a, (k, a) ∈ dict → (addAway = true → k ≠ 0) → a ∈ L ++ (dict'.map (·.2)).filter fun a => decide (a ∉ L)) ∧ (addAway = true → "away".toList ∈ L ++ (dict'.map (·.2)).filter fun a => decide (a ∉ L)) := by
    intro L
    have key : ∀ a, a ∈ dict'.map (·.2) → a ∈ L ++ (dict'.map (·.2)).filter fun a => decide (a ∉ L) := by
      intro a ha
      rw [List.mem_append, List.mem_filter]
      by_cases h : a ∈ L
      · exact Or.inl h
      · exact Or.inr ⟨ha, by simpa using h⟩
    constructor
    · intro k a hk h0
      refine key a ?_
      have h1 := intGet_of_mem dict hn.1 k a hk
      have h2 : intGet dict' k = some a := by
        rw [hdict]
        cases addAway with
        | false => exact h1
        | true => rw [if_pos rfl, intGet_put, if_neg (h0 rfl), h1]
      unfold intGet at h2
      rw [Option.map_eq_some_iff] at h2
      obtain ⟨q, hq, rfl⟩ := h2
      exact List.mem_map_of_mem (List.mem_of_find?_eq_some hq)
    · intro ha
      refine key _ ?_
      have h2 : intGet dict' 0 = some "away".toList := by
        rw [hdict, if_pos ha, intGet_put, if_pos rfl]
      unfold intGet at h2
      rw [Option.map_eq_some_iff] at h2
      obtain ⟨q, hq, h⟩ := h2
      rw [← h]
      exact List.mem_map_of_mem (List.mem_of_find?_eq_some hq)
  have hl1 : ∀ p t, p < P.nP → t < P.nT → (renameDash labels)[C.at' p t]? = some (activityAt addAway P occ name p t) := by
    intro p t hp ht
    rw [renameDash_get, hlab p t (by omega) (by omega), hget p t hp ht, Option.map_some, hshow]
  have happ : ∀ (L R : List Str) (i : Nat) (a : Str), L[i]? = some a → (L ++ R)[i]? = some a := by
    intro L R i a h
    have := (List.getElem?_eq_some_iff.1 h).1
    rw [List.getElem?_append_left this, h]
  unfold activityStates
  rw [← hraw, ← hdict]
  dsimp only
  rw [e]
  cases useSec with
  | false =>
    refine ⟨C, _, rfl, by omega, by omega, fun p t hp ht => happ _ _ _ _ (hl1 p t hp ht), (fun h => absurd h (by decide)), hvals _⟩
  | true =>
    obtain ⟨A, hA⟩ : ∃ A : Diaries Str, A = ⟨P.nP, P.nT, fun p t =>
        let l := (renameDash labels).getD (C.at' p t) []
        let l' := (renameDash labels2).getD (C2.at' p t) []
        if l = "other".toList ∧ l' ≠ "other".toList then l' else l⟩ := ⟨_, rfl⟩
    have hA' : ∀ p t, p < P.nP → t < P.nT → A.at' p t = activityAt addAway P occ name p t := by
      intro p t hp ht
      rw [hA]
      simp only [List.getD_eq_getElem?_getD, hl1 p t hp ht, Option.getD_some]
      rw [if_neg]
      rintro ⟨h1, h2⟩
      refine h2 ?_
      have h0 := intGet_of_mem dict hn.1 _ _ (hn.2 p t hp ht)
      by_cases haw : addAway = true ∧ (occ.at' p t = false ∨ P.at' p t = 0)
      · unfold activityAt at h1
        rw [if_pos haw] at h1
        exact absurd h1 (by decide)
      · have hsec : intGet dict' (P.at' p t) = some (name (P.at' p t)) := by
          rw [hdict]
          cases addAway with
          | false => exact h0
          | true =>
            rw [if_pos rfl, intGet_put, if_neg (fun hz => haw ⟨rfl, Or.inr hz⟩), h0]
        rw [renameDash_get, hlab2 p t hp ht, hsec, Option.map_some, Option.getD_some, ← h1]
        unfold activityAt
        rw [if_neg haw]
    obtain ⟨C3, labels3, e3, cP3, cT3, hlab3, -, nd3, -⟩ := convertArray_spec strLt strLt strLt_total strLt_total some A (by rw [hA]; exact hP) (by rw [hA]; exact hT) (fun p t _ _ => ⟨_, rfl⟩)
    have hA1 : A.nP = P.nP := by rw [hA]
    have hA2 : A.nT = P.nT := by rw [hA]
    have hl3 : ∀ p t, p < P.nP → t < P.nT → labels3[C3.at' p t]? = some (activityAt addAway P occ name p t) := by
      intro p t hp ht
      rw [hlab3 p t (by omega) (by omega), hA' p t hp ht]
    refine ⟨C3, labels3 ++ (dict'.map (·.2)).filter fun a => decide (a ∉ labels3), ?_, by omega, by omega, fun p t hp ht => happ _ _ _ _ (hl3 p t hp ht), ?_, hvals _⟩
    · simp only [bind, Except.bind, if_true, e2]
      rw [← hA, e3]
    · intro _ p t hp ht
      obtain ⟨hi, hv⟩ := List.getElem?_eq_some_iff.1 (hl3 p t hp ht)
      rw [List.idxOf_append_of_mem (by rw [← hv]; exact List.getElem_mem _), ← hv, nd3.idxOf_getElem]


theorem map_mul_right_sum (l : List Nat) (f : Nat → Rat) (c : Rat) : (l.map fun i => f i * c).sum = (l.map f).sum * c := by
  induction l with
  | nil => simp
  | cons x l ih => rw [List.map_cons, List.map_cons, List.sum_cons, List.sum_cons, ih, add_mul]

theorem ok_of_map {α β : Type} {x : Except PyErr α} {f : α → β} {v : β} (h : x.map f = .ok v) : ∃ r, x = .ok r ∧ f r = v := by
  cases x with
  | error e => cases h
  | ok r => exact ⟨r, rfl, Except.ok.inj h⟩

theorem countP_state {n : Nat} (labels : List Str) (C : Nat → Nat) (L : Nat → Str) (h : ∀ p, p < n → C p = labels.idxOf (L p)) (a : Str) (ha : a ∈ labels) :
    ∀ p, p < n → (C p = labels.idxOf a ↔ L p = a) := by
  intro p hp
  rw [h p hp]
  constructor
  · intro e
    exact ((List.idxOf_inj ha).1 e.symm).symm
  · rintro rfl; rfl

/-- The matrices in terms of the activities: row `a`, column `b` of matrix `t` is the share of the persons doing `b` at `t` among those who did `a` just before, and without such persons the activity is kept;
with 'last' the first matrix is that of the last time. The initial distribution is that of the first activities. Both are probability distributions over the labels. -/
theorem C95_tpm (addAway : Bool) (algo : FirstTpm) (ha : algo ≠ .other) (P S : Diaries Int) (occ : Diaries Bool) (dict : List (Int × Str)) (name : Int → Str) (hP : 0 < P.nP) (hT : 0 < P.nT) (hn : Names P dict name) :
    ∃ tpm labels initial, tpmsActivity addAway true algo P S occ dict = .ok (tpm, labels, initial) ∧
      IsPdf labels.length initial ∧
      (∀ a, a ∈ labels → initial (labels.idxOf a) = ((List.range P.nP).countP fun p => decide (activityAt addAway P occ name p 0 = a) : Rat) / (P.nP : Rat)) ∧
      ∀ t, t < P.nT → (∀ i, i < labels.length → IsPdf labels.length (tpm t i)) ∧
        ∀ now before, now = (if t = 0 ∧ algo = .last then P.nT - 1 else t) → before = (if now = 0 then P.nT - 1 else now - 1) →
        ∀ a b, a ∈ labels → b ∈ labels →
          tpm t (labels.idxOf a) (labels.idxOf b) =
            if (List.range P.nP).countP (fun p => decide (activityAt addAway P occ name p before = a)) = 0 then (if b = a then 1 else 0)
            else ((List.range P.nP).countP fun p => decide (activityAt addAway P occ name p before = a ∧ activityAt addAway P occ name p now = b) : Rat) /
              ((List.range P.nP).countP fun p => decide (activityAt addAway P occ name p before = a) : Rat) := by
  obtain ⟨C, labels, e, cP, cT, hlab, hidx, -, -⟩ := C95_labels_partial addAway true P S occ dict name hP hT hn
  have hidx := hidx rfl
  have hlt : ∀ p t, p < P.nP → t < P.nT → C.at' p t < labels.length := fun p t hp ht => (List.getElem?_eq_some_iff.1 (hlab p t hp ht)).1
  obtain ⟨n, tpm, e2, hnl⟩ := C21_total C algo (some labels.length) (by omega) (by omega) ha (by
    intro n hn p t hp ht
    rw [Option.some.injEq] at hn
    rw [← hn]
    exact hlt p t (by omega) (by omega))
  have hnl := hnl _ rfl
  subst hnl
  have hcnt : ∀ t, t < P.nT → ∀ a, a ∈ labels → ∀ p, p < P.nP → (C.at' p t = labels.idxOf a ↔ activityAt addAway P occ name p t = a) := by
    intro t ht a ha
    exact countP_state labels (fun p => C.at' p t) _ (fun p hp => hidx p t hp ht) a ha
  have hcol : ∀ i, (C.col 0).count i = (List.range P.nP).countP fun p => decide (C.at' p 0 = i) := by
    intro i
    unfold Diaries.col
    rw [List.count, List.countP_map, cP]
    rfl
  refine ⟨tpm, labels, initialPdf C, ?_, ?_, ?_, ?_⟩
  · unfold tpmsActivity
    rw [e]
    change (do let x ← statesToTpms C algo (some labels.length); _ : Except PyErr _) = _
    rw [e2]
    rfl
  · constructor
    · intro j
      unfold initialPdf
      positivity
    · have hsum : ∀ (l : List Nat), (∀ x ∈ l, x < labels.length) → ((List.range labels.length).map fun i => (l.count i : Rat)).sum = (l.length : Rat) := by
        intro l hl
        induction l with
        | nil => simp
        | cons x l ih =>
          have h1 := ih fun y hy => hl y (List.mem_cons_of_mem _ hy)
          simp only [List.count_cons, List.length_cons]
          push_cast
          rw [show ((List.range labels.length).map fun i => ((l.count i : Rat) + (if (x == i) = true then 1 else 0))) = (List.range labels.length).map fun i => ((fun i => (l.count i : Rat)) i + (fun i => if (x == i) = true then 1 else 0) i) from rfl,
            List.sum_map_add, h1]
          congr 1
          have hx := hl x (List.mem_cons_self)
          rw [show (List.range labels.length).map (fun i => if (x == i) = true then (1 : Rat) else 0) = (List.range labels.length).map (fun i => if i = x then (1 : Rat) else 0) from
            List.map_congr_left fun i _ => by
              by_cases h : x = i
              · simp [h]
              · simp [h, Ne.symm h]]
          rw [List.sum_map_ite_eq]
          simp [List.count_eq_one_of_mem List.nodup_range (List.mem_range.2 hx)]
      have h2 := hsum (C.col 0) (by
        intro x hx
        unfold Diaries.col at hx
        rw [List.mem_map] at hx
        obtain ⟨p, hp, rfl⟩ := hx
        rw [List.mem_range] at hp
        exact hlt p 0 (by omega) hT)
      unfold initialPdf
      rw [show ((List.range labels.length).map fun i => ((C.col 0).count i : Rat) / (C.nP : Rat)) = (List.range labels.length).map fun i => ((C.col 0).count i : Rat) * (C.nP : Rat)⁻¹ from
        List.map_congr_left fun _ _ => div_eq_mul_inv _ _, map_mul_right_sum, h2]
      have : (C.col 0).length = C.nP := by unfold Diaries.col; simp
      rw [this]
      exact mul_inv_cancel₀ (by have : 0 < C.nP := by omega
                                positivity)
  · intro a ha'
    unfold initialPdf
    rw [hcol, cP]
    congr 2
    refine List.countP_congr fun p hp => ?_
    simp only [decide_eq_true_eq]
    exact hcnt 0 hT a ha' p (List.mem_range.1 hp)
  · intro t ht
    refine ⟨fun i hi => (C21_tpm C algo _ _ tpm e2 t i (by omega) hi).1, ?_⟩
    intro now before hnow hbefore a b ha' hb
    have hs : sourceTime C algo t = now := by
      unfold sourceTime
      rw [hnow, cT]
    have hnowlt : now < P.nT := by rw [hnow]; split <;> omega
    have hblt : before < P.nT := by rw [hbefore]; split <;> omega
    have hb' : ∀ p, C.before false p now = C.at' p before := by
      intro p
      unfold Diaries.before
      rw [hbefore, cT]
      by_cases h : now = 0 <;> simp [h]
    have hia : labels.idxOf a < labels.length := List.idxOf_lt_length_of_mem ha'
    have hib : labels.idxOf b < labels.length := List.idxOf_lt_length_of_mem hb
    obtain ⟨-, h1, h2⟩ := C21_tpm C algo _ _ tpm e2 t (labels.idxOf a) (by omega) hia
    have h1 := h1 _ hib
    have h2 := h2 _ hib
    rw [hs] at h1 h2
    have e3 : howMany C (fun p => decide (C.before false p now = labels.idxOf a)) = (List.range P.nP).countP (fun p => decide (activityAt addAway P occ name p before = a)) := by
      unfold howMany
      rw [cP]
      refine List.countP_congr fun p hp => ?_
      simp only [decide_eq_true_eq, hb']
      exact hcnt before hblt a ha' p (List.mem_range.1 hp)
    have e4 : howMany C (fun p => decide (C.before false p now = labels.idxOf a ∧ C.at' p now = labels.idxOf b)) = (List.range P.nP).countP (fun p => decide (activityAt addAway P occ name p before = a ∧ activityAt addAway P occ name p now = b)) := by
      unfold howMany
      rw [cP]
      refine List.countP_congr fun p hp => ?_
      simp only [decide_eq_true_eq, hb']
      rw [hcnt before hblt a ha' p (List.mem_range.1 hp), hcnt now hnowlt b hb p (List.mem_range.1 hp)]
    rw [e3, e4] at h1
    rw [e3] at h2
    by_cases hz : (List.range P.nP).countP (fun p => decide (activityAt addAway P occ name p before = a)) = 0
    · rw [if_pos hz, h2 hz]
      have : labels.idxOf b = labels.idxOf a ↔ b = a := List.idxOf_inj hb
      by_cases hab : b = a
      · rw [if_pos hab, if_pos (this.2 hab)]
      · rw [if_neg hab, if_neg (fun h => hab (this.1 h))]
    · rw [if_neg hz, h1 (by omega)]

/-- The loader shows the activities. -/
theorem C95_loader (useSec : Bool) (P S : Diaries Int) (occ : Diaries Bool) (dict : List (Int × Str)) (name : Int → Str) (hP : 0 < P.nP) (hT : 0 < P.nT) (hn : Names P dict name) :
    ∃ D, loaderStates true useSec P S occ (some dict) = .ok D ∧ D.nP = P.nP ∧ D.nT = P.nT ∧ ∀ p t, p < P.nP → t < P.nT → D.at' p t = activityAt true P occ name p t := by
  obtain ⟨C, labels, e, cP, cT, hlab, -, -, -⟩ := C95_labels_partial true useSec P S occ dict name hP hT hn
  refine ⟨⟨P.nP, P.nT, fun p t => labels.getD (C.at' p t) []⟩, ?_, rfl, rfl, fun p t hp ht => ?_⟩
  · unfold loaderStates
    simp only [if_true]
    rw [e]
    rfl
  · change labels.getD _ _ = _
    rw [List.getD_eq_getElem?_getD, hlab p t hp ht]
    rfl

/-- A loader without a dictionary, or without the state 'away', has no states. -/
theorem C95_loader_fails (useSec : Bool) (P S : Diaries Int) (occ : Diaries Bool) (dict : List (Int × Str)) (addAway : Bool) :
    loaderStates addAway useSec P S occ none = .error .valueError ∧ loaderStates false useSec P S occ (some dict) = .error .unboundLocalError := ⟨rfl, rfl⟩

/-- A dictionary with two codes for cooking and one for what is not listed. -/
def demoActivities : List (Int × Str) := [(0, "-".toList), (110, "sleeping".toList), (411, "cooking".toList), (412, "cooking".toList), (700, "-".toList)]

/-- Two persons; the second is away at last and does unlisted things in between, while cooking. -/
def demoPrimary : Diaries Int := ⟨2, 3, fun p t => if p = 0 then 110 else [110, 700, 700].getD t 0⟩
def demoSecondary : Diaries Int := ⟨2, 3, fun p t => if p = 1 ∧ t = 1 then 411 else 0⟩
def demoAtHome : Diaries Bool := ⟨2, 3, fun p t => !(decide (p = 1) && decide (t = 2))⟩

example : Names demoPrimary demoActivities (fun k => (intGet demoActivities k).getD []) ∧ demoPrimary.nP = 2 := by
  refine ⟨⟨by decide, ?_⟩, rfl⟩
  have : ∀ p ∈ List.range 2, ∀ t ∈ List.range 3, (demoPrimary.at' p t, (intGet demoActivities (demoPrimary.at' p t)).getD []) ∈ demoActivities := by decide +kernel
  exact fun p t hp ht => this p (List.mem_range.2 hp) t (List.mem_range.2 ht)

/-- The full statement: the labels are all different, and the secondary activity is shown when the main one is not listed. -/
def C95_full : Prop := ∀ (P S : Diaries Int) (occ : Diaries Bool) (dict : List (Int × Str)) (C : Diaries Nat) (labels : List Str), 0 < P.nP → 0 < P.nT → S.nP = P.nP → S.nT = P.nT →
  activityStates true true P S occ dict = .ok (C, labels) → labels.Nodup ∧
    ∀ p t, p < P.nP → t < P.nT → occ.at' p t = true → (P.at' p t, "-".toList) ∈ dict → ∀ a, (S.at' p t, a) ∈ dict → labels[C.at' p t]? = some (shownActivity a)

/-- The label 'cooking' is there twice and '-' is a label again; the person who cooks is shown as doing something else. -/
theorem C95_counterexample : ∃ C labels, activityStates true true demoPrimary demoSecondary demoAtHome demoActivities = .ok (C, labels) ∧
    labels = ["away".toList, "other".toList, "sleeping".toList, "cooking".toList, "cooking".toList, "-".toList] ∧ labels[C.at' 1 1]? = some "other".toList := by
  obtain ⟨r, e, h⟩ := ok_of_map (f := fun (r : Diaries Nat × List Str) => (r.2, r.2[r.1.at' 1 1]?))
    (v := (["away".toList, "other".toList, "sleeping".toList, "cooking".toList, "cooking".toList, "-".toList], some "other".toList))
    (show (activityStates true true demoPrimary demoSecondary demoAtHome demoActivities).map _ = _ by decide +kernel)
  exact ⟨r.1, r.2, e, (Prod.mk.inj h).1, (Prod.mk.inj h).2⟩

theorem C95_full_fails : ¬ C95_full := by
  intro h
  obtain ⟨C, labels, e, hl, -⟩ := C95_counterexample
  have := (h _ _ _ _ _ _ (by decide) (by decide) rfl rfl e).1
  rw [hl] at this
  exact absurd this (by decide)

/-- Without secondary activities two states can have the label 'other'. -/
theorem C95_other_counterexample : ∃ C labels, activityStates true false ⟨2, 1, fun p _ => p + 1⟩ ⟨2, 1, fun _ _ => 0⟩ ⟨2, 1, fun _ _ => true⟩ [(1, "-".toList), (2, "other".toList)] = .ok (C, labels) ∧
    labels[C.at' 0 0]? = some "other".toList ∧ labels[C.at' 1 0]? = some "other".toList ∧ C.at' 0 0 ≠ C.at' 1 0 := by
  obtain ⟨r, e, h⟩ := ok_of_map (f := fun (r : Diaries Nat × List Str) => (r.2[r.1.at' 0 0]?, r.2[r.1.at' 1 0]?, decide (r.1.at' 0 0 ≠ r.1.at' 1 0))) (v := (some "other".toList, some "other".toList, true))
    (show (activityStates true false ⟨2, 1, fun p _ => p + 1⟩ ⟨2, 1, fun _ _ => 0⟩ ⟨2, 1, fun _ _ => true⟩ [(1, "-".toList), (2, "other".toList)]).map _ = _ by decide +kernel)
  simp only [Prod.mk.injEq, decide_eq_true_eq] at h
  exact ⟨r.1, r.2, e, h⟩

end Demod
