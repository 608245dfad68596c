import Verif.Props.SurveyStats
import Verif.Props.Survey
import Verif.Lemmas.Population
import Verif.Lemmas.Equip
import Verif.Props.Graph

/-! # C97: the statistics of the activities of the survey -/

namespace Demod

theorem bound_le (inds : List Nat) (m : Nat) (h : ∀ x ∈ inds, x < m) : inds.foldr (fun i a => max (i + 1) a) 0 ≤ m := by
  induction inds with
  | nil => simp
  | cons a l ih =>
    have h1 := h a List.mem_cons_self
    have h2 := ih fun x hx => h x (List.mem_cons_of_mem _ hx)
    simp only [List.foldr_cons]
    omega

theorem bincount_getD (inds : List Nat) (i : Nat) : (bincount inds 0).getD i 0 = inds.count i := by
  rw [List.getD_eq_getElem?_getD]
  by_cases h : i < (bincount inds 0).length
  · rw [List.getElem?_eq_getElem h, bincount_get]
    rfl
  · rw [List.getElem?_eq_none (by omega)]
    have : i ∉ inds := by
      intro hi
      have := lt_bound inds i hi
      apply h
      unfold bincount
      rw [List.length_map, List.length_range]
      omega
    rw [List.count_eq_zero_of_not_mem this]
    rfl

theorem getD_map_div (l : List Nat) (n : Nat) (i : Nat) : (l.map fun (k : Nat) => (k : Rat) / (n : Rat)).getD i 0 = (l.getD i 0 : Rat) / (n : Rat) := by
  rw [List.getD_eq_getElem?_getD, List.getD_eq_getElem?_getD, List.getElem?_map]
  cases l[i]? <;> simp

theorem sum_map_div_nat (l : List Nat) (n : Nat) : (l.map fun (k : Nat) => (k : Rat) / (n : Rat)).sum = (l.sum : Rat) / (n : Rat) := by
  induction l with
  | nil => simp
  | cons x l ih => rw [List.map_cons, List.sum_cons, List.sum_cons, ih]; push_cast; rw [add_div]

/-- For every activity that occurs, the parsed durations are the shares of the lengths of its runs on the circular day, up to the longest one, and add up to one. -/
theorem C97_durations_partial (D : Diaries Str) (h : SomeChange D) :
    ∃ out, activityDurations D = .ok out ∧ (out.map (·.1)).Nodup ∧ (∀ a, a ∈ out.map (·.1) ↔ Occurs D a) ∧
      ∀ a pdf, (a, pdf) ∈ out → pdf.sum = 1 ∧ (∀ d, pdf.getD d 0 = shareAt D a d) ∧ (∀ d ∈ runsOf D a, d < pdf.length) ∧ ∃ d ∈ runsOf D a, d + 1 = pdf.length := by
  obtain ⟨d, e, hk, hg, -⟩ := durationsByStates_spec D h
  have hnd : (d.map (·.1)).Nodup := by
    unfold durationsByStates at e
    cases hx : getStatesDurations D with
    | error x => rw [hx] at e; cases e
    | ok ds =>
      rw [hx] at e
      have e := Except.ok.inj e
      rw [← e, List.map_map]
      change ((ds.map (·.2)).dedup.map fun s => s).Nodup
      rw [List.map_id']
      exact List.nodup_dedup _
  have hq : ∀ q ∈ d, q.2.Perm ((runsOf D q.1).map fun (n : Nat) => (n : Int)) ∧ Occurs D q.1 := by
    intro q hq
    have ho := (hk q.1).1 (List.mem_map_of_mem hq)
    obtain ⟨l, hl, hp⟩ := hg q.1 ho
    refine ⟨?_, ho⟩
    unfold stateGet at hl
    have : d.find? (fun x => decide (x.1 = q.1)) = some q := by
      clear e hk hg hl
      induction d with
      | nil => cases hq
      | cons x d ih =>
        rw [List.map_cons, List.nodup_cons] at hnd
        rcases List.mem_cons.1 hq with rfl | hq
        · exact List.find?_cons_of_pos (by simp)
        · rw [List.find?_cons_of_neg]
          · exact ih hnd.2 hq
          · simp only [decide_eq_true_eq]
            intro hc
            exact hnd.1 (hc ▸ List.mem_map_of_mem hq)
    rw [this] at hl
    rw [Except.ok.inj hl]
    exact hp
  obtain ⟨g, hgdef⟩ : ∃ g : Str × List Int → Str × List Rat, g = fun q => (q.1, (bincount (q.2.map Int.toNat) 0).map fun (n : Nat) => (n : Rat) / (q.2.length : Rat)) := ⟨_, rfl⟩
  have hout : activityDurations D = .ok (d.map g) := by
    unfold activityDurations
    rw [e]
    change d.mapM (fun q => do let pdf ← durationPdf q.2; Except.ok (q.1, pdf)) = _
    have hall : ∀ (l : List (Str × List Int)), (∀ q ∈ l, q ∈ d) → l.mapM (fun q => do let pdf ← durationPdf q.2; (Except.ok (q.1, pdf) : Except PyErr (Str × List Rat))) = .ok (l.map g) := by
      intro l
      induction l with
      | nil => intro _; rfl
      | cons q l ih =>
        intro hl
        have h1 : durationPdf q.2 = .ok (g q).2 := by
          unfold durationPdf
          rw [if_neg, hgdef]
          rw [Bool.not_eq_true, List.any_eq_false]
          intro x hx
          have := ((hq q (hl q List.mem_cons_self)).1.mem_iff).1 hx
          obtain ⟨n, -, rfl⟩ := List.mem_map.1 this
          simp
        rw [List.mapM_cons, ih fun x hx => hl x (List.mem_cons_of_mem _ hx), h1]
        rw [hgdef]
        rfl
    exact hall d fun q hq => hq
  refine ⟨d.map g, hout, ?_, ?_, ?_⟩
  · rw [List.map_map, hgdef]; exact hnd
  · intro a
    rw [List.map_map, hgdef]
    exact hk a
  · intro a pdf hm
    obtain ⟨q, hqd, hqe⟩ := List.mem_map.1 hm
    obtain ⟨hperm, ho⟩ := hq q hqd
    rw [hgdef] at hqe
    obtain ⟨rfl, rfl⟩ := Prod.mk.inj hqe
    have hp2 : (q.2.map Int.toNat).Perm (runsOf D q.1) := by
      have := hperm.map Int.toNat
      rw [List.map_map] at this
      refine this.trans (List.Perm.of_eq ?_)
      conv => rhs; rw [← List.map_id (runsOf D q.1)]
      rfl
    have hlen : q.2.length = (runsOf D q.1).length := by rw [← List.length_map (f := Int.toNat), hp2.length_eq]
    have hne := (runsOf_ne_nil D (by obtain ⟨_, t, _, ht, _⟩ := h; omega) q.1).2 ho
    have hpos : (0 : Rat) < ((runsOf D q.1).length : Rat) := by exact_mod_cast List.length_pos_iff.2 hne
    refine ⟨?_, ?_, ?_, ?_⟩
    · rw [sum_map_div_nat, bincount_sum, List.length_map, hlen]
      exact div_self hpos.ne'
    · intro x
      rw [getD_map_div, bincount_getD, hp2.count_eq, hlen]
      rfl
    · intro x hx
      rw [List.length_map]
      unfold bincount
      rw [List.length_map, List.length_range]
      have := lt_bound _ _ (hp2.mem_iff.2 hx)
      omega
    · rw [List.length_map]
      unfold bincount
      rw [List.length_map, List.length_range, Nat.zero_max]
      by_contra hc
      push Not at hc
      have hb : ∀ x ∈ q.2.map Int.toNat, x < (q.2.map Int.toNat).foldr (fun i a => max (i + 1) a) 0 - 1 := by
        intro x hx
        have h1 := lt_bound _ _ hx
        have h2 := hc x (hp2.mem_iff.1 hx)
        omega
      have h3 := bound_le _ _ hb
      obtain ⟨x, hx⟩ := List.exists_mem_of_ne_nil _ hne
      have := lt_bound _ _ (hp2.mem_iff.2 hx)
      omega

/-- If nobody ever changes activity there are no durations. -/
theorem C97_durations_counterexample : activityDurations ⟨2, 3, fun _ _ => "sleeping".toList⟩ = .error .indexError := by decide +kernel

theorem sum_indicator (keys : List Str) (nd : keys.Nodup) (x : Str) (hx : x ∈ keys) : (keys.map fun a => if a = x then 1 else 0).sum = 1 := by
  induction keys with
  | nil => cases hx
  | cons y keys ih =>
    rw [List.nodup_cons] at nd
    rw [List.map_cons, List.sum_cons]
    by_cases h : y = x
    · rw [if_pos h]
      have : (keys.map fun a => if a = x then 1 else 0).sum = 0 := by
        rw [List.sum_eq_zero]
        intro n hn
        obtain ⟨a, ha, rfl⟩ := List.mem_map.1 hn
        rw [if_neg]
        rintro rfl
        exact nd.1 (h ▸ ha)
      rw [this]
    · rw [if_neg h, ih nd.2 ((List.mem_cons.1 hx).resolve_left (Ne.symm h))]

theorem two_shares (f : Nat → Str) (a b : Str) (hne : a ≠ b) (n : Nat) : (List.range n).countP (fun p => decide (f p = a)) + (List.range n).countP (fun p => decide (f p = b)) +
    (List.range n).countP (fun p => decide (f p ≠ a ∧ f p ≠ b)) = n := by
  induction n with
  | zero => rfl
  | succ n ih =>
    rw [List.range_succ, List.countP_append, List.countP_append, List.countP_append, List.countP_singleton, List.countP_singleton, List.countP_singleton]
    by_cases ha : f n = a
    · rw [if_pos (by simpa using ha), if_neg (by simp only [decide_eq_true_eq]; rw [ha]; exact hne), if_neg (by simp only [decide_eq_true_eq]; exact fun h => h.1 ha)]
      omega
    · by_cases hb : f n = b
      · rw [if_neg (by simpa using ha), if_pos (by simpa using hb), if_neg (by simp only [decide_eq_true_eq]; exact fun h => h.2 hb)]
        omega
      · rw [if_neg (by simpa using ha), if_neg (by simpa using hb), if_pos (by simp only [decide_eq_true_eq]; exact ⟨ha, hb⟩)]
        omega

/-- The probability of an activity is its share of the diaries at each time; that of active occupancy is the share of the diaries that are neither away nor asleep; the probabilities of the activities add up to one. -/
theorem C97_probabilities (D : Diaries Str) (hP : 0 < D.nP) (h1 : Occurs D "away".toList) (h2 : Occurs D "sleeping".toList) :
    ∃ out active, activityProbabilities D = .ok (out ++ [("active_occupancy".toList, active)]) ∧ (out.map (·.1)).Nodup ∧ (∀ a, a ∈ out.map (·.1) ↔ Occurs D a) ∧
      (∀ a share, (a, share) ∈ out → share.length = D.nT ∧ ∀ t, t < D.nT → share.getD t 0 = ((List.range D.nP).countP fun p => decide (D.at' p t = a) : Rat) / (D.nP : Rat)) ∧
      active.length = D.nT ∧
      (∀ t, t < D.nT → active.getD t 0 = ((List.range D.nP).countP fun p => decide (D.at' p t ≠ "away".toList ∧ D.at' p t ≠ "sleeping".toList) : Rat) / (D.nP : Rat)) ∧
      ∀ t, t < D.nT → (out.map fun q => q.2.getD t 0).sum = 1 := by
  have hmem : ∀ a, a ∈ npUnique strLt D.flat ↔ Occurs D a := by
    intro a
    rw [mem_npUnique strLt_total, Diaries.mem_flat]
    rfl
  obtain ⟨share, hshare⟩ : ∃ share : Str → List Rat, share = fun s => (List.range D.nT).map fun t => ((D.col t).count s : Rat) / (D.nP : Rat) := ⟨_, rfl⟩
  have hcount : ∀ t a, (D.col t).count a = (List.range D.nP).countP fun p => decide (D.at' p t = a) := by
    intro t a
    unfold Diaries.col
    rw [List.count, List.countP_map]
    refine List.countP_congr fun p _ => ?_
    simp
  have hs : ∀ a t, t < D.nT → (share a).getD t 0 = ((List.range D.nP).countP fun p => decide (D.at' p t = a) : Rat) / (D.nP : Rat) := by
    intro a t ht
    rw [hshare, List.getD_eq_getElem?_getD, List.getElem?_map, List.getElem?_range ht, Option.map_some, Option.getD_some, hcount]
  have hpos : (0 : Rat) < (D.nP : Rat) := by exact_mod_cast hP
  refine ⟨(npUnique strLt D.flat).map (fun s => (s, share s)), (List.range D.nT).map fun t => min (max (1 - (share "away".toList).getD t 0 - (share "sleeping".toList).getD t 0) 0) 1, ?_, ?_, ?_, ?_, ?_, ?_, ?_⟩
  · unfold activityProbabilities
    rw [← hshare]
    simp only
    rw [if_neg]
    rw [hmem, hmem]
    tauto
  · rw [List.map_map]
    change ((npUnique strLt D.flat).map fun s => s).Nodup
    rw [List.map_id']
    exact npUnique_nodup strLt_total _
  · intro a
    rw [List.map_map]
    change a ∈ (npUnique strLt D.flat).map (fun s => s) ↔ _
    rw [List.map_id', hmem]
  · intro a s hm
    obtain ⟨x, hx, e⟩ := List.mem_map.1 hm
    obtain ⟨rfl, rfl⟩ := Prod.mk.inj e
    refine ⟨by rw [hshare]; simp, hs x⟩
  · simp
  · intro t ht
    rw [List.getD_eq_getElem?_getD, List.getElem?_map, List.getElem?_range ht, Option.map_some, Option.getD_some, hs _ t ht, hs _ t ht]
    have hsum := two_shares (fun p => D.at' p t) "away".toList "sleeping".toList (by decide) D.nP
    generalize (List.range D.nP).countP (fun p => decide (D.at' p t = "away".toList)) = x at hsum
    generalize (List.range D.nP).countP (fun p => decide (D.at' p t = "sleeping".toList)) = y at hsum
    generalize (List.range D.nP).countP (fun p => decide (D.at' p t ≠ "away".toList ∧ D.at' p t ≠ "sleeping".toList)) = z at hsum
    have e : (1 : Rat) - x / D.nP - y / D.nP = z / D.nP := by
      rw [eq_div_iff hpos.ne', sub_mul, sub_mul, div_mul_cancel₀ _ hpos.ne', div_mul_cancel₀ _ hpos.ne', ← hsum]
      push_cast
      ring
    rw [e, max_eq_left (by positivity), min_eq_left]
    rw [div_le_one hpos, ← hsum]
    push_cast
    have : (0 : Rat) ≤ x := by positivity
    have : (0 : Rat) ≤ y := by positivity
    linarith
  · intro t ht
    rw [List.map_map]
    have hsum : ∀ (keys : List Str), keys.Nodup → ∀ n, (∀ p, p < n → D.at' p t ∈ keys) → (keys.map fun a => (List.range n).countP fun p => decide (D.at' p t = a)).sum = n := by
      intro keys nd n
      induction n with
      | zero => intro _; simp
      | succ n ih =>
        intro hk
        rw [show (keys.map fun a => (List.range (n + 1)).countP fun p => decide (D.at' p t = a)) = keys.map fun a => ((fun a => (List.range n).countP fun p => decide (D.at' p t = a)) a + (fun a => if a = D.at' n t then 1 else 0) a) from
          List.map_congr_left fun a _ => by
            rw [List.range_succ, List.countP_append, List.countP_singleton]
            congr 1
            by_cases h : D.at' n t = a
            · simp [h]
            · simp [h, Ne.symm h], List.sum_map_add, ih fun p hp => hk p (by omega)]
        congr 1
        exact sum_indicator keys nd _ (hk n (by omega))
    have hsum := hsum (npUnique strLt D.flat) (npUnique_nodup strLt_total _) D.nP (fun p hp => (hmem _).2 ⟨p, t, hp, ht, rfl⟩)
    rw [show (npUnique strLt D.flat).map ((fun q : Str × List Rat => q.2.getD t 0) ∘ fun s => (s, share s)) =
        ((npUnique strLt D.flat).map fun a => (List.range D.nP).countP fun p => decide (D.at' p t = a)).map fun (k : Nat) => (k : Rat) / (D.nP : Rat) by
      rw [List.map_map]
      exact List.map_congr_left fun a _ => hs a t ht, sum_map_div_nat, hsum]
    exact div_self hpos.ne'

/-- Without anybody away, or without anybody asleep, the probabilities cannot be parsed. -/
theorem C97_probabilities_rejects (D : Diaries Str) (h : ¬ Occurs D "away".toList ∨ ¬ Occurs D "sleeping".toList) : activityProbabilities D = .error .keyError := by
  have hmem : ∀ a, a ∈ npUnique strLt D.flat ↔ Occurs D a := by
    intro a
    rw [mem_npUnique strLt_total, Diaries.mem_flat]
    rfl
  unfold activityProbabilities
  simp only
  rw [if_pos]
  rw [hmem, hmem]
  exact h

/-- Two persons of one household. -/
def demoDiaries : Diaries Str := ⟨2, 4, fun p t => if p = 0 then "sleeping".toList else ["sleeping".toList, "away".toList, "cooking".toList, "sleeping".toList].getD t []⟩

example : SomeChange demoDiaries ∧ Occurs demoDiaries "away".toList ∧ Occurs demoDiaries "sleeping".toList :=
  ⟨⟨1, 1, by decide, by decide, by decide⟩, ⟨1, 1, by decide, by decide, by decide⟩, ⟨0, 0, by decide, by decide, by decide⟩⟩

/-! ## Daily starts -/

theorem starts_count (D : Diaries Str) (hh day : List Nat) (hl1 : hh.length = D.nP) (hl2 : day.length = D.nP) (hday : ∀ d ∈ day, d < 4) (counted : Str → Bool) (h d : Nat) (hd : d < 4) :
    ((((changes D false false).map fun r => (r.2.1, r.2.2.2)).filter fun q => counted q.2).map fun q => ((hh.zip day).map fun q => q.1 * 4 + q.2).getD q.1 0).count (h * 4 + d) = startsOf D counted (members D.nP hh day h d) := by
  unfold startsOf changes
  rw [List.count, List.countP_map, List.countP_filter, List.countP_map, List.countP_flatMap, List.countP_flatMap]
  congr 1
  refine List.map_congr_left fun t _ => ?_
  simp only [Function.comp]
  rw [List.countP_map, List.countP_map, List.countP_filter]
  unfold members
  rw [List.countP_filter]
  refine List.countP_congr fun p hp => ?_
  rw [List.mem_range] at hp
  have hg1 : hh[p]? = some (hh[p]'(by omega)) := List.getElem?_eq_getElem _
  have hg2 : day[p]? = some (day[p]'(by omega)) := List.getElem?_eq_getElem _
  have hz : ((hh.zip day).map fun q => q.1 * 4 + q.2).getD p 0 = (hh[p]'(by omega)) * 4 + day[p]'(by omega) := by
    rw [List.getD_eq_getElem?_getD, List.getElem?_map, List.getElem?_zip_eq_some (z := (hh[p]'(by omega), day[p]'(by omega))) |>.2 ⟨hg1, hg2⟩]
    rfl
  have hdp := hday _ (List.getElem_mem (l := day) (n := p) (by omega))
  simp only [Function.comp, Bool.false_or, Bool.and_eq_true, decide_eq_true_eq, beq_iff_eq]
  rw [hz, hg1, hg2]
  simp only [Option.some.injEq]
  constructor
  · rintro ⟨⟨e, hc⟩, hne⟩
    exact ⟨⟨hne, hc⟩, by omega, by omega⟩
  · rintro ⟨⟨hne, hc⟩, e1, e2⟩
    exact ⟨⟨by omega, hc⟩, hne⟩

theorem dailyStarts_spec (D : Diaries Str) (hh day : List Nat) (hl1 : hh.length = D.nP) (hl2 : day.length = D.nP) (hday : ∀ d ∈ day, d < 4) (counted : Str → Bool) (tr : Transitions Str)
    (htr : statesToTransitions D false false = .ok tr) (keys : List (Nat × Nat)) (nd : keys.Nodup) (hk : ∀ d h, (d, h) ∈ keys ↔ members D.nP hh day h d ≠ []) (i : Nat) (hi : 0 < i) :
    (dailyStarts ((hh.zip day).map fun q => q.1 * 4 + q.2) D.nP tr counted).getD i 0 = (keys.countP fun q => decide (startsOf D counted (members D.nP hh day q.2 q.1) = i) : Rat) / (D.nP : Rat) := by
  have hT : D.nT ≠ 0 := by
    intro h0
    unfold statesToTransitions at htr
    rw [if_pos h0] at htr
    cases htr
  rw [statesToTransitions_eq D false false hT] at htr
  have htr := Except.ok.inj htr
  unfold dailyStarts
  rw [← htr]
  simp only
  rw [show ((changes D false false).map (fun x => x.2.1)).zip ((changes D false false).map fun x => x.2.2.2) = (changes D false false).map fun r => (r.2.1, r.2.2.2) from List.zip_map']
  rw [getD_map_div, bincount_getD]
  congr 2
  obtain ⟨sel, hsel⟩ : ∃ sel : List Nat, sel = (((changes D false false).map fun r => (r.2.1, r.2.2.2)).filter fun q => counted q.2).map fun q => ((hh.zip day).map fun q => q.1 * 4 + q.2).getD q.1 0 := ⟨_, rfl⟩
  rw [← hsel]
  have hcount : ∀ h d, d < 4 → sel.count (h * 4 + d) = startsOf D counted (members D.nP hh day h d) := by
    intro h d hd
    rw [hsel]
    exact starts_count D hh day hl1 hl2 hday counted h d hd
  have hdk : ∀ q ∈ keys, q.1 < 4 := by
    rintro ⟨d, h⟩ hq
    obtain ⟨p, hp⟩ := List.exists_mem_of_ne_nil _ ((hk d h).1 hq)
    exact hday d (List.mem_of_getElem? ((mem_members _ _ _ _ _ _).1 hp).2.2)
  have hperm : ((List.range (bincount sel 0).length).filter fun x => decide (sel.count x = i)).Perm ((keys.filter fun q => decide (startsOf D counted (members D.nP hh day q.2 q.1) = i)).map fun q => q.2 * 4 + q.1) := by
    rw [List.perm_ext_iff_of_nodup (List.nodup_range.filter _)]
    · intro x
      rw [List.mem_filter, List.mem_map, List.mem_range]
      simp only [decide_eq_true_eq]
      constructor
      · rintro ⟨hx, hc⟩
        have hx4 : x = x / 4 * 4 + x % 4 := by omega
        have hs := hcount (x / 4) (x % 4) (by omega)
        rw [← hx4, hc] at hs
        refine ⟨(x % 4, x / 4), List.mem_filter.2 ⟨(hk _ _).2 ?_, by simpa using hs.symm⟩, by simp only; omega⟩
        intro hnil
        rw [hnil] at hs
        unfold startsOf at hs
        rw [show ((List.range D.nT).flatMap fun t => ([] : List Nat).map fun p => (t, p)) = [] from List.flatMap_eq_nil_iff.2 fun _ _ => rfl, List.countP_nil] at hs
        omega
      · rintro ⟨q, hq, rfl⟩
        rw [List.mem_filter] at hq
        have hs := hcount q.2 q.1 (hdk q hq.1)
        have hqi : startsOf D counted (members D.nP hh day q.2 q.1) = i := by simpa using hq.2
        refine ⟨?_, by rw [hs, hqi]⟩
        have : q.2 * 4 + q.1 ∈ sel := List.count_pos_iff.1 (by omega)
        have := lt_bound _ _ this
        unfold bincount
        rw [List.length_map, List.length_range]
        omega
    · refine List.Nodup.map_on ?_ (nd.filter _)
      intro a ha b hb e
      have h1 := hdk a (List.mem_filter.1 ha).1
      have h2 := hdk b (List.mem_filter.1 hb).1
      exact Prod.ext (by omega) (by omega)
  have h1 := hperm.length_eq
  rw [List.length_map, ← List.countP_eq_length_filter, ← List.countP_eq_length_filter] at h1
  rw [← h1]
  rw [List.count, show bincount sel 0 = (List.range (bincount sel 0).length).map fun x => sel.count x by
    conv => lhs; unfold bincount
    congr 1
    unfold bincount
    rw [List.length_map, List.length_range], List.countP_map]
  rw [List.length_map, List.length_range]
  refine List.countP_congr fun x _ => ?_
  simp

/-- For `i > 0` entry `i` of the daily starts of an activity is the number of recorded households and days in which the members start it `i` times, over the number of diaries; for active occupancy the starts of
sleeping and of absences are counted. -/
theorem C97_starts_partial (D : Diaries Str) (hT : 0 < D.nT) (hh day : List Nat) (hl1 : hh.length = D.nP) (hl2 : day.length = D.nP) (hday : ∀ d ∈ day, d < 4)
    (keys : List (Nat × Nat)) (nd : keys.Nodup) (hk : ∀ d h, (d, h) ∈ keys ↔ members D.nP hh day h d ≠ []) :
    ∃ out active, dailyActivityStarts D hh day = .ok (out ++ [("active_occupancy".toList, active)]) ∧
      (∀ a, a ∈ out.map (·.1) ↔ ∃ p t, p < D.nP ∧ t < D.nT ∧ D.before false p t ≠ D.at' p t ∧ D.at' p t = a) ∧
      (∀ a prob, (a, prob) ∈ out → ∀ i, 0 < i → prob.getD i 0 = (keys.countP fun q => decide (startsOf D (fun s => decide (s = a)) (members D.nP hh day q.2 q.1) = i) : Rat) / (D.nP : Rat)) ∧
      ∀ i, 0 < i → active.getD i 0 = (keys.countP fun q => decide (startsOf D (fun s => decide (s = "sleeping".toList) || decide (s = "away".toList)) (members D.nP hh day q.2 q.1) = i) : Rat) / (D.nP : Rat) := by
  have htr := statesToTransitions_eq D false false (by omega)
  refine ⟨_, _, by unfold dailyActivityStarts; rw [htr]; rfl, ?_, ?_, ?_⟩
  · intro a
    rw [List.map_map]
    change a ∈ (npUnique strLt _).map (fun s => s) ↔ _
    rw [List.map_id', mem_npUnique strLt_total]
    simp only
    rw [List.mem_map]
    unfold changes
    constructor
    · rintro ⟨r, hr, rfl⟩
      rw [List.mem_flatMap] at hr
      obtain ⟨t, ht, hr⟩ := hr
      obtain ⟨p, hp, rfl⟩ := List.mem_map.1 hr
      have hp := List.mem_filter.1 hp
      exact ⟨p, t, List.mem_range.1 hp.1, List.mem_range.1 ht, by simpa using hp.2, rfl⟩
    · rintro ⟨p, t, hp, ht, hne, rfl⟩
      exact ⟨(t, p, _, _), List.mem_flatMap.2 ⟨t, List.mem_range.2 ht, List.mem_map.2 ⟨p, List.mem_filter.2 ⟨List.mem_range.2 hp, by simpa using hne⟩, rfl⟩⟩, rfl⟩
  · intro a prob hm i hi
    obtain ⟨x, -, e⟩ := List.mem_map.1 hm
    obtain ⟨rfl, rfl⟩ := Prod.mk.inj e
    exact dailyStarts_spec D hh day hl1 hl2 hday _ _ htr keys nd hk i hi
  · intro i hi
    exact dailyStarts_spec D hh day hl1 hl2 hday _ _ htr keys nd hk i hi

/-- The full statement: the daily starts of an activity are a probability distribution over the recorded households and days. -/
def C97_full : Prop := ∀ (D : Diaries Str) (hh day : List Nat) (out : List (Str × List Rat)), hh.length = D.nP → day.length = D.nP → (∀ d ∈ day, d < 4) → dailyActivityStarts D hh day = .ok out →
  ∀ a prob, (a, prob) ∈ out → prob.sum = 1

/-- One household, whose number is 1, and one day: five households without starts are counted, and the sum is 3. -/
theorem C97_starts_counterexample : ∃ out, dailyActivityStarts demoDiaries [1, 1] [1, 1] = .ok out ∧ ("cooking".toList, [5 / 2, 1 / 2]) ∈ out ∧ ("active_occupancy".toList, [5 / 2, 0, 1 / 2]) ∈ out := by
  obtain ⟨r, e, h⟩ := ok_of_map (f := fun (l : List (Str × List Rat)) => decide (("cooking".toList, [5 / 2, 1 / 2]) ∈ l) && decide (("active_occupancy".toList, [5 / 2, 0, 1 / 2]) ∈ l)) (v := true)
    (show (dailyActivityStarts demoDiaries [1, 1] [1, 1]).map _ = _ by decide +kernel)
  simp only [Bool.and_eq_true, decide_eq_true_eq] at h
  exact ⟨r, e, h⟩

theorem C97_full_fails : ¬ C97_full := by
  intro h
  obtain ⟨out, e, hm, -⟩ := C97_starts_counterexample
  have := h _ _ _ out rfl rfl (by decide) e _ _ hm
  exact absurd this (by decide +kernel)

end Demod
