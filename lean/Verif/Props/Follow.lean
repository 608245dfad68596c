import Verif.Lemmas.Follow

/-! # C89, C90: appliances that follow other appliances and activities -/

namespace Demod

open ProbSim

/-! ## C89 -/

/-- With one appliance that follows a type `T` (and no activity) and that is off: it starts in a household, for the duration drawn, when an appliance of type `T` of that household reaches its end and the draw is below its probability;
it stays off when no appliance of type `T` ends there, or when the draws are not below its probability. Its own activity has no effect, except to switch it off. -/
theorem C89_follow_partial (m : ProbSim) (s s' : FollowState) (i : FollowInput) (hs : m.step s i = .ok s') (hc : s.cache = none) (ht : m.hasType = true)
    (f h : Nat) (x : AppInfo) (T : Str) (hh : h < m.households) (hx : m.apps[f]? = some x) (honly : OnlyFollower m.apps f T) (hact : x.previousActivity = none) (hoff : s.left h f ≤ 1) :
    ((∃ b y, m.apps[b]? = some y ∧ y.type = T ∧ s.Ends h b) → (∀ j, i.uType j < m.prob h f) → (m.switchOff f = true → ¬ StopsIn s.previous i.activities x.activity h) → (i.activities.map (·.1)).Nodup →
      s'.left h f = i.duration h f) ∧
    ((¬ ∃ b y, m.apps[b]? = some y ∧ y.type = T ∧ s.Ends h b) → s'.left h f ≤ 0) ∧
    ((∀ j, m.prob h f ≤ i.uType j) → s'.left h f ≤ 0) := by
  have hf : f < m.apps.length := (List.getElem?_eq_some_iff.mp hx).1
  have hT : x.previousType = some T := (honly f x hx).1 rfl
  have hd : m.dictated f = true := by
    unfold dictated
    rw [ht, hx]
    simp [hT]
  obtain ⟨-, -, left0, c0, hloop, hcase⟩ := step_ok m s s' i hs
  rcases hcase with ⟨-, cands, hcands, hl0, -⟩ | ⟨hn, -⟩
  swap
  · rw [ht] at hn; cases hn
  rw [startAfter_one m f (followers_only m f T hf honly)] at hcands
  have hcands := Except.ok.inj hcands
  have hdec : (fun h a => if s.left h a > 0 then s.left h a - 1 else s.left h a) h f ≤ 0 := by
    dsimp only
    split_ifs with hp
    · linarith
    · exact not_lt.mp hp
  have hused : (s.cache.getD (m.usage fun h a => if s.left h a > 0 then s.left h a - 1 else s.left h a)) h f = false := by
    rw [hc, Option.getD_none]
    unfold usage
    rw [decide_eq_false (not_lt.mpr hdec)]
    rfl
  have hmem := mem_cands m f h T x hx hT s.left hh
  have hnone : ∀ p ∈ i.activities, x.previousActivity ≠ some p.1 := fun p _ => by rw [hact]; simp
  obtain ⟨d1, d2⟩ := actLoop_dictated m s.previous i h f x hx hd i.activities left0 c0 s'.left hloop hnone
  have hval : left0 h f = if ((List.range cands.length).any fun j => decide (cands[j]? = some (h, f)) && decide (i.uType j < m.prob h f)) = true then i.duration h f
      else (fun h a => if s.left h a > 0 then s.left h a - 1 else s.left h a) h f := by
    rw [hl0]
    unfold startWhere
    simp only [hused, hh, hf, decide_true, Bool.true_and, Bool.not_false, Bool.and_true]
  refine ⟨fun hex hu hstop hnd => ?_, fun hno => ?_, fun hu => ?_⟩
  · rw [d2]
    · rw [hval, if_pos]
      have := hmem.mpr hex
      rw [hcands] at this
      obtain ⟨j, hj⟩ := List.getElem?_of_mem this
      rw [List.any_eq_true]
      exact ⟨j, by simpa using (List.getElem?_eq_some_iff.mp hj).1, by simp [hj, hu j]⟩
    · intro p hp e hsw q hq
      by_contra hcon
      push Not at hcon
      refine hstop hsw ⟨q, p.2, ?_, ?_, ?_, hcon.2⟩
      · rw [e, lookup_eq]; exact hq
      · rw [e]
        obtain ⟨k, n⟩ := p
        have : ∀ l : List (Str × (Nat → Nat)), (l.map (·.1)).Nodup → (k, n) ∈ l → l.lookup k = some n := by
          intro l
          induction l with
          | nil => intro _ h; cases h
          | cons c l ih =>
            obtain ⟨k', n'⟩ := c
            intro hnd hm
            rw [List.map_cons, List.nodup_cons] at hnd
            rcases List.mem_cons.mp hm with e | hm
            · cases e; simp [List.lookup]
            · have hne : k ≠ k' := fun e => hnd.1 (by rw [← e]; exact List.mem_map.mpr ⟨(k, n), hm, rfl⟩)
              rw [List.lookup_cons, beq_eq_false_iff_ne.mpr hne]
              exact ih hnd.2 hm
        exact this _ hnd hp
      · have h1 := hcon.1
        have h2 := hcon.2
        omega
  · have : left0 h f ≤ 0 := by
      rw [hval, if_neg]
      · exact hdec
      · intro hany
        rw [List.any_eq_true] at hany
        obtain ⟨j, -, hj⟩ := hany
        rw [Bool.and_eq_true, decide_eq_true_eq] at hj
        refine hno (hmem.mp ?_)
        rw [hcands]
        exact List.mem_of_getElem? hj.1
    rcases d1 with e | e <;> rw [e]
    exact this
  · have : left0 h f ≤ 0 := by
      rw [hval, if_neg]
      · exact hdec
      · intro hany
        rw [List.any_eq_true] at hany
        obtain ⟨j, -, hj⟩ := hany
        rw [Bool.and_eq_true, decide_eq_true_eq, decide_eq_true_eq] at hj
        exact absurd hj.2 (not_lt.mpr (hu j))
    rcases d1 with e | e <;> rw [e]
    exact this

/-- A washing machine and a tumble dryer that follows it. -/
def demoFollow : ProbSim :=
  { households := 2
    apps := demoFollowApps
    owned := fun _ _ => true
    prob := fun _ _ => 1 / 2
    switchOff := fun _ => false
    hasType := true
    hasActivity := true }
where
  demoFollowApps : List AppInfo :=
    [ { name := "washer".toList, type := "washing_machine".toList, activity := "laundry".toList, equippedProb := 1, probabilistic := true, meanDuration := 6, switchOnProb := 1 / 2, targetSwitchons := 200,
        previousActivity := none, previousType := none },
      { name := "dryer".toList, type := "tumble_dryer".toList, activity := "laundry".toList, equippedProb := 1, probabilistic := true, meanDuration := 6, switchOnProb := 1 / 2, targetSwitchons := 50,
        previousActivity := none, previousType := some "washing_machine".toList } ]

/-- The washing machine of the second household is about to end. -/
def demoFollowState : FollowState := { left := fun h a => if h = 1 ∧ a = 0 then 1 else 0, previous := [("laundry".toList, fun _ => 0)], cache := none }

/-- Nobody does the laundry. -/
def demoFollowInput : FollowInput :=
  { activities := [("laundry".toList, fun _ => 0)], uType := fun _ => 1 / 4, uEnd := fun _ _ _ => 0, uAct := fun _ _ _ => 0, duration := fun _ _ => 5 }

example : (demoFollow.step demoFollowState demoFollowInput).map (fun s => (List.range 2).map fun h => (List.range 2).map fun a => s.left h a) = .ok [[0, 0], [0, 5]] := by decide +kernel

example : OnlyFollower demoFollow.apps 1 "washing_machine".toList ∧ demoFollowState.Ends 1 0 := by
  constructor
  · intro a x hx
    match a with
    | 0 => cases hx; exact ⟨fun e => absurd e (by decide), fun _ => rfl⟩
    | 1 => cases hx; exact ⟨fun _ => rfl, fun e => absurd rfl e⟩
    | n + 2 => cases hx
  · unfold FollowState.Ends demoFollowState
    simp

/-- The full claim: with any number of appliances that follow others, those whose predecessor ends are started (with probability 1) and the step succeeds. -/
def C89_full : Prop :=
  ∀ (m : ProbSim) (s : FollowState) (i : FollowInput), s.cache = none → m.hasType = true → (∀ p ∈ i.activities, (s.previous.lookup p.1).isSome) → ∃ s', m.step s i = .ok s' ∧
    ∀ (f h : Nat) x T b y, h < m.households → m.apps[f]? = some x → x.previousType = some T → s.left h f ≤ 1 → m.apps[b]? = some y → y.type = T → s.Ends h b → (∀ j, i.uType j < m.prob h f) →
      m.switchOff f = false → x.previousActivity = none → s'.left h f = i.duration h f

/-- With no or several followers, a step that ends a number of uses different from the number of followers fails (one use is enough without followers); with several followers so does the first step, in which nothing ends. -/
theorem C89_error (m : ProbSim) (s : FollowState) (i : FollowInput) (ht : m.hasType = true) (hF : m.followers.length ≠ 1) (hS : (m.stopping s.left).length ≠ m.followers.length) :
    ∃ e, m.step s i = .error e := by
  have hmask : ∃ e, m.startAfter (m.stopping s.left) = .error e := by
    unfold startAfter
    by_cases h1 : (m.stopping s.left).length = 1
    · obtain ⟨st, hst⟩ := List.length_eq_one_iff.mp h1
      rw [hst]
      rw [if_neg (by simp)]
      dsimp only
      split_ifs with h2 h3 h4
      · exact ⟨_, rfl⟩
      · exact ⟨_, rfl⟩
      · exact ⟨_, rfl⟩
      · exfalso
        apply h3
        match hm : m.followers with
        | [] => simp
        | [f] => rw [hm] at hF; exact absurd rfl hF
        | f :: g :: r => simp
    · rw [if_pos ⟨fun e => hS e.symm, hF, h1⟩]
      exact ⟨_, rfl⟩
  obtain ⟨e, he⟩ := hmask
  refine ⟨e, ?_⟩
  unfold step
  rw [ht]
  simp only [if_true]
  rw [he]
  rfl

/-- An iron that also follows the washing machine. -/
def demoFollowIron : AppInfo :=
  { name := "iron".toList, type := "iron".toList, activity := "ironing".toList, equippedProb := 1, probabilistic := true, meanDuration := 3, switchOnProb := 1 / 2, targetSwitchons := 50,
    previousActivity := none, previousType := some "washing_machine".toList }

/-- The same with the iron. -/
def demoFollow2 : ProbSim := { demoFollow with apps := demoFollow.apps ++ [demoFollowIron] }

example : demoFollow2.followers.length ≠ 1 ∧ (demoFollow2.stopping demoFollowState.left).length ≠ demoFollow2.followers.length := by decide +kernel

theorem C89_full_fails : ¬ C89_full := by
  intro h
  obtain ⟨s', hs, -⟩ := h demoFollow2 demoFollowState demoFollowInput rfl rfl (by decide)
  obtain ⟨e, he⟩ := C89_error demoFollow2 demoFollowState demoFollowInput rfl (by decide +kernel) (by decide +kernel)
  rw [he] at hs
  cases hs

/-- Households that do not own the predecessor run it all the same, unseen: the dryer starts after a washing machine that the household does not have. -/
theorem C89_unowned_counterexample : ∃ m : ProbSim, ∃ s : FollowState, ∃ i : FollowInput, m.usage s.left 1 1 = false ∧ (m.step s i).map (fun s' => m.usage s'.left 1 1) = .ok true ∧
    (m.apps[1]?).bind (·.previousType) = some "washing_machine".toList ∧ ∀ (b : Nat) y, m.apps[b]? = some y → y.type = "washing_machine".toList → m.owned 1 b = false := by
  refine ⟨{ demoFollow with owned := fun _ a => decide (a = 1) }, demoFollowState, demoFollowInput, by decide +kernel, by decide +kernel, rfl, ?_⟩
  intro b y hy hyt
  match b with
  | 0 => rfl
  | 1 => cases hy; revert hyt; decide +kernel
  | n + 2 => cases hy

/-! ## C90 -/

/-- An appliance that follows an activity `A` (and no type of appliances) and that is off: it starts when `A` ends in the household and the draw is below its probability; it stays off when `A` does not end there, or when the draw is
not below its probability. This needs an appliance whose own activity is `A`. -/
theorem C90_activity_partial (m : ProbSim) (s s' : FollowState) (i : FollowInput) (hs : m.step s i = .ok s') (hc : s.cache = none) (hta : m.hasActivity = true)
    (f h : Nat) (x : AppInfo) (A : Str) (hh : h < m.households) (hx : m.apps[f]? = some x) (hA : x.previousActivity = some A) (hT : x.previousType = none) (hoff : s.left h f ≤ 1)
    (hnd : (i.activities.map (·.1)).Nodup) :
    (StopsIn s.previous i.activities A h → i.uEnd A h f < m.prob h f → (∃ y ∈ m.apps, y.activity = A) → (x.activity ≠ A → m.switchOff f = true → ¬ StopsIn s.previous i.activities x.activity h) →
      s'.left h f = i.duration h f) ∧
    (¬ StopsIn s.previous i.activities A h → s'.left h f ≤ 0) ∧
    (m.prob h f ≤ i.uEnd A h f → s'.left h f ≤ 0) := by
  have hf : f < m.apps.length := (List.getElem?_eq_some_iff.mp hx).1
  have hd : m.dictated f = true := by
    unfold dictated
    rw [hta, hx]
    simp [hA]
  have lookup_mem : ∀ (l : List (Str × (Nat → Nat))) k n, (l.map (·.1)).Nodup → (k, n) ∈ l → l.lookup k = some n := by
    intro l k n
    induction l with
    | nil => intro _ h; cases h
    | cons c l ih =>
      obtain ⟨k', n'⟩ := c
      intro hnd hm
      rw [List.map_cons, List.nodup_cons] at hnd
      rcases List.mem_cons.mp hm with e | hm
      · cases e; simp [List.lookup]
      · have hne : k ≠ k' := fun e => hnd.1 (by rw [← e]; exact List.mem_map.mpr ⟨(k, n), hm, rfl⟩)
        rw [List.lookup_cons, beq_eq_false_iff_ne.mpr hne]
        exact ih hnd.2 hm
  have hdec : (fun h a => if s.left h a > 0 then s.left h a - 1 else s.left h a) h f ≤ 0 := by
    dsimp only
    split_ifs with hp
    · linarith
    · exact not_lt.mp hp
  have hused : (m.usage fun h a => if s.left h a > 0 then s.left h a - 1 else s.left h a) h f = false := by
    unfold usage
    rw [decide_eq_false (not_lt.mpr hdec)]
    rfl
  obtain ⟨-, -, left0, c0, hloop, hcase⟩ := step_ok m s s' i hs
  -- before the loop the appliance is off
  have hstart : left0 h f ≤ 0 ∧ ∀ v, c0 = some v → v h f = false := by
    rcases hcase with ⟨ht, cands, hcands, hl0, hc0⟩ | ⟨-, hl0, hc0⟩
    · have hnotin : ∀ j : Nat, cands[j]? ≠ some (h, f) := by
        intro j hj
        have hm := List.mem_of_getElem? hj
        have hsub : ∀ p ∈ cands, p.2 ∈ m.followers := by
          unfold startAfter at hcands
          dsimp only at hcands
          split_ifs at hcands
          have hcands := Except.ok.inj hcands
          subst hcands
          intro p hp
          have := (List.of_mem_zip (show (p.1, p.2) ∈ _ from hp)).2
          split at this
          · rename_i g hg
            rw [hg]
            rw [List.eq_of_mem_replicate this]
            exact List.mem_singleton.mpr rfl
          · exact this
        have := hsub _ hm
        unfold followers at this
        rw [List.mem_filter, hx] at this
        simp [hT] at this
      refine ⟨?_, ?_⟩
      · rw [hl0]
        unfold startWhere
        rw [if_neg]
        · exact hdec
        · rw [Bool.and_eq_true]
          rintro ⟨-, hany⟩
          rw [List.any_eq_true] at hany
          obtain ⟨j, -, hj⟩ := hany
          rw [Bool.and_eq_true, Bool.and_eq_true, decide_eq_true_eq] at hj
          exact hnotin j hj.1.1
      · intro v hv
        rw [hc0] at hv
        rw [← Option.some.inj hv, hc, Option.getD_none]
        exact hused
    · rw [hl0, hc0, hc]
      exact ⟨hdec, fun v hv => by cases hv⟩
  by_cases hin : ∃ n, (A, n) ∈ i.activities
  · obtain ⟨n, hn⟩ := hin
    obtain ⟨pre, post, e⟩ := List.append_of_mem hn
    have hAn : i.activities.lookup A = some n := lookup_mem _ _ _ hnd hn
    rw [e] at hloop
    have hndd := hnd
    rw [e, List.map_append, List.map_cons] at hndd
    have hpre : ∀ p ∈ pre, x.previousActivity ≠ some p.1 := by
      intro p hp hcon
      rw [hA] at hcon
      have := Option.some.inj hcon
      exact (List.disjoint_of_nodup_append hndd) (List.mem_map.mpr ⟨p, hp, rfl⟩) (by rw [← this]; exact List.mem_cons_self)
    have hpost : ∀ p ∈ post, x.previousActivity ≠ some p.1 := by
      intro p hp hcon
      rw [hA] at hcon
      have := Option.some.inj hcon
      have h2 := (List.nodup_append.mp hndd).2.1
      exact (List.nodup_cons.mp h2).1 (by rw [this]; exact List.mem_map.mpr ⟨p, hp, rfl⟩)
    obtain ⟨l, c, hrest, hl, hcv⟩ := actLoop_split m s.previous i h f x hx hd pre ((A, n) :: post) left0 c0 s'.left hloop hpre hstart.1 hstart.2
    unfold actLoop at hrest
    cases hr : m.actRound s.previous i A n l c with
    | error e => rw [hr] at hrest; cases hrest
    | ok r =>
      obtain ⟨l1, c1⟩ := r
      rw [hr] at hrest
      have hrest : m.actLoop s.previous i post l1 c1 = .ok s'.left := hrest
      obtain ⟨d1, d2⟩ := actLoop_dictated m s.previous i h f x hx hd post l1 c1 s'.left hrest hpost
      -- the round of the activity
      have hround : (¬ (∃ y ∈ m.apps, y.activity = A) → l1 h f ≤ 0) ∧ ((∃ y ∈ m.apps, y.activity = A) → ∃ prev, lookupA s.previous A = some prev ∧
          ((prev h ≠ n h ∧ n h = 0) ∧ i.uEnd A h f < m.prob h f → l1 h f = i.duration h f) ∧ (¬ ((prev h ≠ n h ∧ n h = 0) ∧ i.uEnd A h f < m.prob h f) → l1 h f ≤ 0)) := by
        unfold actRound at hr
        constructor
        · intro hex
          rw [if_pos hex] at hr
          rw [← (Prod.mk.inj (Except.ok.inj hr)).1]
          exact hl
        · intro hex
          rw [if_neg (not_not.mpr hex)] at hr
          cases hlk : lookupA s.previous A with
          | none => rw [hlk] at hr; cases hr
          | some prev =>
            rw [hlk] at hr
            have hl1 := (Prod.mk.inj (Except.ok.inj hr)).1
            have hu : (c.getD (m.usage fun h a => if ((decide (prev h ≠ n h) && decide (n h = 0)) && m.hasAct a A && m.switchOff a) = true then 0 else l h a)) h f = false := by
              cases c with
              | some v => exact hcv v rfl
              | none =>
                rw [Option.getD_none]
                unfold usage
                rw [Bool.and_eq_false_iff]
                left
                refine decide_eq_false (not_lt.mpr ?_)
                beta_reduce
                split_ifs
                · exact le_refl _
                · exact hl
            refine ⟨prev, rfl, ?_⟩
            have hbound : (if ((decide (prev h ≠ n h) && decide (n h = 0)) && m.hasAct f A && m.switchOff f) = true then 0 else l h f) ≤ 0 := by
              split_ifs
              · exact le_refl _
              · exact hl
            rw [← hl1]
            unfold startWhere
            simp only [hd, hta, hu, hh, hf, hx, hA, decide_true, Bool.true_and, Bool.not_true, Bool.not_false, Bool.and_true, Bool.and_false, Bool.false_and, Bool.false_eq_true, if_false, if_true, Option.bind_some]
            refine ⟨fun hcon => ?_, fun hcon => ?_⟩
            · rw [if_pos]
              simp [hcon.1.2, hcon.2]
              have := hcon.1.1; have := hcon.1.2; omega
            · rw [if_neg]
              · exact hbound
              · intro hc
                simp only [Bool.and_eq_true, decide_eq_true_eq] at hc
                exact hcon ⟨⟨hc.1.1, hc.1.2⟩, hc.2⟩
      refine ⟨fun hstop hu hex hown => ?_, fun hstop => ?_, fun hu => ?_⟩
      · obtain ⟨prev, hprev, hyes, -⟩ := hround.2 hex
        obtain ⟨p', n', hp', hn', hpos, hz⟩ := hstop
        rw [lookup_eq, hprev] at hp'
        rw [hAn] at hn'
        cases hp'; cases hn'
        rw [d2, hyes ⟨⟨by omega, hz⟩, hu⟩]
        intro p hp e1 hsw q hq
        by_contra hcon
        push Not at hcon
        have hpA : p.1 ≠ A := by
          intro e2
          exact hpost p hp (by rw [hA, e2])
        refine hown (by rw [e1]; exact hpA) hsw ⟨q, p.2, by rw [e1, lookup_eq]; exact hq, ?_, by omega, hcon.2⟩
        rw [e1]
        exact lookup_mem _ _ _ hnd (by rw [e]; exact List.mem_append_right _ (List.mem_cons_of_mem _ hp))
      · have : l1 h f ≤ 0 := by
          by_cases hex : ∃ y ∈ m.apps, y.activity = A
          · obtain ⟨prev, hprev, -, hno⟩ := hround.2 hex
            refine hno ?_
            rintro ⟨⟨h1, h2⟩, -⟩
            exact hstop ⟨prev, n, by rw [lookup_eq]; exact hprev, hAn, by omega, h2⟩
          · exact hround.1 hex
        rcases d1 with e | e <;> rw [e]
        exact this
      · have : l1 h f ≤ 0 := by
          by_cases hex : ∃ y ∈ m.apps, y.activity = A
          · obtain ⟨prev, hprev, -, hno⟩ := hround.2 hex
            refine hno ?_
            rintro ⟨-, h2⟩
            exact absurd h2 (not_lt.mpr hu)
          · exact hround.1 hex
        rcases d1 with e | e <;> rw [e]
        exact this
  · have hnone : ∀ p ∈ i.activities, x.previousActivity ≠ some p.1 := by
      intro p hp hcon
      rw [hA] at hcon
      exact hin ⟨p.2, by rw [Option.some.inj hcon]; exact hp⟩
    have hz : s'.left h f ≤ 0 := by
      rcases (actLoop_dictated m s.previous i h f x hx hd i.activities left0 c0 s'.left hloop hnone).1 with e | e <;> rw [e]
      exact hstart.1
    refine ⟨fun hstop => ?_, fun _ => hz, fun _ => hz⟩
    obtain ⟨p', n', -, hn', -⟩ := hstop
    exfalso
    refine hin ⟨n', ?_⟩
    have : ∀ (l : List (Str × (Nat → Nat))), l.lookup A = some n' → (A, n') ∈ l := by
      intro l
      induction l with
      | nil => intro h; cases h
      | cons c l ih =>
        obtain ⟨k, v⟩ := c
        intro h
        rw [List.lookup_cons] at h
        by_cases hk : A = k
        · subst hk
          simp at h
          subst h
          exact List.mem_cons_self
        · rw [beq_eq_false_iff_ne.mpr hk] at h
          exact List.mem_cons_of_mem _ (ih h)
    exact this _ hn'

/-- A dishwasher that follows the meal, and a stove used during the meal. -/
def demoDish : ProbSim :=
  { households := 1
    apps := [ { name := "stove".toList, type := "stove".toList, activity := "meal".toList, equippedProb := 1, probabilistic := true, meanDuration := 6, switchOnProb := 1 / 2, targetSwitchons := 200,
                previousActivity := none, previousType := none },
              { name := "dishwasher".toList, type := "dishwasher".toList, activity := "dishes".toList, equippedProb := 1, probabilistic := true, meanDuration := 6, switchOnProb := 1 / 2, targetSwitchons := 50,
                previousActivity := some "meal".toList, previousType := none } ]
    owned := fun _ _ => true
    prob := fun _ _ => 1 / 2
    switchOff := fun _ => true
    hasType := false
    hasActivity := true }

/-- Somebody has been eating. -/
def demoDishState : FollowState := { left := fun _ a => if a = 0 then 3 else 0, previous := [("meal".toList, fun _ => 2), ("dishes".toList, fun _ => 0)], cache := none }

/-- The meal is over. -/
def demoDishInput : FollowInput :=
  { activities := [("meal".toList, fun _ => 0), ("dishes".toList, fun _ => 0)], uType := fun _ => 0, uEnd := fun _ _ _ => 1 / 4, uAct := fun _ _ _ => 0, duration := fun _ _ => 5 }

example : (demoDish.step demoDishState demoDishInput).map (fun s => (List.range 2).map fun a => s.left 0 a) = .ok [0, 5] := by decide +kernel

example : StopsIn demoDishState.previous demoDishInput.activities "meal".toList 0 := ⟨_, _, rfl, rfl, by decide, by decide⟩

/-- The full claim, without the need of an appliance whose own activity is `A`. -/
def C90_full : Prop :=
  ∀ (m : ProbSim) (s s' : FollowState) (i : FollowInput), m.step s i = .ok s' → s.cache = none → m.hasActivity = true →
    ∀ (f h : Nat) x A, h < m.households → m.apps[f]? = some x → x.previousActivity = some A → x.previousType = none → s.left h f ≤ 1 → m.switchOff f = false →
      StopsIn s.previous i.activities A h → i.uEnd A h f < m.prob h f → s'.left h f = i.duration h f

/-- Without the stove the dishwasher never starts. -/
theorem C90_counterexample : ¬ C90_full := by
  intro h
  have := h { demoDish with apps := demoDish.apps.drop 1, switchOff := fun _ => false } { demoDishState with left := fun _ _ => 0 } _ demoDishInput rfl rfl rfl 0 0 _ "meal".toList (by decide) rfl rfl rfl (by decide +kernel) rfl
    ⟨_, _, rfl, rfl, by decide, by decide⟩ (by decide +kernel)
  revert this
  decide +kernel

end Demod
